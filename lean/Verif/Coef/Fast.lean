import Verif.Coef.Nf
/-!
# The normal form, written for the kernel

The same functions as in `Verif.Coef.Nf`, in continuation-passing style with
recursors, so that the kernel evaluates every number before it is used.  Each is
proved equal to the original.
-/

namespace Verif.Coef
variable {α : Type}

/-! ### Numbers -/

noncomputable def fN (c : Nat) (k : Nat → α) : α := @Nat.rec (fun _ => α) (k 0) (fun n _ => k n.succ) c

theorem fN_eq (c : Nat) (k : Nat → α) : fN c k = k c := by cases c <;> rfl

noncomputable def fI (c : Int) (k : Int → α) : α :=
  @Int.rec (fun _ => α) (fun n => fN n fun n => k (.ofNat n)) (fun n => fN n fun n => k (.negSucc n)) c

theorem fI_eq (c : Int) (k : Int → α) : fI c k = k c := by cases c <;> simp [fI, fN_eq]

noncomputable def fB (b : Bool) (t e : α) : α := @Bool.rec (fun _ => α) e t b

theorem fB_eq (b : Bool) (t e : α) : fB b t e = if b then t else e := by cases b <;> rfl

/-- `m - n`. -/
noncomputable def subF (m n : Nat) (k : Int → α) : α :=
  @Nat.rec (fun _ => α) (fN (Nat.sub m n) fun x => k (.ofNat x)) (fun j _ => k (.negSucc j)) (Nat.sub n m)

theorem subF_eq (m n : Nat) (k : Int → α) : subF m n k = k (Int.subNatNat m n) := by
  simp only [subF, Int.subNatNat]
  have e : Nat.sub n m = n - m := rfl
  rw [e]
  cases h : n - m with
  | zero => simp only [fN_eq]; rfl
  | succ j => rfl

noncomputable def addF (a b : Int) (k : Int → α) : α :=
  @Int.rec (fun _ => α)
    (fun x => @Int.rec (fun _ => α) (fun y => fN (Nat.add x y) fun n => k (.ofNat n)) (fun y => subF x (Nat.succ y) k) b)
    (fun x => @Int.rec (fun _ => α) (fun y => subF y (Nat.succ x) k) (fun y => fN (Nat.succ (Nat.add x y)) fun n => k (.negSucc n)) b) a

theorem addF_eq (a b : Int) (k : Int → α) : addF a b k = k (a + b) := by
  cases a <;> cases b <;> simp only [addF, fN_eq, subF_eq] <;> rfl

noncomputable def negF (a : Int) (k : Int → α) : α :=
  @Int.rec (fun _ => α) (fun x => @Nat.rec (fun _ => α) (k (.ofNat 0)) (fun n _ => k (.negSucc n)) x) (fun x => k (.ofNat (Nat.succ x))) a

theorem negF_eq (a : Int) (k : Int → α) : negF a k = k (-a) := by
  cases a with
  | ofNat n => cases n <;> rfl
  | negSucc n => rfl

/-- `-(n)` for a natural number. -/
noncomputable def negNF (n : Nat) (k : Int → α) : α :=
  @Nat.rec (fun _ => α) (k (.ofNat 0)) (fun n _ => k (.negSucc n)) n

theorem negNF_eq (n : Nat) (k : Int → α) : negNF n k = k (-(n : Int)) := by cases n <;> rfl

noncomputable def imulF (a b : Int) (k : Int → α) : α :=
  @Int.rec (fun _ => α)
    (fun x => @Int.rec (fun _ => α) (fun y => fN (Nat.mul x y) fun n => k (.ofNat n)) (fun y => negNF (Nat.mul x (Nat.succ y)) k) b)
    (fun x => @Int.rec (fun _ => α) (fun y => negNF (Nat.mul (Nat.succ x) y) k)
      (fun y => fN (Nat.mul (Nat.succ x) (Nat.succ y)) fun n => k (.ofNat n)) b) a

theorem imulF_eq (a b : Int) (k : Int → α) : imulF a b k = k (a * b) := by
  cases a <;> cases b <;> simp only [imulF, fN_eq, negNF_eq] <;> congr 1

noncomputable def minF (a b : Int) (k : Int → α) : α :=
  @Int.rec (fun _ => α)
    (fun x => @Int.rec (fun _ => α) (fun y => fB (Nat.ble x y) (k a) (k b)) (fun _ => k b) b)
    (fun x => @Int.rec (fun _ => α) (fun _ => k a) (fun y => fB (Nat.ble y x) (k a) (k b)) b) a

theorem minF_eq (a b : Int) (k : Int → α) : minF a b k = k (min a b) := by
  cases a with
  | ofNat x =>
    cases b with
    | ofNat y =>
      simp only [minF, fB_eq]
      by_cases h : x ≤ y
      · rw [if_pos (Nat.ble_eq ▸ h), min_eq_left (by simpa using h)]
      · rw [if_neg (by simpa [Nat.ble_eq] using h), min_eq_right (by simp; omega)]
    | negSucc y =>
      simp only [minF]
      rw [min_eq_right]
      exact le_trans (Int.negSucc_lt_zero y).le (Int.natCast_nonneg x)
  | negSucc x =>
    cases b with
    | ofNat y =>
      simp only [minF]
      rw [min_eq_left]
      exact le_trans (Int.negSucc_lt_zero x).le (Int.natCast_nonneg y)
    | negSucc y =>
      simp only [minF, fB_eq]
      by_cases h : y ≤ x
      · rw [if_pos (Nat.ble_eq ▸ h), min_eq_left]
        rw [Int.negSucc_eq, Int.negSucc_eq]; omega
      · rw [if_neg (by simpa [Nat.ble_eq] using h), min_eq_right]
        rw [Int.negSucc_eq, Int.negSucc_eq]; omega

noncomputable def isZ (a : Int) : Bool := @Int.rec (fun _ => Bool) (fun n => Nat.beq n 0) (fun _ => false) a

theorem isZ_iff (a : Int) : isZ a = true ↔ a = 0 := by
  cases a with
  | ofNat n => simp only [isZ, Nat.beq_eq]; exact ⟨fun h => by rw [h]; rfl, fun h => Int.ofNat.inj h⟩
  | negSucc n => simp only [isZ, Bool.false_eq_true, false_iff]; exact Int.negSucc_ne_zero n

noncomputable def isOneI (a : Int) : Bool := @Int.rec (fun _ => Bool) (fun n => Nat.beq n 1) (fun _ => false) a

theorem isOneI_eq (a : Int) : isOneI a = (a == 1) := by
  rw [Bool.eq_iff_iff, beq_iff_eq]
  cases a with
  | ofNat n => simp only [isOneI, Nat.beq_eq]; exact ⟨fun h => by rw [h]; rfl, fun h => Int.ofNat.inj h⟩
  | negSucc n =>
    simp only [isOneI, Bool.false_eq_true, false_iff]
    intro h; have := Int.negSucc_lt_zero n; omega

noncomputable def isNeg (a : Int) : Bool := @Int.rec (fun _ => Bool) (fun _ => false) (fun _ => true) a

theorem isNeg_eq (a : Int) : isNeg a = decide (a < 0) := by
  cases a with
  | ofNat n => simp [isNeg]
  | negSucc n => simp [isNeg, Int.negSucc_lt_zero]

/-- `k` divides `a`. -/
noncomputable def dvdF (k : Nat) (a : Int) : Bool :=
  @Int.rec (fun _ => Bool) (fun n => Nat.beq (Nat.mod n k) 0) (fun n => Nat.beq (Nat.mod (Nat.succ n) k) 0) a

theorem dvdF_iff (k : Nat) (a : Int) : dvdF k a = true ↔ a % (k : Int) = 0 := by
  rw [← Int.dvd_iff_emod_eq_zero]
  cases a with
  | ofNat n =>
    simp only [dvdF, Nat.beq_eq]
    rw [show Nat.mod n k = n % k from rfl, ← Nat.dvd_iff_mod_eq_zero]
    simp [Int.natCast_dvd_natCast]
  | negSucc n =>
    simp only [dvdF, Nat.beq_eq]
    rw [show Nat.mod (Nat.succ n) k = (n + 1) % k from rfl, ← Nat.dvd_iff_mod_eq_zero]
    rw [Int.negSucc_eq, Int.dvd_neg]
    exact_mod_cast Iff.rfl

noncomputable def absF (a : Int) (k : Nat → α) : α := @Int.rec (fun _ => α) (fun n => k n) (fun n => k n.succ) a

theorem absF_eq (a : Int) (k : Nat → α) : absF a k = k a.natAbs := by cases a <;> rfl

/-- `a / g` -/
noncomputable def idivF (a : Int) (g : Nat) (k : Int → α) : α :=
  @Int.rec (fun _ => α) (fun n => fN (Nat.div n g) fun x => k (.ofNat x))
    (fun n => @Nat.rec (fun _ => α) (k (.ofNat 0)) (fun _ _ => fN (Nat.div n g) fun x => k (.negSucc x)) g) a

theorem idivF_eq (a : Int) (g : Nat) (k : Int → α) : idivF a g k = k (a / (g : Int)) := by
  cases a with
  | ofNat n => simp only [idivF, fN_eq]; rfl
  | negSucc n =>
    cases g with
    | zero => simp [idivF]
    | succ g => simp only [idivF, fN_eq]; rfl

/-! ### Polynomials -/

noncomputable def c1F (a : Int) (p : P1) (k : P1 → α) : α :=
  @List.rec Int (fun _ => α) (fB (isZ a) (k []) (k [a])) (fun b p _ => k (a :: b :: p)) p

theorem c1F_eq (a : Int) (p : P1) (k : P1 → α) : c1F a p k = k (c1 a p) := by
  cases p with
  | nil =>
    simp only [c1F, c1, fB_eq]
    by_cases h : a = 0
    · rw [if_pos h, if_pos ((isZ_iff a).2 h)]
    · rw [if_neg h, if_neg (fun h' => h ((isZ_iff a).1 h'))]
  | cons b p => rfl

noncomputable def c2F (a : P1) (p : P2) (k : P2 → α) : α :=
  @List.rec P1 (fun _ => α) (@List.rec Int (fun _ => α) (k []) (fun x y _ => k [x :: y]) a) (fun b p _ => k (a :: b :: p)) p

theorem c2F_eq (a : P1) (p : P2) (k : P2 → α) : c2F a p k = k (c2 a p) := by
  cases p with
  | nil => cases a <;> rfl
  | cons b p => rfl

noncomputable def add1F (a : P1) : P1 → (P1 → α) → α :=
  @List.rec Int (fun _ => P1 → (P1 → α) → α) (fun b k => k b)
    (fun x a ih b k => @List.rec Int (fun _ => α) (k (x :: a)) (fun y b _ => addF x y fun z => ih b fun r => c1F z r k) b) a

theorem add1F_eq (a b : P1) (k : P1 → α) : add1F a b k = k (add1 a b) := by
  induction a generalizing b k with
  | nil => rfl
  | cons x a ih =>
    cases b with
    | nil => rfl
    | cons y b =>
      show addF x y (fun z => add1F a b fun r => c1F z r k) = _
      rw [addF_eq, ih, c1F_eq]; rfl

noncomputable def scale1F (c : Int) (a : P1) : (P1 → α) → α :=
  @List.rec Int (fun _ => (P1 → α) → α) (fun k => k []) (fun x _ ih k => imulF c x fun y => ih fun r => k (y :: r)) a

theorem scale1F_eq (c : Int) (a : P1) (k : P1 → α) : scale1F c a k = k (scale1 c a) := by
  induction a generalizing k with
  | nil => rfl
  | cons x a ih =>
    show imulF c x (fun y => scale1F c a fun r => k (y :: r)) = _
    rw [imulF_eq, ih]; rfl

noncomputable def mul1F (a b : P1) : (P1 → α) → α :=
  @List.rec Int (fun _ => (P1 → α) → α) (fun k => k [])
    (fun x _ ih k => scale1F x b fun s => ih fun m => c1F 0 m fun m => add1F s m k) a

theorem mul1F_eq (a b : P1) (k : P1 → α) : mul1F a b k = k (mul1 a b) := by
  induction a generalizing k with
  | nil => rfl
  | cons x a ih =>
    show scale1F x b (fun s => mul1F a b fun m => c1F 0 m fun m => add1F s m k) = _
    rw [scale1F_eq, ih, c1F_eq, add1F_eq]; rfl

noncomputable def add2F (a : P2) : P2 → (P2 → α) → α :=
  @List.rec P1 (fun _ => P2 → (P2 → α) → α) (fun b k => k b)
    (fun x a ih b k => @List.rec P1 (fun _ => α) (k (x :: a)) (fun y b _ => add1F x y fun z => ih b fun r => c2F z r k) b) a

theorem add2F_eq (a b : P2) (k : P2 → α) : add2F a b k = k (add2 a b) := by
  induction a generalizing b k with
  | nil => rfl
  | cons x a ih =>
    cases b with
    | nil => rfl
    | cons y b =>
      show add1F x y (fun z => add2F a b fun r => c2F z r k) = _
      rw [add1F_eq, ih, c2F_eq]; rfl

noncomputable def scale2F (c : Int) (a : P2) : (P2 → α) → α :=
  @List.rec P1 (fun _ => (P2 → α) → α) (fun k => k []) (fun x _ ih k => scale1F c x fun y => ih fun r => k (y :: r)) a

theorem scale2F_eq (c : Int) (a : P2) (k : P2 → α) : scale2F c a k = k (scale2 c a) := by
  induction a generalizing k with
  | nil => rfl
  | cons x a ih =>
    show scale1F c x (fun y => scale2F c a fun r => k (y :: r)) = _
    rw [scale1F_eq, ih]; rfl

noncomputable def mulRowF (x : P1) (b : P2) : (P2 → α) → α :=
  @List.rec P1 (fun _ => (P2 → α) → α) (fun k => k []) (fun y _ ih k => mul1F x y fun z => ih fun r => k (z :: r)) b

theorem mulRowF_eq (x : P1) (b : P2) (k : P2 → α) : mulRowF x b k = k (mulRow x b) := by
  induction b generalizing k with
  | nil => rfl
  | cons y b ih =>
    show mul1F x y (fun z => mulRowF x b fun r => k (z :: r)) = _
    rw [mul1F_eq, ih]; rfl

noncomputable def mul2F (a b : P2) : (P2 → α) → α :=
  @List.rec P1 (fun _ => (P2 → α) → α) (fun k => k [])
    (fun x _ ih k => mulRowF x b fun s => ih fun m => c2F [] m fun m => add2F s m k) a

theorem mul2F_eq (a b : P2) (k : P2 → α) : mul2F a b k = k (mul2 a b) := by
  induction a generalizing k with
  | nil => rfl
  | cons x a ih =>
    show mulRowF x b (fun s => mul2F a b fun m => c2F [] m fun m => add2F s m k) = _
    rw [mulRowF_eq, ih, c2F_eq, add2F_eq]; rfl

noncomputable def one2F (p : P2) : Bool :=
  @List.rec P1 (fun _ => Bool) false (fun r p _ => @List.rec P1 (fun _ => Bool)
    (@List.rec Int (fun _ => Bool) false (fun x t _ => @List.rec Int (fun _ => Bool) (isOneI x) (fun _ _ _ => false) t) r)
    (fun _ _ _ => false) p) p

theorem one2F_eq (p : P2) : one2F p = one2 p := by
  match p with
  | [] => rfl
  | [[]] => rfl
  | [[x]] => exact isOneI_eq x
  | [_ :: _ :: _] => rfl
  | [] :: _ :: _ => rfl
  | [_] :: _ :: _ => rfl
  | (_ :: _ :: _) :: _ :: _ => rfl

noncomputable def mulPF (a b : P2) (k : P2 → α) : α := fB (one2F a) (k b) (fB (one2F b) (k a) (mul2F a b k))

theorem mulPF_eq (a b : P2) (k : P2 → α) : mulPF a b k = k (mulP a b) := by
  simp only [mulPF, mulP, fB_eq, one2F_eq, mul2F_eq]
  split
  · rfl
  · split <;> rfl

noncomputable def mulUF (n : Nat) (p : P2) (k : P2 → α) : α :=
  scale2F (.ofNat n) p fun a => c2F [] p fun b => add2F a b k

theorem mulUF_eq (n : Nat) (p : P2) (k : P2 → α) : mulUF n p k = k (mulU n p) := by
  simp only [mulUF, scale2F_eq, c2F_eq, add2F_eq]; rfl

noncomputable def mulVF (n : Nat) (p : P2) : (P2 → α) → α :=
  @List.rec P1 (fun _ => (P2 → α) → α) (fun k => k [])
    (fun r _ ih k => scale1F (.ofNat n) r fun a => c1F 0 r fun b => add1F a b fun c => ih fun q => k (c :: q)) p

theorem mulVF_eq (n : Nat) (p : P2) (k : P2 → α) : mulVF n p k = k (mulV n p) := by
  induction p generalizing k with
  | nil => rfl
  | cons r p ih =>
    show scale1F (.ofNat n) r (fun a => c1F 0 r fun b => add1F a b fun c => mulVF n p fun q => k (c :: q)) = _
    rw [scale1F_eq, c1F_eq, add1F_eq, ih]; rfl

noncomputable def div1F (n : Nat) (p : P1) : (Int → P1 → α) → α :=
  @List.rec Int (fun _ => (Int → P1 → α) → α) (fun k => k 0 [])
    (fun a _ ih k => ih fun r q => imulF (.ofNat n) r fun m => negF m fun m => addF a m fun s => c1F r q fun q => k s q) p

theorem div1F_eq (n : Nat) (p : P1) (k : Int → P1 → α) : div1F n p k = k (div1 n p).1 (div1 n p).2 := by
  induction p generalizing k with
  | nil => rfl
  | cons a p ih =>
    show div1F n p (fun r q => imulF (.ofNat n) r fun m => negF m fun m => addF a m fun s => c1F r q fun q => k s q) = _
    simp only [ih, imulF_eq, negF_eq, addF_eq, c1F_eq, div1]
    rw [← Int.sub_eq_add_neg]; rfl

noncomputable def divUF (n : Nat) (p : P2) : (P1 → P2 → α) → α :=
  @List.rec P1 (fun _ => (P1 → P2 → α) → α) (fun k => k [] [])
    (fun a _ ih k => ih fun r q => negNF n fun m => scale1F m r fun s => add1F a s fun s => c2F r q fun q => k s q) p

theorem divUF_eq (n : Nat) (p : P2) (k : P1 → P2 → α) : divUF n p k = k (divU n p).1 (divU n p).2 := by
  induction p generalizing k with
  | nil => rfl
  | cons a p ih =>
    show divUF n p (fun r q => negNF n fun m => scale1F m r fun s => add1F a s fun s => c2F r q fun q => k s q) = _
    simp only [ih, negNF_eq, scale1F_eq, add1F_eq, c2F_eq, divU]

noncomputable def divVF (n : Nat) (p : P2) : α → (P2 → α) → α :=
  @List.rec P1 (fun _ => α → (P2 → α) → α) (fun _ k => k [])
    (fun r _ ih z k => div1F n r fun rem q => fB (isZ rem) (ih z fun s => k (q :: s)) z) p

theorem divVF_eq (n : Nat) (p : P2) (z : α) (k : P2 → α) : divVF n p z k = ((divV n p).map k).getD z := by
  induction p generalizing k with
  | nil => rfl
  | cons r p ih =>
    show div1F n r (fun rem q => fB (isZ rem) (divVF n p z fun s => k (q :: s)) z) = _
    rw [div1F_eq, fB_eq, ih, divV]
    rcases div1 n r with ⟨rem, q⟩
    dsimp only
    by_cases h : rem = 0
    · rw [if_pos ((isZ_iff _).2 h), if_pos h]
      cases divV n p <;> rfl
    · rw [if_neg (fun h' => h ((isZ_iff _).1 h')), if_neg h]; rfl

noncomputable def pullUF (n fuel : Nat) : Nat → P2 → (Nat → P2 → α) → α :=
  @Nat.rec (fun _ => Nat → P2 → (Nat → P2 → α) → α) (fun c p k => k c p)
    (fun _ ih c p k => divUF n p fun r q => @List.rec Int (fun _ => α) (ih c.succ q k) (fun _ _ _ => k c p) r) fuel

theorem pullUF_eq (n fuel c : Nat) (p : P2) (k : Nat → P2 → α) :
    pullUF n fuel c p k = k (pullU n fuel c p).1 (pullU n fuel c p).2 := by
  induction fuel generalizing c p with
  | zero => rfl
  | succ fuel ih =>
    show divUF n p (fun r q => @List.rec Int (fun _ => α) (pullUF n fuel c.succ q k) (fun _ _ _ => k c p) r) = _
    rw [divUF_eq, pullU]
    rcases divU n p with ⟨r, q⟩
    cases r with
    | nil => exact ih c.succ q
    | cons x r => rfl

noncomputable def pullVF (n fuel : Nat) : Nat → P2 → (Nat → P2 → α) → α :=
  @Nat.rec (fun _ => Nat → P2 → (Nat → P2 → α) → α) (fun c p k => k c p)
    (fun _ ih c p k => divVF n p (k c p) fun q => ih c.succ q k) fuel

theorem pullVF_eq (n fuel c : Nat) (p : P2) (k : Nat → P2 → α) :
    pullVF n fuel c p k = k (pullV n fuel c p).1 (pullV n fuel c p).2 := by
  induction fuel generalizing c p with
  | zero => rfl
  | succ fuel ih =>
    show divVF n p (k c p) (fun q => pullVF n fuel c.succ q k) = _
    rw [divVF_eq, pullV]
    cases divV n p with
    | none => rfl
    | some q => exact ih c.succ q

noncomputable def gcd1F (p : P1) : Nat → (Nat → α) → α :=
  @List.rec Int (fun _ => Nat → (Nat → α) → α) (fun g k => k g) (fun x _ ih g k => absF x fun n => fN (Nat.gcd g n) fun g => ih g k) p

theorem gcd1F_eq (p : P1) (g : Nat) (k : Nat → α) : gcd1F p g k = k (gcd1 g p) := by
  induction p generalizing g with
  | nil => rfl
  | cons x p ih =>
    show absF x (fun n => fN (Nat.gcd g n) fun g => gcd1F p g k) = _
    rw [absF_eq, fN_eq, ih]; rfl

noncomputable def gcd2F (p : P2) : Nat → (Nat → α) → α :=
  @List.rec P1 (fun _ => Nat → (Nat → α) → α) (fun g k => k g) (fun x _ ih g k => gcd1F x g fun g => ih g k) p

theorem gcd2F_eq (p : P2) (g : Nat) (k : Nat → α) : gcd2F p g k = k (gcd2 g p) := by
  induction p generalizing g with
  | nil => rfl
  | cons x p ih =>
    show gcd1F x g (fun g => gcd2F p g k) = _
    rw [gcd1F_eq, ih]; rfl

noncomputable def divI1F (g : Nat) (p : P1) : (P1 → α) → α :=
  @List.rec Int (fun _ => (P1 → α) → α) (fun k => k []) (fun x _ ih k => idivF x g fun y => ih fun r => k (y :: r)) p

theorem divI1F_eq (g : Nat) (p : P1) (k : P1 → α) : divI1F g p k = k (divI1 g p) := by
  induction p generalizing k with
  | nil => rfl
  | cons x p ih =>
    show idivF x g (fun y => divI1F g p fun r => k (y :: r)) = _
    rw [idivF_eq, ih]; rfl

noncomputable def divI2F (g : Nat) (p : P2) : (P2 → α) → α :=
  @List.rec P1 (fun _ => (P2 → α) → α) (fun k => k []) (fun x _ ih k => divI1F g x fun y => ih fun r => k (y :: r)) p

theorem divI2F_eq (g : Nat) (p : P2) (k : P2 → α) : divI2F g p k = k (divI2 g p) := by
  induction p generalizing k with
  | nil => rfl
  | cons x p ih =>
    show divI1F g x (fun y => divI2F g p fun r => k (y :: r)) = _
    rw [divI1F_eq, ih]; rfl

noncomputable def pos1F (p : P1) : Bool :=
  @List.rec Int (fun _ => Bool) true (fun x _ ih => fB (isNeg x) false ih) p

theorem pos1F_eq (p : P1) : pos1F p = pos1 p := by
  induction p with
  | nil => rfl
  | cons x p ih =>
    show fB (isNeg x) false (pos1F p) = _
    rw [fB_eq, isNeg_eq, ih, pos1]
    by_cases h : x < 0
    · have : ¬ 0 ≤ x := by omega
      simp [h, this]
    · have : 0 ≤ x := by omega
      simp [h, this]

noncomputable def pos2F (p : P2) : Bool :=
  @List.rec P1 (fun _ => Bool) true (fun x _ ih => fB (pos1F x) ih false) p

theorem pos2F_eq (p : P2) : pos2F p = pos2 p := by
  induction p with
  | nil => rfl
  | cons x p ih =>
    show fB (pos1F x) (pos2F p) false = _
    rw [fB_eq, pos1F_eq, ih, pos2]
    cases pos1 x <;> simp

noncomputable def positiveF (p : P2) : Bool :=
  @List.rec P1 (fun _ => Bool) false (fun r p _ => @List.rec Int (fun _ => Bool) false
    (fun x r _ => fB (isZ x) false (fB (isNeg x) false (fB (pos1F r) (pos2F p) false))) r) p

theorem positiveF_eq (p : P2) : positiveF p = positive p := by
  match p with
  | [] => rfl
  | [] :: _ => rfl
  | (x :: r) :: p =>
    show fB (isZ x) false (fB (isNeg x) false (fB (pos1F r) (pos2F p) false)) = _
    rw [fB_eq, fB_eq, fB_eq, pos1F_eq, pos2F_eq, isNeg_eq, positive]
    by_cases h : x = 0
    · rw [if_pos ((isZ_iff _).2 h)]; simp [h]
    · rw [if_neg (fun h' => h ((isZ_iff _).1 h'))]
      by_cases h' : x < 0
      · have : ¬ 0 < x := by omega
        simp [h', this]
      · have : 0 < x := by omega
        simp only [h', decide_false, Bool.false_eq_true, if_false, this, decide_true, Bool.true_and]
        cases pos1 r <;> simp

/-! ### Exponents -/

noncomputable def addEF (a : Exps) : Exps → (Exps → α) → α :=
  @List.rec Int (fun _ => Exps → (Exps → α) → α) (fun b k => k b)
    (fun x a ih b k => @List.rec Int (fun _ => α) (k (x :: a)) (fun y b _ => addF x y fun z => ih b fun r => k (z :: r)) b) a

theorem addEF_eq (a b : Exps) (k : Exps → α) : addEF a b k = k (addE a b) := by
  induction a generalizing b k with
  | nil => rfl
  | cons x a ih =>
    cases b with
    | nil => rfl
    | cons y b =>
      show addF x y (fun z => addEF a b fun r => k (z :: r)) = _
      rw [addF_eq, ih]; rfl

noncomputable def negEF (a : Exps) : (Exps → α) → α :=
  @List.rec Int (fun _ => (Exps → α) → α) (fun k => k []) (fun x _ ih k => negF x fun y => ih fun r => k (y :: r)) a

theorem negEF_eq (a : Exps) (k : Exps → α) : negEF a k = k (negE a) := by
  induction a generalizing k with
  | nil => rfl
  | cons x a ih =>
    show negF x (fun y => negEF a fun r => k (y :: r)) = _
    rw [negF_eq, ih]; rfl

noncomputable def min0F (a : Exps) : (Exps → α) → α :=
  @List.rec Int (fun _ => (Exps → α) → α) (fun k => k []) (fun x _ ih k => minF x (.ofNat 0) fun y => ih fun r => k (y :: r)) a

theorem min0F_eq (a : Exps) (k : Exps → α) : min0F a k = k (min0 a) := by
  induction a generalizing k with
  | nil => rfl
  | cons x a ih =>
    show minF x (.ofNat 0) (fun y => min0F a fun r => k (y :: r)) = _
    rw [minF_eq, ih]; rfl

noncomputable def minEF (a : Exps) : Exps → (Exps → α) → α :=
  @List.rec Int (fun _ => Exps → (Exps → α) → α) (fun b k => min0F b k)
    (fun x a ih b k => @List.rec Int (fun _ => α) (minF x (.ofNat 0) fun y => min0F a fun r => k (y :: r))
      (fun y b _ => minF x y fun z => ih b fun r => k (z :: r)) b) a

theorem minEF_eq (a b : Exps) (k : Exps → α) : minEF a b k = k (minE a b) := by
  induction a generalizing b k with
  | nil => exact min0F_eq b k
  | cons x a ih =>
    cases b with
    | nil =>
      show minF x (.ofNat 0) (fun y => min0F a fun r => k (y :: r)) = _
      rw [minF_eq, min0F_eq]; rfl
    | cons y b =>
      show minF x y (fun z => minEF a b fun r => k (z :: r)) = _
      rw [minF_eq, ih]; rfl

noncomputable def halfEF (a : Exps) : α → (Exps → α) → α :=
  @List.rec Int (fun _ => α → (Exps → α) → α) (fun _ k => k [])
    (fun x _ ih z k => fB (dvdF 2 x) (idivF x 2 fun y => ih z fun r => k (y :: r)) z) a

theorem halfEF_eq (a : Exps) (z : α) (k : Exps → α) : halfEF a z k = ((halfE a).map k).getD z := by
  induction a generalizing k with
  | nil => rfl
  | cons x a ih =>
    show fB (dvdF 2 x) (idivF x 2 fun y => halfEF a z fun r => k (y :: r)) z = _
    rw [fB_eq, idivF_eq, ih, halfE]
    by_cases h : x % 2 = 0
    · rw [if_pos ((dvdF_iff 2 x).2 h), if_pos h]
      cases halfE a <;> rfl
    · rw [if_neg (fun h' => h ((dvdF_iff 2 x).1 h')), if_neg h]; rfl

noncomputable def iterF (f : P2 → (P2 → α) → α) (n : Nat) : P2 → (P2 → α) → α :=
  @Nat.rec (fun _ => P2 → (P2 → α) → α) (fun p k => k p) (fun _ ih p k => f p fun q => ih q k) n

theorem iterF_eq (f : P2 → P2) (g : P2 → (P2 → α) → α) (hg : ∀ p k, g p k = k (f p)) (n : Nat) (p : P2) (k : P2 → α) :
    iterF g n p k = k (iter f n p) := by
  induction n generalizing p with
  | zero => rfl
  | succ n ih =>
    show g p (fun q => iterF g n q k) = _
    rw [hg, ih]; rfl

/-- `g`: multiplication by the `n`-th factor. -/
noncomputable def expandF (g : Nat → P2 → (P2 → α) → α) (es : Exps) : Nat → P2 → α → (P2 → α) → α :=
  @List.rec Int (fun _ => Nat → P2 → α → (P2 → α) → α) (fun _ p _ k => k p)
    (fun e _ ih n p z k => @Int.rec (fun _ => α)
      (fun m => fB (Nat.beq m 0) (ih n.succ p z k) (fB (Nat.beq (Nat.mod m 2) 0)
        (fN (Nat.div m 2) fun h => iterF (g n) h p fun q => ih n.succ q z k) z)) (fun _ => z) e) es

theorem expandF_eq (f : Nat → P2 → P2) (g : Nat → P2 → (P2 → α) → α) (hg : ∀ n p k, g n p k = k (f n p))
    (es : Exps) (n : Nat) (p : P2) (z : α) (k : P2 → α) :
    expandF g es n p z k = ((expand f n es p).map k).getD z := by
  induction es generalizing n p with
  | nil => rfl
  | cons e es ih =>
    cases e with
    | ofNat m =>
      show fB (Nat.beq m 0) (expandF g es n.succ p z k) (fB (Nat.beq (Nat.mod m 2) 0)
        (fN (Nat.div m 2) fun h => iterF (g n) h p fun q => expandF g es n.succ q z k) z) = _
      rw [fB_eq, fB_eq, fN_eq, iterF_eq (f n) (g n) (hg n), ih, ih, expand]
      have e1 : (Int.ofNat m = 0) ↔ m = 0 := by simp
      by_cases h : m = 0
      · rw [if_pos (by simpa using h), if_pos (e1.2 h)]
      · rw [if_neg (by simpa using h), if_neg (fun h' => h (e1.1 h'))]
        rw [show Nat.mod m 2 = m % 2 from rfl]
        by_cases h2 : m % 2 = 0
        · rw [if_pos (by simpa using h2), if_pos ⟨by simp; omega, by simp⟩]
          have : (Int.ofNat m / 2).toNat = m / 2 := by
            simp only [Int.ofNat_eq_natCast]; omega
          rw [this]; rfl
        · rw [if_neg (fun h' => h2 (Nat.eq_of_beq_eq_true h')), if_neg (fun h' => h2 (by have := h'.1; simp at this; omega))]; rfl
    | negSucc m =>
      have h0 := Int.negSucc_lt_zero m
      show z = _
      rw [expand, if_neg (by omega), if_neg (by omega)]; rfl

/-! ### Normal forms -/

namespace Mono

/-- Apply `k` to the fields. -/
noncomputable def open' (m : Mono) (k : Int → Nat → Nat → Exps → Exps → P2 → α) : α :=
  @Mono.rec (fun _ => α) (fun n d r eu ev p => k n d r eu ev p) m

theorem open'_eq (m : Mono) (k : Int → Nat → Nat → Exps → Exps → P2 → α) : open' m k = k m.n m.d m.r m.eu m.ev m.p := rfl

noncomputable def reduceF (n : Int) (d r : Nat) (eu ev : Exps) (p : P2) (k : Mono → α) : α :=
  absF n fun x => fN (Nat.gcd x d) fun g => fB (Nat.ble g 1) (k ⟨n, d, r, eu, ev, p⟩)
    (idivF n g fun n => fN (Nat.div d g) fun d => k ⟨n, d, r, eu, ev, p⟩)

theorem reduceF_eq (n : Int) (d r : Nat) (eu ev : Exps) (p : P2) (k : Mono → α) :
    reduceF n d r eu ev p k = k (reduce ⟨n, d, r, eu, ev, p⟩) := by
  simp only [reduceF, absF_eq, fN_eq, fB_eq, idivF_eq, reduce]
  generalize Nat.gcd n.natAbs d = g
  match g with
  | 0 => rfl
  | 1 => rfl
  | g + 2 =>
    have : Nat.ble (g + 2) 1 = false := by
      rw [← Bool.not_eq_true, Nat.ble_eq]; omega
    simp only [this, Bool.false_eq_true, if_false]; rfl

noncomputable def negF (m : Mono) (k : Mono → α) : α :=
  open' m fun n d r eu ev p => Coef.negF n fun n => k ⟨n, d, r, eu, ev, p⟩

theorem negF_eq (m : Mono) (k : Mono → α) : negF m k = k m.neg := by
  simp only [negF, open'_eq, Coef.negF_eq]; rfl

noncomputable def mulF (a b : Mono) (k : Mono → α) : α :=
  open' a fun an ad ar aeu aev ap => open' b fun bn bd br beu bev bp =>
    fN (Nat.gcd ar br) fun g => imulF an bn fun n => imulF n (.ofNat g) fun n => fN (Nat.mul ad bd) fun d =>
    fN (Nat.mul (Nat.div ar g) (Nat.div br g)) fun r => addEF aeu beu fun eu => addEF aev bev fun ev =>
    mulPF ap bp fun p => reduceF n d r eu ev p k

theorem mulF_eq (a b : Mono) (k : Mono → α) : mulF a b k = k (a.mul b) := by
  simp only [mulF, open'_eq, fN_eq, imulF_eq, addEF_eq, mulPF_eq, reduceF_eq]; rfl

noncomputable def invF (a : Mono) (z : α) (k : Mono → α) : α :=
  open' a fun n d r eu ev p => fB (one2F p) (fB (isZ n) z (fB (Nat.beq d 0) z (fB (Nat.beq r 0) z
    (absF n fun x => fN (Nat.mul x r) fun x => negEF eu fun eu => negEF ev fun ev =>
      fB (isNeg n) (negNF d fun n => reduceF n x r eu ev p k) (reduceF (.ofNat d) x r eu ev p k))))) z

theorem one2_iff (p : P2) : one2 p = true ↔ p = [[1]] := by
  constructor
  · intro h
    unfold one2 at h
    split at h
    · simp only [beq_iff_eq] at h; rw [h]
    · cases h
  · rintro rfl; rfl

theorem invF_eq (a : Mono) (z : α) (k : Mono → α) : invF a z k = (a.inv.map k).getD z := by
  simp only [invF, open'_eq, fB_eq, one2F_eq, absF_eq, fN_eq, negEF_eq, negNF_eq, reduceF_eq, isNeg_eq, inv]
  by_cases h1 : a.p = [[1]]
  · rw [if_pos ((one2_iff _).2 h1)]
    by_cases h2 : a.n = 0
    · rw [if_pos ((isZ_iff _).2 h2), if_neg (by simp [h2])]; rfl
    · rw [if_neg (fun h' => h2 ((isZ_iff _).1 h'))]
      by_cases h3 : a.d = 0
      · rw [if_pos (by simpa using h3), if_neg (by simp [h3])]; rfl
      · rw [if_neg (by simpa using h3)]
        by_cases h4 : a.r = 0
        · rw [if_pos (by simpa using h4), if_neg (by simp [h4])]; rfl
        · rw [if_neg (by simpa using h4), if_pos (c := a.p = [[1]] ∧ a.n ≠ 0 ∧ a.d ≠ 0 ∧ a.r ≠ 0) ⟨h1, h2, h3, h4⟩, h1]
          by_cases h5 : a.n < 0
          · rw [if_pos (c := decide (a.n < 0) = true) (by simpa using h5), if_neg (c := 0 < a.n) (by omega)]; rfl
          · rw [if_neg (c := decide (a.n < 0) = true) (by simpa using h5), if_pos (c := 0 < a.n) (by omega)]; rfl
  · rw [if_neg (fun h' => h1 ((one2_iff _).1 h')), if_neg (by simp [h1])]; rfl

noncomputable def squareF (q2 q fuel : Nat) : Nat → Nat → (Nat → Nat → α) → α :=
  @Nat.rec (fun _ => Nat → Nat → (Nat → Nat → α) → α) (fun a n k => k a n)
    (fun _ ih a n k => fB (Nat.beq (Nat.mod n q2) 0)
      (fN (Nat.mul a q) fun a => fN (Nat.div n q2) fun n => ih a n k) (k a n)) fuel

theorem squareF_eq (q fuel a n : Nat) (k : Nat → Nat → α) :
    squareF (q * q) q fuel a n k = k (square q fuel a n).1 (square q fuel a n).2 := by
  induction fuel generalizing a n with
  | zero => rfl
  | succ fuel ih =>
    show fB (Nat.beq (Nat.mod n (q * q)) 0)
      (fN (Nat.mul a q) fun a => fN (Nat.div n (q * q)) fun n => squareF (q * q) q fuel a n k) (k a n) = _
    rw [fB_eq, fN_eq, fN_eq, ih, square, show Nat.mod n (q * q) = n % (q * q) from rfl]
    by_cases h : n % (q * q) = 0
    · rw [if_pos (by simpa using h), if_pos h]; rfl
    · rw [if_neg (by simpa using h), if_neg h]

noncomputable def squaresF (qs : List Nat) : Nat → Nat → (Nat → Nat → α) → α :=
  @List.rec Nat (fun _ => Nat → Nat → (Nat → Nat → α) → α) (fun a n k => k a n)
    (fun q _ ih a n k => fN (Nat.mul q q) fun q2 => squareF q2 q 12 a n fun a n => ih a n k) qs

theorem squaresF_eq (qs : List Nat) (a n : Nat) (k : Nat → Nat → α) :
    squaresF qs a n k = k (squares qs a n).1 (squares qs a n).2 := by
  induction qs generalizing a n with
  | nil => rfl
  | cons q qs ih =>
    show fN (Nat.mul q q) (fun q2 => squareF q2 q 12 a n fun a n => squaresF qs a n k) = _
    rw [fN_eq, show Nat.mul q q = q * q from rfl, squareF_eq, ih]; rfl

noncomputable def sqrtF (m : Mono) (z : α) (k : Mono → α) : α :=
  open' m fun n d r eu ev p => fB (one2F p) (fB (Nat.beq r 1) (fB (isZ n) z (fB (isNeg n) z (fB (Nat.beq d 0) z
    (halfEF eu z fun eu => halfEF ev z fun ev => absF n fun x => fN (Nat.mul x d) fun x =>
      squaresF [2, 3, 5, 7, 11, 13, 17, 19, 23] 1 x fun a b =>
        fB (Nat.beq (Nat.mul (Nat.mul a a) b) x) (reduceF (.ofNat a) d b eu ev p k) z)))) z) z

theorem sqrtF_eq (m : Mono) (z : α) (k : Mono → α) : sqrtF m z k = (m.sqrt.map k).getD z := by
  simp only [sqrtF, open'_eq, fB_eq, one2F_eq, absF_eq, fN_eq, squaresF_eq, reduceF_eq, isNeg_eq, sqrt, halfEF_eq]
  by_cases h1 : m.p = [[1]]
  · rw [if_pos ((one2_iff _).2 h1)]
    by_cases h2 : m.r = 1
    · rw [if_pos (by simpa using h2)]
      by_cases h3 : m.n = 0
      · rw [if_pos ((isZ_iff _).2 h3), if_neg (by simp [h3])]; rfl
      · rw [if_neg (fun h' => h3 ((isZ_iff _).1 h'))]
        by_cases h4 : m.n < 0
        · rw [if_pos (by simpa using h4), if_neg (by omega)]; rfl
        · rw [if_neg (by simpa using h4)]
          by_cases h5 : m.d = 0
          · rw [if_pos (by simpa using h5), if_neg (by simp [h5])]; rfl
          · rw [if_neg (by simpa using h5), if_pos ⟨h1, h2, by omega, h5⟩]
            cases halfE m.eu with
            | none => rfl
            | some eu =>
              cases halfE m.ev with
              | none => rfl
              | some ev =>
                simp only [Option.map_some, Option.getD_some]
                rw [show Nat.mul m.n.natAbs m.d = m.n.natAbs * m.d from rfl]
                generalize squares [2, 3, 5, 7, 11, 13, 17, 19, 23] 1 (m.n.natAbs * m.d) = ab
                obtain ⟨a, b⟩ := ab
                dsimp only
                rw [show Nat.mul (Nat.mul a a) b = a * a * b from rfl]
                by_cases h6 : a * a * b = m.n.natAbs * m.d
                · rw [if_pos (by simpa using h6), if_pos h6, h1]; rfl
                · rw [if_neg (by simpa using h6), if_neg h6]; rfl
    · rw [if_neg (by simpa using h2), if_neg (by simp [h2])]; rfl
  · rw [if_neg (fun h' => h1 ((one2_iff _).1 h')), if_neg (by simp [h1])]; rfl

noncomputable def sgnF (m : Mono) (k : Option Bool → α) : α :=
  open' m fun n d r _ _ p => fB (isZ n) (k none) (fB (Nat.beq d 0) (k none) (fB (Nat.beq r 0) (k none)
    (fB (positiveF p) (k (some (isNeg n))) (scale2F (.negSucc 0) p fun q => fB (positiveF q) (k (some (!(isNeg n)))) (k none)))))

theorem sgnF_eq (m : Mono) (k : Option Bool → α) : sgnF m k = k m.sgn := by
  simp only [sgnF, open'_eq, fB_eq, scale2F_eq, positiveF_eq, isNeg_eq, sgn]
  by_cases h1 : m.n = 0
  · rw [if_pos ((isZ_iff _).2 h1), if_pos (.inl h1)]
  · rw [if_neg (fun h' => h1 ((isZ_iff _).1 h'))]
    by_cases h2 : m.d = 0
    · rw [if_pos (by simpa using h2), if_pos (.inr (.inl h2))]
    · rw [if_neg (by simpa using h2)]
      by_cases h3 : m.r = 0
      · rw [if_pos (by simpa using h3), if_pos (.inr (.inr h3))]
      · rw [if_neg (by simpa using h3), if_neg (c := m.n = 0 ∨ m.d = 0 ∨ m.r = 0) (by simp [h1, h2, h3])]
        have e : (Int.negSucc 0) = -1 := rfl
        rw [e]
        have e2 : (!decide (m.n < 0)) = decide (0 < m.n) := by
          rw [Bool.eq_iff_iff]; simp; omega
        rw [e2]
        by_cases h4 : positive m.p = true
        · rw [if_pos h4, if_pos h4]
        · rw [if_neg h4, if_neg h4]
          by_cases h5 : positive (scale2 (-1) m.p) = true
          · rw [if_pos h5, if_pos h5]
          · rw [if_neg h5, if_neg h5]

noncomputable def originF (p : P2) : Int :=
  @List.rec P1 (fun _ => Int) 0 (fun r _ _ => @List.rec Int (fun _ => Int) 0 (fun x _ _ => x) r) p

theorem originF_eq (p : P2) : originF p = origin p := by
  match p with
  | [] => rfl
  | [] :: _ => rfl
  | (_ :: _) :: _ => rfl

noncomputable def flatVF (p : P2) : Bool :=
  @List.rec P1 (fun _ => Bool) true (fun r _ ih => @List.rec Int (fun _ => Bool) ih
    (fun _ t _ => @List.rec Int (fun _ => Bool) ih (fun _ _ _ => false) t) r) p

theorem flatVF_eq (p : P2) : flatVF p = flatV p := by
  induction p with
  | nil => rfl
  | cons r p ih =>
    match r with
    | [] => simp only [flatV, Bool.true_and]; exact ih
    | [_] => simp only [flatV, Bool.true_and]; exact ih
    | _ :: _ :: _ => rfl

noncomputable def flatUF (p : P2) : Bool :=
  @List.rec P1 (fun _ => Bool) true (fun _ p _ => @List.rec P1 (fun _ => Bool) true (fun _ _ _ => false) p) p

theorem flatUF_eq (p : P2) : flatUF p = flatU p := by
  match p with
  | [] => rfl
  | [_] => rfl
  | _ :: _ :: _ => rfl

noncomputable def pullsUF (n : Nat) : Nat → P2 → (Exps → P2 → α) → α :=
  @Nat.rec (fun _ => Nat → P2 → (Exps → P2 → α) → α) (fun _ p k => k [] p)
    (fun _ ih j p k => fB (flatUF p) (k [] p) (fB (dvdF j (originF p))
      (pullUF j 12 0 p fun c q => fN (Nat.mul 2 c) fun c => ih j.succ q fun e r => k (Int.ofNat c :: e) r)
      (ih j.succ p fun e r => k (Int.ofNat 0 :: e) r))) n

theorem pullsUF_eq (n j : Nat) (p : P2) (k : Exps → P2 → α) : pullsUF n j p k = k (pullsU n j p).1 (pullsU n j p).2 := by
  induction n generalizing j p k with
  | zero => rfl
  | succ n ih =>
    show fB (flatUF p) (k [] p) (fB (dvdF j (originF p))
      (pullUF j 12 0 p fun c q => fN (Nat.mul 2 c) fun c => pullsUF n j.succ q fun e r => k (Int.ofNat c :: e) r)
      (pullsUF n j.succ p fun e r => k (Int.ofNat 0 :: e) r)) = _
    rw [fB_eq, fB_eq, pullUF_eq, fN_eq, ih, ih, flatUF_eq, originF_eq, pullsU]
    split
    · rfl
    · by_cases h : origin p % (j : Int) = 0
      · rw [if_pos ((dvdF_iff _ _).2 h), if_pos h]; rfl
      · rw [if_neg (fun h' => h ((dvdF_iff _ _).1 h')), if_neg h]; rfl

noncomputable def pullsVF (n : Nat) : Nat → P2 → (Exps → P2 → α) → α :=
  @Nat.rec (fun _ => Nat → P2 → (Exps → P2 → α) → α) (fun _ p k => k [] p)
    (fun _ ih j p k => fB (flatVF p) (k [] p) (fB (dvdF j (originF p))
      (pullVF j 12 0 p fun c q => fN (Nat.mul 2 c) fun c => ih j.succ q fun e r => k (Int.ofNat c :: e) r)
      (ih j.succ p fun e r => k (Int.ofNat 0 :: e) r))) n

theorem pullsVF_eq (n j : Nat) (p : P2) (k : Exps → P2 → α) : pullsVF n j p k = k (pullsV n j p).1 (pullsV n j p).2 := by
  induction n generalizing j p k with
  | zero => rfl
  | succ n ih =>
    show fB (flatVF p) (k [] p) (fB (dvdF j (originF p))
      (pullVF j 12 0 p fun c q => fN (Nat.mul 2 c) fun c => pullsVF n j.succ q fun e r => k (Int.ofNat c :: e) r)
      (pullsVF n j.succ p fun e r => k (Int.ofNat 0 :: e) r)) = _
    rw [fB_eq, fB_eq, pullVF_eq, fN_eq, ih, ih, flatVF_eq, originF_eq, pullsV]
    split
    · rfl
    · by_cases h : origin p % (j : Int) = 0
      · rw [if_pos ((dvdF_iff _ _).2 h), if_pos h]; rfl
      · rw [if_neg (fun h' => h ((dvdF_iff _ _).1 h')), if_neg h]; rfl

/-- Is it `[[-1]]`? -/
noncomputable def isM1 (p : P2) : Bool :=
  @List.rec P1 (fun _ => Bool) false (fun r p _ => @List.rec P1 (fun _ => Bool)
    (@List.rec Int (fun _ => Bool) false (fun x t _ => @List.rec Int (fun _ => Bool)
      (@Int.rec (fun _ => Bool) (fun _ => false) (fun n => Nat.beq n 0) x) (fun _ _ _ => false) t) r)
    (fun _ _ _ => false) p) p

theorem isM1_iff (p : P2) : isM1 p = true ↔ p = [[-1]] := by
  match p with
  | [] => simp [isM1]
  | [[]] => simp [isM1]
  | [[.ofNat n]] =>
    simp only [isM1, Bool.false_eq_true, false_iff, List.cons.injEq, and_true]
    intro h; have : (0 : Int) ≤ Int.ofNat n := Int.natCast_nonneg n
    omega
  | [[.negSucc n]] =>
    simp only [isM1, Nat.beq_eq, List.cons.injEq, and_true]
    rw [Int.negSucc_eq]; omega
  | [_ :: _ :: _] => simp [isM1]
  | [] :: _ :: _ => simp [isM1]
  | [_] :: _ :: _ => simp [isM1]
  | (_ :: _ :: _) :: _ :: _ => simp [isM1]

noncomputable def finishF (n : Int) (d r : Nat) (eu ev : Exps) (p : P2) (k : Mono → α) : α :=
  pullsVF width 1 p fun ev' p => pullsUF width 1 p fun eu' p =>
    addEF eu eu' fun eu => addEF ev ev' fun ev =>
      fB (isM1 p) (Coef.negF n fun n => reduceF n d r eu ev [[1]] k) (reduceF n d r eu ev p k)

noncomputable def refactorF (n : Int) (d r : Nat) (eu ev : Exps) (p : P2) (k : Mono → α) : α :=
  gcd2F p 0 fun g => fB (Nat.ble g 1) (finishF n d r eu ev p k)
    (divI2F g p fun q => scale2F (.ofNat g) q fun s =>
      fB (s == p) (imulF n (.ofNat g) fun n => finishF n d r eu ev q k) (finishF n d r eu ev p k))

theorem content_eq (m : Mono) : content m = if (gcd2 0 m.p).ble 1 then m else
    if scale2 (gcd2 0 m.p) (divI2 (gcd2 0 m.p) m.p) = m.p then { m with n := m.n * (gcd2 0 m.p : Int), p := divI2 (gcd2 0 m.p) m.p }
    else m := by
  unfold content
  generalize gcd2 0 m.p = g
  match g with
  | 0 => rfl
  | 1 => rfl
  | g + 2 =>
    have : Nat.ble (g + 2) 1 = false := by
      rw [← Bool.not_eq_true, Nat.ble_eq]; omega
    rw [this]; rfl

theorem refactorF_eq (n : Int) (d r : Nat) (eu ev : Exps) (p : P2) (k : Mono → α) :
    refactorF n d r eu ev p k = k (refactor ⟨n, d, r, eu, ev, p⟩) := by
  have key : ∀ (n : Int) (p : P2), finishF n d r eu ev p k = k (reduce (signOut (pull ⟨n, d, r, eu, ev, p⟩))) := by
    intro n p
    simp only [finishF, pullsVF_eq, pullsUF_eq, addEF_eq, fB_eq, Coef.negF_eq, reduceF_eq, pull, signOut]
    by_cases h : (pullsU width 1 (pullsV width 1 p).2).2 = [[-1]]
    · rw [if_pos ((isM1_iff _).2 h)]
      congr 2; exact (if_pos h).symm
    · rw [if_neg (fun h' => h ((isM1_iff _).1 h'))]
      congr 2; exact (if_neg h).symm
  simp only [refactorF, gcd2F_eq, key, fB_eq, divI2F_eq, scale2F_eq, imulF_eq, refactor, content_eq]
  split
  · rfl
  · simp only [beq_iff_eq, Int.ofNat_eq_natCast]
    split <;> rfl

noncomputable def addF (a b : Mono) (z k0 : α) (k : Mono → α) : α :=
  open' a fun an ad ar aeu aev ap => open' b fun bn bd br beu bev bp =>
    fB (Nat.beq ar br) (fB (Nat.beq ad 0) z (fB (Nat.beq bd 0) z
      (minEF aeu beu fun eu => minEF aev bev fun ev => negEF eu fun neu => negEF ev fun nev =>
        imulF an (.ofNat bd) fun ca => scale2F ca ap fun pa =>
        addEF aeu neu fun da => expandF mulUF da 1 pa z fun pa =>
        addEF aev nev fun da => expandF mulVF da 1 pa z fun pa =>
        imulF bn (.ofNat ad) fun cb => scale2F cb bp fun pb =>
        addEF beu neu fun db => expandF mulUF db 1 pb z fun pb =>
        addEF bev nev fun db => expandF mulVF db 1 pb z fun pb =>
        add2F pa pb fun p => @List.rec P1 (fun _ => α) k0
          (fun x p _ => fN (Nat.mul ad bd) fun d => refactorF (.ofNat 1) d ar eu ev (x :: p) k) p))) z

theorem addF_eq (a b : Mono) (z k0 : α) (k : Mono → α) :
    addF a b z k0 k = ((a.add b).map fun o => (o.map k).getD k0).getD z := by
  simp only [addF, open'_eq, fB_eq, minEF_eq, negEF_eq, imulF_eq, scale2F_eq, addEF_eq, add2F_eq, fN_eq, refactorF_eq,
    expandF_eq mulU mulUF mulUF_eq, expandF_eq mulV mulVF mulVF_eq, add]
  by_cases h1 : a.r = b.r
  · rw [if_pos (by simpa using h1)]
    by_cases h2 : a.d = 0
    · rw [if_pos (by simpa using h2), if_neg (by simp [h2])]; rfl
    · rw [if_neg (by simpa using h2)]
      by_cases h3 : b.d = 0
      · rw [if_pos (by simpa using h3), if_neg (by simp [h3])]; rfl
      · rw [if_neg (by simpa using h3), if_pos ⟨h1, h2, h3⟩]
        simp only [Int.ofNat_eq_natCast]
        generalize minE a.eu b.eu = eu
        generalize minE a.ev b.ev = ev
        cases expand mulU 1 (addE a.eu (negE eu)) (scale2 (a.n * (b.d : Int)) a.p) with
        | none => rfl
        | some pa =>
          simp only [Option.map_some, Option.getD_some]
          cases expand mulV 1 (addE a.ev (negE ev)) pa with
          | none => rfl
          | some pa =>
            simp only [Option.map_some, Option.getD_some]
            cases expand mulU 1 (addE b.eu (negE eu)) (scale2 (b.n * (a.d : Int)) b.p) with
            | none => rfl
            | some pb =>
              simp only [Option.map_some, Option.getD_some]
              cases expand mulV 1 (addE b.ev (negE ev)) pb with
              | none => rfl
              | some pb =>
                simp only [Option.map_some, Option.getD_some]
                cases add2 pa pb <;> rfl
  · rw [if_neg (by simpa using h1), if_neg (by simp [h1])]; rfl

end Mono

end Verif.Coef
