import Verif.Coef.Fast
/-!
# The normal form of an expression, written for the kernel
-/

namespace Verif.Coef
variable {α : Type}

namespace AVal

/-- Case distinction. -/
noncomputable def cases' (a : AVal) (f : Mono → α) (z i : Option Bool → α) (n : α) : α :=
  @AVal.rec (fun _ => α) f z i n a

noncomputable def oB (s : Option Bool) (n : α) (k : Bool → α) : α := @Option.rec Bool (fun _ => α) n k s

theorem oB_eq (s : Option Bool) (n : α) (k : Bool → α) : oB s n k = (s.map k).getD n := by cases s <;> rfl

noncomputable def notF (s : Option Bool) (k : Option Bool → α) : α :=
  oB s (k none) fun b => fB b (k (some false)) (k (some true))

theorem notF_eq (s : Option Bool) (k : Option Bool → α) : notF s k = k (notS s) := by
  rcases s with _ | _ | _ <;> rfl

noncomputable def xorF (s t : Option Bool) (k : Option Bool → α) : α :=
  oB s (k none) fun a => oB t (k none) fun b =>
    fB a (fB b (k (some false)) (k (some true))) (fB b (k (some true)) (k (some false)))

theorem xorF_eq (s t : Option Bool) (k : Option Bool → α) : xorF s t k = k (xorS s t) := by
  rcases s with _ | _ | _ <;> rcases t with _ | _ | _ <;> rfl

noncomputable def ofRatF (n : Int) (d : Nat) (z : α) (k : AVal → α) : α :=
  fB (Nat.beq d 0) z (fB (isZ n) (k (zero (some false))) (Mono.reduceF n d 1 [] [] [[1]] fun m => k (fin m)))

theorem ofRatF_eq (n : Int) (d : Nat) (z : α) (k : AVal → α) : ofRatF n d z k = ((ofRat n d).map k).getD z := by
  simp only [ofRatF, fB_eq, Mono.reduceF_eq, ofRat]
  by_cases h1 : d = 0
  · rw [if_pos (by simpa using h1), if_pos h1]; rfl
  · rw [if_neg (by simpa using h1), if_neg h1]
    by_cases h2 : n = 0
    · rw [if_pos ((isZ_iff _).2 h2), if_pos h2]; rfl
    · rw [if_neg (fun h' => h2 ((isZ_iff _).1 h')), if_neg h2]; rfl

noncomputable def negF (a : AVal) (k : AVal → α) : α :=
  cases' a (fun m => Mono.negF m fun m => k (fin m)) (fun s => notF s fun s => k (zero s))
    (fun s => notF s fun s => k (inf s)) (k nan)

theorem negF_eq (a : AVal) (k : AVal → α) : negF a k = k a.neg := by
  cases a <;> simp only [negF, cases', Mono.negF_eq, notF_eq] <;> rfl

noncomputable def mulF (a b : AVal) (z : α) (k : AVal → α) : α :=
  cases' a
    (fun m => cases' b (fun m' => Mono.mulF m m' fun m => k (fin m))
      (fun s => Mono.sgnF m fun t => xorF s t fun s => k (zero s))
      (fun s => Mono.sgnF m fun t => oB t z fun _ => xorF s t fun s => k (inf s)) (k nan))
    (fun s => cases' b (fun m => Mono.sgnF m fun t => xorF s t fun s => k (zero s))
      (fun t => xorF s t fun s => k (zero s)) (fun _ => k nan) (k nan))
    (fun s => cases' b (fun m => Mono.sgnF m fun t => oB t z fun _ => xorF s t fun s => k (inf s))
      (fun _ => k nan) (fun t => xorF s t fun s => k (inf s)) (k nan))
    (k nan)

theorem mulF_eq (a b : AVal) (z : α) (k : AVal → α) : mulF a b z k = ((a.mul b).map k).getD z := by
  cases a with
  | fin m =>
    cases b with
    | inf s =>
      simp only [mulF, cases', Mono.sgnF_eq, xorF_eq, oB_eq, mul]
      cases m.sgn <;> rfl
    | _ => simp only [mulF, cases', Mono.mulF_eq, Mono.sgnF_eq, xorF_eq, mul] <;> rfl
  | zero s => cases b <;> simp only [mulF, cases', Mono.sgnF_eq, xorF_eq, mul] <;> rfl
  | inf s =>
    cases b with
    | fin m =>
      simp only [mulF, cases', Mono.sgnF_eq, xorF_eq, oB_eq, mul]
      cases m.sgn <;> rfl
    | _ => simp only [mulF, cases', Mono.mulF_eq, Mono.sgnF_eq, xorF_eq, mul] <;> rfl
  | nan => rfl

noncomputable def invF (a : AVal) (z : α) (k : AVal → α) : α :=
  cases' a (fun m => Mono.invF m z fun m => k (fin m)) (fun s => k (inf s)) (fun s => k (zero s)) (k nan)

theorem invF_eq (a : AVal) (z : α) (k : AVal → α) : invF a z k = ((a.inv).map k).getD z := by
  cases a with
  | fin m =>
    simp only [invF, cases', Mono.invF_eq, inv]
    cases m.inv <;> rfl
  | _ => rfl

noncomputable def addZF (s t : Option Bool) (k : Option Bool → α) : α :=
  oB s (oB t (k none) fun b => fB b (k none) (k (some false)))
    fun a => fB a (oB t (k none) fun b => k (some b)) (k (some false))

theorem addZF_eq (s t : Option Bool) (k : Option Bool → α) : addZF s t k = k (addZ s t) := by
  rcases s with _ | _ | _ <;> rcases t with _ | _ | _ <;> rfl

noncomputable def addF (a b : AVal) (z : α) (k : AVal → α) : α :=
  cases' a
    (fun m => cases' b
      (fun m' => Mono.addF m m' z (Mono.sgnF m fun s => oB s (k (zero none)) fun _ =>
        Mono.sgnF m' fun t => oB t (k (zero none)) fun _ => k (zero (some false))) fun m => k (fin m))
      (fun _ => k (fin m)) (fun s => k (inf s)) (k nan))
    (fun s => cases' b (fun m => k (fin m)) (fun t => addZF s t fun s => k (zero s)) (fun s => k (inf s)) (k nan))
    (fun s => cases' b (fun _ => k (inf s)) (fun _ => k (inf s))
      (fun t => oB s z fun a => oB t z fun b => fB a (fB b (k (inf (some true))) (k nan)) (fB b (k nan) (k (inf (some false)))))
      (k nan))
    (k nan)

theorem addF_eq (a b : AVal) (z : α) (k : AVal → α) : addF a b z k = ((a.add b).map k).getD z := by
  cases a with
  | fin m =>
    cases b with
    | fin m' =>
      simp only [addF, cases', Mono.addF_eq, Mono.sgnF_eq, oB_eq, add]
      cases m.add m' with
      | none => rfl
      | some o =>
        cases o with
        | none => cases m.sgn <;> cases m'.sgn <;> rfl
        | some _ => rfl
    | _ => rfl
  | zero s => cases b <;> simp only [addF, cases', addZF_eq, add] <;> rfl
  | inf s =>
    cases b with
    | inf t => rcases s with _ | _ | _ <;> rcases t with _ | _ | _ <;> rfl
    | _ => rfl
  | nan => rfl

noncomputable def sqrtF (a : AVal) (z : α) (k : AVal → α) : α :=
  cases' a (fun m => Mono.sgnF m fun s => oB s z fun b => fB b (k nan) (Mono.sqrtF m z fun m => k (fin m)))
    (fun s => k (zero s)) (fun s => oB s z fun b => fB b (k nan) (k (inf (some false)))) (k nan)

theorem sqrtF_eq (a : AVal) (z : α) (k : AVal → α) : sqrtF a z k = ((a.sqrt).map k).getD z := by
  cases a with
  | fin m =>
    simp only [sqrtF, cases', Mono.sgnF_eq, oB_eq, sqrt, Mono.sqrtF_eq, fB_eq]
    rcases m.sgn with _ | _ | _
    · rfl
    · simp only [Option.map_some, Option.getD_some, Bool.false_eq_true, if_false]
      cases m.sqrt <;> rfl
    · rfl
  | zero s => rfl
  | inf s => rcases s with _ | _ | _ <;> rfl
  | nan => rfl

noncomputable def powF (a : AVal) (n : Nat) (z : α) : (AVal → α) → α :=
  @Nat.rec (fun _ => (AVal → α) → α) (fun k => k (fin (.const 1 1)))
    (fun n ih k => @Nat.rec (fun _ => α) (k a) (fun _ _ => ih fun b => mulF b a z k) n) n

theorem powF_eq (a : AVal) (n : Nat) (z : α) (k : AVal → α) : powF a n z k = ((a.pow n).map k).getD z := by
  induction n generalizing k with
  | zero => rfl
  | succ n ih =>
    cases n with
    | zero => rfl
    | succ n =>
      show powF a (n + 1) z (fun b => mulF b a z k) = _
      rw [ih, pow]
      cases a.pow (n + 1) with
      | none => rfl
      | some b => simp only [Option.map_some, Option.getD_some, mulF_eq]

noncomputable def hpowF (a : AVal) (n : Nat) (z : α) (k : AVal → α) : α :=
  cases' a (fun m => Mono.sgnF m fun s => oB s z fun b => fB b (k nan)
      (Mono.sqrtF m z fun q => powF (fin q) (Nat.succ (Nat.mul 2 n)) z k))
    (fun _ => k (zero (some false))) (fun _ => k (inf (some false))) (k nan)

theorem hpowF_eq (a : AVal) (n : Nat) (z : α) (k : AVal → α) : hpowF a n z k = ((a.hpow n).map k).getD z := by
  cases a with
  | fin m =>
    simp only [hpowF, cases', Mono.sgnF_eq, oB_eq, hpow, Mono.sqrtF_eq, fB_eq, powF_eq]
    rcases m.sgn with _ | _ | _
    · rfl
    · simp only [Option.map_some, Option.getD_some, Bool.false_eq_true, if_false]
      cases m.sqrt <;> rfl
    · rfl
  | _ => rfl

end AVal

/-- Use an optional value. -/
noncomputable def fO (o : Option AVal) (z : α) (k : AVal → α) : α := @Option.rec AVal (fun _ => α) z k o

theorem fO_eq (o : Option AVal) (z : α) (k : AVal → α) : fO o z k = (o.map k).getD z := by cases o <;> rfl

/-- `Ex.norm`. -/
noncomputable def Ex.normF (env : Nat → Option AVal) (e : Ex) : Option AVal :=
  @Ex.rec (fun _ => Option AVal)
    (fun n d => fI n fun n => fN d fun d => AVal.ofRatF n d none some)
    (fun v => env v)
    (fun _ a => fO a none fun a => AVal.negF a some)
    (fun _ _ a b => fO a none fun a => fO b none fun b => AVal.addF a b none some)
    (fun _ _ a b => fO a none fun a => fO b none fun b => AVal.negF b fun b => AVal.addF a b none some)
    (fun _ _ a b => fO a none fun a => fO b none fun b => AVal.mulF a b none some)
    (fun _ _ a b => fO a none fun a => fO b none fun b => AVal.invF b none fun b => AVal.mulF a b none some)
    (fun _ n a => fO a none fun a => AVal.powF a n none some)
    (fun _ n a => fO a none fun a => AVal.powF a n none fun b => AVal.invF b none some)
    (fun _ n a => fO a none fun a => AVal.hpowF a n none some)
    (fun _ a => fO a none fun a => AVal.sqrtF a none some) e

private theorem some_map (o : Option AVal) : (o.map some).getD none = o := by cases o <;> rfl

theorem Ex.normF_eq (env : Nat → Option AVal) (e : Ex) : e.normF env = e.norm env := by
  induction e with
  | num n d =>
    show (fI n fun n => fN d fun d => AVal.ofRatF n d none some) = _
    rw [fI_eq, fN_eq, AVal.ofRatF_eq, some_map]; rfl
  | var v => rfl
  | neg a ih =>
    show (fO (a.normF env) none fun a => AVal.negF a some) = _
    rw [ih, fO_eq, norm]; cases a.norm env <;> simp [AVal.negF_eq]
  | add a b iha ihb =>
    show (fO (a.normF env) none fun a => fO (b.normF env) none fun b => AVal.addF a b none some) = _
    rw [iha, ihb, fO_eq, norm]
    cases a.norm env <;> cases b.norm env <;> simp [fO_eq, AVal.addF_eq, some_map]
  | sub a b iha ihb =>
    show (fO (a.normF env) none fun a => fO (b.normF env) none fun b => AVal.negF b fun b => AVal.addF a b none some) = _
    rw [iha, ihb, fO_eq, norm]
    cases a.norm env <;> cases b.norm env <;> simp [fO_eq, AVal.addF_eq, AVal.negF_eq, some_map]
  | mul a b iha ihb =>
    show (fO (a.normF env) none fun a => fO (b.normF env) none fun b => AVal.mulF a b none some) = _
    rw [iha, ihb, fO_eq, norm]
    cases a.norm env <;> cases b.norm env <;> simp [fO_eq, AVal.mulF_eq, some_map]
  | div a b iha ihb =>
    show (fO (a.normF env) none fun a => fO (b.normF env) none fun b => AVal.invF b none fun b => AVal.mulF a b none some) = _
    rw [iha, ihb, fO_eq, norm]
    cases a.norm env with
    | none => cases b.norm env <;> rfl
    | some x =>
      cases b.norm env with
      | none => rfl
      | some y =>
        simp only [Option.map_some, Option.getD_some, fO_eq, AVal.invF_eq, AVal.mulF_eq, some_map]
        cases y.inv <;> rfl
  | pow a n ih =>
    show (fO (a.normF env) none fun a => AVal.powF a n none some) = _
    rw [ih, fO_eq, norm]; cases a.norm env <;> simp [AVal.powF_eq, some_map]
  | ipow a n ih =>
    show (fO (a.normF env) none fun a => AVal.powF a n none fun b => AVal.invF b none some) = _
    rw [ih, fO_eq, norm]
    cases a.norm env with
    | none => rfl
    | some x =>
      simp only [Option.map_some, Option.getD_some, AVal.powF_eq, AVal.invF_eq, some_map, Option.bind_some]
      cases x.pow n <;> rfl
  | hpow a n ih =>
    show (fO (a.normF env) none fun a => AVal.hpowF a n none some) = _
    rw [ih, fO_eq, norm]; cases a.norm env <;> simp [AVal.hpowF_eq, some_map]
  | sqrt a ih =>
    show (fO (a.normF env) none fun a => AVal.sqrtF a none some) = _
    rw [ih, fO_eq, norm]; cases a.norm env <;> simp [AVal.sqrtF_eq, some_map]

end Verif.Coef
