import Verif.Coef.TableSound
/-!
# Small spins one by one, all others at once
-/

namespace Verif.Coef
open Verif.Invar Verif.Symm Verif.Oper

/-- Odd multiplicities `1, 3, …, 2k-1`, and all from `2k+1`. -/
def regsVT (k : Nat) : List Reg := ((List.range k).map fun i => .conc (2 * i + 1)) ++ [.genV (2 * k + 1)]

/-- The regimes for all labels, from those of the spins in order. -/
def regsOf : List Field → List (List Reg) → List (List (Option Reg))
  | [], _ => [[]]
  | f :: fs, us =>
    if spinTest f.test then
      match us with
      | l :: us => l.flatMap fun r => (regsOf fs us).map (some r :: ·)
      | [] => (regsOf fs []).map (none :: ·)
    else (regsOf fs us).map (none :: ·)

/-- The list of regimes contains the multiplicity `y`; `V`: which of the two variables. -/
def Cov (V : Bool) (l : List Reg) (y : Int) : Prop :=
  ∃ w : ℝ, 0 ≤ w ∧ ∀ u v : ℝ, (if V then v else u) = w → ∃ r ∈ l, r.Holds u v y

/-- All spins of the label are in the regimes. -/
def SpinsCov : List Field → List (Bool × List Reg) → Label → Prop
  | f :: fs, us, x :: I =>
    if spinTest f.test then
      match us with
      | (V, l) :: us => Cov V l (spinY f.test x) ∧ SpinsCov fs us I
      | [] => False
    else SpinsCov fs us I
  | [], _, [] => True
  | _, _, _ => False

theorem spinTest_isSpin (t : Test) : spinTest t = Test.isSpin t := by cases t <;> rfl

theorem spinsCov_match {fs : List Field} {us : List (Bool × List Reg)} {I : Label} (h : SpinsCov fs us I)
    (hu : (us.map Prod.fst).Nodup) : ∃ a b : ℝ, 0 ≤ a ∧ 0 ≤ b ∧
      ∀ u v, (false ∈ us.map Prod.fst → u = a) → (true ∈ us.map Prod.fst → v = b) →
        ∃ rs ∈ regsOf fs (us.map Prod.snd), Match u v fs rs I := by
  induction fs generalizing us I with
  | nil =>
    cases I with
    | nil => exact ⟨0, 0, le_refl _, le_refl _, fun u v _ _ => ⟨[], by simp [regsOf], trivial⟩⟩
    | cons x I => exact absurd h (by simp [SpinsCov])
  | cons f fs ih =>
    cases I with
    | nil => exact absurd h (by simp [SpinsCov])
    | cons x I =>
      simp only [SpinsCov] at h
      by_cases hs : spinTest f.test = true
      · rw [if_pos hs] at h
        match us, h, hu with
        | (V, l) :: us, h, hu =>
          obtain ⟨⟨w, hw, hc⟩, h2⟩ := h
          simp only [List.map_cons, List.nodup_cons] at hu
          obtain ⟨a, b, ha, hb, hm⟩ := ih h2 hu.2
          have fin : ∀ u v, (if V then v else u) = w → (∃ rs ∈ regsOf fs (us.map Prod.snd), Match u v fs rs I) →
              ∃ rs ∈ regsOf (f :: fs) (((V, l) :: us).map Prod.snd), Match u v (f :: fs) rs (x :: I) := by
            rintro u v huv ⟨rs, hrs, hmr⟩
            obtain ⟨r, hr, hh⟩ := hc u v huv
            refine ⟨some r :: rs, ?_, ?_, hmr⟩
            · simp only [List.map_cons, regsOf, if_pos hs]
              exact List.mem_flatMap.2 ⟨r, hr, List.mem_map.2 ⟨rs, hrs, rfl⟩⟩
            · rintro r' e
              cases e
              exact ⟨by rw [← spinTest_isSpin]; exact hs, hh⟩
          cases V with
          | false =>
            refine ⟨w, b, hw, hb, fun u v h1 h2 => fin u v ?_ (hm u v ?_ ?_)⟩
            · simpa using h1 (by simp)
            · intro e; exact absurd e hu.1
            · intro e; exact h2 (by simp [e])
          | true =>
            refine ⟨a, w, ha, hw, fun u v h1 h2 => fin u v ?_ (hm u v ?_ ?_)⟩
            · simpa using h2 (by simp)
            · intro e; exact h1 (by simp [e])
            · intro e; exact absurd e hu.1
      · rw [if_neg hs] at h
        obtain ⟨a, b, ha, hb, hm⟩ := ih h hu
        refine ⟨a, b, ha, hb, fun u v h1 h2 => ?_⟩
        obtain ⟨rs, hrs, hmr⟩ := hm u v h1 h2
        refine ⟨none :: rs, ?_, ?_, hmr⟩
        · simp only [regsOf, if_neg hs]
          exact List.mem_map.2 ⟨rs, hrs, rfl⟩
        · rintro r' e
          cases e

/-! ### The regimes in use -/

theorem cov_regsV (y0 : Nat) (hy0 : 1 ≤ y0) {y : Int} (hy : 1 ≤ y) : Cov true (regsV y0) y := by
  by_cases h : y < y0
  · refine ⟨0, le_refl _, fun u v _ => ⟨.conc y.toNat, ?_, ?_⟩⟩
    · refine List.mem_append_left _ (List.mem_map.2 ⟨y.toNat - 1, List.mem_range.2 (by omega), ?_⟩)
      congr 1; omega
    · show y = (y.toNat : Int); omega
  · refine ⟨(y : ℝ) - y0, ?_, fun u v hv => ⟨.genV y0, List.mem_append_right _ (by simp), ?_⟩⟩
    · have : ((y0 : Int) : ℝ) ≤ (y : ℝ) := by exact_mod_cast not_lt.1 h
      push_cast at this; linarith
    · show (y : ℝ) = y0 + v
      simp only [if_true] at hv; linarith

theorem cov_regsU (y0 : Nat) (hy0 : 1 ≤ y0) {y : Int} (hy : 1 ≤ y) : Cov false (regsU y0) y := by
  by_cases h : y < y0
  · refine ⟨0, le_refl _, fun u v _ => ⟨.conc y.toNat, ?_, ?_⟩⟩
    · refine List.mem_append_left _ (List.mem_map.2 ⟨y.toNat - 1, List.mem_range.2 (by omega), ?_⟩)
      congr 1; omega
    · show y = (y.toNat : Int); omega
  · refine ⟨(y : ℝ) - y0, ?_, fun u v hv => ⟨.genU y0, List.mem_append_right _ (by simp), ?_⟩⟩
    · have : ((y0 : Int) : ℝ) ≤ (y : ℝ) := by exact_mod_cast not_lt.1 h
      push_cast at this; linarith
    · show (y : ℝ) = y0 + u
      simp only [Bool.false_eq_true, if_false] at hv; linarith

theorem cov_regsVT (k : Nat) {x : Int} (hy : 1 ≤ spinY .su2T x) : Cov true (regsVT k) (spinY .su2T x) := by
  simp only [spinY] at *
  by_cases h : x < k
  · refine ⟨0, le_refl _, fun u v _ => ⟨.conc (2 * x.toNat + 1), ?_, ?_⟩⟩
    · exact List.mem_append_left _ (List.mem_map.2 ⟨x.toNat, List.mem_range.2 (by omega), rfl⟩)
    · show (2 * x + 1 : Int) = ((2 * x.toNat + 1 : Nat) : Int); omega
  · refine ⟨((2 * x + 1 : Int) : ℝ) - (2 * k + 1 : Nat), ?_, fun u v hv => ⟨.genV (2 * k + 1), List.mem_append_right _ (by simp), ?_⟩⟩
    · have : (((2 * k + 1 : Nat) : Int) : ℝ) ≤ ((2 * x + 1 : Int) : ℝ) := by
        have : (((2 * k + 1 : Nat) : Int)) ≤ (2 * x + 1 : Int) := by omega
        exact_mod_cast this
      push_cast at this ⊢; linarith
    · show ((2 * x + 1 : Int) : ℝ) = ((2 * k + 1 : Nat) : ℝ) + v
      simp only [if_true] at hv; linarith

/-- All spins are at least zero. -/
def PosSpins : List Field → Label → Prop
  | f :: fs, x :: I => (spinTest f.test = true → 1 ≤ spinY f.test x) ∧ PosSpins fs I
  | [], [] => True
  | _, _ => False

theorem triangle_pos {fs : List Field} {I A c : Label} (h : triangle fs I A c = true) (hl : I.length = fs.length)
    (hA : A.length = fs.length) (hc : c.length = fs.length) : PosSpins fs I := by
  induction fs generalizing I A c with
  | nil => cases I <;> simp_all [PosSpins]
  | cons f fs ih =>
    cases I <;> cases A <;> cases c <;> simp only [List.length_cons, List.length_nil, Nat.add_right_cancel_iff] at hl hA hc <;>
      try omega
    simp only [triangle, Bool.and_eq_true] at h
    refine ⟨fun hs => ?_, ih h.2 hl hA hc⟩
    have h1 := h.1
    cases ht : f.test <;> rw [ht] at hs h1 <;> simp [spinTest] at hs
    · simp only [evalTest, su2Triangle_iff, SpinsCouple, abs_le] at h1
      simp only [spinY]; omega
    · simp only [evalTest, su2Triangle_iff, SpinsCouple, abs_le] at h1
      simp only [spinY]; omega

/-! ### Running the checks -/

noncomputable def fDisp {α : Type} (p : Label × Label) (k : Label × Label → α) : α :=
  @Prod.rec Label Label (fun _ => α) (fun a b => fL fI a fun a => fL fI b fun b => k (a, b)) p

theorem fDisp_eq {α : Type} (p : Label × Label) (k : Label × Label → α) : fDisp p k = k p := by
  cases p; simp only [fDisp, fL_eq fI_eq]

/-- All identities of all kinds of multiplets in all regimes. -/
noncomputable def runOk (T : OpTable) (P : Plan) (fs : List Field) (fac : List Ex) (regs : List (List (Option Reg))) : Bool :=
  fL fDisp ((dispsOf T).getD []) fun ds => allB (mtypeOk fs fac ds regs) P.mts

/-- The identities hold in all regimes. -/
def RunHolds (T : OpTable) (P : Plan) (fs : List Field) (fac : List Ex) (regs : List (List (Option Reg))) : Prop :=
  ∀ m ∈ P.mts, ∀ rs ∈ regs, ∀ it ∈ items (types fs) ((dispsOf T).getD []) m, itemOk fs fac rs it = true

theorem runOk_holds {T : OpTable} {P : Plan} {fs : List Field} {fac : List Ex} {regs : List (List (Option Reg))}
    (hr : runOk T P fs fac regs = true) : RunHolds T P fs fac regs := by
  rw [runOk, fL_eq fDisp_eq, allB_eq, List.all_eq_true] at hr
  exact fun m hm => mtypeOk_spec (hr m hm)

/-- The identities of kind `i` of the multiplets. -/
noncomputable def runPart (T : OpTable) (P : Plan) (fs : List Field) (fac : List Ex) (i : Nat)
    (regs : List (List (Option Reg))) : Bool :=
  fL fDisp ((dispsOf T).getD []) fun ds => allB (mtypeOk fs fac ds regs) ((P.mts.drop i).take 1)

theorem runPart_holds {T : OpTable} {P : Plan} {fs : List Field} {fac : List Ex} {regs : List (List (Option Reg))} {n : Nat}
    (hn : P.mts.length = n) (hr : ∀ i < n, ∀ rs ∈ regs, ∃ regs', runPart T P fs fac i regs' = true ∧ rs ∈ regs') :
    RunHolds T P fs fac regs := by
  intro m hm rs hrs
  obtain ⟨i, hi, rfl⟩ := List.mem_iff_getElem.1 hm
  obtain ⟨regs', h1, h2⟩ := hr i (by omega) rs hrs
  rw [runPart, fL_eq fDisp_eq, allB_eq, List.all_eq_true] at h1
  refine mtypeOk_spec (h1 P.mts[i] ?_) rs h2
  have e : P.mts.drop i = P.mts[i] :: P.mts.drop (i + 1) := List.drop_eq_getElem_cons hi
  rw [e]
  exact List.mem_cons_self

theorem orthonormal_of_run {T : OpTable} {P : Plan} {fs : List Field} {fac : List Ex} {regs : List (List (Option Reg))}
    (hp : planOk T P = true) (hr : RunHolds T P fs fac regs) (hfs : T.builtin.sym.fields = fs)
    (hfac : factorsOf T.builtin.symtype = fac) {I : Label} (hI : Valid (types T.builtin.sym.fields) I)
    (hz : T.builtin.symtype = "NONE" → I = [0]) {u v : ℝ} (hu : 0 ≤ u) (hv : 0 ≤ v) {rs : List (Option Reg)}
    (hrs : rs ∈ regs) (hm : Match u v fs rs I) : Orthonormal T (T.factor I) I := by
  obtain ⟨ds, h⟩ := planOk_spec hp
  subst hfs
  rw [RunHolds, h.disps, Option.getD_some] at hr
  refine orthonormal_of_good h hI hz fun m hm' => good_of_items fun it hit => ?_
  have := itemOk_sound hu hv hm (hr m hm' rs hrs it hit)
  rw [← hfac] at this
  exact this

/-- A label with a negative spin is never reached. -/
theorem orthonormal_of_pos {T : OpTable} {P : Plan} {F : Nat → FVal} {I : Label} (hp : planOk T P = true)
    (hI : Valid (types T.builtin.sym.fields) I)
    (h : PosSpins T.builtin.sym.fields I → Orthonormal T F I) : Orthonormal T F I := by
  intro i1 i2 B h1 h2
  refine h ?_ i1 i2 B h1 h2
  obtain ⟨ds, hs⟩ := planOk_spec hp
  obtain ⟨A, _, h3, hA, _⟩ := h1
  simp only [couplesTo, Bool.and_eq_true] at h3
  cases hr : T.builtin.sym.table[i1 - 1]? with
  | none => rw [hr] at h3; exact absurd h3.2 (by simp)
  | some r =>
    rw [hr] at h3
    obtain ⟨mi, m, base, a, hc⟩ := hs.combs _ _ hr
    have l1 := hI.length_eq
    have l2 := hA.length_eq
    simp only [types, List.length_map] at l1 l2
    exact triangle_pos h3.2 l1.symm l2.symm hc.len2

/-! ### Complete lists of regimes -/

/-- The regimes contain all labels whose spins are at least zero, except those excluded
by `ex` (a list for every spin). -/
def UsOk : List Field → List (Bool × List Reg) → List (List Int) → Prop
  | f :: fs, us, ex =>
    if spinTest f.test then
      match us, ex with
      | (V, l) :: us, e :: ex => (∀ x, 1 ≤ spinY f.test x → spinY f.test x ∉ e → Cov V l (spinY f.test x)) ∧ UsOk fs us ex
      | _, _ => False
    else UsOk fs us ex
  | [], _, _ => True

/-- No spin is excluded. -/
def NotEx : List Field → List (List Int) → Label → Prop
  | f :: fs, ex, x :: I =>
    if spinTest f.test then
      match ex with
      | e :: ex => spinY f.test x ∉ e ∧ NotEx fs ex I
      | [] => True
    else NotEx fs ex I
  | _, _, _ => True

theorem usOk_nil {us : List (Bool × List Reg)} {ex : List (List Int)} : UsOk [] us ex := trivial

theorem usOk_skip {f : Field} {fs : List Field} {us : List (Bool × List Reg)} {ex : List (List Int)}
    (hf : spinTest f.test = false) (h : UsOk fs us ex) : UsOk (f :: fs) us ex := by
  simp only [UsOk, hf]; exact h

theorem usOk_V {f : Field} {fs : List Field} {us : List (Bool × List Reg)} {ex : List (List Int)} (y0 : Nat)
    (hf : f.test = .su2) (hy : 1 ≤ y0) (h : UsOk fs us ex) : UsOk (f :: fs) ((true, regsV y0) :: us) ([] :: ex) := by
  simp only [UsOk, hf]
  exact ⟨fun x hx _ => cov_regsV y0 hy hx, h⟩

theorem usOk_U {f : Field} {fs : List Field} {us : List (Bool × List Reg)} {ex : List (List Int)} (y0 : Nat)
    (hf : f.test = .su2) (hy : 1 ≤ y0) (h : UsOk fs us ex) : UsOk (f :: fs) ((false, regsU y0) :: us) ([] :: ex) := by
  simp only [UsOk, hf]
  exact ⟨fun x hx _ => cov_regsU y0 hy hx, h⟩

theorem usOk_VT {f : Field} {fs : List Field} {us : List (Bool × List Reg)} {ex : List (List Int)} (k : Nat)
    (hf : f.test = .su2T) (h : UsOk fs us ex) : UsOk (f :: fs) ((true, regsVT k) :: us) ([] :: ex) := by
  simp only [UsOk, hf]
  exact ⟨fun x hx _ => cov_regsVT k hx, h⟩

/-- The regime of a multiplicity that is not excluded. -/
def keepReg (e : List Int) : Reg → Bool
  | .conc y => !(e.contains (y : Int))
  | _ => true

theorem cov_filter {V : Bool} {l : List Reg} {e : List Int} {y : Int} (h : Cov V l y) (hy : y ∉ e) :
    Cov V (l.filter (keepReg e)) y := by
  obtain ⟨w, hw, h⟩ := h
  refine ⟨w, hw, fun u v huv => ?_⟩
  obtain ⟨r, hr, hh⟩ := h u v huv
  refine ⟨r, List.mem_filter.2 ⟨hr, ?_⟩, hh⟩
  cases r with
  | conc y' =>
    have hh : y = (y' : Int) := hh
    subst hh
    simpa [keepReg] using hy
  | genU _ => rfl
  | genV _ => rfl

theorem usOk_VE {f : Field} {fs : List Field} {us : List (Bool × List Reg)} {ex : List (List Int)} (y0 : Nat) (e : List Int)
    (hf : f.test = .su2) (hy : 1 ≤ y0) (h : UsOk fs us ex) :
    UsOk (f :: fs) ((true, (regsV y0).filter (keepReg e)) :: us) (e :: ex) := by
  simp only [UsOk, hf]
  exact ⟨fun x hx hxe => cov_filter (cov_regsV y0 hy hx) hxe, h⟩

theorem usOk_UE {f : Field} {fs : List Field} {us : List (Bool × List Reg)} {ex : List (List Int)} (y0 : Nat) (e : List Int)
    (hf : f.test = .su2) (hy : 1 ≤ y0) (h : UsOk fs us ex) :
    UsOk (f :: fs) ((false, (regsU y0).filter (keepReg e)) :: us) (e :: ex) := by
  simp only [UsOk, hf]
  exact ⟨fun x hx hxe => cov_filter (cov_regsU y0 hy hx) hxe, h⟩

theorem spinsCov_of_usOk {fs : List Field} {us : List (Bool × List Reg)} {ex : List (List Int)} {I : Label}
    (h : UsOk fs us ex) (hI : PosSpins fs I) (he : NotEx fs ex I) : SpinsCov fs us I := by
  induction fs generalizing us ex I with
  | nil => cases I <;> simp_all [PosSpins, SpinsCov]
  | cons f fs ih =>
    cases I with
    | nil => simp [PosSpins] at hI
    | cons x I =>
      simp only [UsOk] at h
      simp only [NotEx] at he
      simp only [SpinsCov]
      by_cases hs : spinTest f.test = true
      · rw [if_pos hs] at h he ⊢
        match us, ex, h, he with
        | (V, l) :: us, e :: ex, h, he => exact ⟨h.1 x (hI.1 hs) he.1, ih h.2 hI.2 he.2⟩
      · rw [if_neg hs] at h he ⊢
        exact ih h hI.2 he

theorem orthonormal_of_cov {T : OpTable} {P : Plan} {fs : List Field} {fac : List Ex} {us : List (Bool × List Reg)}
    (hp : planOk T P = true) (hr : RunHolds T P fs fac (regsOf fs (us.map Prod.snd)))
    (hu : (us.map Prod.fst).Nodup) (hfs : T.builtin.sym.fields = fs) (hfac : factorsOf T.builtin.symtype = fac)
    {I : Label} (hI : Valid (types T.builtin.sym.fields) I) (hz : T.builtin.symtype = "NONE" → I = [0])
    (hc : SpinsCov fs us I) : Orthonormal T (T.factor I) I := by
  obtain ⟨a, b, ha, hb, hm⟩ := spinsCov_match hc hu
  obtain ⟨rs, hrs, hmm⟩ := hm a b (fun _ => rfl) (fun _ => rfl)
  exact orthonormal_of_run hp hr hfs hfac hI hz ha hb hrs hmm

theorem orthonormal_of_us {T : OpTable} {P : Plan} {fs : List Field} {fac : List Ex} {us : List (Bool × List Reg)}
    {ex : List (List Int)} (hp : planOk T P = true) (hr : RunHolds T P fs fac (regsOf fs (us.map Prod.snd)))
    (hu : (us.map Prod.fst).Nodup) (hc : UsOk fs us ex) (hfs : T.builtin.sym.fields = fs)
    (hfac : factorsOf T.builtin.symtype = fac) {I : Label} (hI : Valid (types T.builtin.sym.fields) I)
    (hz : T.builtin.symtype = "NONE" → I = [0]) (he : NotEx fs ex I) : Orthonormal T (T.factor I) I :=
  orthonormal_of_pos hp hI fun hpos => orthonormal_of_cov hp hr hu hfs hfac hI hz
    (spinsCov_of_usOk hc (hfs ▸ hpos) he)

theorem notEx_nil (fs : List Field) {ex : List (List Int)} (h : ∀ e ∈ ex, e = []) (I : Label) : NotEx fs ex I := by
  induction fs generalizing ex I with
  | nil => exact trivial
  | cons f fs ih =>
    cases I with
    | nil => exact trivial
    | cons x I =>
      simp only [NotEx]
      split
      · match ex, h with
        | [], _ => trivial
        | e :: ex, h =>
          refine ⟨?_, ih (fun e' he' => h e' (List.mem_cons_of_mem _ he')) I⟩
          rw [h e List.mem_cons_self]; simp
      · exact ih h I

/-- The factors of a table are orthonormal for every bra label without the excluded
multiplicities of spins. -/
def OrthonormalUnless (T : OpTable) (ex : List (List Int)) : Prop := ∀ I, Valid (types T.builtin.sym.fields) I →
  (T.builtin.symtype = "NONE" → I = [0]) → NotEx T.builtin.sym.fields ex I → Orthonormal T (T.factor I) I

/-- The factors of a table are orthonormal for every bra label. -/
def AllOrthonormal (T : OpTable) : Prop := ∀ I, Valid (types T.builtin.sym.fields) I →
  (T.builtin.symtype = "NONE" → I = [0]) → Orthonormal T (T.factor I) I

theorem allOrthonormal_of {T : OpTable} {P : Plan} {fs : List Field} {fac : List Ex} {us : List (Bool × List Reg)}
    {ex : List (List Int)} (hp : planOk T P = true) (hr : RunHolds T P fs fac (regsOf fs (us.map Prod.snd)))
    (hu : (us.map Prod.fst).Nodup) (hc : UsOk fs us ex) (he : ∀ e ∈ ex, e = []) (hfs : T.builtin.sym.fields = fs)
    (hfac : factorsOf T.builtin.symtype = fac) : AllOrthonormal T := fun I hI hz =>
  orthonormal_of_us hp hr hu hc hfs hfac hI hz (notEx_nil fs he I)

theorem orthonormalUnless_of {T : OpTable} {P : Plan} {fs : List Field} {fac : List Ex} {us : List (Bool × List Reg)}
    {ex : List (List Int)} (hp : planOk T P = true) (hr : RunHolds T P fs fac (regsOf fs (us.map Prod.snd)))
    (hu : (us.map Prod.fst).Nodup) (hc : UsOk fs us ex) (hfs : T.builtin.sym.fields = fs)
    (hfac : factorsOf T.builtin.symtype = fac) : OrthonormalUnless T ex := fun I hI hz he =>
  orthonormal_of_us hp hr hu hc hfs hfac hI hz (hfs ▸ he)

/-- The part of the regimes with one given regime of the first spin. -/
theorem regsOf_split {f : Field} {fs : List Field} {l : List Reg} {us : List (List Reg)} {rs : List (Option Reg)}
    (hf : spinTest f.test = true) (h : rs ∈ regsOf (f :: fs) (l :: us)) :
    ∃ r ∈ l, rs ∈ regsOf (f :: fs) ([r] :: us) := by
  simp only [regsOf, hf, if_true, List.mem_flatMap] at h
  obtain ⟨r, hr, h⟩ := h
  exact ⟨r, hr, by simpa [regsOf, hf] using h⟩

theorem regsOf_split_skip {f : Field} {fs : List Field} {l : List Reg} {us : List (List Reg)} {rs : List (Option Reg)}
    (hf : spinTest f.test = false) (h : rs ∈ regsOf (f :: fs) (l :: us))
    (hs : ∀ rs, rs ∈ regsOf fs (l :: us) → ∃ r ∈ l, rs ∈ regsOf fs ([r] :: us)) :
    ∃ r ∈ l, rs ∈ regsOf (f :: fs) ([r] :: us) := by
  simp only [regsOf, hf, Bool.false_eq_true, if_false, List.mem_map] at h ⊢
  obtain ⟨t, ht, rfl⟩ := h
  obtain ⟨r, hr, h⟩ := hs t ht
  exact ⟨r, hr, t, h, rfl⟩

theorem factorsOf_DBLISOSZ : factorsOf "DBLISOSZ" = factors_DBLISOSZ := rfl
theorem factorsOf_DBLQSZ : factorsOf "DBLQSZ" = factors_DBLQSZ := rfl
theorem factorsOf_DBLSU2 : factorsOf "DBLSU2" = factors_DBLSU2 := rfl
theorem factorsOf_ISO : factorsOf "ISO" = factors_ISO := rfl
theorem factorsOf_ISO2 : factorsOf "ISO2" = factors_ISO2 := rfl
theorem factorsOf_ISOLR : factorsOf "ISOLR" = factors_ISOLR := rfl
theorem factorsOf_ISO2LR : factorsOf "ISO2LR" = factors_ISO2LR := rfl
theorem factorsOf_ISOSZ : factorsOf "ISOSZ" = factors_ISOSZ := rfl
theorem factorsOf_ISOSZLR : factorsOf "ISOSZLR" = factors_ISOSZLR := rfl
theorem factorsOf_NONE : factorsOf "NONE" = factors_NONE := rfl
theorem factorsOf_P : factorsOf "P" = factors_P := rfl
theorem factorsOf_QJ : factorsOf "QJ" = factors_QJ := rfl
theorem factorsOf_QS : factorsOf "QS" = factors_QS := rfl
theorem factorsOf_QSLR : factorsOf "QSLR" = factors_QSLR := rfl
theorem factorsOf_QST : factorsOf "QST" = factors_QST := rfl
theorem factorsOf_QSTZ : factorsOf "QSTZ" = factors_QSTZ := rfl
theorem factorsOf_QSZ : factorsOf "QSZ" = factors_QSZ := rfl
theorem factorsOf_QSZTZ : factorsOf "QSZTZ" = factors_QSZTZ := rfl
theorem factorsOf_SL : factorsOf "SL" = factors_SL := rfl
theorem factorsOf_SL3 : factorsOf "SL3" = factors_SL3 := rfl
theorem factorsOf_SPSU2 : factorsOf "SPSU2" = factors_SPSU2 := rfl
theorem factorsOf_SPSU2LR : factorsOf "SPSU2LR" = factors_SPSU2LR := rfl
theorem factorsOf_SPSU2T : factorsOf "SPSU2T" = factors_SPSU2T := rfl
theorem factorsOf_SPU1 : factorsOf "SPU1" = factors_SPU1 := rfl
theorem factorsOf_SPU1LR : factorsOf "SPU1LR" = factors_SPU1LR := rfl
theorem factorsOf_SU2 : factorsOf "SU2" = factors_SU2 := rfl
theorem factorsOf_U1 : factorsOf "U1" = factors_U1 := rfl

end Verif.Coef
