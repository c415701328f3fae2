import Verif.Symm.StructureSum
import Verif.Symm.Decomp
/-!
# C02-C05: coupling tests, ancestors, descendants, counting of states
-/

namespace Verif.Symm
open Verif.Invar

/-! ## C03 -/

/-- **C03.** The multiplicity test is the angular-momentum coupling rule. -/
theorem su2Triangle_spec (m1 m2 m3 : Int) : su2Triangle m1 m2 m3 = true ↔ SpinsCouple m1 m2 m3 :=
  su2Triangle_iff m1 m2 m3

/-- **C03.** The test is invariant under permutations of its arguments (the two
exchanges generate all permutations). -/
theorem su2Triangle_symm (a b c : Int) :
    su2Triangle a b c = su2Triangle b a c ∧ su2Triangle a b c = su2Triangle a c b := by
  constructor <;>
  · rw [Bool.eq_iff_iff, su2Triangle_iff, su2Triangle_iff]
    simp only [SpinsCouple, abs_le]
    omega

/-- **C03.** A non-positive multiplicity in any position is rejected. -/
theorem su2Triangle_rejects (a b c : Int) (h : a ≤ 0 ∨ b ≤ 0 ∨ c ≤ 0) : su2Triangle a b c = false := by
  rw [Bool.eq_false_iff, ne_eq, su2Triangle_iff]
  simp only [SpinsCouple]
  omega

/-- **C03.** The abelian tests accept exactly compositions. -/
theorem u1Equality_spec (a b c : Int) : u1Equality a b c = true ↔ Compose1 .additive b c a := by
  simp [u1Equality, Compose1]

theorem z2Equality_spec (a b c : Int) : z2Equality a b c = true ↔ Compose1 .multiplicative b c a := by
  simp [z2Equality, Compose1]

theorem c3Equality_spec (a b c : Int) (hb : Valid1 .mod3 b) (hc : Valid1 .mod3 c) :
    c3Equality a b c = true ↔ Compose1 .mod3 b c a := by
  simp only [Valid1] at hb hc
  simp only [c3Equality, Compose1, beq_iff_eq]
  have : (b + c).tmod 3 = (b + c) % 3 := Int.tmod_eq_emod_of_nonneg (by omega)
  rw [this]; omega

example : SpinsCouple 3 2 4 ∧ ¬ SpinsCouple 3 2 5 := by
  simp [SpinsCouple, abs_le]

/-- A field whose declared test is the one belonging to its kind and name. -/
def testFits (f : Field) : Bool :=
  match f.type with
  | .multiplicative => f.test == .z2
  | .mod3 => f.test == .c3
  | .additive =>
    if f.name ∈ ["SS", "II", "II1", "II2", "JJ"] then f.test == .su2
    else if f.name = "T" then f.test == .su2T
    else f.test == .u1

theorem evalTest_fits (f : Field) (h : testFits f = true) (a b c : Int) (hb : Valid1 f.type b)
    (hc : Valid1 f.type c) : evalTest f.test a b c = true ↔ Couples1 f.name f.type a b c := by
  obtain ⟨name, type, test, m, al⟩ := f
  simp only at *
  cases type with
  | multiplicative =>
    have h : test = .z2 := by simpa [testFits] using h
    subst h
    simp [evalTest, Couples1, z2Equality]
  | mod3 =>
    have h : test = .c3 := by simpa [testFits] using h
    subst h
    simp only [evalTest, Couples1]
    rw [c3Equality_spec a b c hb hc]
    simp only [Compose1]
    omega
  | additive =>
    simp only [testFits] at h
    simp only [Couples1]
    by_cases h1 : name ∈ ["SS", "II", "II1", "II2", "JJ"]
    · rw [if_pos h1] at h ⊢
      have h : test = .su2 := by simpa using h
      subst h
      exact su2Triangle_iff a b c
    · rw [if_neg h1] at h ⊢
      by_cases h2 : name = "T"
      · rw [if_pos h2] at h ⊢
        have h : test = .su2T := by simpa using h
        subst h
        exact su2Triangle_iff _ _ _
      · rw [if_neg h2] at h ⊢
        have h : test = .u1 := by simpa using h
        subst h
        simp [evalTest, u1Equality]

theorem triangle_fits (fs : List Field) (h : ∀ f ∈ fs, testFits f = true) :
    ∀ a b c : Label, Valid (types fs) a → Valid (types fs) b → Valid (types fs) c →
    (triangle fs a b c = true ↔ Couples fs a b c) := by
  induction fs with
  | nil => intro a b c _ _ _; simp [triangle, Couples]
  | cons f fs ih =>
    intro a b c ha hb hc
    obtain ⟨x, a, hx, ha', rfl⟩ := List.forall₂_cons_left_iff.1 ha
    obtain ⟨y, b, hy, hb', rfl⟩ := List.forall₂_cons_left_iff.1 hb
    obtain ⟨z, c, hz, hc', rfl⟩ := List.forall₂_cons_left_iff.1 hc
    simp only [triangle, Bool.and_eq_true]
    rw [evalTest_fits f (h f (by simp)) x y z hy hz, ih (fun g hg => h g (by simp [hg])) a b c ha' hb' hc']
    constructor
    · rintro ⟨h1, h2⟩ i g x' y' z' e1 e2 e3 e4
      cases i with
      | zero =>
        simp only [List.getElem?_cons_zero, Option.some.injEq] at e1 e2 e3 e4
        subst e1 e2 e3 e4; exact h1
      | succ i => exact h2 i g x' y' z' e1 e2 e3 e4
    · intro h1
      exact ⟨h1 0 f x y z rfl rfl rfl rfl, fun i g x' y' z' e1 e2 e3 e4 => h1 (i + 1) g x' y' z' e1 e2 e3 e4⟩

theorem builtins_testFits : ∀ B ∈ builtins, B.symtype ≠ "NONE" → B.symtype ≠ "SL" → B.symtype ≠ "SL3" →
    ∀ f ∈ B.sym.fields, testFits f = true := by decide +kernel

/-- **C03.** The coupling test of every built-in symmetry with an own test
accepts a triple of well-formed labels exactly when charges add up, parities
multiply, `C₃` labels add modulo 3 and spins, isospins and angular momenta obey
the coupling rule. -/
theorem builtin_triangle_spec (B : Builtin) (hB : B ∈ builtins) (h1 : B.symtype ≠ "NONE")
    (h2 : B.symtype ≠ "SL") (h3 : B.symtype ≠ "SL3") (a b c : Label)
    (ha : Valid (types B.sym.fields) a) (hb : Valid (types B.sym.fields) b)
    (hc : Valid (types B.sym.fields) c) :
    triangle B.sym.fields a b c = true ↔ Couples B.sym.fields a b c :=
  triangle_fits _ (builtins_testFits B hB h1 h2 h3) a b c ha hb hc

/-- **C03.** The remaining three classes do not override the test, and it
accepts everything. -/
theorem builtin_triangle_trivial (B : Builtin) (hB : B ∈ builtins)
    (h : B.symtype = "NONE" ∨ B.symtype = "SL" ∨ B.symtype = "SL3") (a b c : Label) :
    triangle B.sym.fields a b c = true := by
  have key : ∀ B ∈ builtins, (B.symtype = "NONE" ∨ B.symtype = "SL" ∨ B.symtype = "SL3") →
      ∀ f ∈ B.sym.fields, f.test = .none := by decide +kernel
  have gen : ∀ (fs : List Field), (∀ f ∈ fs, f.test = .none) → ∀ a b c, triangle fs a b c = true := by
    intro fs
    induction fs with
    | nil => intros; simp [triangle]
    | cons f fs ih =>
      intro hf a b c
      cases a <;> cases b <;> cases c <;> simp only [triangle]
      rw [hf f (by simp), ih (fun g hg => hf g (by simp [hg]))]
      rfl
  exact gen _ (key B hB h) a b c

example : triangle fields_QSTZ [1, 2, 0] [0, 1, 0] [1, 2, 0] = true ∧
    triangle fields_QSTZ [1, 2, 1] [0, 1, 0] [1, 2, 0] = false := by decide

/-- The declared names of every built-in symmetry are distinct, so access by
name is access by position (`Verif.Invar.get_spec`). -/
theorem builtin_names_distinct : ∀ B ∈ builtins, (B.sym.fields.map Field.name).Nodup := by
  decide +kernel

/-! ## C02 -/

/-- The quantum-number differences of the table are well-formed labels. -/
def WellFormedTable (S : Symmetry) : Prop := ∀ r ∈ S.table, Valid (types S.fields) r.1

/-- **C02.** `I'` is the `i`-th new subspace of `I` exactly when `I` is the
`i`-th ancestor of `I'`. -/
theorem ancestors_newSubspaces_dual (S : Symmetry) (hS : WellFormedTable S) (I I' : Label)
    (hI : Valid (types S.fields) I) (hI' : Valid (types S.fields) I') (i : Nat) :
    (∃ l, S.newSubspaces I = some l ∧ l[i]? = some I') ↔
    (∃ l, S.ancestors I' = some l ∧ l[i]? = some I) := by
  have h1 : S.newSubspaces I = some (S.table.map fun r => desc (types S.fields) r.1 I) :=
    mapM_some _ _ _ fun r hr => newSubspace1_eq_desc S I r (hS r hr) hI
  have h2 : S.ancestors I' = some (S.table.map (anc S I')) := by
    apply mapM_some
    intro r hr
    obtain ⟨c, h, _⟩ := combine_valid (hS r hr) hI'
    simp [anc, h]
  rw [h1, h2]
  simp only [Option.some.injEq, exists_eq_left', List.getElem?_map, Option.map_eq_some_iff]
  constructor
  · rintro ⟨r, hr, rfl⟩
    have hrm := List.mem_of_getElem? hr
    refine ⟨r, hr, ?_⟩
    obtain ⟨c, h, h2, h3⟩ := combine_valid (hS r hrm) hI'
    simp only [anc, h, Option.getD_some]
    exact compose_unique h3 (desc_compose (hS r hrm) hI).2
  · rintro ⟨r, hr, rfl⟩
    have hrm := List.mem_of_getElem? hr
    refine ⟨r, hr, ?_⟩
    obtain ⟨c, h, h2, h3⟩ := combine_valid (hS r hrm) hI'
    simp only [anc, h, Option.getD_some]
    exact (desc_unique (hS r hrm) h2 hI' h3).symm

/-- **C02.** `ancestor(I, i)` is the `i`-th element of `ancestors(I)`; both
succeed on well-formed labels, and all results are well-formed. -/
theorem ancestor_eq_ancestors (S : Symmetry) (hS : WellFormedTable S) (I : Label)
    (hI : Valid (types S.fields) I) :
    ∃ l, S.ancestors I = some l ∧ l.length = S.combs ∧ (∀ A ∈ l, Valid (types S.fields) A) ∧
      ∀ i, S.ancestor I i = l[i]? := by
  have h2 : S.ancestors I = some (S.table.map (anc S I)) := by
    apply mapM_some
    intro r hr
    obtain ⟨c, h, _⟩ := combine_valid (hS r hr) hI
    simp [anc, h]
  refine ⟨_, h2, by simp [Symmetry.combs], ?_, ?_⟩
  · intro A hA
    obtain ⟨r, hr, rfl⟩ := List.mem_map.1 hA
    obtain ⟨c, h, h2, _⟩ := combine_valid (hS r hr) hI
    simpa [anc, h] using h2
  · intro i
    rw [List.getElem?_map]
    cases hr : S.table[i]? with
    | none => simp [Symmetry.ancestor, hr]
    | some r =>
      obtain ⟨c, h, _, h3⟩ := combine_valid (hS r (List.mem_of_getElem? hr)) hI
      have h4 := (combine_eq_some_iff hI (hS r (List.mem_of_getElem? hr))).2 (compose_comm h3)
      simp [Symmetry.ancestor, hr, anc, h, h4]

/-- The hypothesis of C02 holds for every built-in symmetry. -/
theorem builtins_wellFormed : ∀ b ∈ builtins, WellFormedTable b.sym := by
  intro b hb
  obtain ⟨ms, h⟩ := builtins_decompose b hb
  exact fun r hr => (rowsValid_of_decomposes b.sym ms h r hr).1

example : (⟨fields_QS, tab_QS_1ch⟩ : Symmetry).newSubspaces [0, 2]
    = some [[-1, 2], [0, 3], [0, 1], [1, 2]] := by decide
example : (⟨fields_QS, tab_QS_1ch⟩ : Symmetry).ancestors [0, 3]
    = some [[1, 3], [0, 2], [0, 4], [-1, 3]] := by decide

/-! ## C04 -/

/-- **C04.** For every built-in symmetry and every label of an actual multiplet,
the multiplicities of the descendants that are allowed and pass the coupling
test add up to (number of site states) × multiplicity; the number of site
states is the one the parameters prescribe. -/
theorem builtin_tables_count (b : Builtin) (hb : b ∈ builtins) :
    b.sym.combs = paramsCombs b.symtype b.channels ∧
    ∀ I, Physical b.sym.fields I →
      ∃ l, b.sym.newSubspaces I = some l ∧
        ((l.zip b.sym.table).map fun p =>
          if allowed b.sym.fields p.1 && triangle b.sym.fields p.1 I p.2.2
          then mult b.sym.fields p.1 else 0).sum
        = (b.sym.combs : Int) * mult b.sym.fields I := by
  constructor
  · have : ∀ b ∈ builtins, b.sym.combs = paramsCombs b.symtype b.channels := by decide +kernel
    exact this b hb
  · intro I hI
    obtain ⟨ms, h⟩ := builtins_decompose b hb
    refine ⟨_, newSubspaces_eq b.sym (rowsValid_of_decomposes b.sym ms h) I (physical_valid hI), ?_⟩
    rw [zip_map_left, ← sum_table b.sym ms h I hI]
    rfl

/-- Labels that a class declares allowed are labels of multiplets, for every
class but `ISOSZLR`, which does not restrict its labels. -/
theorem allowed_physical (b : Builtin) (hb : b ∈ builtins) (hne : b.symtype ≠ "ISOSZLR") (I : Label)
    (hv : Valid (types b.sym.fields) I) (ha : allowed b.sym.fields I = true) : Physical b.sym.fields I := by
  have hall : ∀ b ∈ builtins, b.symtype ≠ "ISOSZLR" → ∀ f ∈ b.sym.fields,
      (f.test = .su2 → f.allow = .pos) ∧ (f.test = .su2T → f.allow = .nonneg) := by decide +kernel
  have hf := hall b hb hne
  generalize b.sym.fields = fs at *
  induction fs generalizing I with
  | nil => cases hv; exact .nil
  | cons f fs ih =>
    cases hv with | cons h1 h2 =>
    simp only [allowed, Bool.and_eq_true] at ha
    refine .cons ⟨h1, ?_, ?_⟩ (ih _ h2 ha.2 (fun f' hf' => hf f' (by simp [hf'])))
    · intro ht
      have := ha.1
      simpa [(hf f (by simp)).1 ht, evalAllow] using this
    · intro ht
      have := ha.1
      simpa [(hf f (by simp)).2 ht, evalAllow] using this

example : Physical fields_QS [-3, 2] := by decide
example : Physical fields_QSLR [-3, 2, -1] := by decide

/-! ## C05 -/

/-- **C05.** The structure of the next step: each allowed descendant label is
listed exactly once, with one block per site combination whose size is that of
the retained ancestor if it couples and 0 otherwise; weighted with
multiplicities, the number of states is (number of site states) × (number of
retained states). -/
theorem structure_complete (b : Builtin) (hb : b ∈ builtins) (diag : Sizes)
    (hn : (diag.map Prod.fst).Nodup) (hd : ∀ p ∈ diag, Physical b.sym.fields p.1) :
    ∃ st, substruct b.sym diag = some st ∧
      (st.map Prod.fst).Nodup ∧
      (∀ J, J ∈ st.map Prod.fst ↔ allowed b.sym.fields J = true ∧
        ∃ p ∈ diag, ∃ l, b.sym.newSubspaces p.1 = some l ∧ J ∈ l) ∧
      (∀ e ∈ st, ∃ anc, b.sym.ancestors e.1 = some anc ∧ anc.length = b.sym.combs ∧
        e.2.length = b.sym.combs ∧
        ∀ (i : Nat) A r, anc[i]? = some A → b.sym.table[i]? = some r →
          e.2[i]? = some (if triangle b.sym.fields e.1 A r.2 then sizeSubspace diag A else 0)) ∧
      (st.map fun e => mult b.sym.fields e.1 * (e.2.sum : Int)).sum
        = (b.sym.combs : Int) * stateCount b.sym.fields diag := by
  obtain ⟨ms, hdec⟩ := builtins_decompose b hb
  generalize b.sym = S at *
  have hv := rowsValid_of_decomposes S ms hdec
  obtain ⟨ls, h1, h2, h3⟩ := newSubspaceSet_spec S hv diag hd
  have hJv : ∀ J ∈ ls, Valid (types S.fields) J := by
    intro J hJ
    obtain ⟨_, p, hp, r, hr, rfl⟩ := (h3 J).1 hJ
    exact (desc_compose (hv r hr).1 (physical_valid (hd p hp))).1
  let dm : Label → List Nat := fun J => S.table.map fun r =>
      if triangle S.fields J (anc S J r) r.2 then sizeSubspace diag (anc S J r) else 0
  have hst : substruct S diag = some (ls.map fun J => (J, dm J)) := by
    simp only [substruct, h1, Option.bind_eq_bind, Option.bind_some]
    apply mapM_some
    intro J hJ
    simp [subspaceDims_eq S hv diag J (hJv J hJ), dm]
  have hfst : (ls.map fun J => (J, dm J)).map Prod.fst = ls := by simp [Function.comp_def]
  refine ⟨_, hst, ?_, ?_, ?_, ?_⟩
  · rw [hfst]; exact sorted_nodup h2
  · intro J
    rw [hfst, h3]
    refine and_congr_right fun _ => ⟨?_, ?_⟩
    · rintro ⟨p, hp, r, hr, rfl⟩
      exact ⟨p, hp, _, newSubspaces_eq S hv p.1 (physical_valid (hd p hp)), List.mem_map.2 ⟨r, hr, rfl⟩⟩
    · rintro ⟨p, hp, l, hl, hJ⟩
      rw [newSubspaces_eq S hv p.1 (physical_valid (hd p hp))] at hl
      cases hl
      obtain ⟨r, hr, rfl⟩ := List.mem_map.1 hJ
      exact ⟨p, hp, r, hr, rfl⟩
  · intro e he
    obtain ⟨J, hJ, rfl⟩ := List.mem_map.1 he
    refine ⟨_, ancestors_eq S hv J (hJv J hJ), by simp [Symmetry.combs], by simp [dm, Symmetry.combs], ?_⟩
    intro i A r hA hr
    simp only [List.getElem?_map, hr, Option.map_some, Option.some.injEq] at hA
    simp only [dm, List.getElem?_map, hr, Option.map_some, hA]
  · have := total_states S ms hdec diag hn hd ls (sorted_nodup h2) h3
    rw [List.map_map]
    exact this

/-- The subspaces of the next step when nothing is truncated: `TaskList` drops
the empty ones (`c++/subspaces.hpp:124-127`) and each diagonalisation yields as
many states as the block structure has. -/
def fullStep (S : Symmetry) (diag : Sizes) : Option Sizes := do
  let st ← substruct S diag
  pure ((st.filter fun e => e.2.sum != 0).map fun e => (e.1, e.2.sum))

/-- `k` steps without truncation. -/
def fullSteps (S : Symmetry) : Nat → Sizes → Option Sizes
  | 0, diag => some diag
  | k + 1, diag => (fullStep S diag).bind (fullSteps S k)

/-- **C05 (whole chain).** Starting from any set of multiplets, after any number
of steps without truncation every subspace label is still that of an actual
multiplet, no label occurs twice, and the number of states is
(site states)^(steps) × (initial number of states). -/
theorem fullSteps_count (b : Builtin) (hb : b ∈ builtins) (k : Nat) (diag : Sizes)
    (hn : (diag.map Prod.fst).Nodup) (hd : ∀ p ∈ diag, Physical b.sym.fields p.1) :
    ∃ d', fullSteps b.sym k diag = some d' ∧ (d'.map Prod.fst).Nodup ∧
      (∀ p ∈ d', Physical b.sym.fields p.1) ∧
      stateCount b.sym.fields d' = (b.sym.combs : Int) ^ k * stateCount b.sym.fields diag := by
  induction k generalizing diag with
  | zero => exact ⟨diag, rfl, hn, hd, by simp⟩
  | succ k ih =>
    obtain ⟨st, h1, h2, h3, h4, h5⟩ := structure_complete b hb diag hn hd
    obtain ⟨ms, hdec⟩ := builtins_decompose b hb
    have hv := rowsValid_of_decomposes b.sym ms hdec
    have hgood : ∀ f ∈ b.sym.fields, goodField f := by
      simp only [decomposes, Bool.and_eq_true, List.all_eq_true] at hdec
      exact hdec.1.1
    let d1 : Sizes := (st.filter fun e => e.2.sum != 0).map fun e => (e.1, e.2.sum)
    have hstep : fullStep b.sym diag = some d1 := by simp [fullStep, h1, d1]
    have hn1 : (d1.map Prod.fst).Nodup := by
      have : d1.map Prod.fst = (st.filter fun e => e.2.sum != 0).map Prod.fst := by
        simp [d1, Function.comp_def]
      rw [this]
      exact List.Nodup.sublist (List.Sublist.map _ List.filter_sublist) h2
    have hd1 : ∀ p ∈ d1, Physical b.sym.fields p.1 := by
      intro p hp
      simp only [d1, List.mem_map, List.mem_filter] at hp
      obtain ⟨e, ⟨he, hsum⟩, rfl⟩ := hp
      have hJ : e.1 ∈ st.map Prod.fst := List.mem_map.2 ⟨e, he, rfl⟩
      obtain ⟨_, p, hp, l, hl, hJl⟩ := (h3 e.1).1 hJ
      rw [newSubspaces_eq b.sym hv p.1 (physical_valid (hd p hp))] at hl
      cases hl
      obtain ⟨r0, hr0, hr0e⟩ := List.mem_map.1 hJl
      have hJv : Valid (types b.sym.fields) e.1 := by
        rw [← hr0e]; exact (desc_compose (hv r0 hr0).1 (physical_valid (hd p hp))).1
      obtain ⟨anc', ha1, ha2, ha3, ha4⟩ := h4 e he
      -- some block is non-empty
      have hne : ∃ (i : Nat) (n : Nat), e.2[i]? = some n ∧ n ≠ 0 := by
        by_contra hcon
        push Not at hcon
        have : ∀ n ∈ e.2, n = 0 := by
          intro n hn
          obtain ⟨i, hi⟩ := List.mem_iff_getElem?.1 hn
          exact hcon i n hi
        have : e.2.sum = 0 := List.sum_eq_zero this
        simp [this] at hsum
      obtain ⟨i, n, hin, hn0⟩ := hne
      have hi : i < b.sym.combs := by
        rw [← ha3]; exact (List.getElem?_eq_some_iff.1 hin).1
      obtain ⟨A, hA⟩ : ∃ A, anc'[i]? = some A := ⟨anc'[i]'(by omega), List.getElem?_eq_getElem (by omega)⟩
      obtain ⟨r, hr⟩ : ∃ r, b.sym.table[i]? = some r :=
        ⟨b.sym.table[i]'hi, List.getElem?_eq_getElem hi⟩
      have hval := ha4 i A r hA hr
      rw [hin] at hval
      have hval' := Option.some.inj hval
      by_cases ht : triangle b.sym.fields e.1 A r.2 = true
      · rw [if_pos ht] at hval'
        have hAd : ∃ q ∈ diag, q.1 = A := by
          by_contra hcon
          push Not at hcon
          apply hn0
          rw [hval', sizeSubspace]
          have : List.lookup A diag = none := by
            rw [List.lookup_eq_none_iff]
            intro q hq
            exact bne_iff_ne.2 fun h => hcon q hq h.symm
          simp [this]
        obtain ⟨q, hq, rfl⟩ := hAd
        exact triangle_physical _ hgood _ _ _ (hd q hq) (hv r (List.mem_of_getElem? hr)).2 hJv ht
      · rw [if_neg ht] at hval'
        exact absurd hval' hn0
    have hc1 : stateCount b.sym.fields d1 = (b.sym.combs : Int) * stateCount b.sym.fields diag := by
      rw [← h5, stateCount]
      simp only [d1, List.map_map, Function.comp_def]
      clear h1 h2 h3 h4 h5 hn1 hd1 hstep d1
      induction st with
      | nil => rfl
      | cons e st ihs =>
        rw [List.filter_cons]
        split
        · simp [ihs]
        · rename_i h
          have : e.2.sum = 0 := by simpa using h
          simp [ihs, this]
    obtain ⟨d', g1, g2, g3, g4⟩ := ih d1 hn1 hd1
    refine ⟨d', by simp [fullSteps, hstep, g1], g2, g3, ?_⟩
    rw [g4, hc1]; ring

-- One spinful impurity orbital coupled to a chain, symmetry QS.
example : (∀ p ∈ ([([-1, 1], 1), ([0, 2], 1), ([1, 1], 1)] : Sizes), Physical fields_QS p.1) ∧
    stateCount fields_QS [([-1, 1], 1), ([0, 2], 1), ([1, 1], 1)] = 4 := by decide

end Verif.Symm
