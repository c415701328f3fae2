import Verif.Symm.Spec
import Verif.Invar.Lemmas
import Mathlib.Tactic.Ring
import Mathlib.Tactic.Linarith
import Mathlib.Algebra.BigOperators.Group.List.Basic
import Mathlib.Data.List.Perm.Basic
/-!
# Helper lemmas: counting the states of the descendants of a multiplet
-/

namespace Verif.Symm
open Verif.Invar

/-! ## Arithmetic sums -/

theorem sum_arith (c : Int) (n : Nat) :
    ((List.range n).map fun k : Nat => c + 2 * (k : Int)).sum = n * c + n * (n - 1) := by
  induction n with
  | zero => simp
  | succ n ih =>
    rw [List.range_succ, List.map_append, List.sum_append, ih]
    simp only [List.map_cons, List.map_nil, List.sum_cons, List.sum_nil]
    push_cast; ring

theorem sum_map_zero {α} (l : List α) (f : α → Int) (h : ∀ x ∈ l, f x = 0) : (l.map f).sum = 0 := by
  induction l with
  | nil => rfl
  | cons x xs ih =>
    simp only [List.map_cons, List.sum_cons]
    rw [h x (by simp), ih (fun y hy => h y (by simp [hy]))]; rfl

theorem su2Triangle_iff (a b c : Int) : su2Triangle a b c = true ↔ SpinsCouple a b c := by
  unfold su2Triangle SpinsCouple
  simp only [Bool.and_eq_true, decide_eq_true_eq, abs_le]
  omega

/-- The multiplets obtained by coupling multiplicity `x` with multiplicity `s`
have `s * x` states. -/
theorem sum_su2 (x s : Nat) (hx : 0 < x) :
    ((List.range s).map fun k : Nat =>
      let x' : Int := x - s + 1 + 2 * (k : Int)
      if decide (x' > 0) && su2Triangle x' x s then x' else 0).sum = s * x := by
  rcases Nat.le_total s x with h | h
  · have : ∀ k ∈ List.range s,
        (let x' : Int := x - s + 1 + 2 * (k : Int)
          if decide (x' > 0) && su2Triangle x' x s then x' else 0) = (x - s + 1 : Int) + 2 * (k : Int) := by
      intro k hk
      rw [List.mem_range] at hk
      simp only
      rw [if_pos]
      simp only [Bool.and_eq_true, decide_eq_true_eq, su2Triangle_iff, SpinsCouple, abs_le]
      omega
    rw [List.map_congr_left this, sum_arith]
    ring
  · obtain ⟨d, rfl⟩ := Nat.exists_eq_add_of_le h
    rw [Nat.add_comm x d, List.range_add, List.map_append, List.sum_append, sum_map_zero, List.map_map]
    · have : ∀ k ∈ List.range x,
          ((fun k : Nat => let x' : Int := x - ((d + x : Nat) : Int) + 1 + 2 * (k : Int)
            if decide (x' > 0) && su2Triangle x' x ((d + x : Nat) : Int) then x' else 0) ∘ (fun j => d + j)) k
            = (d + 1 : Int) + 2 * (k : Int) := by
        intro k hk
        rw [List.mem_range] at hk
        simp only [Function.comp]
        rw [if_pos]
        · push_cast; ring
        · simp only [Bool.and_eq_true, decide_eq_true_eq, su2Triangle_iff, SpinsCouple, abs_le]
          push_cast
          omega
      rw [List.map_congr_left this, sum_arith]
      push_cast; ring
    · intro k hk
      rw [List.mem_range] at hk
      simp only
      rw [if_neg]
      simp only [Bool.and_eq_true, decide_eq_true_eq, su2Triangle_iff, SpinsCouple, abs_le]
      push_cast
      omega

/-! ## One quantum number -/

/-- Component of the descendant label. -/
def desc1 : QnType → Int → Int → Int
  | .additive, d, x => -d + x
  | .multiplicative, d, x => d * x
  | .mod3, d, x => ((3 - d).tmod 3 + x).tmod 3

/-- Contribution of one quantum number. -/
def g (f : Field) (x d q : Int) : Int :=
  let x' := desc1 f.type d x
  if evalAllow f.allow x' && evalTest f.test x' x q then evalMult f.mult x' else 0

/-- The table entries that one quantum number of a site multiplet should give. -/
def expand1 (f : Field) (q : Int) : List Int :=
  match f.test with
  | .none => [-q]
  | .u1 => [-q]
  | .z2 => [q]
  | .c3 => [(3 - q).tmod 3]
  | .su2 => (List.range q.toNat).map fun k : Nat => q - 1 - 2 * (k : Int)
  | .su2T => (List.range (2 * q + 1).toNat).map fun k : Nat => q - (k : Int)

/-- The combinations of kinds that occur in the built-in classes. -/
def goodField (f : Field) : Bool :=
  match f.test, f.type, f.mult, f.allow with
  | .none, .additive, .one, .any => true
  | .u1, .additive, .one, .any => true
  | .z2, .multiplicative, .one, .any => true
  | .c3, .mod3, .one, .any => true
  | .su2, .additive, .val, .pos => true
  | .su2, .additive, .val, .any => true
  | .su2T, .additive, .twiceAddOne, .nonneg => true
  | _, _, _, _ => false

instance (f : Field) (x : Int) : Decidable (Physical1 f x) := by
  unfold Physical1; exact inferInstance

theorem sum_field (f : Field) (hf : goodField f) (x q : Int) (hx : Physical1 f x) (hq : Physical1 f q) :
    ((expand1 f q).map fun d => g f x d q).sum = ((expand1 f q).length : Int) * evalMult f.mult x := by
  obtain ⟨nm, t, te, m, al⟩ := f
  obtain ⟨hx1, hx2, hx3⟩ := hx
  obtain ⟨hq1, hq2, hq3⟩ := hq
  simp only at hx1 hx2 hx3 hq1 hq2 hq3
  have su2case : ∀ al, (al = AllowKind.pos ∨ al = AllowKind.any) → 0 < x → 0 < q →
      ((expand1 ⟨nm, .additive, .su2, .val, al⟩ q).map fun d => g ⟨nm, .additive, .su2, .val, al⟩ x d q).sum
        = ((expand1 ⟨nm, .additive, .su2, .val, al⟩ q).length : Int) * evalMult .val x := by
    intro al hal hx hq
    obtain ⟨x, rfl⟩ : ∃ n : Nat, x = n := ⟨x.toNat, by omega⟩
    obtain ⟨q, rfl⟩ : ∃ n : Nat, q = n := ⟨q.toNat, by omega⟩
    simp only [expand1, List.map_map, List.length_map, List.length_range, Int.toNat_natCast, evalMult]
    rw [← sum_su2 x q (by omega)]
    congr 1
    apply List.map_congr_left
    intro k hk
    have : -((q : Int) - 1 - 2 * (k : Int)) + x = x - q + 1 + 2 * k := by ring
    change (if evalAllow al (-((q : Int) - 1 - 2 * (k : Int)) + x) &&
      su2Triangle (-((q : Int) - 1 - 2 * (k : Int)) + x) x q then -((q : Int) - 1 - 2 * (k : Int)) + x else 0) = _
    rw [this]
    rcases hal with rfl | rfl
    · rfl
    · simp only [evalAllow, Bool.true_and]
      by_cases h : su2Triangle ((x : Int) - q + 1 + 2 * k) x q = true
      · have h' := (su2Triangle_iff _ _ _).1 h
        have : (x : Int) - q + 1 + 2 * k > 0 := by unfold SpinsCouple at h'; omega
        simp [h, this]
      · simp [h]
  cases te <;> cases t <;> cases m <;> cases al <;> simp [goodField] at hf
  · simp [expand1, g, evalTest, evalAllow, evalMult]
  · simp [expand1, g, evalTest, evalAllow, evalMult, desc1, u1Equality]; omega
  · exact su2case .any (Or.inr rfl) (hx2 rfl) (hq2 rfl)
  · exact su2case .pos (Or.inl rfl) (hx2 rfl) (hq2 rfl)
  · -- su2T
    have hx := hx3 rfl
    have hq := hq3 rfl
    obtain ⟨x, rfl⟩ : ∃ n : Nat, x = n := ⟨x.toNat, by omega⟩
    obtain ⟨q, rfl⟩ : ∃ n : Nat, q = n := ⟨q.toNat, by omega⟩
    have hN : (2 * (q : Int) + 1).toNat = 2 * q + 1 := by omega
    simp only [expand1, List.map_map, List.length_map, List.length_range, hN, evalMult]
    have := sum_su2 (2 * x + 1) (2 * q + 1) (by omega)
    push_cast at this ⊢
    rw [← this]
    congr 1
    apply List.map_congr_left
    intro k hk
    change (if decide (-((q : Int) - (k : Int)) + x ≥ 0) &&
      su2Triangle (2 * (-((q : Int) - (k : Int)) + x) + 1) (2 * x + 1) (2 * q + 1)
      then 2 * (-((q : Int) - (k : Int)) + x) + 1 else 0) = _
    have h1 : 2 * (-((q : Int) - (k : Int)) + x) + 1 = 2 * x + 1 - (2 * q + 1) + 1 + 2 * k := by ring
    rw [h1]
    have h2 : (decide (-((q : Int) - (k : Int)) + x ≥ 0)) = decide ((2 * (x : Int) + 1 - (2 * q + 1) + 1 + 2 * k) > 0) := by
      rw [decide_eq_decide]; omega
    rw [h2]
  · simp [expand1, g, evalTest, evalAllow, evalMult, desc1, z2Equality, mul_comm]
  · simp only [Valid1] at hx1 hq1
    rcases hx1 with rfl | rfl | rfl <;> rcases hq1 with rfl | rfl | rfl <;>
      simp [expand1, g, evalTest, evalAllow, evalMult, desc1, c3Equality, Int.tmod]

/-! ## All quantum numbers -/

/-- The table rows one site multiplet should give. -/
def expand : List Field → Label → List (Label × Label)
  | [], _ => [([], [])]
  | _ :: _, [] => []
  | f :: fs, q :: qs =>
      (expand1 f q).flatMap fun d => (expand fs qs).map fun r => (d :: r.1, q :: r.2)

/-- Descendant label. -/
def desc : List QnType → Label → Label → Label
  | t :: ts, d :: ds, x :: xs => desc1 t d x :: desc ts ds xs
  | _, _, _ => []

/-- Contribution of one table row. -/
def term (fs : List Field) (I : Label) (r : Label × Label) : Int :=
  let J := desc (types fs) r.1 I
  if allowed fs J && triangle fs J I r.2 then mult fs J else 0

theorem term_cons (f : Field) (fs : List Field) (x : Int) (xs : Label) (d q : Int) (ds qs : Label) :
    term (f :: fs) (x :: xs) (d :: ds, q :: qs) = g f x d q * term fs xs (ds, qs) := by
  simp only [term, types, List.map_cons, desc, allowed, triangle, mult, g]
  cases evalAllow f.allow (desc1 f.type d x) <;> cases evalTest f.test (desc1 f.type d x) x q <;>
    simp

theorem sum_flatMap_map {α β} (l : List α) (m : List β) (h : α → β → Int) :
    ((l.flatMap fun a => m.map (h a)).sum) = (l.map fun a => (m.map (h a)).sum).sum := by
  induction l with
  | nil => rfl
  | cons a l ih => simp [List.flatMap_cons, List.sum_append, ih]

theorem sum_map_mul_left' {α} (l : List α) (c : Int) (h : α → Int) :
    (l.map fun a => c * h a).sum = c * (l.map h).sum := by
  induction l with
  | nil => simp
  | cons a l ih => simp [ih, mul_add]

theorem sum_map_mul_right' {α} (l : List α) (c : Int) (h : α → Int) :
    (l.map fun a => h a * c).sum = (l.map h).sum * c := by
  induction l with
  | nil => simp
  | cons a l ih => simp [ih, add_mul]

theorem sum_expand (fs : List Field) (hf : ∀ f ∈ fs, goodField f) (I Q : Label)
    (hI : Physical fs I) (hQ : Physical fs Q) :
    ((expand fs Q).map (term fs I)).sum = ((expand fs Q).length : Int) * mult fs I := by
  induction fs generalizing I Q with
  | nil =>
    cases hI; cases hQ; rfl
  | cons f fs ih =>
    cases hI with | cons hx hxs =>
    cases hQ with | cons hq hqs =>
    rename_i x xs q qs
    have ih' := ih (fun f' hf' => hf f' (by simp [hf'])) xs qs hxs hqs
    simp only [expand, List.map_flatMap, List.map_map]
    have : ∀ d, ((expand fs qs).map ((term (f :: fs) (x :: xs)) ∘ fun r => (d :: r.1, q :: r.2)))
        = (expand fs qs).map fun r => g f x d q * term fs xs r := by
      intro d
      apply List.map_congr_left
      intro r _
      simp [Function.comp, term_cons]
    simp only [this]
    rw [sum_flatMap_map]
    simp only [sum_map_mul_left', sum_map_mul_right', ih', sum_field f (hf f (by simp)) x q hx hq]
    have hlen : (((expand1 f q).flatMap fun d => (expand fs qs).map fun r => (d :: r.1, q :: r.2)).length : Int)
        = (expand1 f q).length * (expand fs qs).length := by
      induction expand1 f q with
      | nil => simp
      | cons d l ihl =>
        simp only [List.flatMap_cons, List.length_append, List.length_map, List.length_cons]
        push_cast [ihl]; ring
    rw [hlen]
    simp only [mult]
    ring

instance (fs : List Field) (I : Label) : Decidable (Physical fs I) := by
  unfold Physical; exact inferInstance

/-- The site multiplets a table encodes: its rows are a rearrangement of their
expansion. -/
def decomposes (S : Symmetry) (ms : List Label) : Bool :=
  S.fields.all goodField && ms.all (fun Q => decide (Physical S.fields Q)) &&
    (S.table.isPerm (ms.flatMap (expand S.fields)))

theorem sum_table (S : Symmetry) (ms : List Label) (h : decomposes S ms) (I : Label)
    (hI : Physical S.fields I) :
    (S.table.map (term S.fields I)).sum = (S.combs : Int) * mult S.fields I := by
  simp only [decomposes, Bool.and_eq_true, List.all_eq_true, decide_eq_true_eq, List.isPerm_iff] at h
  obtain ⟨⟨hf, hm⟩, hp⟩ := h
  have h1 : (S.table.map (term S.fields I)).sum
      = ((ms.flatMap (expand S.fields)).map (term S.fields I)).sum := (hp.map _).sum_eq
  rw [h1, Symmetry.combs, hp.length_eq]
  clear h1 hp
  induction ms with
  | nil => simp
  | cons Q ms ih =>
    simp only [List.flatMap_cons, List.map_append, List.sum_append, List.length_append]
    rw [ih (fun Q' hQ' => hm Q' (by simp [hQ'])), sum_expand S.fields hf I Q hI (hm Q (by simp))]
    push_cast; ring

end Verif.Symm
