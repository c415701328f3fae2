import Verif.Raw.Spec
import Verif.Text.Lemmas
/-! # The names of the data sets: components, none is a prefix of another -/

namespace Verif.Raw
open Verif.Text
open Verif.Invar (Label)

theorem comps_cons {s : Str} (h : '/' ∉ s) (h0 : s ≠ []) (r : Str) : comps (s ++ '/' :: r) = s :: comps r := by
  unfold comps split
  rw [splitAux_nodelim _ _ _ _ h, List.nil_append, List.filter_cons, if_pos (by simpa using h0)]

theorem comps_slash (r : Str) : comps ('/' :: r) = comps r := by
  unfold comps split
  have := splitAux_nodelim '/' [] [] r (by simp)
  rw [List.nil_append] at this
  rw [this]
  simp

theorem comps_last {s : Str} (h : '/' ∉ s) (h0 : s ≠ []) : comps s = [s] := by
  unfold comps split
  rw [splitAux_last _ _ _ h, List.nil_append, if_neg h0]
  simp [h0]

theorem Comp.cons {s : Str} (h : Comp s) (r : Str) : comps (s ++ '/' :: r) = s :: comps r := comps_cons h.2 h.1 r

theorem Comp.last {s : Str} (h : Comp s) : comps s = [s] := comps_last h.2 h.1

theorem comp_nat (n : Nat) : Comp (natStr n) :=
  ⟨natStr_ne_nil n, fun h => by have := natStr_isDigit n _ h; revert this; decide⟩

theorem insertor_chars (l : Label) (c : Char) (h : c ∈ insertor ['_'] l) : c = '_' ∨ c = '-' ∨ isDigit c = true := by
  induction l with
  | nil => cases h
  | cons a l ih =>
    cases l with
    | nil => exact .inr (intStr_chars a c h)
    | cons b l =>
      simp only [insertor, List.append_assoc, List.singleton_append, List.mem_append, List.mem_cons] at h
      rcases h with h | h | h
      · exact .inr (intStr_chars a c h)
      · exact .inl h
      · exact ih h

theorem not_mem_name {c : Char} (h1 : c ≠ '_') (h2 : c ≠ '-') (h3 : isDigit c = false) (I : Label) : c ∉ name I := by
  intro h
  rcases insertor_chars I c h with h | h | h
  · exact h1 h
  · exact h2 h
  · rw [h3] at h; cases h

theorem comp_name {I : Label} (h : I ≠ []) : Comp (name I) := by
  refine ⟨?_, not_mem_name (by decide) (by decide) (by decide) I⟩
  intro h'
  exact h (insertor_injective (d := '_') (by decide) (by decide) I [] h')

theorem name_inj {I J : Label} : name I = name J ↔ I = J :=
  ⟨insertor_injective (by decide) (by decide) I J, fun h => by rw [h]⟩

theorem natStr_inj {m n : Nat} : natStr m = natStr n ↔ m = n := ⟨natStr_injective, fun h => by rw [h]⟩

theorem comp_leaf (l : Leaf) : Comp l.str := by cases l <;> decide
theorem comp_cat (l : Cat) : Comp l.str := by cases l <;> decide
theorem comp_stat (l : Stat) : Comp l.str := by cases l <;> decide
theorem comp_sub (l : Sub) : Comp l.str := by cases l <;> decide
theorem comp_fdm (l : Fdm) : Comp l.str := by cases l <;> decide
theorem comp_matrix (im : Bool) : Comp (matrixStr ++ imag im) := by cases im <;> decide

theorem comp_block (A : Label) (k : Nat) (im : Bool) : Comp (name A ++ (kNr ++ (natStr k ++ imag im))) := by
  constructor
  · simp [kNr]
  · intro h
    simp only [List.mem_append] at h
    rcases h with h | h | h | h
    · exact not_mem_name (by decide) (by decide) (by decide) A h
    · revert h; decide
    · exact (comp_nat k).2 h
    · revert h; cases im <;> decide

/-- The names that come from the input are components. -/
def AddrOK : Addr → Prop
  | .param k => Comp k
  | .eigen _ I _ => I ≠ []
  | .block _ I _ _ _ => I ≠ []
  | .ham _ I _ => I ≠ []
  | .struct _ I => I ≠ []
  | .op _ _ o I J _ => Comp o ∧ I ≠ [] ∧ J ≠ []
  | .expv o => Comp o
  | .list _ I => I ≠ []
  | .data _ I _ => I ≠ []
  | .fdmExpv o => Comp o
  | _ => True

/-- The components of a data set. -/
def parts : Addr → List Str
  | .param k => [kParams, k]
  | .eigen n I l => [natStr n, kEigen, name I, l.str]
  | .block n I k A im => [natStr n, ['U'], name I, name A ++ (kNr ++ (natStr k ++ imag im))]
  | .ham n I im => [natStr n, kHam, name I, matrixStr ++ imag im]
  | .struct n I => [natStr n, kStruct, name I, kAnc]
  | .op n c o I J im => [natStr n, c.str, o, name I, name J, matrixStr ++ imag im]
  | .gs => [kStats, kGs]
  | .stat n l => [kStats, natStr n, l.str]
  | .expv o => [kExpv, o]
  | .total => [kTotal]
  | .range => [kStore, kRange]
  | .list n I => [kStore, natStr n, kList, name I]
  | .data n I l => [kStore, natStr n, kData, name I, l.str]
  | .fdm l => [kFdm, l.str]
  | .fdmExpv o => [kFdm, kExpv, o]

theorem comps_path {a : Addr} (h : AddrOK a) : comps (path a) = parts a := by
  have hU : ∀ r : Str, comps ('U' :: '/' :: r) = ['U'] :: comps r := fun r => comps_cons (s := ['U']) (by decide) (by decide) r
  cases a with
  | param k => rw [path, Comp.cons (by decide), Comp.last h]; rfl
  | eigen n I l =>
    rw [path, (comp_nat n).cons, Comp.cons (by decide), comps_slash, (comp_name h).cons, (comp_leaf l).last]; rfl
  | block n I k A im => rw [path, (comp_nat n).cons, hU, (comp_name h).cons, (comp_block A k im).last]; rfl
  | ham n I im => rw [path, (comp_nat n).cons, Comp.cons (by decide), (comp_name h).cons, (comp_matrix im).last]; rfl
  | struct n I => rw [path, (comp_nat n).cons, Comp.cons (by decide), (comp_name h).cons, Comp.last (by decide)]; rfl
  | op n c o I J im =>
    rw [path, (comp_nat n).cons, (comp_cat c).cons, h.1.cons, (comp_name h.2.1).cons, (comp_name h.2.2).cons, (comp_matrix im).last]; rfl
  | gs => rw [path, Comp.cons (by decide), Comp.last (by decide)]; rfl
  | stat n l => rw [path, Comp.cons (by decide), (comp_nat n).cons, (comp_stat l).last]; rfl
  | expv o => rw [path, Comp.cons (by decide), Comp.last h]; rfl
  | total => rw [path, Comp.last (by decide)]; rfl
  | range => rw [path, Comp.cons (by decide), Comp.last (by decide)]; rfl
  | list n I => rw [path, Comp.cons (by decide), (comp_nat n).cons, Comp.cons (by decide), (comp_name h).last]; rfl
  | data n I l =>
    rw [path, Comp.cons (by decide), (comp_nat n).cons, Comp.cons (by decide), (comp_name h).cons, (comp_sub l).last]; rfl
  | fdm l => rw [path, Comp.cons (by decide), (comp_fdm l).last]; rfl
  | fdmExpv o => rw [path, Comp.cons (by decide), Comp.cons (by decide), Comp.last h]; rfl

theorem parts_ne_nil (a : Addr) : parts a ≠ [] := by cases a <;> simp [parts]

/-! ## No prefixes -/

theorem natStr_ne {c : Char} (h : isDigit c = false) (n : Nat) (s : Str) : natStr n ≠ c :: s := by
  intro h'
  have := natStr_isDigit n c (by rw [h']; simp)
  rw [h] at this; cases this

theorem leaf_inj {a b : Leaf} : a.str = b.str ↔ a = b := by revert a b; intro a b; cases a <;> cases b <;> decide
theorem cat_inj {a b : Cat} : a.str = b.str ↔ a = b := by cases a <;> cases b <;> decide
theorem stat_inj {a b : Stat} : a.str = b.str ↔ a = b := by cases a <;> cases b <;> decide
theorem sub_inj {a b : Sub} : a.str = b.str ↔ a = b := by cases a <;> cases b <;> decide
theorem fdm_inj {a b : Fdm} : a.str = b.str ↔ a = b := by cases a <;> cases b <;> decide
theorem matrix_inj {a b : Bool} : matrixStr ++ imag a = matrixStr ++ imag b ↔ a = b := by cases a <;> cases b <;> decide

theorem cat_ne (c : Cat) : c.str ≠ kEigen ∧ c.str ≠ ['U'] ∧ c.str ≠ kHam ∧ c.str ≠ kStruct := by cases c <;> decide
theorem fdm_ne (l : Fdm) : l.str ≠ kExpv := by cases l <;> decide

theorem num_ne (n : Nat) : natStr n ≠ kParams ∧ natStr n ≠ kStats ∧ natStr n ≠ kExpv ∧ natStr n ≠ kTotal ∧ natStr n ≠ kStore ∧
    natStr n ≠ kFdm ∧ natStr n ≠ kGs ∧ natStr n ≠ kRange :=
  ⟨natStr_ne (by decide) n _, natStr_ne (by decide) n _, natStr_ne (by decide) n _, natStr_ne (by decide) n _,
    natStr_ne (by decide) n _, natStr_ne (by decide) n _, natStr_ne (by decide) n _, natStr_ne (by decide) n _⟩

theorem block_inj {A B : Label} {k m : Nat} {a b : Bool} (h : name A ++ (kNr ++ (natStr k ++ imag a)) = name B ++ (kNr ++ (natStr m ++ imag b))) :
    A = B ∧ k = m ∧ a = b := by
  have hb : ∀ I : Label, '|' ∉ name I := not_mem_name (by decide) (by decide) (by decide)
  obtain ⟨h1, h2⟩ := append_sep_inj (d := '|') (hb A) (hb B) h
  refine ⟨name_inj.1 h1, ?_⟩
  have h3 : natStr k ++ imag a = natStr m ++ imag b := by simpa using h2
  have hd : ∀ n : Nat, '-' ∉ natStr n := fun n h => by have := natStr_isDigit n _ h; revert this; decide
  cases a <;> cases b
  · simp only [imag, Bool.false_eq_true, if_false, List.append_nil] at h3
    exact ⟨natStr_injective h3, rfl⟩
  · simp only [imag, Bool.false_eq_true, if_false, if_true, List.append_nil] at h3
    exact absurd (h3 ▸ (by simp [imagStr] : '-' ∈ natStr m ++ imagStr)) (hd k)
  · simp only [imag, Bool.false_eq_true, if_false, if_true, List.append_nil] at h3
    exact absurd (h3 ▸ (by simp [imagStr] : '-' ∈ natStr k ++ imagStr)) (hd m)
  · exact ⟨natStr_injective (List.append_cancel_right h3), rfl⟩

theorem keys_ne : kParams ≠ kStats ∧ kParams ≠ kExpv ∧ kParams ≠ kTotal ∧ kParams ≠ kStore ∧ kParams ≠ kFdm ∧ kStats ≠ kExpv ∧ kStats ≠ kTotal ∧
    kStats ≠ kStore ∧ kStats ≠ kFdm ∧ kExpv ≠ kTotal ∧ kExpv ≠ kStore ∧ kExpv ≠ kFdm ∧ kTotal ≠ kStore ∧ kTotal ≠ kFdm ∧ kStore ≠ kFdm ∧
    kEigen ≠ ['U'] ∧ kEigen ≠ kHam ∧ kEigen ≠ kStruct ∧ kHam ≠ ['U'] ∧ kHam ≠ kStruct ∧ kStruct ≠ ['U'] ∧ kList ≠ kData := by decide

/-- No data set lies below another one. -/
theorem parts_antichain {a b : Addr} (h : parts a <+: parts b) : a = b := by
  obtain ⟨k1, k2, k3, k4, k5, k6, k7, k8, k9, k10, k11, k12, k13, k14, k15, k16, k17, k18, k19, k20, k21, k22⟩ := keys_ne
  have c1 := fun c => (cat_ne c).1
  have c2 := fun c => (cat_ne c).2.1
  have c3 := fun c => (cat_ne c).2.2.1
  have c4 := fun c => (cat_ne c).2.2.2
  have n1 := fun n => (num_ne n).1
  have n2 := fun n => (num_ne n).2.1
  have n3 := fun n => (num_ne n).2.2.1
  have n4 := fun n => (num_ne n).2.2.2.1
  have n5 := fun n => (num_ne n).2.2.2.2.1
  have n6 := fun n => (num_ne n).2.2.2.2.2.1
  have n7 := fun n => (num_ne n).2.2.2.2.2.2.1
  have n8 := fun n => (num_ne n).2.2.2.2.2.2.2
  cases a <;> cases b <;>
    simp only [parts, List.cons_prefix_cons, List.nil_prefix, List.prefix_nil, and_true, reduceCtorEq, and_false,
      k1, k2, k3, k4, k5, k6, k7, k8, k9, k10, k11, k12, k13, k14, k15, k16, k17, k18, k19, k20, k21, k22,
      k1.symm, k2.symm, k3.symm, k4.symm, k5.symm, k6.symm, k7.symm, k8.symm, k9.symm, k10.symm, k11.symm, k12.symm, k13.symm, k14.symm, k15.symm,
      k16.symm, k17.symm, k18.symm, k19.symm, k20.symm, k21.symm, k22.symm,
      c1, c2, c3, c4, n1, n2, n3, n4, n5, n6, n7, n8, fun c => (c1 c).symm, fun c => (c2 c).symm, fun c => (c3 c).symm, fun c => (c4 c).symm,
      fun n => (n1 n).symm, fun n => (n2 n).symm, fun n => (n3 n).symm, fun n => (n4 n).symm, fun n => (n5 n).symm, fun n => (n6 n).symm,
      fun n => (n7 n).symm, fun n => (n8 n).symm, fdm_ne, fun l => (fdm_ne l).symm, false_and,
      name_inj, natStr_inj, leaf_inj, cat_inj, stat_inj, sub_inj, fdm_inj, matrix_inj, true_and] at h ⊢
  all_goals first
    | (obtain ⟨rfl, rfl, h⟩ := h; obtain ⟨rfl, rfl, rfl⟩ := block_inj h; rfl)
    | (obtain ⟨rfl, rfl, rfl, rfl, rfl, rfl⟩ := h; rfl)
    | (obtain ⟨rfl, rfl, rfl⟩ := h; rfl)
    | (obtain ⟨rfl, rfl⟩ := h; rfl)
    | (subst h; rfl)

end Verif.Raw
