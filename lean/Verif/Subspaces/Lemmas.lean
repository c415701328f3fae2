import Verif.Subspaces.Model
import Verif.Invar.Lemmas
import Mathlib.Data.List.Sort
import Mathlib.Tactic.Linarith
/-! # Helper lemmas for `Verif.Subspaces` -/

namespace Verif.Subspaces
open Verif.Invar

theorem foldl_add (l : List Nat) (a : Nat) : l.foldl (· + ·) a = a + l.sum := by
  induction l generalizing a with
  | nil => simp
  | cons b l ih => simp [ih]; omega

theorem total_eq (d : Dims) : total d = d.sum := by simp [total, foldl_add]

theorem offset_eq {d : Dims} {i : Nat} (h : i < d.length) : offset d i = some (d.take i).sum := by
  simp [offset, h, foldl_add]

theorem take_succ_sum {d : Dims} {i : Nat} (h : i < d.length) :
    (d.take (i + 1)).sum = (d.take i).sum + d[i] := by
  rw [List.take_succ, List.sum_append]; simp [h]

theorem take_sum_mono (d : Dims) {i j : Nat} (h : i ≤ j) : (d.take i).sum ≤ (d.take j).sum := by
  induction j, h using Nat.le_induction with
  | base => exact le_refl _
  | succ j hj ih =>
    by_cases hjl : j < d.length
    · rw [take_succ_sum hjl]; omega
    · rw [List.take_of_length_le (by omega : d.length ≤ j + 1)]
      rw [List.take_of_length_le (by omega : d.length ≤ j)] at ih
      exact ih

theorem take_sum_le (d : Dims) (i : Nat) : (d.take i).sum ≤ d.sum := by
  have := take_sum_mono d (i := i) (j := max i d.length) (by omega)
  rwa [List.take_of_length_le (by omega : d.length ≤ max i d.length)] at this

theorem part_eq {d : Dims} {i : Nat} (h : i < d.length) :
    part d i = some ((d.take i).sum, (d.take (i + 1)).sum) := by
  simp [part, offset_eq h, rmax, h, take_succ_sum h]

theorem part_none {d : Dims} {i : Nat} (h : d.length ≤ i) : part d i = none := by
  simp [part, offset, Nat.not_lt.2 h]

theorem part_some_iff {d : Dims} {i b e : Nat} :
    part d i = some (b, e) ↔ i < d.length ∧ b = (d.take i).sum ∧ e = (d.take (i + 1)).sum := by
  by_cases h : i < d.length
  · simp [part_eq h, h, eq_comm]
  · simp [part_none (Nat.not_lt.1 h), h]

theorem exists_block (d : Dims) (r : Nat) (hr : r < d.sum) :
    ∃ i, i < d.length ∧ (d.take i).sum ≤ r ∧ r < (d.take (i + 1)).sum := by
  induction d generalizing r with
  | nil => simp at hr
  | cons a d ih =>
    by_cases h : r < a
    · exact ⟨0, by simp, by simp, by simpa using h⟩
    · rw [List.sum_cons] at hr
      obtain ⟨i, h1, h2, h3⟩ := ih (r - a) (by omega)
      refine ⟨i + 1, by simpa using h1, ?_, ?_⟩
      · simp only [List.take_succ_cons, List.sum_cons]; omega
      · simp only [List.take_succ_cons, List.sum_cons] at h3 ⊢; omega

theorem block_unique (d : Dims) (r i j : Nat) (hi : (d.take i).sum ≤ r ∧ r < (d.take (i + 1)).sum)
    (hj : (d.take j).sum ≤ r ∧ r < (d.take (j + 1)).sum) : i = j := by
  by_contra hne
  rcases Nat.lt_or_gt_of_ne hne with h | h
  · have := take_sum_mono d (i := i + 1) (j := j) (by omega); omega
  · have := take_sum_mono d (i := j + 1) (j := i) (by omega); omega

/-! ## Diagonal fill -/

theorem setBlock_length {α} (g : Nat → α) (rs : List (Nat × Nat)) (h : List α) :
    (rs.foldl (fun h rn => h.set rn.1 (g rn.2)) h).length = h.length := by
  induction rs generalizing h with
  | nil => rfl
  | cons a rs ih => simp [ih]

theorem setBlock_get {α} (g : Nat → α) (o n : Nat) (h : List α) (k : Nat) (hk : k < h.length) :
    ((((List.range n).map (o + ·)).zipIdx).foldl (fun h rn => h.set rn.1 (g rn.2)) h)[k]?
      = if o ≤ k ∧ k < o + n then some (g (k - o)) else h[k]? := by
  induction n with
  | zero =>
    have : ¬ (o ≤ k ∧ k < o + 0) := by omega
    simp [this]
  | succ n ih =>
    rw [List.range_succ, List.map_append, List.zipIdx_append, List.foldl_append]
    simp only [List.map_cons, List.map_nil, List.length_map, List.length_range, List.zipIdx_cons,
      List.zipIdx_nil, List.foldl_cons, List.foldl_nil, Nat.zero_add]
    rw [List.getElem?_set, setBlock_length]
    by_cases hc : o + n = k
    · subst hc
      simp only [if_true, hk]
      rw [if_pos (by omega)]; simp
    · rw [if_neg hc, ih]
      by_cases h1 : o ≤ k ∧ k < o + n
      · rw [if_pos h1, if_pos (by omega)]
      · rw [if_neg h1, if_neg (by omega)]

/-- State of the diagonal after `m` blocks. -/
theorem fill_prefix {α} (d : Dims) (zero : α) (value : Nat → Nat → α) (m : Nat) (hm : m ≤ d.length) :
    let h := (List.range m).foldl (fun h i =>
      match view d i with
      | none => h
      | some rs => (rs.zipIdx).foldl (fun h rn => h.set rn.1 (value i rn.2)) h)
      (List.replicate (total d) zero)
    h.length = d.sum ∧
    ∀ i k, i < m → (d.take i).sum ≤ k → k < (d.take (i + 1)).sum →
      h[k]? = some (value i (k - (d.take i).sum)) := by
  induction m with
  | zero => simp [total_eq]
  | succ m ih =>
    intro h
    obtain ⟨h1, h2⟩ := ih (by omega)
    have hml : m < d.length := by omega
    simp only [h, List.range_succ, List.foldl_append, List.foldl_cons, List.foldl_nil]
    set h0 := (List.range m).foldl _ _ with hh0
    have hview : view d m = some ((List.range d[m]).map ((d.take m).sum + ·)) := by
      simp [view, offset_eq hml, rmax, hml]
    rw [hview]
    refine ⟨by rw [setBlock_length]; exact h1, ?_⟩
    intro i k hi hk1 hk2
    have hkl : k < h0.length := by
      rw [h1]; exact lt_of_lt_of_le hk2 (take_sum_le d _)
    simp only
    rw [setBlock_get _ _ _ _ _ hkl]
    rw [← take_succ_sum hml]
    by_cases him : i = m
    · subst him
      rw [if_pos ⟨hk1, hk2⟩]
    · have : ¬ ((d.take m).sum ≤ k ∧ k < (d.take (m + 1)).sum) := by
        intro hc; exact him (block_unique d k i m ⟨hk1, hk2⟩ hc)
      rw [if_neg this]
      exact h2 i k (by omega) hk1 hk2

/-! ## Tasks -/

theorem insertTask_perm (x : Nat × Label) (l : List (Nat × Label)) : (insertTask x l).Perm (x :: l) := by
  induction l with
  | nil => exact List.Perm.refl _
  | cons y ys ih =>
    simp only [insertTask]
    split
    · exact (ih.cons y).trans (List.Perm.swap x y ys)
    · exact List.Perm.refl _

theorem sortTasks_perm (l : List (Nat × Label)) : (sortTasks l).Perm l := by
  induction l with
  | nil => exact List.Perm.refl _
  | cons x l ih => exact (insertTask_perm x _).trans (ih.cons x)

theorem greater_trans {p q r : Nat × Label} (h1 : greater p q = true) (h2 : greater q r = true) :
    greater p r = true := by
  simp only [greater, Bool.or_eq_true, decide_eq_true_eq, Bool.and_eq_true] at *
  rcases h1 with h1 | ⟨h1, h1'⟩ <;> rcases h2 with h2 | ⟨h2, h2'⟩
  · left; omega
  · left; omega
  · left; omega
  · right; exact ⟨by omega, Verif.Invar.lt_trans' _ _ _ h2' h1'⟩

theorem greater_total {p q : Nat × Label} (h : p.2 ≠ q.2) : greater p q = true ∨ greater q p = true := by
  simp only [greater, Bool.or_eq_true, decide_eq_true_eq, Bool.and_eq_true]
  rcases lt_total' p.2 q.2 with h' | h' | h'
  · rcases Nat.lt_trichotomy p.1 q.1 with h1 | h1 | h1
    · right; left; exact h1
    · right; right; exact ⟨h1, h'⟩
    · left; left; exact h1
  · exact absurd h' h
  · rcases Nat.lt_trichotomy p.1 q.1 with h1 | h1 | h1
    · right; left; exact h1
    · left; right; exact ⟨h1.symm, h'⟩
    · left; left; exact h1

theorem insertTask_sorted (x : Nat × Label) (l : List (Nat × Label))
    (hs : l.Pairwise fun a b => greater a b = true) (hx : ∀ y ∈ l, y.2 ≠ x.2) :
    (insertTask x l).Pairwise fun a b => greater a b = true := by
  induction l with
  | nil => simp [insertTask]
  | cons y ys ih =>
    rw [List.pairwise_cons] at hs
    simp only [insertTask]
    split
    · rename_i h
      rw [List.pairwise_cons]
      refine ⟨?_, ih hs.2 fun z hz => hx z (by simp [hz])⟩
      intro z hz
      rcases List.mem_cons.1 ((insertTask_perm x ys).mem_iff.1 hz) with rfl | hz
      · exact h
      · exact hs.1 z hz
    · rename_i h
      have hxy : greater x y = true := by
        rcases greater_total (hx y (by simp)) with h' | h'
        · exact absurd h' h
        · exact h'
      rw [List.pairwise_cons]
      refine ⟨?_, List.pairwise_cons.2 hs⟩
      intro z hz
      rcases List.mem_cons.1 hz with rfl | hz
      · exact hxy
      · exact greater_trans hxy (hs.1 z hz)

theorem sortTasks_sorted (l : List (Nat × Label)) (hn : (l.map Prod.snd).Nodup) :
    (sortTasks l).Pairwise fun a b => greater a b = true := by
  induction l with
  | nil => exact List.Pairwise.nil
  | cons x l ih =>
    simp only [List.map_cons, List.nodup_cons] at hn
    refine insertTask_sorted x _ (ih hn.2) ?_
    intro y hy hyx
    exact hn.1 (hyx ▸ List.mem_map.2 ⟨y, (sortTasks_perm l).mem_iff.1 hy, rfl⟩)

end Verif.Subspaces
