import Verif.Subspaces.Lemmas
/-!
# C06, C07: blocks of a subspace and the task list
-/

namespace Verif.Subspaces
open Verif.Invar

/-- **C06.** Every row index below `total` belongs to the range of exactly one
block, and no block contains an index outside. -/
theorem blocks_tile (d : Dims) (r : Nat) :
    (r < total d ↔ ∃ i b e, part d i = some (b, e) ∧ b ≤ r ∧ r < e) ∧
    (∀ i j b e b' e', part d i = some (b, e) → part d j = some (b', e') →
      b ≤ r → r < e → b' ≤ r → r < e' → i = j) := by
  constructor
  · rw [total_eq]
    constructor
    · intro h
      obtain ⟨i, h1, h2, h3⟩ := exists_block d r h
      exact ⟨i, _, _, part_eq h1, h2, h3⟩
    · rintro ⟨i, b, e, h, h1, h2⟩
      obtain ⟨_, _, rfl⟩ := part_some_iff.1 h
      exact lt_of_lt_of_le h2 (take_sum_le d _)
  · intro i j b e b' e' h h' h1 h2 h3 h4
    obtain ⟨_, rfl, rfl⟩ := part_some_iff.1 h
    obtain ⟨_, rfl, rfl⟩ := part_some_iff.1 h'
    exact block_unique d r i j ⟨h1, h2⟩ ⟨h3, h4⟩

/-- **C06.** The blocks follow one another in order: the first starts at 0,
each starts where the previous one ends, the last ends at `total`. -/
theorem blocks_consecutive (d : Dims) :
    (∀ b e, part d 0 = some (b, e) → b = 0) ∧
    (∀ i b e b' e', part d i = some (b, e) → part d (i + 1) = some (b', e') → b' = e) ∧
    (∀ i b e, part d i = some (b, e) → i + 1 = d.length → e = total d) := by
  refine ⟨?_, ?_, ?_⟩
  · intro b e h; obtain ⟨_, rfl, _⟩ := part_some_iff.1 h; simp
  · intro i b e b' e' h h'
    obtain ⟨_, _, rfl⟩ := part_some_iff.1 h
    obtain ⟨_, rfl, _⟩ := part_some_iff.1 h'
    rfl
  · intro i b e h hl
    obtain ⟨_, _, rfl⟩ := part_some_iff.1 h
    rw [List.take_of_length_le (by omega), total_eq]

/-- **C06.** All accessors describe the same ranges, and the 1-based ones are
the 0-based ones shifted by one. -/
theorem accessors_agree (d : Dims) (i : Nat) (h : i < d.length) :
    ∃ b, offset d i = some b ∧ rmax d i = some d[i] ∧
      part d i = some (b, b + d[i]) ∧ view d i = some ((List.range d[i]).map (b + ·)) ∧
      partMma d (i + 1) = part d i ∧ viewMma d (i + 1) = view d i ∧
      chunk d (i + 1) = some (b, d[i]) ∧ exists' d i = some (decide (d[i] > 0)) :=
  ⟨(d.take i).sum, offset_eq h, by simp [rmax, h], by rw [part_eq h, take_succ_sum h],
    by simp [view, offset_eq h, rmax, h], by simp [partMma, shift1], by simp [viewMma, shift1],
    by simp [chunk, shift1, offset_eq h, rmax, h], by simp [exists', h]⟩

/-- **C06.** An out-of-range block index is rejected by every accessor. -/
theorem accessors_reject (d : Dims) (i : Nat) :
    (d.length ≤ i → rmax d i = none ∧ exists' d i = none ∧ offset d i = none ∧ part d i = none ∧
      view d i = none) ∧
    (i = 0 ∨ d.length < i → chunk d i = none ∧ partMma d i = none ∧ viewMma d i = none) := by
  have key : ∀ j, d.length ≤ j → rmax d j = none ∧ exists' d j = none ∧ offset d j = none ∧
      part d j = none ∧ view d j = none := by
    intro j h
    have : ¬ j < d.length := by omega
    simp [rmax, exists', offset, part, view, h, this]
  refine ⟨key i, ?_⟩
  rintro (rfl | h)
  · simp [chunk, partMma, viewMma, shift1]
  · obtain ⟨k1, k2, k3, k4, k5⟩ := key (i - 1) (by omega)
    have hi : i ≠ 0 := by omega
    simp [chunk, partMma, viewMma, shift1, hi, k1, k3, k4, k5]

/-- **C06.** An off-diagonal block contributes iff both blocks are non-empty;
it is only defined for two different valid 1-based indices. -/
theorem offdiagContributes_spec (d : Dims) (i1 j1 : Nat) :
    (offdiagContributes d i1 j1 = some true ↔
      i1 ≠ j1 ∧ ∃ b e b' e', partMma d i1 = some (b, e) ∧ partMma d j1 = some (b', e') ∧ b < e ∧ b' < e') ∧
    (offdiagContributes d i1 j1 = none ↔
      i1 = j1 ∨ partMma d i1 = none ∨ partMma d j1 = none) := by
  by_cases hi : 1 ≤ i1 ∧ i1 ≤ d.length
  · by_cases hj : 1 ≤ j1 ∧ j1 ≤ d.length
    · have hi' : i1 - 1 < d.length := by omega
      have hj' : j1 - 1 < d.length := by omega
      have pi : partMma d i1 = some ((d.take (i1-1)).sum, (d.take (i1-1)).sum + d[i1-1]) := by
        have : i1 ≠ 0 := by omega
        simp [partMma, shift1, this, part_eq hi', take_succ_sum hi']
      have pj : partMma d j1 = some ((d.take (j1-1)).sum, (d.take (j1-1)).sum + d[j1-1]) := by
        have : j1 ≠ 0 := by omega
        simp [partMma, shift1, this, part_eq hj', take_succ_sum hj']
      rw [pi, pj]
      simp only [offdiagContributes, hi, hj, and_self, if_true, exists', List.getElem?_eq_getElem hi',
        List.getElem?_eq_getElem hj']
      by_cases hne : i1 = j1
      · subst hne; simp
      · simp [hne]
    · have : partMma d j1 = none := (accessors_reject d j1).2 (by omega) |>.2.1
      simp [offdiagContributes, hi, hj, this]
  · have : partMma d i1 = none := (accessors_reject d i1).2 (by omega) |>.2.1
    have h2 : ¬ (1 ≤ i1 ∧ i1 ≤ d.length ∧ 1 ≤ j1 ∧ j1 ≤ d.length) := fun h => hi ⟨h.1, h.2.1⟩
    simp [offdiagContributes, h2, this]

/-- **C06 (use in the Hamiltonian).** After the diagonal has been filled, the
entry in row `r` is the `n`-th value of the block `r` belongs to, where `n` is
the position of `r` within that block; every row has been assigned. -/
theorem diagonal_filled {α} (d : Dims) (zero : α) (value : Nat → Nat → α) :
    (fillDiagonal d zero value).length = total d ∧
    ∀ i b e r, part d i = some (b, e) → b ≤ r → r < e →
      (fillDiagonal d zero value)[r]? = some (value i (r - b)) := by
  have := fill_prefix d zero value d.length (le_refl _)
  refine ⟨by rw [total_eq]; exact this.1, ?_⟩
  intro i b e r h h1 h2
  obtain ⟨h0, rfl, rfl⟩ := part_some_iff.1 h
  exact this.2 i r h0 h1 h2

example : (List.range 4).map (part [2, 0, 3, 1]) = [some (0, 2), some (2, 2), some (2, 5), some (5, 6)] := by
  decide
example : fillDiagonal [2, 0, 3, 1] (0, 0) (fun i n => (i, n)) = [(0,0), (0,1), (2,0), (2,1), (2,2), (3,0)] := by
  decide

/-- **C07.** The task list contains each subspace with non-zero dimension
exactly once, and no other. -/
theorem tasks_complete (st : List (Label × Dims)) (hn : (st.map Prod.fst).Nodup) :
    (tasks st).Nodup ∧ ∀ I, I ∈ tasks st ↔ ∃ d, (I, d) ∈ st ∧ d.sum ≠ 0 := by
  have hp := sortTasks_perm ((st.filter fun e => decide (total e.2 ≠ 0)).map fun e => (total e.2, e.1))
  have hp' := hp.map Prod.snd
  constructor
  · refine (List.Perm.nodup_iff hp').2 ?_
    rw [List.map_map]
    exact List.Nodup.sublist (List.Sublist.map _ List.filter_sublist) hn
  · intro I
    rw [tasks, tasksWithSizes, hp'.mem_iff]
    simp only [List.map_map, List.mem_map, List.mem_filter, decide_eq_true_eq, Function.comp_apply,
      total_eq]
    constructor
    · rintro ⟨e, ⟨h1, h2⟩, rfl⟩; exact ⟨e.2, h1, h2⟩
    · rintro ⟨d, h1, h2⟩; exact ⟨(I, d), ⟨h1, h2⟩, rfl⟩

/-- **C07.** Tasks are ordered by non-increasing dimension, equal dimensions by
decreasing label; the size recorded with a task is its dimension. -/
theorem tasks_sorted (st : List (Label × Dims)) (hn : (st.map Prod.fst).Nodup) :
    (∀ p ∈ tasksWithSizes st, ∃ d, (p.2, d) ∈ st ∧ p.1 = d.sum) ∧
    (tasksWithSizes st).Pairwise fun p q => q.1 < p.1 ∨ (q.1 = p.1 ∧ lt q.2 p.2 = true) := by
  constructor
  · intro p hp
    rw [tasksWithSizes, (sortTasks_perm _).mem_iff] at hp
    obtain ⟨e, he, rfl⟩ := List.mem_map.1 hp
    exact ⟨e.2, (List.mem_filter.1 he).1, total_eq _⟩
  · have : ((((st.filter fun e => decide (total e.2 ≠ 0)).map fun e => (total e.2, e.1))).map Prod.snd).Nodup := by
      rw [List.map_map]
      exact List.Nodup.sublist (List.Sublist.map _ List.filter_sublist) hn
    refine (sortTasks_sorted _ this).imp ?_
    intro p q h
    simpa [greater] using h

example : tasks [([0, 1], [2, 1]), ([1, 2], [0, 0]), ([1, 3], [4]), ([2, 1], [1, 1, 1])]
    = [[1, 3], [2, 1], [0, 1]] := by decide

end Verif.Subspaces
