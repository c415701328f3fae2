import Verif.Trunc.Spec
import Mathlib.Algebra.Order.Group.Basic
import Mathlib.Tactic.Linarith
/-! # Helper lemmas for truncation -/

namespace Verif.Trunc
variable {K : Type} [AddCommGroup K] [LinearOrder K]

theorem nth_unique {n : Nat} {l : List K} {a b : K} (ha : IsNthSmallest n l a) (hb : IsNthSmallest n l b) :
    a = b := by
  rcases lt_trichotomy a b with h | h | h
  · exfalso
    have : l.countP (fun x => decide (x ≤ a)) ≤ l.countP (fun x => decide (x < b)) := by
      apply List.countP_mono_left
      intro x _ hx
      simp only [decide_eq_true_eq] at *
      exact lt_of_le_of_lt hx h
    have := ha.2; have := hb.1; omega
  · exact h
  · exfalso
    have : l.countP (fun x => decide (x ≤ b)) ≤ l.countP (fun x => decide (x < a)) := by
      apply List.countP_mono_left
      intro x _ hx
      simp only [decide_eq_true_eq] at *
      exact lt_of_le_of_lt hx h
    have := hb.2; have := ha.1; omega

theorem nth_of_sorted {s : List K} (hs : s.Pairwise (· ≤ ·)) {i : Nat} {c : K} (h : s[i]? = some c) :
    IsNthSmallest (i + 1) s c := by
  obtain ⟨hi, rfl⟩ := List.getElem?_eq_some_iff.1 h
  rw [List.pairwise_iff_getElem] at hs
  constructor
  · have h1 : s.countP (fun x => decide (x < s[i]))
        = (s.take i).countP (fun x => decide (x < s[i])) + (s.drop i).countP (fun x => decide (x < s[i])) := by
      rw [← List.countP_append, List.take_append_drop]
    have h2 : (s.drop i).countP (fun x => decide (x < s[i])) = 0 := by
      rw [List.countP_eq_zero]
      intro x hx
      obtain ⟨j, hj, rfl⟩ := List.getElem_of_mem hx
      rw [List.getElem_drop]
      simp only [decide_eq_true_eq, not_lt]
      rcases Nat.eq_zero_or_pos j with h0 | h0
      · subst h0; simp
      · exact hs i (i + j) hi (by rw [List.length_drop] at hj; omega) (by omega)
    have h3 : (s.take i).countP (fun x => decide (x < s[i])) ≤ i := by
      refine le_trans List.countP_le_length ?_
      simp
    omega
  · have h1 : s.countP (fun x => decide (x ≤ s[i]))
        = (s.take (i+1)).countP (fun x => decide (x ≤ s[i])) + (s.drop (i+1)).countP (fun x => decide (x ≤ s[i])) := by
      rw [← List.countP_append, List.take_append_drop]
    have h2 : (s.take (i+1)).countP (fun x => decide (x ≤ s[i])) = (s.take (i+1)).length := by
      rw [List.countP_eq_length]
      intro x hx
      obtain ⟨j, hj, rfl⟩ := List.getElem_of_mem hx
      rw [List.getElem_take]
      simp only [decide_eq_true_eq]
      rw [List.length_take] at hj
      rcases Nat.lt_or_ge j i with h0 | h0
      · exact hs j i (by omega) hi h0
      · have : j = i := by omega
        subst this; exact le_refl _
    rw [List.length_take] at h2
    omega

theorem nth_perm {n : Nat} {l l' : List K} (hp : l.Perm l') {c : K} :
    IsNthSmallest n l c ↔ IsNthSmallest n l' c := by
  simp only [IsNthSmallest, hp.countP_eq]

/-- Entry `i` of the sorted list is the `(i+1)`-th smallest. -/
theorem nth_sort {l : List K} {i : Nat} {c : K} (h : (l.insertionSort (· ≤ ·))[i]? = some c) :
    IsNthSmallest (i + 1) l c :=
  (nth_perm (List.perm_insertionSort _ l)).1 (nth_of_sorted (List.pairwise_insertionSort _ l) h)

theorem nth_mem {n : Nat} {l : List K} {c : K} (h : IsNthSmallest n l c) : c ∈ l := by
  by_contra hc
  have : l.countP (fun x => decide (x ≤ c)) = l.countP (fun x => decide (x < c)) := by
    apply List.countP_congr
    intro x hx
    simp only [decide_eq_true_eq]
    constructor
    · intro hle; exact lt_of_le_of_ne hle fun e => hc (e ▸ hx)
    · exact le_of_lt
  have := h.1; have := h.2; omega

theorem foldl_max_spec (l : List K) (a : K) :
    l.foldl max a ∈ a :: l ∧ ∀ x ∈ a :: l, x ≤ l.foldl max a := by
  induction l generalizing a with
  | nil => simp
  | cons b l ih =>
    obtain ⟨h1, h2⟩ := ih (max a b)
    simp only [List.foldl_cons]
    constructor
    · rcases List.mem_cons.1 h1 with h | h
      · rcases max_choice a b with hm | hm
        · rw [h, hm]; simp
        · rw [h, hm]; simp
      · simp [h]
    · intro x hx
      have hm := h2 (max a b) (by simp)
      rcases List.mem_cons.1 hx with rfl | hx
      · exact le_trans (le_max_left _ _) hm
      · rcases List.mem_cons.1 hx with rfl | hx
        · exact le_trans (le_max_right _ _) hm
        · exact h2 x (by simp [hx])

theorem foldl_min_spec (l : List K) (a : K) :
    l.foldl min a ∈ a :: l ∧ ∀ x ∈ a :: l, l.foldl min a ≤ x := by
  induction l generalizing a with
  | nil => simp
  | cons b l ih =>
    obtain ⟨h1, h2⟩ := ih (min a b)
    simp only [List.foldl_cons]
    constructor
    · rcases List.mem_cons.1 h1 with h | h
      · rcases min_choice a b with hm | hm
        · rw [h, hm]; simp
        · rw [h, hm]; simp
      · simp [h]
    · intro x hx
      have hm := h2 (min a b) (by simp)
      rcases List.mem_cons.1 hx with rfl | hx
      · exact le_trans hm (min_le_left _ _)
      · rcases List.mem_cons.1 hx with rfl | hx
        · exact le_trans hm (min_le_right _ _)
        · exact h2 x (by simp [hx])

theorem nrkeep0_ok (s : Settings K) (all : List K) (h : s.keepmin ≤ s.keep) :
    nrkeep0 s all = .ok (requested s all) := by
  unfold nrkeep0 requested
  split
  · rfl
  · simp only [clamp, Nat.not_lt.2 h, if_false]
    congr 1
    split
    · omega
    · split <;> omega

theorem requested_pos (s : Settings K) (all : List K) (hk : 1 ≤ s.keep) : 1 ≤ requested s all := by
  unfold requested; split <;> omega

theorem readAt_some {arr : List K} {i : Nat} {x : K} (h : arr[i]? = some x) : readAt arr i = .ok x := by
  simp [readAt, h]

/-- The safeguard loop on a prefix of a sorted list. -/
theorem safeguardLoop_spec (arr : List K) (sg : K) (pre left n : Nat) (hl : arr.length = pre) (hn : 1 ≤ n)
    (hnp : n ≤ pre) :
    ∃ m, safeguardLoop arr sg pre left n = .ok m ∧ n ≤ m ∧ m ≤ n + left ∧ m ≤ pre ∧
      (∀ j, n ≤ j → j < m → ∃ a b, arr[j]? = some a ∧ arr[j - 1]? = some b ∧ a - b ≤ sg) ∧
      (m = n + left ∨ m = pre ∨ ∃ a b, arr[m]? = some a ∧ arr[m - 1]? = some b ∧ ¬ a - b ≤ sg) := by
  induction left generalizing n with
  | zero =>
    refine ⟨n, ?_, le_refl _, by omega, hnp, by omega, Or.inl rfl⟩
    unfold safeguardLoop
    by_cases h : n < pre
    · have h1 : arr[n]? = some (arr[n]'(by omega)) := List.getElem?_eq_getElem _
      have h2 : arr[n-1]? = some (arr[n-1]'(by omega)) := List.getElem?_eq_getElem _
      rw [if_pos h, readAt_some h1]
      simp only [Nat.ne_of_gt hn, if_false, readAt_some h2, ite_self]
    · rw [if_neg h]
  | succ left ih =>
    by_cases h : n < pre
    · have h1 : arr[n]? = some (arr[n]'(by omega)) := List.getElem?_eq_getElem _
      have h2 : arr[n-1]? = some (arr[n-1]'(by omega)) := List.getElem?_eq_getElem _
      by_cases hg : arr[n]'(by omega) - arr[n-1]'(by omega) ≤ sg
      · obtain ⟨m, g1, g2, g3, g4, g5, g6⟩ := ih (n + 1) (by omega) (by omega)
        refine ⟨m, ?_, by omega, by omega, g4, ?_, ?_⟩
        · unfold safeguardLoop
          rw [if_pos h, readAt_some h1]
          simp only [Nat.ne_of_gt hn, if_false, readAt_some h2, hg, if_true]
          exact g1
        · intro j hj1 hj2
          rcases Nat.eq_or_lt_of_le hj1 with rfl | hj
          · exact ⟨_, _, h1, h2, hg⟩
          · exact g5 j (by omega) hj2
        · rcases g6 with g | g | g
          · left; omega
          · right; left; exact g
          · right; right; exact g
      · refine ⟨n, ?_, le_refl _, by omega, hnp, by omega, Or.inr (Or.inr ⟨_, _, h1, h2, hg⟩)⟩
        unfold safeguardLoop
        rw [if_pos h, readAt_some h1]
        simp only [Nat.ne_of_gt hn, if_false, readAt_some h2, hg]
    · refine ⟨n, ?_, le_refl _, by omega, hnp, by omega, Or.inr (Or.inl (by omega))⟩
      unfold safeguardLoop
      rw [if_neg h]

theorem partialSort_length (k : Nat) (all : List K) (h : k ≤ all.length) :
    (partialSort k all).length = k := by
  simp [partialSort, List.length_insertionSort, h]

theorem partialSort_get {k i : Nat} {all : List K} {x : K} (h : (partialSort k all)[i]? = some x) :
    IsNthSmallest (i + 1) all x := by
  apply nth_sort
  have hi : i < k := by
    have := (List.getElem?_eq_some_iff.1 h).1
    simp only [partialSort, List.length_take] at this
    omega
  rw [partialSort, List.getElem?_take_of_lt hi] at h
  exact h

/-! ## Counting kept states -/

theorem countP_le_sorted {s : List K} (hs : s.Pairwise (· ≤ ·)) (c : K) (j : Nat) (hj : j < s.length) :
    j < s.countP (fun x => decide (x ≤ c)) ↔ s[j] ≤ c := by
  induction s generalizing j with
  | nil => simp at hj
  | cons a s ih =>
    rw [List.pairwise_cons] at hs
    rw [List.countP_cons]
    by_cases ha : a ≤ c
    · simp only [ha, decide_true, if_true]
      cases j with
      | zero => simp [ha]
      | succ j =>
        simp only [List.getElem_cons_succ, Nat.add_lt_add_iff_right]
        exact ih hs.2 j (by simpa using hj)
    · have h0 : s.countP (fun x => decide (x ≤ c)) = 0 := by
        rw [List.countP_eq_zero]
        intro x hx
        simp only [decide_eq_true_eq, not_le]
        exact lt_of_lt_of_le (not_le.1 ha) (hs.1 x hx)
      simp only [h0, ha, decide_false]
      constructor
      · intro h; simp at h
      · intro h
        exfalso
        cases j with
        | zero => exact ha h
        | succ j =>
          exact ha (le_trans (hs.1 _ (List.getElem_mem _)) h)

/-! ## Clusters -/

/-- Pairs (energy, representative) in scan order. -/
def assign (eps : K) : K → List K → List (K × K)
  | _, [] => []
  | e0, x :: l => if x - e0 ≥ eps then (x, x) :: assign eps x l else (x, e0) :: assign eps e0 l

theorem assign_map_fst (eps e0 : K) (l : List K) : (assign eps e0 l).map Prod.fst = l := by
  induction l generalizing e0 with
  | nil => rfl
  | cons x l ih => simp only [assign]; split <;> simp [ih]

def insertAll (m : List (K × K)) (ps : List (K × K)) : List (K × K) :=
  ps.foldl (fun m p => if p.1 ≠ p.2 then mapInsert m p.1 p.2 else m) m

theorem not_splitting {cl : List K} (h : clusterSplitting cl = false) :
    ∀ x ∈ cl, ∀ y ∈ cl, x = y := by
  induction cl with
  | nil => simp
  | cons a l ih =>
    simp only [clusterSplitting, Bool.or_eq_false_iff, List.any_eq_false, decide_eq_true_eq, not_not] at h
    intro x hx y hy
    have ha : ∀ z ∈ a :: l, z = a := by
      intro z hz
      rcases List.mem_cons.1 hz with rfl | hz
      · rfl
      · exact (h.1 z hz).symm
    rw [ha x hx, ha y hy]

theorem insertAll_trivial (m : List (K × K)) (ps : List (K × K)) (h : ∀ p ∈ ps, p.1 = p.2) :
    insertAll m ps = m := by
  induction ps generalizing m with
  | nil => rfl
  | cons p ps ih =>
    simp only [insertAll, List.foldl_cons]
    rw [if_neg (by simp [h p])]
    exact ih m fun q hq => h q (by simp [hq])

theorem processCluster_eq (m : List (K × K)) (a : K) (l : List K) :
    processCluster m (a :: l) = insertAll m (l.map fun x => (x, a)) := by
  simp only [processCluster]
  split
  · simp only [insertAll, List.foldl_map]
  · rename_i h
    rw [insertAll_trivial]
    intro p hp
    obtain ⟨x, hx, rfl⟩ := List.mem_map.1 hp
    have h' : clusterSplitting (a :: l) = false := by
      rw [Bool.and_eq_true, not_and_or] at h
      rcases h with h | h
      · exfalso
        have : l ≠ [] := by rintro rfl; simp at hx
        have : 0 < l.length := List.length_pos_iff.2 this
        simp only [List.length_cons, gt_iff_lt, decide_eq_true_eq, not_lt] at h
        omega
      · simpa using h
    exact not_splitting h' x (by simp [hx]) a (by simp)

theorem insertAll_append (m : List (K × K)) (p q : List (K × K)) :
    insertAll m (p ++ q) = insertAll (insertAll m p) q := by simp [insertAll, List.foldl_append]

theorem scan_eq (eps e0 : K) (l cur : List K) (m : List (K × K)) :
    scan eps l e0 (e0 :: cur) m = insertAll m (cur.map (fun x => (x, e0)) ++ assign eps e0 l) := by
  induction l generalizing e0 cur m with
  | nil => simp [scan, assign, processCluster_eq]
  | cons x l ih =>
    simp only [scan, assign]
    split
    · rw [ih, processCluster_eq, List.map_nil, List.nil_append, insertAll_append]
      simp only [insertAll, List.foldl_cons, ne_eq, not_true_eq_false, if_false]
    · rw [List.cons_append, ih]
      simp

theorem mapFind_insert (m : List (K × K)) (k v x : K) :
    mapFind (mapInsert m k v) x = match mapFind m x with
      | some w => some w
      | none => if k = x then some v else none := by
  simp only [mapInsert]
  split
  · rename_i h
    rw [List.any_eq_true] at h
    obtain ⟨p, hp, hpk⟩ := h
    cases hf : mapFind m x with
    | some w => rfl
    | none =>
      by_cases hk : k = x
      · exfalso
        simp only [mapFind, Option.map_eq_none_iff, List.find?_eq_none] at hf
        have := hf p hp
        simp only [decide_eq_true_eq] at hpk this
        exact this (hpk.trans hk)
      · simp [hk]
  · rename_i h
    have h' : mapFind m k = none := by
      simp only [mapFind, Option.map_eq_none_iff, List.find?_eq_none]
      intro p hp hc
      apply h
      rw [List.any_eq_true]
      exact ⟨p, hp, hc⟩
    by_cases hk : k = x
    · subst hk
      simp only [h', if_true]
      simp [mapFind]
    · have : mapFind ((k, v) :: m) x = mapFind m x := by
        simp [mapFind, List.find?_cons, hk]
      rw [this]
      cases mapFind m x <;> simp [hk]

theorem mapFind_insertAll (m : List (K × K)) (ps : List (K × K)) (x r : K)
    (hcons : ∀ p ∈ ps, p.1 = x → p.2 = r) (hm : mapFind m x = none ∨ (mapFind m x = some r)) :
    mapFind (insertAll m ps) x = if (∃ p ∈ ps, p.1 = x ∧ x ≠ r) then some r else mapFind m x := by
  induction ps generalizing m with
  | nil => simp [insertAll]
  | cons p ps ih =>
    have hc := hcons p (by simp)
    have hcs : ∀ q ∈ ps, q.1 = x → q.2 = r := fun q hq => hcons q (by simp [hq])
    simp only [insertAll, List.foldl_cons]
    by_cases hp : p.1 = x
    · have hr := hc hp
      by_cases hxr : x = r
      · have : ¬ (p.1 ≠ p.2) := by rw [hp, hr]; exact not_not.2 hxr
        rw [if_neg this]
        have := ih m hcs hm
        simp only [insertAll] at this
        rw [this]
        simp [hxr]
      · have hne : p.1 ≠ p.2 := by rw [hp, hr]; exact hxr
        rw [if_pos hne]
        have hf : mapFind (mapInsert m p.1 p.2) x = some r := by
          rw [mapFind_insert]
          rcases hm with h | h
          · rw [h]; simp [hp, hr]
          · rw [h]
        have := ih (mapInsert m p.1 p.2) hcs (Or.inr hf)
        simp only [insertAll] at this
        rw [this, hf]
        have : ∃ q ∈ p :: ps, q.1 = x ∧ x ≠ r := ⟨p, by simp, hp, hxr⟩
        rw [if_pos this]
        simp
    · have hstep : mapFind (if p.1 ≠ p.2 then mapInsert m p.1 p.2 else m) x = mapFind m x := by
        split
        · rw [mapFind_insert]; simp only [hp, if_false]; cases mapFind m x <;> rfl
        · rfl
      have := ih (if p.1 ≠ p.2 then mapInsert m p.1 p.2 else m) hcs (by rw [hstep]; exact hm)
      simp only [insertAll] at this
      rw [this, hstep]
      have e : (∃ q ∈ p :: ps, q.1 = x ∧ x ≠ r) ↔ (∃ q ∈ ps, q.1 = x ∧ x ≠ r) := by
        constructor
        · rintro ⟨q, hq, h1, h2⟩
          rcases List.mem_cons.1 hq with rfl | hq
          · exact absurd h1 hp
          · exact ⟨q, hq, h1, h2⟩
        · rintro ⟨q, hq, h⟩; exact ⟨q, by simp [hq], h⟩
      simp only [e]

/-! ### Properties of `assign` -/

section
variable [IsOrderedAddMonoid K]

/-- The relation between two entries in scan order. -/
def Rel (eps : K) (p q : K × K) : Prop :=
  p.2 ≤ q.2 ∧ (p.2 = q.2 ∨ eps ≤ q.2 - p.2) ∧ (p.1 = q.1 → p.2 = q.2)

theorem assign_basic (eps e0 : K) (l : List K) (hl : ∀ x ∈ l, e0 ≤ x) (hs : l.Pairwise (· ≤ ·)) :
    ∀ p ∈ assign eps e0 l, e0 ≤ p.2 ∧ p.2 ≤ p.1 ∧ (p.2 = p.1 ∨ p.1 - p.2 < eps) ∧
      (p.2 = e0 ∨ (p.2, p.2) ∈ assign eps e0 l) ∧ (p.2 = e0 ∨ eps ≤ p.2 - e0) ∧
      (p.1 = e0 → p.2 = e0) := by
  induction l generalizing e0 with
  | nil => simp [assign]
  | cons x l ih =>
    rw [List.pairwise_cons] at hs
    have hx := hl x (by simp)
    intro p hp
    simp only [assign] at hp ⊢
    split at hp
    · rename_i h
      rw [if_pos h]
      rcases List.mem_cons.1 hp with rfl | hp
      · exact ⟨hx, le_refl _, Or.inl rfl, Or.inr (by simp), Or.inr h, fun h => h⟩
      · obtain ⟨a1, a2, a3, a4, a5, a6⟩ := ih x hs.1 hs.2 p hp
        refine ⟨le_trans hx a1, a2, a3, Or.inr ?_, Or.inr ?_, ?_⟩
        · rcases a4 with h | h
          · rw [h]; simp
          · simp [h]
        · exact le_trans h (sub_le_sub_right a1 _)
        · intro hpe
          have : p.2 = e0 := le_antisymm (hpe ▸ a2) (le_trans hx a1)
          exact this
    · rename_i h
      rw [if_neg h]
      rcases List.mem_cons.1 hp with rfl | hp
      · exact ⟨le_refl _, hx, Or.inr (not_le.1 h), Or.inl rfl, Or.inl rfl, fun _ => rfl⟩
      · obtain ⟨a1, a2, a3, a4, a5, a6⟩ := ih e0 (fun y hy => hl y (by simp [hy])) hs.2 p hp
        refine ⟨a1, a2, a3, ?_, a5, a6⟩
        rcases a4 with h | h
        · exact Or.inl h
        · exact Or.inr (by simp [h])

theorem assign_pairwise (eps e0 : K) (l : List K) (hl : ∀ x ∈ l, e0 ≤ x) (hs : l.Pairwise (· ≤ ·)) :
    (assign eps e0 l).Pairwise (Rel eps) := by
  induction l generalizing e0 with
  | nil => simp [assign]
  | cons x l ih =>
    rw [List.pairwise_cons] at hs
    have hx := hl x (by simp)
    simp only [assign]
    split
    · rename_i h
      rw [List.pairwise_cons]
      refine ⟨?_, ih x hs.1 hs.2⟩
      intro q hq
      obtain ⟨a1, a2, a3, a4, a5, a6⟩ := assign_basic eps x l hs.1 hs.2 q hq
      refine ⟨a1, ?_, fun h => (a6 h.symm).symm⟩
      rcases a5 with h | h
      · exact Or.inl h.symm
      · exact Or.inr h
    · rename_i h
      rw [List.pairwise_cons]
      refine ⟨?_, ih e0 (fun y hy => hl y (by simp [hy])) hs.2⟩
      intro q hq
      obtain ⟨a1, a2, a3, a4, a5, a6⟩ := assign_basic eps e0 l (fun y hy => hl y (by simp [hy])) hs.2 q hq
      refine ⟨a1, ?_, ?_⟩
      · rcases a5 with h | h
        · exact Or.inl h.symm
        · exact Or.inr h
      · intro hxq
        simp only at hxq
        rcases a5 with h' | h'
        · exact h'.symm
        · exfalso
          have h2 : q.2 - e0 ≤ x - e0 := sub_le_sub_right (hxq ▸ a2) _
          exact h (le_trans h' h2)

end
end Verif.Trunc
