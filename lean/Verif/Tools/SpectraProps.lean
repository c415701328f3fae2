import Verif.Tools.Spectra
import Mathlib.Algebra.Order.BigOperators.Group.List
import Mathlib.Algebra.Order.Ring.Rat
import Mathlib.Data.List.GetD
import Mathlib.Tactic.Linarith
import Mathlib.Tactic.FieldSimp
import Mathlib.Tactic.Ring
/-!
# C46: averaging over twist parameters; C47: the cumulative spectrum
-/

namespace Verif.Tools
variable {K : Type} [Field K] [LinearOrder K] [IsStrictOrderedRing K]

/-- The weight found at frequency `w` in a list of points. -/
def weightAt (w : K) (l : List (K × K)) : K := ((l.filter fun p => p.1 = w).map Prod.snd).sum

/-- The total weight. -/
def total (l : List (K × K)) : K := (l.map Prod.snd).sum

/-- Frequencies strictly increasing. -/
def Increasing (l : List (K × K)) : Prop := l.Pairwise fun p q => p.1 < q.1

omit [IsStrictOrderedRing K] in
theorem weightAt_append (w : K) (l m : List (K × K)) : weightAt w (l ++ m) = weightAt w l + weightAt w m := by
  simp [weightAt]

omit [IsStrictOrderedRing K] in
theorem weightAt_cons (w : K) (p : K × K) (m : List (K × K)) : weightAt w (p :: m) = (if p.1 = w then p.2 else 0) + weightAt w m := by
  unfold weightAt
  by_cases h : p.1 = w <;> simp [h]

omit [IsStrictOrderedRing K] in
theorem weightAt_perm (w : K) {l m : List (K × K)} (h : l.Perm m) : weightAt w l = weightAt w m :=
  ((h.filter _).map _).sum_eq

omit [IsStrictOrderedRing K] in
theorem addPoint_spec (w v : K) (m : List (K × K)) (hm : Increasing m) :
    Increasing (addPoint w v m) ∧ (∀ x, weightAt x (addPoint w v m) = weightAt x m + if w = x then v else 0) ∧
    total (addPoint w v m) = total m + v ∧ ∀ x, x ∈ (addPoint w v m).map Prod.fst ↔ x = w ∨ x ∈ m.map Prod.fst := by
  induction m with
  | nil =>
    refine ⟨by simp [addPoint, Increasing], fun x => ?_, by simp [addPoint, total], by simp [addPoint]⟩
    unfold addPoint
    rw [weightAt_cons, add_comm]
  | cons p m ih =>
    obtain ⟨a, b⟩ := p
    obtain ⟨h1, h2⟩ := List.pairwise_cons.mp hm
    obtain ⟨i1, i2, i3, i4⟩ := ih h2
    unfold addPoint
    by_cases hlt : w < a
    · rw [if_pos hlt]
      refine ⟨List.pairwise_cons.mpr ⟨?_, hm⟩, ?_, ?_, ?_⟩
      · intro q hq
        rcases List.mem_cons.mp hq with rfl | hq
        · exact hlt
        · exact hlt.trans (h1 q hq)
      · intro x; rw [weightAt_cons x (w, v)]; exact add_comm _ _
      · simp only [total, List.map_cons, List.sum_cons]; exact add_comm _ _
      · intro x; simp
    rw [if_neg hlt]
    by_cases heq : w = a
    · rw [if_pos heq]
      subst heq
      refine ⟨List.pairwise_cons.mpr ⟨h1, h2⟩, ?_, ?_, ?_⟩
      · intro x
        rw [weightAt_cons, weightAt_cons]
        dsimp only
        by_cases hx : w = x
        · simp only [hx, if_true]; ring
        · simp only [hx, if_false]; ring
      · simp only [total, List.map_cons, List.sum_cons]; ring
      · intro x; simp
    · rw [if_neg heq]
      have hgt : a < w := lt_of_le_of_ne (not_lt.mp hlt) (Ne.symm heq)
      refine ⟨List.pairwise_cons.mpr ⟨?_, i1⟩, ?_, ?_, ?_⟩
      · intro q hq
        have := (i4 q.1).mp (List.mem_map_of_mem hq)
        rcases this with h | h
        · rw [h]; exact hgt
        · obtain ⟨r, hr, hrq⟩ := List.mem_map.mp h
          rw [← hrq]; exact h1 r hr
      · intro x; rw [weightAt_cons, weightAt_cons, i2]; ring
      · have : total (addPoint w v m) = total m + v := i3
        simp only [total, List.map_cons, List.sum_cons] at this ⊢
        rw [this]; ring
      · intro x
        simp only [List.map_cons, List.mem_cons]
        rw [i4]
        tauto

omit [IsStrictOrderedRing K] in
theorem addAll_spec (f m : List (K × K)) (hm : Increasing m) :
    Increasing (f.foldl (fun m p => addPoint p.1 p.2 m) m) ∧
    (∀ x, weightAt x (f.foldl (fun m p => addPoint p.1 p.2 m) m) = weightAt x m + weightAt x f) ∧
    total (f.foldl (fun m p => addPoint p.1 p.2 m) m) = total m + total f ∧
    ∀ x, x ∈ (f.foldl (fun m p => addPoint p.1 p.2 m) m).map Prod.fst ↔ x ∈ f.map Prod.fst ∨ x ∈ m.map Prod.fst := by
  induction f generalizing m with
  | nil => simp [hm, weightAt, total]
  | cons p f ih =>
    obtain ⟨a1, a2, a3, a4⟩ := addPoint_spec p.1 p.2 m hm
    obtain ⟨b1, b2, b3, b4⟩ := ih _ a1
    rw [List.foldl_cons]
    refine ⟨b1, fun x => ?_, ?_, fun x => ?_⟩
    · rw [b2, a2, weightAt_cons]; ring
    · rw [b3, a3]; simp only [total, List.map_cons, List.sum_cons]; ring
    · rw [b4, a4]; simp only [List.map_cons, List.mem_cons]; tauto

omit [IsStrictOrderedRing K] in
theorem collect_spec (files : List (List (K × K))) :
    Increasing (collect files) ∧ (∀ x, weightAt x (collect files) = (files.map (weightAt x)).sum) ∧
    total (collect files) = (files.map total).sum ∧
    ∀ x, x ∈ (collect files).map Prod.fst ↔ ∃ f ∈ files, x ∈ f.map Prod.fst := by
  have key : ∀ (files : List (List (K × K))) (m : List (K × K)), Increasing m →
      Increasing (files.foldl (fun m f => f.foldl (fun m p => addPoint p.1 p.2 m) m) m) ∧
      (∀ x, weightAt x (files.foldl (fun m f => f.foldl (fun m p => addPoint p.1 p.2 m) m) m) = weightAt x m + (files.map (weightAt x)).sum) ∧
      total (files.foldl (fun m f => f.foldl (fun m p => addPoint p.1 p.2 m) m) m) = total m + (files.map total).sum ∧
      ∀ x, x ∈ (files.foldl (fun m f => f.foldl (fun m p => addPoint p.1 p.2 m) m) m).map Prod.fst ↔
        (∃ f ∈ files, x ∈ f.map Prod.fst) ∨ x ∈ m.map Prod.fst := by
    intro files
    induction files with
    | nil => intro m hm; simp [hm]
    | cons f files ih =>
      intro m hm
      obtain ⟨a1, a2, a3, a4⟩ := addAll_spec f m hm
      obtain ⟨b1, b2, b3, b4⟩ := ih _ a1
      rw [List.foldl_cons]
      refine ⟨b1, fun x => ?_, ?_, fun x => ?_⟩
      · rw [b2, a2]; simp only [List.map_cons, List.sum_cons]; ring
      · rw [b3, a3]; simp only [List.map_cons, List.sum_cons]; ring
      · rw [b4, a4]
        simp only [List.mem_cons, exists_eq_or_imp]
        rw [or_comm, or_assoc, or_comm (b := ∃ a ∈ files, x ∈ List.map Prod.fst a), ← or_assoc, or_comm (a := x ∈ f.map Prod.fst)]
  obtain ⟨h1, h2, h3, h4⟩ := key files [] List.Pairwise.nil
  refine ⟨h1, fun x => ?_, ?_, fun x => ?_⟩
  · unfold collect; rw [h2]; simp [weightAt]
  · unfold collect; rw [h3]; simp [total]
  · unfold collect; rw [h4]; simp

omit [LinearOrder K] [IsStrictOrderedRing K] in
theorem sum_div (l : List K) (c : K) : (l.map fun x => x / c).sum = l.sum / c := by
  induction l with
  | nil => simp
  | cons a l ih => simp only [List.map_cons, List.sum_cons, ih, add_div]

/-- **C46.** The merged spectrum has strictly increasing frequencies, exactly those found in
some file; the weight at each frequency is the mean over the files of the weight found
there (zero when missing); the total weight is the mean of the totals. -/
theorem merge_spec (files : List (List (K × K))) :
    Increasing (mergeFiles files) ∧
    (∀ x, weightAt x (mergeFiles files) = (files.map (weightAt x)).sum / files.length) ∧
    total (mergeFiles files) = (files.map total).sum / files.length ∧
    ∀ x, x ∈ (mergeFiles files).map Prod.fst ↔ ∃ f ∈ files, x ∈ f.map Prod.fst := by
  obtain ⟨h1, h2, h3, h4⟩ := collect_spec files
  unfold mergeFiles
  refine ⟨?_, fun x => ?_, ?_, fun x => ?_⟩
  · unfold Increasing; rw [List.pairwise_map]; exact h1
  · rw [← h2]
    unfold weightAt
    rw [List.filter_map, List.map_map, ← sum_div, List.map_map]
    rfl
  · rw [← h3]
    unfold total
    rw [List.map_map, ← sum_div, List.map_map]
    rfl
  · rw [← h4, List.map_map]; rfl

omit [IsStrictOrderedRing K] in
/-- A spectrum with increasing frequencies is determined by its frequencies and weights. -/
theorem increasing_ext {l m : List (K × K)} (hl : Increasing l) (hm : Increasing m)
    (hf : ∀ x, x ∈ l.map Prod.fst ↔ x ∈ m.map Prod.fst) (hw : ∀ x, weightAt x l = weightAt x m) : l = m := by
  induction l generalizing m with
  | nil =>
    cases m with
    | nil => rfl
    | cons p m => have := (hf p.1).mpr (by simp); simp at this
  | cons p l ih =>
    cases m with
    | nil => have := (hf p.1).mp (by simp); simp at this
    | cons q m =>
      obtain ⟨l1, l2⟩ := List.pairwise_cons.mp hl
      obtain ⟨m1, m2⟩ := List.pairwise_cons.mp hm
      have above : ∀ {p : K × K} {l : List (K × K)}, (∀ q ∈ l, p.1 < q.1) → p.1 ∉ l.map Prod.fst := by
        intro p l h hc
        obtain ⟨r, hr, he⟩ := List.mem_map.mp hc
        exact absurd (h r hr) (by rw [he]; exact lt_irrefl _)
      have zero : ∀ {x : K} {l : List (K × K)}, x ∉ l.map Prod.fst → weightAt x l = 0 := by
        intro x l h
        unfold weightAt
        rw [List.filter_eq_nil_iff.mpr]; simp
        intro a ha hc
        exact h (List.mem_map.mpr ⟨a, ha, by simpa using hc⟩)
      have hfst : p.1 = q.1 := by
        have h1 := (hf p.1).mp (by simp)
        have h2 := (hf q.1).mpr (by simp)
        rw [List.map_cons, List.mem_cons] at h1 h2
        rcases h1 with h1 | h1
        · exact h1
        rcases h2 with h2 | h2
        · exact h2.symm
        obtain ⟨r, hr, he⟩ := List.mem_map.mp h1
        obtain ⟨r', hr', he'⟩ := List.mem_map.mp h2
        have a1 := m1 r hr
        have a2 := l1 r' hr'
        rw [he] at a1; rw [he'] at a2
        exact absurd a1 (not_lt.mpr a2.le)
      have hsnd : p.2 = q.2 := by
        have := hw p.1
        rw [weightAt_cons, weightAt_cons, if_pos rfl, if_pos hfst.symm, zero (above l1), hfst, zero (above m1)] at this
        simpa using this
      have hpq : p = q := Prod.ext hfst hsnd
      subst hpq
      congr 1
      apply ih l2 m2
      · intro x
        have := hf x
        simp only [List.map_cons, List.mem_cons] at this
        constructor
        · intro hx
          rcases this.mp (Or.inr hx) with h | h
          · exact absurd (h ▸ hx) (above l1)
          · exact h
        · intro hx
          rcases this.mpr (Or.inr hx) with h | h
          · exact absurd (h ▸ hx) (above m1)
          · exact h
      · intro x
        have := hw x
        rw [weightAt_cons, weightAt_cons] at this
        exact add_left_cancel this

/-- **C46.** The result depends neither on the order of the files nor on the order of the
points inside a file. -/
theorem merge_order (files files' : List (List (K × K))) (h : List.Forall₂ List.Perm files files' ∨ files.Perm files') :
    mergeFiles files = mergeFiles files' := by
  obtain ⟨a1, a2, a3, a4⟩ := merge_spec files
  obtain ⟨b1, b2, b3, b4⟩ := merge_spec files'
  have hlen : files.length = files'.length := by
    rcases h with h | h
    · exact h.length_eq
    · exact h.length_eq
  have hfreq : ∀ x, (∃ f ∈ files, x ∈ f.map Prod.fst) ↔ ∃ f ∈ files', x ∈ f.map Prod.fst := by
    intro x
    rcases h with h | h
    · clear a1 a2 a3 a4 b1 b2 b3 b4 hlen
      induction h with
      | nil => simp
      | cons h1 _ ih =>
        simp only [List.mem_cons, exists_eq_or_imp]
        rw [ih, (h1.map Prod.fst).mem_iff]
    · constructor
      · rintro ⟨f, hf, hx⟩; exact ⟨f, h.mem_iff.mp hf, hx⟩
      · rintro ⟨f, hf, hx⟩; exact ⟨f, h.mem_iff.mpr hf, hx⟩
  have hweight : ∀ x, (files.map (weightAt x)).sum = (files'.map (weightAt x)).sum := by
    intro x
    rcases h with h | h
    · clear a1 a2 a3 a4 b1 b2 b3 b4 hlen hfreq
      induction h with
      | nil => simp
      | cons h1 _ ih => simp only [List.map_cons, List.sum_cons]; rw [ih, weightAt_perm x h1]
    · exact (h.map _).sum_eq
  apply increasing_ext a1 b1
  · intro x; rw [a4, b4]; exact hfreq x
  · intro x; rw [a2, b2, hweight, hlen]

/-- The points of a file: its rows, with the requested column. -/
theorem points_spec (nrcol col : ℕ) (rows : List (List K)) (hr : ∀ r ∈ rows, r.length = 1 + nrcol) (hc : col ≤ nrcol) :
    loadRows nrcol rows.flatten = some rows.flatten ∧
    points nrcol col rows.flatten = rows.map fun r => (r.getD 0 0, r.getD col 0) := by
  have hlen : rows.flatten.length = rows.length * (1 + nrcol) := by
    induction rows with
    | nil => simp
    | cons r rows ih =>
      rw [List.flatten_cons, List.length_append, hr r (by simp), ih (fun r h => hr r (by simp [h])), List.length_cons]
      ring
  constructor
  · unfold loadRows; rw [hlen, Nat.mul_mod_left, if_pos rfl]
  · unfold points
    rw [hlen, Nat.mul_div_cancel _ (by omega)]
    have get : ∀ (rows : List (List K)), (∀ r ∈ rows, r.length = 1 + nrcol) → ∀ l j, l < rows.length → j ≤ nrcol →
        rows.flatten.getD ((1 + nrcol) * l + j) 0 = (rows.getD l []).getD j 0 := by
      intro rows
      induction rows with
      | nil => intro _ l j hl; simp at hl
      | cons r rows ih =>
        intro hr l j hl hj
        have hr0 := hr r (by simp)
        rw [List.flatten_cons]
        cases l with
        | zero => rw [Nat.mul_zero, Nat.zero_add, List.getD_append _ _ _ _ (by omega)]; simp
        | succ l =>
          rw [List.getD_append_right _ _ _ _ (by rw [hr0, Nat.mul_succ]; omega), hr0,
            show (1 + nrcol) * (l + 1) + j - (1 + nrcol) = (1 + nrcol) * l + j by rw [Nat.mul_succ]; omega,
            ih (fun r h => hr r (by simp [h])) l j (by simpa using hl) hj]
          simp
    apply List.ext_getElem (by simp)
    intro i h1 h2
    have hi : i < rows.length := by simpa using h1
    rw [List.getElem_map, List.getElem_map, List.getElem_range, get rows hr i col hi hc]
    have := get rows hr i 0 hi (by omega)
    rw [Nat.add_zero] at this
    rw [this, List.getD_eq_getElem _ _ hi]

/-- A truncated file is refused. -/
theorem load_incomplete (nrcol : ℕ) (buf : List K) : loadRows nrcol buf = none ↔ ¬ (1 + nrcol) ∣ buf.length := by
  unfold loadRows
  rw [Nat.dvd_iff_mod_eq_zero]
  by_cases h : buf.length % (1 + nrcol) = 0 <;> simp [h]

/-! ### Filtering -/

/-- Filtering keeps the frequencies and keeps exactly the weights inside the window of
absolute frequencies and of the requested signs. -/
theorem filter_spec (low high : K) (kp kn : Bool) (s : List (K × K)) :
    filterSpec low high kp kn s = s.map fun p =>
      (p.1, if low ≤ |p.1| ∧ |p.1| ≤ high ∧ (0 ≤ p.1 → kp = true) ∧ (p.1 < 0 → kn = true) then p.2 else 0) := by
  unfold filterSpec
  rw [List.map_map]
  apply List.map_congr_left
  intro p _
  dsimp only [Function.comp]
  congr 1
  by_cases h1 : |p.1| < low
  · have : ¬ low ≤ |p.1| := not_le.mpr h1
    simp [h1, this]
  · have h1' : low ≤ |p.1| := not_lt.mp h1
    by_cases h2 : high < |p.1|
    · have : ¬ |p.1| ≤ high := not_le.mpr h2
      simp [h2, this]
    · have h2' : |p.1| ≤ high := not_lt.mp h2
      by_cases h3 : 0 ≤ p.1
      · have : ¬ p.1 < 0 := not_lt.mpr h3
        cases kp <;> simp [h1, h2, h1', h2', h3, this]
      · have : p.1 < 0 := not_le.mp h3
        cases kn <;> simp [h1, h2, h1', h2', h3, this]

/-! ### The cumulative spectrum -/

/-- Total weight of the peaks strictly below `x`. -/
def weightBelow (x : K) (s : List (K × K)) : K := total (s.filter fun p => p.1 < x)

omit [IsStrictOrderedRing K] in
theorem advance_spec (x : K) (s : List (K × K)) (sum : K) (hs : s.Pairwise fun p q => p.1 ≤ q.1) :
    (advance x s sum).2 = sum + weightBelow x s ∧ ∃ pre, s = pre ++ (advance x s sum).1 ∧ (∀ p ∈ pre, p.1 < x) ∧
      total pre = weightBelow x s ∧ (∀ p ∈ (advance x s sum).1, x ≤ p.1) := by
  induction s generalizing sum with
  | nil => simp [advance, weightBelow, total]
  | cons p s ih =>
    obtain ⟨w, v⟩ := p
    obtain ⟨h1, h2⟩ := List.pairwise_cons.mp hs
    unfold advance
    by_cases hlt : w < x
    · rw [if_pos hlt]
      obtain ⟨i1, pre, i2, i3, i4, i5⟩ := ih (sum + v) h2
      refine ⟨?_, (w, v) :: pre, ?_, ?_, ?_, i5⟩
      · rw [i1]; simp [weightBelow, total, hlt]; ring
      · rw [List.cons_append, ← i2]
      · intro p hp
        rcases List.mem_cons.mp hp with rfl | hp
        · exact hlt
        · exact i3 p hp
      · simp only [weightBelow, total, List.map_cons, List.sum_cons] at i4 ⊢
        rw [i4]; simp [hlt]
    · rw [if_neg hlt]
      have hall : ∀ p ∈ (w, v) :: s, x ≤ p.1 := by
        intro p hp
        rcases List.mem_cons.mp hp with rfl | hp
        · exact not_lt.mp hlt
        · exact (not_lt.mp hlt).trans (h1 p hp)
      have hz : weightBelow x ((w, v) :: s) = 0 := by
        unfold weightBelow
        rw [List.filter_eq_nil_iff.mpr]; rfl
        intro p hp; simpa using hall p hp
      refine ⟨by rw [hz, add_zero], [], rfl, by simp, by rw [hz]; rfl, hall⟩

/-- **C47.** At every mesh point the cumulative spectrum is the total weight of the peaks
strictly below it, for every sorted spectrum and every sorted mesh. -/
theorem cumulative_spec (mesh : List K) (s : List (K × K)) (hs : s.Pairwise fun p q => p.1 ≤ q.1) (hm : mesh.Pairwise (· ≤ ·)) :
    cumulative mesh s 0 = mesh.map fun x => weightBelow x s := by
  have key : ∀ (mesh : List K) (pre rest : List (K × K)) (sum : K), (pre ++ rest).Pairwise (fun p q => p.1 ≤ q.1) → mesh.Pairwise (· ≤ ·) →
      (∀ x ∈ mesh, ∀ p ∈ pre, p.1 < x) → sum = total pre → cumulative mesh rest sum = mesh.map fun x => weightBelow x (pre ++ rest) := by
    intro mesh
    induction mesh with
    | nil => intros; rfl
    | cons x mesh ih =>
      intro pre rest sum hs hm hp hsum
      obtain ⟨m1, m2⟩ := List.pairwise_cons.mp hm
      obtain ⟨a1, p', a2, a3, a4, a5⟩ := advance_spec x rest sum (List.pairwise_append.mp hs).2.1
      unfold cumulative
      rw [List.map_cons]
      have e1 : (advance x rest sum).2 = weightBelow x (pre ++ rest) := by
        rw [a1, hsum]
        unfold weightBelow
        have hpre : pre.filter (fun p => p.1 < x) = pre := List.filter_eq_self.mpr (fun p h => by simpa using hp x (by simp) p h)
        rw [List.filter_append, hpre]
        simp [total]
      congr 1
      have hre : pre ++ rest = (pre ++ p') ++ (advance x rest sum).1 := by rw [List.append_assoc, ← a2]
      rw [hre]
      apply ih
      · rw [← hre]; exact hs
      · exact m2
      · intro y hy p hpp
        rcases List.mem_append.mp hpp with h | h
        · exact hp y (by simp [hy]) p h
        · exact lt_of_lt_of_le (a3 p h) (m1 y hy)
      · rw [a1, hsum, ← a4]; simp [total]
  have := key mesh [] s 0 (by simpa using hs) hm (by simp) (by simp [total])
  simpa using this

/-- **C47.** For non-negative weights it never decreases along the mesh. -/
theorem cumulative_mono (mesh : List K) (s : List (K × K)) (hs : s.Pairwise fun p q => p.1 ≤ q.1) (hm : mesh.Pairwise (· ≤ ·))
    (hw : ∀ p ∈ s, 0 ≤ p.2) : (cumulative mesh s 0).Pairwise (· ≤ ·) := by
  rw [cumulative_spec mesh s hs hm, List.pairwise_map]
  refine hm.imp fun {x y} hxy => ?_
  unfold weightBelow total
  have : ∀ (s : List (K × K)), (∀ p ∈ s, 0 ≤ p.2) → ((s.filter fun p => p.1 < x).map Prod.snd).sum ≤ ((s.filter fun p => p.1 < y).map Prod.snd).sum := by
    intro s
    induction s with
    | nil => intro _; simp
    | cons p s ih =>
      intro hw
      have i := ih (fun q h => hw q (by simp [h]))
      have h0 := hw p (by simp)
      by_cases h1 : p.1 < x
      · simp [h1, lt_of_lt_of_le h1 hxy, i]
      · by_cases h2 : p.1 < y
        · simp only [h1, h2, decide_false, decide_true, List.filter_cons, if_true, List.map_cons, List.sum_cons]
          simpa using i.trans (le_add_of_nonneg_left h0)
        · simpa [h1, h2] using i
  exact this s hw

/-! ### Moments -/

omit [LinearOrder K] [IsStrictOrderedRing K] in
/-- Expansion of a shifted moment. -/
theorem shifted_sum (s : List (K × K)) (m : K) :
    (s.map fun p => p.2 * (p.1 - m) ^ 2).sum = moment 2 s - 2 * m * moment 1 s + m ^ 2 * moment 0 s ∧
    (s.map fun p => p.2 * (p.1 - m) ^ 3).sum = moment 3 s - 3 * m * moment 2 s + 3 * m ^ 2 * moment 1 s - m ^ 3 * moment 0 s ∧
    (s.map fun p => p.2 * (p.1 - m) ^ 4).sum = moment 4 s - 4 * m * moment 3 s + 6 * m ^ 2 * moment 2 s - 4 * m ^ 3 * moment 1 s + m ^ 4 * moment 0 s := by
  unfold moment
  induction s with
  | nil => simp
  | cons p s ih =>
    obtain ⟨i2, i3, i4⟩ := ih
    simp only [List.map_cons, List.sum_cons]
    rw [i2, i3, i4]
    refine ⟨?_, ?_, ?_⟩ <;> ring

/-- The central moments are the usual combinations of the raw moments (the variance is the
mean square minus the squared mean, and so on); the error occurs exactly for vanishing
total weight; for non-negative weights the variance is not negative. -/
theorem centralMoment_spec (s : List (K × K)) :
    (∀ k, centralMoment k s = none ↔ total s = 0) ∧
    ∀ m0 m : K, moment 0 s = m0 → m0 ≠ 0 → moment 1 s = m * m0 →
      centralMoment 2 s = some (moment 2 s / m0 - m ^ 2) ∧
      centralMoment 3 s = some (moment 3 s / m0 - 3 * m * (moment 2 s / m0) + 2 * m ^ 3) ∧
      centralMoment 4 s = some (moment 4 s / m0 - 4 * m * (moment 3 s / m0) + 6 * m ^ 2 * (moment 2 s / m0) - 3 * m ^ 4) := by
  have h0 : moment 0 s = total s := by simp [moment, total]
  constructor
  · intro k
    unfold centralMoment
    rw [h0]
    by_cases h : total s = 0 <;> simp [h]
  · intro m0 m e0 hne e1
    have hmean : moment 1 s / moment 0 s = m := by rw [e0, e1, mul_div_cancel_right₀ _ hne]
    obtain ⟨s2, s3, s4⟩ := shifted_sum s m
    unfold centralMoment
    rw [hmean]
    simp only [s2, s3, s4, e0, if_neg hne, e1, Option.some.injEq]
    refine ⟨?_, ?_, ?_⟩ <;> (field_simp; ring)

theorem variance_nonneg (s : List (K × K)) (hw : ∀ p ∈ s, 0 ≤ p.2) (v : K) (h : centralMoment 2 s = some v) : 0 ≤ v := by
  unfold centralMoment at h
  split at h
  · simp at h
  · simp only [Option.some.injEq] at h
    rw [← h]
    apply div_nonneg
    · apply List.sum_nonneg
      intro x hx
      obtain ⟨p, hp, rfl⟩ := List.mem_map.mp hx
      exact mul_nonneg (hw p hp) (sq_nonneg _)
    · unfold moment
      apply List.sum_nonneg
      intro x hx
      obtain ⟨p, hp, rfl⟩ := List.mem_map.mp hx
      simpa using hw p hp

/-! ### Examples -/

example : mergeFiles ([[(1, 2), (-1, 3)], [(1, 4), (1/2, 1)]] : List (List (ℚ × ℚ))) = [(-1, 3/2), (1/2, 1/2), (1, 3)] := by decide +kernel

example : points 2 2 ([10, 1, 2, 20, 3, 4] : List ℚ) = [(10, 2), (20, 4)] ∧ loadRows 2 ([10, 1, 2, 20, 3] : List ℚ) = none := by
  constructor <;> decide +kernel

example : cumulative ([0, 1, 1, 5] : List ℚ) [(-1, 3), (1, 4), (2, 1)] 0 = [3, 3, 3, 8] := by decide +kernel

example : centralMoment 2 ([(1, 1), (3, 1)] : List (ℚ × ℚ)) = some 1 := by decide +kernel

end Verif.Tools
