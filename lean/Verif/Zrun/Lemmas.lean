import Verif.Zrun.Spec
import Verif.Tools.SpectraProps
import Verif.Mats.Props
/-!
# Lemmas: loops over files, sums over merged spectra
-/

namespace Verif.Zrun
open Verif.Text

theorem each_ok {A ι : Type} (f : Str → Except Fail A) (p : ι → Str) (g : ι → A) (l : List ι) (h : ∀ i ∈ l, f (p i) = .ok (g i)) :
    each f (l.map p) = .ok (l.map g) := by
  induction l with
  | nil => rfl
  | cons i l ih =>
    rw [List.map_cons, List.map_cons, each, h i (by simp), ih fun j hj => h j (by simp [hj])]

/-- The loop fails with the first file that fails. -/
theorem each_error {A : Type} (f : Str → Except Fail A) (l : List Str) (e : Fail) :
    each f l = .error e ↔ ∃ a n b, l = a ++ n :: b ∧ (∀ m ∈ a, ∃ x, f m = .ok x) ∧ f n = .error e := by
  induction l with
  | nil => simp [each]
  | cons m l ih =>
    rw [each]
    cases hm : f m with
    | error e' =>
      dsimp only
      constructor
      · intro h
        exact ⟨[], m, l, rfl, by simp, by rw [hm]; cases h; rfl⟩
      · rintro ⟨a, n, b, h1, h2, h3⟩
        cases a with
        | nil =>
          simp only [List.nil_append, List.cons.injEq] at h1
          rw [← h1.1, hm] at h3
          simpa using h3
        | cons c a =>
          simp only [List.cons_append, List.cons.injEq] at h1
          obtain ⟨x, hx⟩ := h2 c (by simp)
          rw [← h1.1, hm] at hx
          simp at hx
    | ok x =>
      dsimp only
      constructor
      · intro h
        have h' : each f l = .error e := by
          cases hl : each f l with
          | error e' => rw [hl] at h; cases h; rfl
          | ok as => rw [hl] at h; simp at h
        obtain ⟨a, n, b, rfl, h2, h3⟩ := ih.1 h'
        exact ⟨m :: a, n, b, rfl, by simpa using ⟨⟨x, hm⟩, h2⟩, h3⟩
      · suffices ∀ a n b, m :: l = a ++ n :: b → (∀ m ∈ a, ∃ x, f m = .ok x) → f n = .error e → each f l = .error e by
          rintro ⟨a, n, b, h1, h2, h3⟩
          rw [this a n b h1 h2 h3]
        intro a n b h1 h2 h3
        rw [ih]
        cases a with
        | nil =>
          simp only [List.nil_append, List.cons.injEq] at h1
          rw [← h1.1, hm] at h3
          simp at h3
        | cons c a =>
          simp only [List.cons_append, List.cons.injEq] at h1
          exact ⟨a, n, b, h1.2, fun q hq => h2 q (by simp [hq]), h3⟩

variable {K : Type} [Field K] [LinearOrder K] [IsStrictOrderedRing K]

theorem addPoint_sum (f : K → K) (w v : K) (m : List (K × K)) :
    ((Tools.addPoint w v m).map fun p => p.2 * f p.1).sum = (m.map fun p => p.2 * f p.1).sum + v * f w := by
  induction m with
  | nil => simp [Tools.addPoint]
  | cons p m ih =>
    obtain ⟨x, y⟩ := p
    rw [Tools.addPoint]
    split
    · simp only [List.map_cons, List.sum_cons]; ring
    · split
      · rename_i h
        subst h
        simp only [List.map_cons, List.sum_cons]; ring
      · simp only [List.map_cons, List.sum_cons, ih]; ring

theorem addAll_sum (f : K → K) (l m : List (K × K)) :
    ((l.foldl (fun m p => Tools.addPoint p.1 p.2 m) m).map fun p => p.2 * f p.1).sum =
      (m.map fun p => p.2 * f p.1).sum + (l.map fun p => p.2 * f p.1).sum := by
  induction l generalizing m with
  | nil => simp
  | cons q l ih =>
    rw [List.foldl_cons, ih, addPoint_sum]
    simp only [List.map_cons, List.sum_cons]
    ring

theorem merge_sum (f : K → K) (files : List (List (K × K))) :
    ((Tools.mergeFiles files).map fun p => p.2 * f p.1).sum = (files.map fun l => (l.map fun p => p.2 * f p.1).sum).sum / files.length := by
  have gen : ∀ (files : List (List (K × K))) (m : List (K × K)),
      ((files.foldl (fun m f => f.foldl (fun m p => Tools.addPoint p.1 p.2 m) m) m).map fun p => p.2 * f p.1).sum =
      (m.map fun p => p.2 * f p.1).sum + (files.map fun l => (l.map fun p => p.2 * f p.1).sum).sum := by
    intro files
    induction files with
    | nil => intro m; simp
    | cons l files ih =>
      intro m
      rw [List.foldl_cons, ih, addAll_sum]
      simp only [List.map_cons, List.sum_cons]
      ring
  have h := gen files []
  simp only [List.map_nil, List.sum_nil, zero_add] at h
  rw [Tools.mergeFiles, List.map_map, ← h, ← Tools.sum_div, List.map_map, Tools.collect]
  congr 1
  refine List.map_congr_left fun p _ => ?_
  simp only [Function.comp]
  ring

/-- Adding a spectrum with increasing frequencies above all others leaves it as it is. -/
theorem addPoint_last (w v : K) (m : List (K × K)) (h : ∀ p ∈ m, p.1 < w) : Tools.addPoint w v m = m ++ [(w, v)] := by
  induction m with
  | nil => rfl
  | cons p m ih =>
    obtain ⟨x, y⟩ := p
    have hx : x < w := h (x, y) (by simp)
    rw [Tools.addPoint, if_neg (not_lt.2 hx.le), if_neg (ne_of_gt hx), ih fun q hq => h q (by simp [hq])]
    rfl

theorem addAll_last (l m : List (K × K)) (hl : Tools.Increasing l) (h : ∀ p ∈ m, ∀ q ∈ l, p.1 < q.1) :
    l.foldl (fun m p => Tools.addPoint p.1 p.2 m) m = m ++ l := by
  induction l generalizing m with
  | nil => simp
  | cons q l ih =>
    obtain ⟨h1, h2⟩ := List.pairwise_cons.1 hl
    rw [List.foldl_cons, addPoint_last _ _ _ (fun p hp => h p hp q (by simp)), ih _ h2, List.append_assoc]
    · rfl
    · intro p hp r hr
      rcases List.mem_append.1 hp with hp | hp
      · exact h p hp r (by simp [hr])
      · rw [List.mem_singleton.1 hp]; exact h1 r hr

/-- The average of a single spectrum with increasing frequencies is this spectrum. -/
theorem merge_single (s : List (K × K)) (h : Tools.Increasing s) : Tools.mergeFiles [s] = s := by
  unfold Tools.mergeFiles Tools.collect
  simp only [List.foldl_cons, List.foldl_nil, List.length_singleton, Nat.cast_one, div_one]
  rw [addAll_last s [] h (by simp)]
  simp

/-- The numbers `save_binary` writes are read as the same spectrum. -/
theorem points_saved (s : List (K × K)) : Tools.points 1 1 (saved s).nums = s := by
  have h := (Tools.points_spec 1 1 (s.map fun p => [p.1, p.2]) (by
    intro r hr
    obtain ⟨p, _, rfl⟩ := List.mem_map.1 hr
    rfl) (by omega)).2
  rw [saved, show (s.flatMap fun p => [p.1, p.2]) = (s.map fun p => [p.1, p.2]).flatten by rw [List.flatMap_def], h, List.map_map]
  conv_rhs => rw [← List.map_id s]
  exact List.map_congr_left fun p _ => rfl

theorem saved_size (s : List (K × K)) : (saved s).size % 16 = 0 := by
  have : (s.flatMap fun p => [p.1, p.2]).length = s.length * 2 := by
    induction s with
    | nil => rfl
    | cons p s ih => rw [List.flatMap_cons, List.length_append, ih, List.length_cons]; simp; omega
  have h : (saved s).size = 8 * (s.length * 2) := by rw [← this]; rfl
  omega

/-- In a spectrum with increasing frequencies the weight at a frequency is that of its only point there. -/
theorem weightAt_of_mem {s : List (K × K)} (h : Tools.Increasing s) {p : K × K} (hp : p ∈ s) : Tools.weightAt p.1 s = p.2 := by
  induction s with
  | nil => simp at hp
  | cons q s ih =>
    obtain ⟨h1, h2⟩ := List.pairwise_cons.1 h
    rw [Tools.weightAt_cons]
    have zero : ∀ {x : K} {l : List (K × K)}, (∀ q ∈ l, q.1 ≠ x) → Tools.weightAt x l = 0 := by
      intro x l h
      unfold Tools.weightAt
      rw [List.filter_eq_nil_iff.mpr]; simp
      intro a ha hc
      exact h a ha (by simpa using hc)
    rcases List.mem_cons.1 hp with rfl | hp
    · rw [if_pos rfl, zero fun r hr => ne_of_gt (h1 r hr), add_zero]
    · rw [if_neg (ne_of_lt (h1 p hp)), zero_add, ih h2 hp]

/-! ## The spectra of stored calculations -/

/-- Frequencies and weights of one calculation. -/
def pairs (col : Nat) (rows : List (List K)) : List (K × K) := rows.map fun r => (freq r, weight col r)

theorem flatten_length {w : Nat} (rows : List (List K)) (hr : ∀ r ∈ rows, r.length = 1 + w) : rows.flatten.length = rows.length * (1 + w) := by
  induction rows with
  | nil => simp
  | cons r rows ih =>
    rw [List.flatten_cons, List.length_append, hr r (by simp), ih (fun r h => hr r (by simp [h])), List.length_cons]
    ring

theorem load_stored {fs : Files (Bin K)} {fn : Str} {w col : Nat} {rows : List (List K)} (hr : ∀ r ∈ rows, r.length = 1 + w) (hc : col ≤ w)
    (h : fs fn = some ⟨rows.flatten, 0⟩) : load w col fs fn = .ok (pairs col rows) := by
  have hs : (⟨rows.flatten, 0⟩ : Bin K).size % ((1 + w) * 8) = 0 := by
    rw [Bin.size, flatten_length rows hr, show 8 * (rows.length * (1 + w)) + 0 = rows.length * ((1 + w) * 8) by ring]
    exact Nat.mul_mod_left _ _
  simp only [load, h, hs, ne_eq, not_true_eq_false, if_false]
  rw [(Tools.points_spec w col rows hr hc).2]
  rfl

theorem spectrum_stored {fs : Files (Bin K)} {one : Bool} {Nz : Int} {name : Str} {w col : Nat} {rows : Nat → List (List K)} (hN : 1 ≤ Nz)
    (hc : col ≤ w) (h : Stored fs one Nz.toNat name w rows) :
    spectrum one w col Nz name fs = .ok (Tools.mergeFiles ((List.range Nz.toNat).map fun i : Nat => pairs col (rows (i + 1)))) := by
  unfold spectrum places
  rw [each_ok (load w col fs) (fun i : Nat => place one Nz name (i + 1)) (fun i : Nat => pairs col (rows (i + 1)))]
  intro i hi
  obtain ⟨h1, h2⟩ := h (i + 1) (by omega) (by simpa using hi)
  apply load_stored h1 hc
  rw [← h2]
  congr 1
  unfold place
  have : (Nz = 1) ↔ Nz.toNat = 1 := by omega
  simp only [Bool.and_eq_true, decide_eq_true_eq, this]

end Verif.Zrun
