import Verif.Resample.Spec
import Verif.Table.Props
/-!
# Properties of `resample`
-/

namespace Verif.Resample
open Verif.Text (Str)
open Verif.DataFile (Dec Lit)
open Verif.Table (LineT fileText values readTable readTable_file written)

variable {K : Type} [LinearOrder K]

/-! ## Sorting -/

instance : Std.Total (pairLE (K := K)) := ⟨fun a b => by
  unfold pairLE
  rcases lt_trichotomy a.1 b.1 with h | h | h
  · exact Or.inl (Or.inl h)
  · rcases le_total a.2 b.2 with h' | h'
    · exact Or.inl (Or.inr ⟨h, h'⟩)
    · exact Or.inr (Or.inr ⟨h.symm, h'⟩)
  · exact Or.inr (Or.inl h)⟩

instance : IsTrans (K × K) pairLE := ⟨fun a b c h1 h2 => by
  unfold pairLE at *
  rcases h1 with h1 | ⟨h1, h1'⟩ <;> rcases h2 with h2 | ⟨h2, h2'⟩
  · exact Or.inl (h1.trans h2)
  · exact Or.inl (h2 ▸ h1)
  · exact Or.inl (h1 ▸ h2)
  · exact Or.inr ⟨h1.trans h2, h1'.trans h2'⟩⟩

theorem pairLE_antisymm {a b : K × K} (h1 : pairLE a b) (h2 : pairLE b a) : a = b := by
  rcases h1 with h1 | ⟨h1, h1'⟩ <;> rcases h2 with h2 | ⟨h2, h2'⟩
  · exact absurd (h1.trans h2) (lt_irrefl _)
  · exact absurd h1 (by rw [h2]; exact lt_irrefl _)
  · exact absurd h2 (by rw [h1]; exact lt_irrefl _)
  · exact Prod.ext h1 (le_antisymm h1' h2')

theorem sort_perm {a b : List (K × K)} (h : a.Perm b) : a.insertionSort pairLE = b.insertionSort pairLE :=
  List.Perm.eq_of_pairwise (le := pairLE) (fun _ _ _ _ h1 h2 => pairLE_antisymm h1 h2)
    (List.pairwise_insertionSort _ _) (List.pairwise_insertionSort _ _)
    (((List.perm_insertionSort _ a).trans h).trans (List.perm_insertionSort _ b).symm)

theorem init_perm (s : Settings K) {a b : List (K × K)} (h : a.Perm b) : init s a = init s b := by
  unfold init
  rw [sort_perm h]

theorem sorted_lt_iff (im : List (K × K)) :
    ((im.insertionSort pairLE).map Prod.fst).Pairwise (· < ·) ↔ (im.map Prod.fst).Nodup := by
  have hp : ((im.insertionSort pairLE).map Prod.fst).Perm (im.map Prod.fst) := (List.perm_insertionSort _ _).map _
  have hle : ((im.insertionSort pairLE).map Prod.fst).Pairwise (· ≤ ·) := by
    rw [List.pairwise_map]
    refine (List.pairwise_insertionSort pairLE im).imp ?_
    intro a b hab
    rcases hab with hab | hab
    · exact hab.le
    · exact hab.1.le
  rw [← hp.nodup_iff]
  constructor
  · intro h; exact h.imp fun h => h.ne
  · intro h
    exact hle.imp₂ (fun _ _ h1 h2 => lt_of_le_of_ne h1 h2) h

/-! ## What is accepted -/

theorem init_ok {s : Settings K} {im : List (K × K)} {o : Obj K} (h : init s im = .ok o) :
    ∃ f b, o.pts = im.insertionSort pairLE ∧ o.pts.head? = some f ∧ o.pts.getLast? = some b ∧ 5 ≤ o.pts.length ∧
      (o.pts.map Prod.fst).Pairwise (· < ·) ∧ o.xmin = f.1 ∧ o.xmax = b.1 ∧ o.extrapolate = s.extrapolate ∧
      o.below = s.below.getD f.2 ∧ o.above = s.above.getD b.2 := by
  unfold init at h
  dsimp only at h
  split at h
  · rename_i f b hf hb
    split at h
    · cases h
    · rename_i h5
      split at h
      · cases h
      · rename_i hlt
        cases h
        exact ⟨f, b, rfl, hf, hb, not_lt.mp h5, not_not.mp hlt, rfl, rfl, rfl, rfl, rfl⟩
  · cases h

/-- **C114.** A table is accepted exactly if it has at least five points, all with different abscissae, in any order. -/
theorem resample_accepts (S : Spline K) (s : Settings K) (im grid : List (K × K)) :
    (∃ r, onTables S s im grid = .ok r) ↔ Data im := by
  have hlen : (im.insertionSort pairLE).length = im.length := (List.perm_insertionSort _ _).length_eq
  constructor
  · rintro ⟨r, hr⟩
    unfold onTables at hr
    cases hi : init s im with
    | error e => rw [hi] at hr; cases hr
    | ok o =>
      obtain ⟨f, b, e1, _, _, h5, hlt, _⟩ := init_ok hi
      rw [e1] at h5 hlt
      exact ⟨hlen ▸ h5, (sorted_lt_iff im).mp hlt⟩
  · rintro ⟨h5, hnd⟩
    unfold onTables init
    dsimp only
    have hne : im.insertionSort pairLE ≠ [] := by
      intro e; rw [e] at hlen; simp only [List.length_nil] at hlen; omega
    rw [List.head?_eq_some_head hne, List.getLast?_eq_some_getLast hne]
    dsimp only
    rw [if_neg (by omega), if_neg (not_not.mpr ((sorted_lt_iff im).mpr hnd))]
    exact ⟨_, rfl⟩

/-- **C114.** The order of the lines of the table makes no difference, also for what is refused. -/
theorem resample_order (S : Spline K) (s : Settings K) {a b : List (K × K)} (h : a.Perm b) (grid : List (K × K)) :
    onTables S s a grid = onTables S s b grid := by
  unfold onTables
  rw [init_perm s h]

/-! ## Values -/

theorem head_min {l : List (K × K)} {f : K × K} (h : l.head? = some f) (hp : (l.map Prod.fst).Pairwise (· < ·)) :
    f ∈ l ∧ ∀ p ∈ l, f.1 ≤ p.1 := by
  cases l with
  | nil => cases h
  | cons a t =>
    cases h
    refine ⟨by simp, ?_⟩
    intro p hpm
    rcases List.mem_cons.mp hpm with rfl | hm
    · exact le_refl _
    · rw [List.map_cons, List.pairwise_cons] at hp
      exact (hp.1 p.1 (List.mem_map_of_mem hm)).le

theorem last_max {l : List (K × K)} {b : K × K} (h : l.getLast? = some b) (hp : (l.map Prod.fst).Pairwise (· < ·)) :
    b ∈ l ∧ ∀ p ∈ l, p.1 ≤ b.1 := by
  obtain ⟨t, rfl⟩ : ∃ t, l = t ++ [b] := by
    rcases List.eq_nil_or_concat' l with rfl | ⟨t, c, rfl⟩
    · cases h
    · rw [List.getLast?_append] at h
      cases h
      exact ⟨t, rfl⟩
  refine ⟨by simp, ?_⟩
  intro p hpm
  rcases List.mem_append.mp hpm with hm | hm
  · rw [List.map_append, List.pairwise_append] at hp
    exact (hp.2.2 p.1 (List.mem_map_of_mem hm) b.1 (by simp)).le
  · rw [List.mem_singleton.mp hm]

theorem eq_of_fst {l : List (K × K)} (hp : (l.map Prod.fst).Nodup) {p q : K × K} (h1 : p ∈ l) (h2 : q ∈ l) (h : p.1 = q.1) : p = q :=
  List.inj_on_of_nodup_map hp h1 h2 h

theorem value_right (S : Spline K) (hS : Interp S) {s : Settings K} {im : List (K × K)} {o : Obj K} (h : init s im = .ok o) (x : K) :
    Right im s.extrapolate s.below s.above x (o.value S x) := by
  obtain ⟨f, b, e1, hf, hb, h5, hlt, hmin, hmax, hex, hbe, hab⟩ := init_ok h
  have hmem : ∀ p, p ∈ o.pts ↔ p ∈ im := fun p => by rw [e1]; exact (List.perm_insertionSort _ _).mem_iff
  have hnd : (o.pts.map Prod.fst).Nodup := hlt.imp fun h => h.ne
  obtain ⟨hfm, hfle⟩ := head_min hf hlt
  obtain ⟨hbm, hble⟩ := last_max hb hlt
  have hin : f.1 ≤ x → x ≤ b.1 → o.value S x = S o.pts x := by
    intro h1 h2
    unfold Obj.value
    rw [if_neg (by rw [hmin]; exact fun h => absurd h.2 (not_lt.mpr h1)), if_neg (by rw [hmax]; exact fun h => absurd h.2 (not_lt.mpr h2))]
  refine ⟨?_, ?_, ?_, ?_⟩
  · intro y hy
    have hy' := (hmem _).mpr hy
    rw [hin (hfle _ hy') (hble _ hy')]
    exact hS.node _ h5 hlt _ hy'
  · rintro ⟨p, hp, hpx⟩ ⟨q, hq, hxq⟩
    rw [hin ((hfle _ ((hmem _).mpr hp)).trans hpx) (hxq.trans (hble _ ((hmem _).mpr hq)))]
    exact hS.inside _ h5 hlt x ⟨p, (hmem _).mpr hp, hpx⟩ ⟨q, (hmem _).mpr hq, hxq⟩
  · intro p hp hpm hx
    have hpf : p = f := eq_of_fst hnd ((hmem _).mpr hp) hfm (le_antisymm (hpm _ ((hmem _).mp hfm)) (hfle _ ((hmem _).mpr hp)))
    subst hpf
    unfold Obj.value
    cases he : s.extrapolate with
    | true => rw [if_pos ⟨hex.trans he, hmin ▸ hx⟩, hbe]; simp
    | false =>
      have he' : ¬ o.extrapolate = true := by rw [hex, he]; simp
      rw [if_neg (fun h => he' h.1), if_neg (fun h => he' h.1), if_neg (by simp)]
      exact hS.outside _ h5 hlt x (Or.inl fun q hq => lt_of_lt_of_le hx (hfle q hq))
  · intro p hp hpm hx
    have hpb : p = b := eq_of_fst hnd ((hmem _).mpr hp) hbm (le_antisymm (hble _ ((hmem _).mpr hp)) (hpm _ ((hmem _).mp hbm)))
    subst hpb
    unfold Obj.value
    cases he : s.extrapolate with
    | true =>
      rw [if_neg (by rw [hmin]; exact fun h => absurd h.2 (not_lt.mpr ((hfle _ hbm).trans hx.le))), if_pos ⟨hex.trans he, hmax ▸ hx⟩, hab]
      simp
    | false =>
      have he' : ¬ o.extrapolate = true := by rw [hex, he]; simp
      rw [if_neg (fun h => he' h.1), if_neg (fun h => he' h.1), if_neg (by simp)]
      exact hS.outside _ h5 hlt x (Or.inr fun q hq => lt_of_le_of_lt (hble q hq) hx)

/-- **C114.** The result has the abscissae of the grid, in the order of the grid, and the right value at each. -/
theorem resample_values (S : Spline K) (hS : Interp S) (s : Settings K) (im grid : List (K × K)) (r : List (K × Option K))
    (h : onTables S s im grid = .ok r) :
    r.map Prod.fst = grid.map Prod.fst ∧ ∀ p ∈ r, Right im s.extrapolate s.below s.above p.1 p.2 := by
  unfold onTables at h
  cases hi : init s im with
  | error e => rw [hi] at h; cases h
  | ok o =>
    rw [hi] at h
    cases h
    refine ⟨by simp [Obj.resample], ?_⟩
    intro p hp
    obtain ⟨q, _, rfl⟩ := List.mem_map.mp hp
    exact value_right S hS hi _

/-- **C114.** With extrapolation there is a number everywhere; without it, exactly within the range of the table. -/
theorem resample_numbers (S : Spline K) (hS : Interp S) (s : Settings K) (im grid : List (K × K)) (r : List (K × Option K))
    (h : onTables S s im grid = .ok r) (p : K × Option K) (hp : p ∈ r) :
    p.2 ≠ none ↔ s.extrapolate = true ∨ ((∃ a ∈ im, a.1 ≤ p.1) ∧ ∃ b ∈ im, p.1 ≤ b.1) := by
  have hR := (resample_values S hS s im grid r h).2 p hp
  have hlow : ∃ f ∈ im, ∀ q ∈ im, f.1 ≤ q.1 := by
    unfold onTables at h
    cases hi : init s im with
    | error e => rw [hi] at h; cases h
    | ok o =>
      obtain ⟨f, b, e1, hf, hb, h5, hlt, -⟩ := init_ok hi
      have hmem : ∀ p, p ∈ o.pts ↔ p ∈ im := fun p => by rw [e1]; exact (List.perm_insertionSort _ _).mem_iff
      exact ⟨f, (hmem f).mp (head_min hf hlt).1, fun q hq => (head_min hf hlt).2 q ((hmem q).mpr hq)⟩
  have hhigh : ∃ f ∈ im, ∀ q ∈ im, q.1 ≤ f.1 := by
    unfold onTables at h
    cases hi : init s im with
    | error e => rw [hi] at h; cases h
    | ok o =>
      obtain ⟨f, b, e1, hf, hb, h5, hlt, -⟩ := init_ok hi
      have hmem : ∀ p, p ∈ o.pts ↔ p ∈ im := fun p => by rw [e1]; exact (List.perm_insertionSort _ _).mem_iff
      exact ⟨b, (hmem b).mp (last_max hb hlt).1, fun q hq => (last_max hb hlt).2 q ((hmem q).mpr hq)⟩
  obtain ⟨f, hf, hfm⟩ := hlow
  obtain ⟨b, hb, hbm⟩ := hhigh
  rcases lt_or_ge p.1 f.1 with h1 | h1
  · rw [hR.low f hf hfm h1]
    constructor
    · intro h2
      by_cases he : s.extrapolate = true
      · exact Or.inl he
      · rw [if_neg he] at h2; exact absurd rfl h2
    · rintro (he | ⟨⟨a, ha, hap⟩, _⟩)
      · rw [if_pos he]; simp
      · exact absurd (lt_of_le_of_lt hap h1) (not_lt.mpr (hfm a ha))
  · rcases lt_or_ge b.1 p.1 with h2 | h2
    · rw [hR.high b hb hbm h2]
      constructor
      · intro h2
        by_cases he : s.extrapolate = true
        · exact Or.inl he
        · rw [if_neg he] at h2; exact absurd rfl h2
      · rintro (he | ⟨_, ⟨a, ha, hap⟩⟩)
        · rw [if_pos he]; simp
        · exact absurd (lt_of_lt_of_le h2 hap) (not_lt.mpr (hbm a ha))
    · exact ⟨fun _ => Or.inr ⟨⟨f, hf, h1⟩, b, hb, h2⟩, fun _ => hR.inside ⟨f, hf, h1⟩ ⟨b, hb, h2⟩⟩

/-- **C114.** On the grid of the table itself the result is the table. -/
theorem resample_self (S : Spline K) (hS : Interp S) (s : Settings K) (im : List (K × K)) (h : Data im) :
    onTables S s im im = .ok (im.map fun p => (p.1, some p.2)) := by
  obtain ⟨r, hr⟩ := (resample_accepts S s im im).mpr h
  rw [hr]
  unfold onTables at hr
  cases hi : init s im with
  | error e => rw [hi] at hr; cases hr
  | ok o =>
    rw [hi] at hr
    cases hr
    congr 1
    apply List.map_congr_left
    intro p hp
    rw [(value_right S hS hi p.1).node p.2 hp]

/-- **C114.** The values given with the grid are not used. -/
theorem resample_grid (S : Spline K) (s : Settings K) (im g g' : List (K × K)) (h : g.map Prod.fst = g'.map Prod.fst) :
    onTables S s im g = onTables S s im g' := by
  unfold onTables
  cases init s im with
  | error e => rfl
  | ok o =>
    have : ∀ g : List (K × K), o.resample S g = (g.map Prod.fst).map fun x => (x, o.value S x) := fun g => by
      simp [Obj.resample, Function.comp_def]
    simp only [this, h]

/-! ## Files -/

/-- A file with the lines `ls` gives the table of its numbers. -/
theorem load_file (F : Fmt K) (ls : List LineT) (h : ∀ l ∈ ls, l.OK) :
    load F (fileText ls) = some ((values ls).map fun p => (F.val p.1, F.val p.2)) := by
  rw [load, readTable_file ls h]
  rfl

theorem tableText_numbers (F : Fmt K) (prec : Int) (l : List (K × K)) :
    tableText F prec (l.map fun p => (p.1, some p.2)) = fileText ((l.map fun p => (F.out prec p.1, F.out prec p.2)).map written) := by
  unfold tableText fileText
  rw [List.flatMap_map, List.flatMap_map, List.flatMap_map]
  congr 1
  funext p
  simp [numText, written, LineT.text]

/-- What is written without NaN is read again, if the numbers are printed exactly. -/
theorem load_written (F : Fmt K) (prec : Int) (l : List (K × K)) (h : ∀ p ∈ l, F.Prints prec p.1 ∧ F.Prints prec p.2) :
    load F (tableText F prec (l.map fun p => (p.1, some p.2))) = some l := by
  rw [tableText_numbers, load_file]
  · congr 1
    unfold values
    rw [List.filterMap_map, List.map_filterMap, List.filterMap_map]
    have : ∀ p ∈ l, ((fun x => Option.map (fun p : Dec × Dec => (F.val p.1, F.val p.2)) ((LineT.value ∘ written) x)) ∘
        fun p => (F.out prec p.1, F.out prec p.2)) p = some p := by
      intro p hp
      simp [written, LineT.value, (h p hp).1.2, (h p hp).2.2]
    rw [List.filterMap_congr this]
    simp
  · intro w hw
    obtain ⟨q, hq, rfl⟩ := List.mem_map.mp hw
    obtain ⟨p, hp, rfl⟩ := List.mem_map.mp hq
    refine ⟨by simp [Verif.Table.Plain], (h p hp).1.1, by simp [Verif.Table.Plain], by simp, (h p hp).2.1, by simp [Verif.Table.Plain]⟩

/-- **C114.** The program on files in any layout: the output file gets the resampled table, also if it is one of the input files, and no other file changes. If the table
is refused nothing is written. -/
theorem resample_files (F : Fmt K) (S : Spline K) (s : Settings K) (i g o : Str) (fs : Files) (li lg : List LineT)
    (hi : fs i = some (fileText li)) (hg : fs g = some (fileText lg)) (oki : ∀ l ∈ li, l.OK) (okg : ∀ l ∈ lg, l.OK) :
    onFiles F S s i g o fs =
      match onTables S s ((values li).map fun p => (F.val p.1, F.val p.2)) ((values lg).map fun p => (F.val p.1, F.val p.2)) with
      | .ok r => .ok fun n => if n = o then some (tableText F s.prec r) else fs n
      | .error e => .error e := by
  unfold onFiles open_
  rw [hi]
  dsimp only
  rw [load_file F li oki, hg]
  dsimp only
  rw [load_file F lg okg]
  dsimp only
  split <;> rename_i h <;> rw [h]

/-- **C114.** Resampling a table on its own grid writes a file with the same table, and this may be the file itself: the program does not change what the file means. -/
theorem resample_same_file (F : Fmt K) (S : Spline K) (hS : Interp S) (s : Settings K) (n : Str) (fs : Files) (ls : List LineT) (t : List (K × K))
    (hf : fs n = some (fileText ls)) (ok : ∀ l ∈ ls, l.OK) (ht : (values ls).map (fun p => (F.val p.1, F.val p.2)) = t) (hd : Data t)
    (hp : ∀ p ∈ t, F.Prints s.prec p.1 ∧ F.Prints s.prec p.2) :
    ∃ fs', onFiles F S s n n n fs = .ok fs' ∧ (∀ m, m ≠ n → fs' m = fs m) ∧ ∃ u, fs' n = some u ∧ load F u = some t := by
  rw [resample_files F S s n n n fs ls ls hf hf ok ok, ht, resample_self S hS s t hd]
  refine ⟨_, rfl, fun m hm => if_neg hm, _, if_pos rfl, load_written F s.prec t hp⟩

/-- **C114.** With extrapolation the output is a table that can be used as the next grid or table: resampling again with the output as the grid writes the same output. -/
theorem resample_twice (F : Fmt K) (S : Spline K) (hS : Interp S) (s : Settings K) (hs : s.extrapolate = true) (i g o : Str) (hne : i ≠ o) (fs : Files)
    (li lg : List LineT) (hi : fs i = some (fileText li)) (hg : fs g = some (fileText lg)) (oki : ∀ l ∈ li, l.OK) (okg : ∀ l ∈ lg, l.OK) (fs' : Files)
    (h : onFiles F S s i g o fs = .ok fs')
    (hp : ∀ x, F.Prints s.prec x) :
    onFiles F S s i o o fs' = .ok fs' := by
  rw [resample_files F S s i g o fs li lg hi hg oki okg] at h
  cases hr : onTables S s ((values li).map fun p => (F.val p.1, F.val p.2)) ((values lg).map fun p => (F.val p.1, F.val p.2)) with
  | error e => rw [hr] at h; cases h
  | ok r =>
    rw [hr] at h
    cases h
    have hnum := resample_numbers S hS s _ _ r hr
    obtain ⟨t, rfl⟩ : ∃ t : List (K × K), r = t.map fun p => (p.1, some p.2) := by
      refine ⟨r.filterMap fun p => p.2.map fun y => (p.1, y), ?_⟩
      have : ∀ r : List (K × Option K), (∀ p ∈ r, p.2 ≠ none) → r = (r.filterMap fun p => p.2.map fun y => (p.1, y)).map fun p => (p.1, some p.2) := by
        intro r
        induction r with
        | nil => simp
        | cons p r ih =>
          intro hall
          obtain ⟨x, y, hy⟩ : ∃ x y, p = (x, some y) := by
            obtain ⟨x, y⟩ := p
            cases y with
            | none => exact absurd rfl (hall (x, none) (by simp))
            | some y => exact ⟨x, y, rfl⟩
          subst hy
          simp only [List.filterMap_cons, Option.map_some, List.map_cons]
          rw [← ih fun p hp => hall p (by simp [hp])]
      exact this r fun p hp => (hnum p hp).mpr (Or.inl hs)
    have hload := load_written F s.prec t fun p _ => ⟨hp _, hp _⟩
    have hgrid : onTables S s ((values li).map fun p => (F.val p.1, F.val p.2)) t = .ok (t.map fun p => (p.1, some p.2)) := by
      rw [← hr]
      apply resample_grid
      have := (resample_values S hS s _ _ _ hr).1
      rw [← this]
      simp [Function.comp_def]
    unfold onFiles open_
    dsimp only
    rw [if_neg hne, hi, if_pos rfl]
    dsimp only
    rw [load_file F li oki, hload]
    dsimp only
    rw [hgrid]
    dsimp only
    congr 1
    funext n
    by_cases hn : n = o
    · rw [if_pos hn, if_pos hn]
    · rw [if_neg hn, if_neg hn]

/-! ## Options -/

/-- The last argument of `-a`. -/
def lastA : List Opt → Option Str
  | [] => none
  | .a t :: os => (lastA os).or (some t)
  | _ :: os => lastA os

/-- The last argument of `-b`. -/
def lastB : List Opt → Option Str
  | [] => none
  | .b t :: os => (lastB os).or (some t)
  | _ :: os => lastB os

/-- The last argument of `-p`. -/
def lastP : List Opt → Option Str
  | [] => none
  | .p t :: os => (lastP os).or (some t)
  | _ :: os => lastP os

theorem lastA_mem (os : List Opt) (u : Str) (h : lastA os = some u) : .a u ∈ os := by
  induction os with
  | nil => cases h
  | cons c os ih =>
    cases c with
    | a t =>
      simp only [lastA] at h
      cases hl : lastA os with
      | none => rw [hl] at h; cases h; simp
      | some w => rw [hl] at h; cases h; exact List.mem_cons_of_mem _ (ih hl)
    | _ => exact List.mem_cons_of_mem _ (ih h)

theorem lastB_mem (os : List Opt) (u : Str) (h : lastB os = some u) : .b u ∈ os := by
  induction os with
  | nil => cases h
  | cons c os ih =>
    cases c with
    | b t =>
      simp only [lastB] at h
      cases hl : lastB os with
      | none => rw [hl] at h; cases h; simp
      | some w => rw [hl] at h; cases h; exact List.mem_cons_of_mem _ (ih hl)
    | _ => exact List.mem_cons_of_mem _ (ih h)

theorem lastA_some (os : List Opt) (t : Str) (h : .a t ∈ os) : ∃ u, lastA os = some u := by
  induction os with
  | nil => simp at h
  | cons c os ih =>
    cases c with
    | a w =>
      simp only [lastA]
      cases lastA os <;> simp
    | _ => exact ih (by simpa using h)

theorem lastB_some (os : List Opt) (t : Str) (h : .b t ∈ os) : ∃ u, lastB os = some u := by
  induction os with
  | nil => simp at h
  | cons c os ih =>
    cases c with
    | b w =>
      simp only [lastB]
      cases lastB os <;> simp
    | _ => exact ih (by simpa using h)

theorem options_spec (F : Fmt K) (os : List Opt) (s s' : Settings K) :
    options F os s = .ok s' ↔ Opt.h ∉ os ∧ Opt.bad ∉ os ∧ (∀ t, .a t ∈ os ∨ .b t ∈ os → F.stod t ≠ none) ∧
      s' = ⟨((lastP os).map F.atoi).getD s.prec, s.extrapolate || decide (Opt.e ∈ os), ((lastA os).bind F.stod).or s.below,
        ((lastB os).bind F.stod).or s.above⟩ := by
  induction os generalizing s with
  | nil =>
    simp [options, lastA, lastB, lastP]
    exact eq_comm
  | cons c os ih =>
    cases c with
    | h => simp [options]
    | bad => simp [options]
    | v => simp [options, ih, lastA, lastB, lastP]
    | e => simp [options, ih, lastA, lastB, lastP]
    | p t =>
      simp only [options, ih, lastA, lastB, lastP, List.mem_cons, reduceCtorEq, false_or]
      cases lastP os <;> simp
    | a t =>
      simp only [options, lastA, lastB, lastP, List.mem_cons, reduceCtorEq, false_or, Opt.a.injEq]
      cases ht : F.stod t with
      | none =>
        simp only [reduceCtorEq, false_iff]
        exact fun h => h.2.2.1 t (Or.inl (Or.inl rfl)) ht
      | some x =>
        simp only [ih]
        have e : (((lastA os).or (some t)).bind F.stod).or s.below = ((lastA os).bind F.stod).or (some x) ∨
            ∃ u, lastA os = some u ∧ F.stod u = none := by
          cases hl : lastA os with
          | none => simp [ht]
          | some u =>
            cases hu : F.stod u with
            | none => exact Or.inr ⟨u, rfl, hu⟩
            | some z => simp [hu]
        have hm : ∀ u, lastA os = some u → .a u ∈ os := lastA_mem os
        constructor
        · rintro ⟨h1, h2, h3, h4⟩
          refine ⟨h1, h2, ?_, ?_⟩
          · rintro u ((rfl | h) | h)
            · rw [ht]; simp
            · exact h3 u (Or.inl h)
            · exact h3 u (Or.inr h)
          · rcases e with e | ⟨u, h5, h6⟩
            · rw [e]; exact h4
            · exact absurd h6 (h3 u (Or.inl (hm u h5)))
        · rintro ⟨h1, h2, h3, h4⟩
          refine ⟨h1, h2, fun u h => h3 u (h.imp_left Or.inr), ?_⟩
          rcases e with e | ⟨u, h5, h6⟩
          · rw [e] at h4; exact h4
          · exact absurd h6 (h3 u (Or.inl (Or.inr (hm u h5))))
    | b t =>
      simp only [options, lastA, lastB, lastP, List.mem_cons, reduceCtorEq, false_or, Opt.b.injEq]
      cases ht : F.stod t with
      | none =>
        simp only [reduceCtorEq, false_iff]
        exact fun h => h.2.2.1 t (Or.inr (Or.inl rfl)) ht
      | some x =>
        simp only [ih]
        have e : (((lastB os).or (some t)).bind F.stod).or s.above = ((lastB os).bind F.stod).or (some x) ∨
            ∃ u, lastB os = some u ∧ F.stod u = none := by
          cases hl : lastB os with
          | none => simp [ht]
          | some u =>
            cases hu : F.stod u with
            | none => exact Or.inr ⟨u, rfl, hu⟩
            | some z => simp [hu]
        have hm : ∀ u, lastB os = some u → .b u ∈ os := lastB_mem os
        constructor
        · rintro ⟨h1, h2, h3, h4⟩
          refine ⟨h1, h2, ?_, ?_⟩
          · rintro u (h | (rfl | h))
            · exact h3 u (Or.inl h)
            · rw [ht]; simp
            · exact h3 u (Or.inr h)
          · rcases e with e | ⟨u, h5, h6⟩
            · rw [e]; exact h4
            · exact absurd h6 (h3 u (Or.inr (hm u h5)))
        · rintro ⟨h1, h2, h3, h4⟩
          refine ⟨h1, h2, fun u h => h3 u (h.imp_right Or.inr), ?_⟩
          rcases e with e | ⟨u, h5, h6⟩
          · rw [e] at h4; exact h4
          · exact absurd h6 (h3 u (Or.inr (Or.inr (hm u h5))))

/-- **C114.** The command line is accepted exactly if there is neither `-h` nor an unknown option, the arguments of `-a` and `-b` are numbers and are given only with
`-e`, and there are three further arguments. The last of several equal options counts, their order does not matter otherwise. -/
theorem resample_options (F : Fmt K) (os : List Opt) (args : List Str) (r : Settings K × Str × Str × Str) :
    parse F os args = .ok r ↔ Opt.h ∉ os ∧ Opt.bad ∉ os ∧ (∀ t, .a t ∈ os ∨ .b t ∈ os → F.stod t ≠ none ∧ Opt.e ∈ os) ∧
      ∃ i g o, args = [i, g, o] ∧
        r = (⟨((lastP os).map F.atoi).getD 16, decide (Opt.e ∈ os), (lastA os).bind F.stod, (lastB os).bind F.stod⟩, i, g, o) := by
  unfold parse
  cases ho : options F os Settings.default with
  | error e =>
    simp only [reduceCtorEq, false_iff]
    rintro ⟨h1, h2, h3, -⟩
    have := (options_spec F os Settings.default _).mpr ⟨h1, h2, fun t ht => (h3 t ht).1, rfl⟩
    rw [ho] at this
    cases this
  | ok s =>
    obtain ⟨h1, h2, h3, h4⟩ := (options_spec F os Settings.default s).mp ho
    have e1 : s.extrapolate = decide (Opt.e ∈ os) := by rw [h4]; simp [Settings.default]
    have e2 : s.below = (lastA os).bind F.stod := by rw [h4]; simp [Settings.default]
    have e3 : s.above = (lastB os).bind F.stod := by rw [h4]; simp [Settings.default]
    have e4 : s.prec = ((lastP os).map F.atoi).getD 16 := by rw [h4]; rfl
    have es : s = ⟨((lastP os).map F.atoi).getD 16, decide (Opt.e ∈ os), (lastA os).bind F.stod, (lastB os).bind F.stod⟩ := by
      rw [← e1, ← e2, ← e3, ← e4]
    have hsome : (s.below.isSome ∨ s.above.isSome) ↔ ∃ t, Opt.a t ∈ os ∨ Opt.b t ∈ os := by
      rw [e2, e3]
      constructor
      · rintro (h | h)
        · cases hl : lastA os with
          | none => rw [hl] at h; simp at h
          | some u => exact ⟨u, Or.inl (lastA_mem os u hl)⟩
        · cases hl : lastB os with
          | none => rw [hl] at h; simp at h
          | some u => exact ⟨u, Or.inr (lastB_mem os u hl)⟩
      · rintro ⟨t, h | h⟩
        · obtain ⟨u, hu⟩ := lastA_some os t h
          left
          rw [hu, Option.bind_some, Option.isSome_iff_ne_none]
          exact h3 u (Or.inl (lastA_mem os u hu))
        · obtain ⟨u, hu⟩ := lastB_some os t h
          right
          rw [hu, Option.bind_some, Option.isSome_iff_ne_none]
          exact h3 u (Or.inr (lastB_mem os u hu))
    dsimp only
    split
    · rename_i hc
      simp only [reduceCtorEq, false_iff]
      rintro ⟨-, -, h5, -⟩
      obtain ⟨t, ht⟩ := hsome.mp hc.2
      have := (h5 t ht).2
      rw [e1] at hc
      simp [this] at hc
    · rename_i hc
      have h5 : ∀ t, .a t ∈ os ∨ .b t ∈ os → F.stod t ≠ none ∧ Opt.e ∈ os := by
        intro t ht
        refine ⟨h3 t ht, ?_⟩
        by_contra hne
        exact hc ⟨by rw [e1]; simp [hne], hsome.mpr ⟨t, ht⟩⟩
      split
      · rename_i i g o
        constructor
        · intro h
          cases h
          exact ⟨h1, h2, h5, i, g, o, rfl, by rw [← es]⟩
        · rintro ⟨-, -, -, i', g', o', he, rfl⟩
          cases he
          rw [← es]
      · rename_i hargs
        simp only [reduceCtorEq, false_iff]
        rintro ⟨-, -, -, i, g, o, rfl, -⟩
        exact hargs i g o rfl

/-- **C114.** A missing file is an error, and so is one that is not a table: there is no output. -/
theorem resample_missing (F : Fmt K) (S : Spline K) (s : Settings K) (i g o : Str) (fs fs' : Files) (h : onFiles F S s i g o fs = .ok fs') :
    ∃ ti tg li lg, fs i = some ti ∧ fs g = some tg ∧ load F ti = some li ∧ load F tg = some lg := by
  unfold onFiles open_ at h
  cases hi : fs i with
  | none => rw [hi] at h; simp at h
  | some ti =>
    rw [hi] at h
    dsimp only at h
    cases hli : load F ti with
    | none => rw [hli] at h; simp at h
    | some li =>
      rw [hli] at h
      dsimp only at h
      cases hg : fs g with
      | none => rw [hg] at h; simp at h
      | some tg =>
        rw [hg] at h
        dsimp only at h
        cases hlg : load F tg with
        | none => rw [hlg] at h; simp at h
        | some lg => exact ⟨ti, tg, li, lg, rfl, rfl, hli, hlg⟩

end Verif.Resample
