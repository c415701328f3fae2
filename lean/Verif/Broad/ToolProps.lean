import Verif.Broad.Tool
import Verif.Broad.Props
import Verif.Spectral.PatchProps
import Verif.Tools.SpectraProps
import Verif.Tools.LinIntProps
/-!
# C85: the tool reproduces the broadened spectrum of the main program
-/

namespace Verif.Broad
open Verif.Spectral

/-! ## Merging files keeps sums over peaks -/

theorem addPoint_sum (f : ℝ → ℝ) (w v : ℝ) (m : List (ℝ × ℝ)) :
    ((Tools.addPoint w v m).map fun p => p.2 * f p.1).sum = (m.map fun p => p.2 * f p.1).sum + v * f w := by
  induction m with
  | nil => simp [Tools.addPoint]
  | cons q m ih =>
    obtain ⟨x, y⟩ := q
    simp only [Tools.addPoint]
    by_cases h1 : w < x
    · rw [if_pos h1]; simp; ring
    · rw [if_neg h1]
      by_cases h2 : w = x
      · rw [if_pos h2]; subst h2; simp; ring
      · rw [if_neg h2]
        simp only [List.map_cons, List.sum_cons]
        rw [ih]; ring

theorem addAll_sum (f : ℝ → ℝ) (l m : List (ℝ × ℝ)) :
    ((l.foldl (fun m p => Tools.addPoint p.1 p.2 m) m).map fun p => p.2 * f p.1).sum =
      (m.map fun p => p.2 * f p.1).sum + (l.map fun p => p.2 * f p.1).sum := by
  induction l generalizing m with
  | nil => simp
  | cons q l ih =>
    rw [List.foldl_cons, ih, addPoint_sum]
    simp only [List.map_cons, List.sum_cons]
    ring

theorem collect_sum (f : ℝ → ℝ) (files : List (List (ℝ × ℝ))) :
    ((Tools.collect files).map fun p => p.2 * f p.1).sum = (files.map fun l => (l.map fun p => p.2 * f p.1).sum).sum := by
  have gen : ∀ m : List (ℝ × ℝ), ((files.foldl (fun m f => f.foldl (fun m p => Tools.addPoint p.1 p.2 m) m) m).map
      fun p => p.2 * f p.1).sum = (m.map fun p => p.2 * f p.1).sum + (files.map fun l => (l.map fun p => p.2 * f p.1).sum).sum := by
    induction files with
    | nil => intro m; simp
    | cons l files ih =>
      intro m
      rw [List.foldl_cons, ih, addAll_sum]
      simp only [List.map_cons, List.sum_cons]
      ring
  have := gen []
  simpa [Tools.collect] using this

/-- Sums over the merged peaks are means of the sums over the files. -/
theorem merge_sum (f : ℝ → ℝ) (files : List (List (ℝ × ℝ))) :
    ((Tools.mergeFiles files).map fun p => p.2 * f p.1).sum =
      (files.map fun l => (l.map fun p => p.2 * f p.1).sum).sum / files.length := by
  rw [Tools.mergeFiles, List.map_map, ← collect_sum, ← Tools.sum_div, List.map_map]
  congr 1
  refine List.map_congr_left fun p _ => ?_
  simp only [Function.comp]
  ring

theorem filter_all (high : ℝ) (s : List (ℝ × ℝ)) (h : ∀ p ∈ s, |p.1| ≤ high) : Tools.filterSpec 0 high true true s = s := by
  rw [Tools.filter_spec]
  conv_rhs => rw [← List.map_id s]
  refine List.map_congr_left fun p hp => ?_
  have h1 := h p hp
  simp [h1]

/-- **C85.** The tool's value at a mesh point is the mean over the files of the sums over their
peaks: merging equal frequencies first makes no difference. -/
theorem broaden_merged (S : Settings) (files : List (List (ℝ × ℝ))) (m : ℝ) :
    broadenAt S (Tools.mergeFiles files) m = (files.map fun l => broadenAt S l m).sum / files.length :=
  merge_sum (fun e => bfnc S m e) files

/-! ## The mesh -/

theorem sorted_decreasing {l : List ℝ} (h : l.Pairwise (· > ·)) : l.insertionSort (· ≤ ·) = l.reverse := by
  have hr : l.reverse.Pairwise (· ≤ ·) := by
    rw [List.pairwise_reverse]
    exact h.imp fun h => le_of_lt h
  exact (List.perm_insertionSort _ l |>.trans (List.reverse_perm l).symm).eq_of_pairwise' (List.pairwise_insertionSort _ _) hr

theorem toolMesh_eq {max : ℝ} (hmax : max ≠ 0) {zs : List ℝ} (hd : zs.Pairwise (· > ·)) (hp : ∀ z ∈ zs, 0 < z) :
    toolMesh max 0 true true zs = zs.map (fun z => -z) ++ zs.reverse := by
  have h1 : (zs.flatMap fun z => [z] ++ [-z]).Perm (zs.map (fun z => -z) ++ zs.reverse) := by
    induction zs with
    | nil => simp
    | cons z zs ih =>
      have ih' := ih hd.tail fun z hz => hp z (by simp [hz])
      simp only [List.flatMap_cons, List.map_cons, List.reverse_cons]
      refine ((ih'.append_left ([z] ++ [-z]))).trans ?_
      rw [List.perm_iff_count]
      intro a
      simp only [List.count_append, List.count_cons, List.count_nil, List.cons_append]
      omega
  have h2 : (zs.map (fun z => -z) ++ zs.reverse).Pairwise (· ≤ ·) := by
    rw [List.pairwise_append]
    refine ⟨?_, ?_, ?_⟩
    · rw [List.pairwise_map]; exact hd.imp fun h => by linarith
    · rw [List.pairwise_reverse]; exact hd.imp fun h => le_of_lt h
    · intro a ha b hb
      obtain ⟨z, hz, rfl⟩ := List.mem_map.1 ha
      have := hp z hz
      have := hp b (List.mem_reverse.1 hb)
      linarith
  have h3 : (zs.flatMap fun z =>
      let x := 0 + z * ((max - 0) / max)
      (if true = true then [x] else []) ++ (if true = true then [-x] else [])) = zs.flatMap fun z => [z] ++ [-z] := by
    refine congrArg (fun f => zs.flatMap f) (funext fun z => ?_)
    simp [div_self hmax]
  unfold toolMesh
  rw [h3]
  exact ((List.perm_insertionSort _ _).trans h1).eq_of_pairwise' (List.pairwise_insertionSort _ _) h2

/-- **C85.** The mesh of the tool is sorted and consists, for each side that is requested, of the points `a + z (max - a)/max` of this side. -/
theorem mesh_points (max a : ℝ) (addPositive addNegative : Bool) (zs : List ℝ) :
    (toolMesh max a addPositive addNegative zs).Pairwise (· ≤ ·) ∧
    (toolMesh max a addPositive addNegative zs).Perm
      ((if addPositive then zs.map fun z => a + z * ((max - a) / max) else []) ++
        if addNegative then zs.map fun z => -(a + z * ((max - a) / max)) else []) := by
  refine ⟨List.pairwise_insertionSort _ _, (List.perm_insertionSort _ _).trans ?_⟩
  dsimp only
  induction zs with
  | nil => cases addPositive <;> cases addNegative <;> simp
  | cons z zs ih =>
    rw [List.flatMap_cons]
    refine (ih.append_left _).trans ?_
    cases addPositive <;> cases addNegative <;> simp [List.perm_middle.symm]

theorem sorted_pairs {α : Type} (f : ℝ → α) (l : List ℝ) :
    (l.map fun x => (x, f x)).insertionSort (fun a b => a.1 ≤ b.1) = (l.insertionSort (· ≤ ·)).map fun x => (x, f x) :=
  (List.map_insertionSort (r := (· ≤ ·)) (s := fun a b : ℝ × α => a.1 ≤ b.1) (fun x => (x, f x)) l
    fun _ _ _ _ => Iff.rfl).symm

theorem sorted_increasing {l : List ℝ} (h : l.Pairwise (· < ·)) : l.insertionSort (· ≤ ·) = l :=
  List.Pairwise.insertionSort_eq (h.imp fun h => le_of_lt h)

/-! ## The theorem -/

theorem zip_map_self {α β : Type} (f : α → β) (l : List α) : l.zip (l.map f) = l.map fun x => (x, f x) := by
  induction l with
  | nil => rfl
  | cons a l ih => simp [ih]

/-- The peaks of a raw file, with the real or the imaginary part of the weights. -/
noncomputable def rawPeaks (part : ℂ → ℝ) (pos neg : Spikes) : List (ℝ × ℝ) :=
  pos.map (fun p => (p.1, part p.2)) ++ neg.map fun p => (-p.1, part p.2)

theorem savebins_points (reim : Bool) (pos neg : Spikes) (rows : List (List ℝ)) (h : savebins reim pos neg = some rows)
    (nrcol col : ℕ) (part : ℂ → ℝ)
    (hc : (col = 1 ∧ part = Complex.re ∧ nrcol = if reim then 2 else 1) ∨ (col = 2 ∧ part = Complex.im ∧ nrcol = 2 ∧ reim = true)) :
    Tools.loadRows nrcol rows.flatten = some rows.flatten ∧
    Tools.points nrcol col rows.flatten = rawPeaks part pos neg := by
  have hrows : rows = pos.map (fun p => binRow reim p.1 p.2) ++ neg.map fun p => binRow reim (-p.1) p.2 := by
    unfold savebins at h
    by_cases hp : (∀ p ∈ pos, 0 < p.1) ∧ (∀ p ∈ neg, -p.1 < 0)
    · rw [if_pos hp] at h; exact (Option.some.inj h).symm
    · rw [if_neg hp] at h; simp at h
  have hlen : ∀ r ∈ rows, r.length = 1 + nrcol := by
    rw [hrows]
    intro r hr
    rcases List.mem_append.1 hr with hr | hr <;> obtain ⟨p, -, rfl⟩ := List.mem_map.1 hr <;>
      rcases hc with ⟨-, -, rfl⟩ | ⟨-, -, rfl, hre⟩
    · cases reim <;> rfl
    · subst hre; rfl
    · cases reim <;> rfl
    · subst hre; rfl
  have hcol : col ≤ nrcol := by
    rcases hc with ⟨rfl, -, rfl⟩ | ⟨rfl, -, rfl, -⟩
    · split <;> omega
    · exact le_rfl
  obtain ⟨h1, h2⟩ := Tools.points_spec nrcol col rows hlen hcol
  refine ⟨h1, h2.trans ?_⟩
  rw [hrows, rawPeaks, List.map_append, List.map_map, List.map_map]
  rcases hc with ⟨rfl, rfl, -⟩ | ⟨rfl, rfl, -, rfl⟩
  · cases reim <;> rfl
  · rfl

theorem density_part (alpha omega0 : ℝ) (pos neg : Spikes) (m : ℝ) (part : ℂ → ℝ)
    (hpart : part = Complex.re ∨ part = Complex.im) :
    part (density alpha omega0 pos neg m) = broadenAt ⟨alpha, omega0, 0, false, false⟩ (rawPeaks part pos neg) m := by
  have hsum : ∀ (l : Spikes) (k : ℝ × ℂ → ℝ), part ((l.map fun p => p.2 * (k p : ℂ)).sum) = (l.map fun p => part p.2 * k p).sum := by
    intro l k
    induction l with
    | nil => rcases hpart with rfl | rfl <;> simp
    | cons p l ih =>
      simp only [List.map_cons, List.sum_cons]
      rw [← ih]
      rcases hpart with rfl | rfl <;> simp
  have hadd : ∀ a b : ℂ, part (a + b) = part a + part b := by
    intro a b; rcases hpart with rfl | rfl <;> simp
  rw [density, hadd, hsum pos fun p => brNew alpha omega0 m p.1, hsum neg fun p => brNew alpha omega0 m (-p.1), broadenAt,
    rawPeaks, List.map_append, List.sum_append, List.map_map, List.map_map]
  simp only [Function.comp_def, main_kernel_agrees]

/-- **C85.** The tool without options, applied to the raw file the main program wrote, on the
mesh of the same bounds and ratio, gives the main program's broadened spectrum, point by point
and in the same order: column 1 the real part, column 2 (of a file with complex weights) the
imaginary part. -/
theorem tool_reproduces_main (alpha omega0 max min ratio high : ℝ) (pos neg : Spikes) (zs : List ℝ) (reim : Bool)
    (dat : Spikes) (rows : List (List ℝ))
    (hmesh : MakeMesh max min ratio (some zs)) (hdat : continuousOut alpha omega0 pos neg zs = some dat)
    (hrows : savebins reim pos neg = some rows) (hhigh : ∀ p ∈ pos ++ neg, |p.1| ≤ high) :
    toolRun ⟨alpha, omega0, 0, false, false⟩ (if reim then 2 else 1) 1 0 high true true [rows.flatten]
      (toolMesh max 0 true true zs) = some (dat.map fun p => (p.1, p.2.re)) ∧
    (reim = true → toolRun ⟨alpha, omega0, 0, false, false⟩ 2 2 0 high true true [rows.flatten]
      (toolMesh max 0 true true zs) = some (dat.map fun p => (p.1, p.2.im))) := by
  -- the mesh
  obtain ⟨hmax, hdec, hpos⟩ : max ≠ 0 ∧ zs.Pairwise (· > ·) ∧ ∀ z ∈ zs, 0 < z := by
    cases hmesh with
    | ok l hc hl =>
      simp only [not_or, not_le, ge_iff_le] at hc
      obtain ⟨hr, hmx, hmn, -⟩ := hc
      obtain ⟨h1, -⟩ := divLoop_spec hr hmn hl
      refine ⟨hmx.ne', ?_, ?_⟩
      · rw [List.pairwise_iff_getElem]
        intro i j hi hj hij
        rw [(h1 i _ (List.getElem?_eq_getElem hi)).1, (h1 j _ (List.getElem?_eq_getElem hj)).1]
        exact div_lt_div_of_pos_left hmx (pow_pos (by linarith) _) (pow_lt_pow_right₀ hr hij)
      · intro z hz
        obtain ⟨i, hi, rfl⟩ := List.getElem_of_mem hz
        exact hmn.trans (h1 i _ (List.getElem?_eq_getElem hi)).2
  -- what the main program writes
  have hd : dat = (zs.map (fun z => -z) ++ zs.reverse).map fun m => (m, density alpha omega0 pos neg m) := by
    unfold continuousOut at hdat
    by_cases h1 : alpha ≤ 0 ∨ omega0 ≤ 0
    · rw [if_pos h1] at hdat; simp at hdat
    · rw [if_neg h1] at hdat
      by_cases h2 : zs ≠ [] ∧ ¬((∀ p ∈ pos, 0 < p.1) ∧ ∀ p ∈ neg, 0 < p.1)
      · rw [if_pos h2] at hdat; simp at hdat
      · rw [if_neg h2] at hdat
        rw [← Option.some.inj hdat, List.map_append, sorted_pairs, sorted_decreasing hdec]
        congr 1
        have e : (zs.map fun E => (-E, density alpha omega0 pos neg (-E))) =
            (zs.map fun z => -z).map fun m => (m, density alpha omega0 pos neg m) := by
          rw [List.map_map]; rfl
        rw [e, sorted_pairs, sorted_increasing]
        rw [List.pairwise_map]
        exact hdec.imp fun h => by linarith
  have key : ∀ (nrcol col : ℕ) (part : ℂ → ℝ), (part = Complex.re ∨ part = Complex.im) →
      ((col = 1 ∧ part = Complex.re ∧ nrcol = if reim then 2 else 1) ∨ (col = 2 ∧ part = Complex.im ∧ nrcol = 2 ∧ reim = true)) →
      toolRun ⟨alpha, omega0, 0, false, false⟩ nrcol col 0 high true true [rows.flatten]
        (toolMesh max 0 true true zs) = some (dat.map fun p => (p.1, part p.2)) := by
    intro nrcol col part hpart hc
    obtain ⟨hl, hpt⟩ := savebins_points reim pos neg rows hrows nrcol col part hc
    have hfreq : ∀ p ∈ Tools.mergeFiles [rawPeaks part pos neg], |p.1| ≤ high := by
      intro p hp
      obtain ⟨-, -, -, h4⟩ := Tools.merge_spec [rawPeaks part pos neg]
      have := (h4 p.1).1 (List.mem_map_of_mem hp)
      obtain ⟨f, hf, hx⟩ := this
      rw [List.mem_singleton] at hf
      subst hf
      obtain ⟨q, hq, hqe⟩ := List.mem_map.1 hx
      rw [← hqe]
      rcases List.mem_append.1 hq with hq | hq <;> obtain ⟨r, hr, rfl⟩ := List.mem_map.1 hq
      · exact hhigh r (by simp [hr])
      · simpa using hhigh r (by simp [hr])
    simp only [toolRun, List.mapM_cons, List.mapM_nil, hl, Option.bind_eq_bind, Option.bind_some, Option.pure_def, List.map_cons,
      List.map_nil, hpt]
    rw [filter_all high _ hfreq, toolMesh_eq hmax hdec hpos, hd, List.map_map, broaden, zip_map_self]
    congr 1
    refine List.map_congr_left fun m _ => ?_
    simp only [Function.comp_def]
    rw [broaden_merged, density_part _ _ _ _ _ _ hpart]
    simp
  refine ⟨key _ _ Complex.re (Or.inl rfl) (Or.inl ⟨rfl, rfl, rfl⟩), fun h => ?_⟩
  exact key _ _ Complex.im (Or.inr rfl) (Or.inr ⟨rfl, rfl, rfl, h⟩)

/-- The main program writes both files for positive energies and any mesh. -/
example : ∃ zs, MakeMesh 2 0.5 2 (some zs) ∧ zs ≠ [] ∧
    (continuousOut 0.3 0.01 [(1, 1), (0.5, Complex.I)] [(0.25, 2)] zs).isSome = true ∧
    (savebins true [(1, 1), (0.5, Complex.I)] [(0.25, 2)]).isSome = true := by
  have hl : DivLoop 0.5 2 2 [2, 1] := by
    refine DivLoop.step _ _ (by norm_num) ?_
    have h1 : (2 : ℝ) / 2 = 1 := by norm_num
    rw [h1]
    exact DivLoop.step _ _ (by norm_num) (DivLoop.stop _ (by norm_num))
  refine ⟨[2, 1], .ok _ (by norm_num) hl, by simp, ?_, ?_⟩
  · unfold continuousOut
    rw [if_neg (by norm_num), if_neg, Option.isSome_some]
    rintro ⟨-, h⟩
    refine h ?_
    constructor <;> intro p hp <;> simp at hp
    · rcases hp with rfl | rfl <;> norm_num
    · subst hp; norm_num
  · unfold savebins
    rw [if_pos, Option.isSome_some]
    constructor <;> intro p hp <;> simp at hp
    · rcases hp with rfl | rfl <;> norm_num
    · subst hp; norm_num

/-- **C85.** The moments the main program reports are the moments of the raw file (here: the
real parts) as the tool for moments computes them. -/
theorem moments_agree (reim : Bool) (pos neg : Spikes) (rows : List (List ℝ)) (k : ℕ)
    (hrows : savebins reim pos neg = some rows) :
    Tools.moment k (Tools.mergeFiles [Tools.points (if reim then 2 else 1) 1 rows.flatten]) = (spikesMoment neg pos k).re := by
  obtain ⟨-, hpt⟩ := savebins_points reim pos neg rows hrows _ 1 Complex.re (Or.inl ⟨rfl, rfl, rfl⟩)
  rw [hpt, Tools.moment, merge_sum (fun e => e ^ k)]
  have hsum : ∀ (l : Spikes) (f : ℝ × ℂ → ℝ), ((l.map fun p => p.2 * (f p : ℂ)).sum).re = (l.map fun p => p.2.re * f p).sum := by
    intro l f
    induction l with
    | nil => simp
    | cons p l ih =>
      simp only [List.map_cons, List.sum_cons, Complex.add_re]
      rw [← ih]; simp
  have h1 := hsum pos fun p => p.1 ^ k
  have h2 := hsum neg fun p => (-p.1) ^ k
  simp only [Complex.ofReal_pow, Complex.ofReal_neg] at h1 h2
  rw [spikesMoment, Complex.add_re, h1, h2]
  simp [rawPeaks, Function.comp_def]

/-! ## The weight that is printed -/

/-- **C84.** The weight estimated with the trapezoidal rule is the integral of the piecewise-linear interpolation of the written spectrum. -/
theorem printed_weight {t : Tools.Tab ℝ} (h : Tools.Good t) {g : ℝ → ℝ} (hg : ∀ x, Tools.IsInterp t x (g x)) :
    trapez (t.map Prod.fst) (t.map Prod.snd) = ∫ y in (t.x 0)..(t.x (t.length - 1)), g y := by
  have hx : ∀ i, (t.map Prod.fst).getD i 0 = t.x i := by
    intro i
    unfold Tools.Tab.x
    rw [List.getD_eq_getElem?_getD, List.getD_eq_getElem?_getD, List.getElem?_map]
    cases t[i]? <;> rfl
  have hy : ∀ i, (t.map Prod.snd).getD i 0 = t.f i := by
    intro i
    unfold Tools.Tab.f
    rw [List.getD_eq_getElem?_getD, List.getD_eq_getElem?_getD, List.getElem?_map]
    cases t[i]? <;> rfl
  have hp : ∀ k < t.length - 1, IntervalIntegrable g MeasureTheory.volume (t.x k) (t.x (k + 1)) ∧
      ∫ y in (t.x k)..(t.x (k + 1)), g y = (t.x (k + 1) - t.x k) * ((t.f k + t.f (k + 1)) / 2) := by
    intro k hk
    have hk' : k + 1 < t.length := by omega
    have hle := (h.inc k hk').le
    have e := Tools.integral_of_affine (g := g) (a := t.x k) (b := t.x (k + 1)) _ _ _ (fun y hy => by
      rw [Set.uIcc_of_le hle] at hy
      exact Tools.interp_piece h hg hk' hy.1 hy.2)
    refine ⟨e.1, e.2.trans ?_⟩
    rw [Tools.interp_node h hg (by omega : k < t.length), Tools.interp_node h hg hk']
  rw [← intervalIntegral.sum_integral_adjacent_intervals (a := t.x) (n := t.length - 1) fun k hk => (hp k hk).1]
  unfold trapez
  rw [List.length_map, List.range'_eq_map_range, List.map_map, ← List.sum_toFinset _ List.nodup_range, List.toFinset_range]
  refine Finset.sum_congr rfl fun k hk => ?_
  rw [(hp k (Finset.mem_range.mp hk)).2]
  simp only [Function.comp_def, hx, hy, Nat.add_sub_cancel_left]
  rw [Nat.add_comm 1 k]
  ring

/-- The weight of a triangle. -/
example : trapez [0, 1, 2] [0, 1, 0] = 1 := by norm_num [trapez, List.range'_eq_map_range, List.range_succ]

end Verif.Broad
