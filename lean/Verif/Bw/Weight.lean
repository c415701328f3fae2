import Verif.Bw.Props
/-!
# C102, C103: weight, sign, scaling; settings with which the tool fails
-/

namespace Verif.Bw
open Verif.Tools MeasureTheory

/-! ## Total weight -/

theorem shape_integral (p : List (ℝ × ℝ)) : ∀ b : List ℝ, b.length = p.length → (∀ w ∈ b, 0 < w) →
    Integrable (shape p b) ∧ ∫ x, shape p b x = (p.map fun r => r.2 * if r.1 = 0 then 0 else 1).sum := by
  induction p with
  | nil =>
    intro b _ _
    have h0 : shape [] b = fun _ => 0 := by funext x; simp [shape]
    simp [h0]
  | cons r p ih =>
    intro b hb hw
    cases b with
    | nil => simp at hb
    | cons w b =>
      obtain ⟨i1, i2⟩ := ih b (by simpa using hb) fun v hv => hw v (by simp [hv])
      have hf : shape (r :: p) (w :: b) = fun x => r.2 * Broad.logGauss w x r.1 + shape p b x := by
        funext x; simp [shape]
      rw [hf]
      by_cases h0 : r.1 = 0
      · have hz : (fun x => r.2 * Broad.logGauss w x r.1 + shape p b x) = shape p b := by
          funext x; rw [h0, Broad.logGauss_zero]; ring
        rw [hz]
        refine ⟨i1, ?_⟩
        rw [i2]; simp [h0]
      · obtain ⟨k1, k2⟩ := Broad.logGauss_integral (hw w (by simp)) h0
        refine ⟨(k1.const_mul _).add i1, ?_⟩
        rw [integral_add (k1.const_mul _) i1, integral_const_mul, k2, i2]
        simp [h0]

/-- **C102.** Whatever the widths, the broadened function has the weight of the peaks
at nonzero frequency, averaged over the calculations. -/
theorem bw_weight (o : Opt) (data : Nat → List ℝ) {b : List ℝ} (hb : b.length = (peaks o data).length) (hw : ∀ w ∈ b, 0 < w) :
    Integrable (shape (peaks o data) b) ∧ ∫ x, shape (peaks o data) b x =
      (((List.range o.Nz.toNat).map fun i : Nat =>
        ((peaksOf (data (i + 1))).map fun r => if r.1 = 0 then 0 else r.2).sum).sum) / o.Nz.toNat := by
  obtain ⟨h1, h2⟩ := shape_integral (peaks o data) b hb hw
  refine ⟨h1, h2.trans ?_⟩
  unfold peaks
  rw [Broad.merge_sum (fun x => if x = 0 then 0 else 1), List.map_map, List.length_map, List.length_range]
  congr 2
  refine List.map_congr_left fun i _ => ?_
  simp only [Function.comp]
  congr 1
  refine List.map_congr_left fun r _ => ?_
  split <;> simp

/-- **C102.** Peaks with non-negative weight give a non-negative function. -/
theorem bw_nonneg (p : List (ℝ × ℝ)) (b : List ℝ) (hp : ∀ r ∈ p, 0 ≤ r.2) (hw : ∀ w ∈ b, 0 < w) (x : ℝ) : 0 ≤ shape p b x := by
  unfold shape
  apply List.sum_nonneg
  intro v hv
  obtain ⟨r, hr, rfl⟩ := List.mem_map.1 hv
  exact mul_nonneg (hp _ (List.of_mem_zip hr).1) (Broad.logGauss_nonneg (hw _ (List.of_mem_zip hr).2) _ _)

/-- **C102.** With a single iteration the result is the broadening with the constant
width `b0`. -/
theorem bw_single {o : Opt} {p : List (ℝ × ℝ)} {n : Nat} {m b : List ℝ} (h : Run o p n 1 m b) (x : ℝ) :
    shape p b x = (p.map fun r => r.2 * Broad.logGauss o.b0 x r.1).sum := by
  have hb : b = p.map fun _ => o.b0 := by
    generalize hi : 1 = i at h
    cases h with
    | start => rfl
    | step j _ _ _ _ hr => 
      have : ∀ {i m b}, Run o p n i m b → 1 ≤ i := by
        intro i m b h
        induction h with
        | start => exact le_rfl
        | step => omega
      have := this hr
      omega
  rw [hb]
  unfold shape
  rw [Broad.zip_map_self, List.map_map]
  rfl

/-! ## A peak at zero frequency -/

/-- **C103.** The broadened function lacks the weight of a peak at frequency zero. -/
theorem zero_peak_lost (w β : ℝ) (hw : w ≠ 0) (hβ : 0 < β) :
    ∫ x, shape [(0, w)] [β] x ≠ (([(0, w)] : List (ℝ × ℝ)).map Prod.snd).sum := by
  obtain ⟨-, h⟩ := shape_integral [(0, w)] [β] rfl (by simpa using hβ)
  rw [h]
  simpa using hw.symm

/-! ## Scaling -/

/-- All weights multiplied by a number. -/
def scaled (c : ℝ) (p : List (ℝ × ℝ)) : List (ℝ × ℝ) := p.map fun r => (r.1, c * r.2)

theorem shape_scaled (c : ℝ) (p : List (ℝ × ℝ)) : ∀ (b : List ℝ) (x : ℝ), shape (scaled c p) b x = c * shape p b x := by
  intro b x
  unfold shape scaled
  rw [List.zip_map_left, List.map_map, ← List.sum_map_mul_left]
  congr 1
  refine List.map_congr_left fun r _ => ?_
  simp [mul_assoc]

theorem valuesOn_scaled {o : Opt} (ho : o.positivity = false) (c : ℝ) (p : List (ℝ × ℝ)) (m b : List ℝ) :
    valuesOn o (scaled c p) m b = (valuesOn o p m b).map (c * ·) := by
  unfold valuesOn
  rw [List.map_map]
  refine List.map_congr_left fun x _ => ?_
  simp [ho, shape_scaled]

theorem getD_scaled (c : ℝ) (a : List ℝ) (k : Nat) : (a.map (c * ·)).getD k 0 = c * a.getD k 0 := by
  by_cases hk : k < a.length
  · rw [List.getD_eq_getElem _ _ (by simpa using hk), List.getD_eq_getElem _ _ hk, List.getElem_map]
  · rw [List.getD_eq_default _ _ (by simpa using hk), List.getD_eq_default _ _ (by simpa using hk), mul_zero]

theorem integLoop_scaled (c : ℝ) (l : List (ℝ × ℝ)) : ∀ (s : ℝ) (p : ℝ × ℝ),
    integLoop (c * s) (p.1, c * p.2) (l.map fun r => (r.1, c * r.2)) = (integLoop s p l).map (c * ·) := by
  induction l with
  | nil => intro s p; rfl
  | cons r l ih =>
    intro s p
    simp only [integLoop, List.map_cons]
    have e : c * s + (c * r.2 + c * p.2) * (r.1 - p.1) / 2 = c * (s + (r.2 + p.2) * (r.1 - p.1) / 2) := by ring
    rw [e]
    exact congrArg _ (ih (s + (r.2 + p.2) * (r.1 - p.1) / 2) r)

theorem zip_scaled (c : ℝ) (m a : List ℝ) : m.zip (a.map (c * ·)) = (m.zip a).map fun r => (r.1, c * r.2) := by
  rw [List.zip_map_right]; rfl

theorem integrate_scaled (c : ℝ) (m a : List ℝ) : integrate m (a.map (c * ·)) = (integrate m a).map (c * ·) := by
  unfold integrate
  rw [zip_scaled]
  cases m.zip a with
  | nil => rfl
  | cons p l =>
    simp only [List.map_cons, mul_zero]
    have := integLoop_scaled c l 0 p
    rw [mul_zero] at this
    rw [this]

theorem dlog_scaled {c : ℝ} (hc : c ≠ 0) (x y u v : ℝ) : dlog (x, c * u) (y, c * v) = dlog (x, u) (y, v) := by
  unfold dlog
  simp only [mul_div_mul_left v u hc, ne_eq, mul_eq_zero, hc, false_or]

theorem deriv_scaled {c : ℝ} (hc : c ≠ 0) (m f : List ℝ) : deriv m (f.map (c * ·)) = deriv m f := by
  unfold deriv consec
  rw [zip_scaled, ← List.map_tail, List.zip_map, List.map_map]
  congr 1
  refine List.map_congr_left fun p _ => ?_
  exact dlog_scaled hc _ _ _ _

theorem omega0_scaled {m f : List ℝ} (hm : MeshOK m) (hf : m.length = f.length) (c : ℝ) : omega0 m (f.map (c * ·)) = c * omega0 m f := by
  obtain ⟨z, h1, h2, h3⟩ := crossing hm
  rw [omega0_eq hm (by simpa using hf) h1 h2 h3, omega0_eq hm hf h1 h2 h3, getD_scaled, getD_scaled]
  ring

theorem combB_scaled {m f : List ℝ} (hm : MeshOK m) (hf : m.length = f.length) (c : ℝ) : combB m (f.map (c * ·)) = (combB m f).map (c * ·) := by
  unfold combB
  rw [omega0_scaled hm hf, List.map_map, List.map_map]
  refine List.map_congr_left fun x _ => ?_
  simp only [Function.comp]
  ring

theorem combC_scaled (f : List ℝ) (c : ℝ) : combC (f.map (c * ·)) = (combC f).map (c * ·) := by
  unfold combC
  have : (f.map (c * ·)).getLastD 0 = c * f.getLastD 0 := by
    rw [List.getLastD_eq_getLast?, List.getLastD_eq_getLast?, List.getLast?_map]
    cases f.getLast? <;> simp
  rw [this, List.map_map, List.map_map]
  refine List.map_congr_left fun x _ => ?_
  simp only [Function.comp]
  ring

theorem deviates_scaled {c : ℝ} (hc : c ≠ 0) (dyn : ℝ) (p2 p1 p : ℝ × ℝ) :
    deviates dyn (p2.1, c * p2.2) (p1.1, c * p1.2) (p.1, c * p.2) = deviates dyn p2 p1 p := by
  unfold deviates
  dsimp only
  have e : c * p1.2 + (c * p2.2 - c * p1.2) / (p2.1 - p1.1) * (p.1 - p1.1) =
      c * (p1.2 + (p2.2 - p1.2) / (p2.1 - p1.1) * (p.1 - p1.1)) := by ring
  rw [e, ← mul_sub, mul_div_mul_left _ _ hc]
  simp only [mul_eq_zero, hc, false_or, ne_eq]

theorem negLoop_scaled {c : ℝ} (hc : c ≠ 0) (dyn : ℝ) (l : List (ℝ × ℝ)) : ∀ p2 p1 : ℝ × ℝ,
    negLoop dyn (p2.1, c * p2.2) (p1.1, c * p1.2) (l.map fun r => (r.1, c * r.2)) = negLoop dyn p2 p1 l := by
  induction l with
  | nil => intro p2 p1; rfl
  | cons p l ih => intro p2 p1; simp only [List.map_cons, negLoop, deviates_scaled hc, ih p1 p]

theorem posLoop_scaled {c : ℝ} (hc : c ≠ 0) (dyn : ℝ) (l : List (ℝ × ℝ)) : ∀ p2 p1 : ℝ × ℝ,
    posLoop dyn (p2.1, c * p2.2) (p1.1, c * p1.2) (l.map fun r => (r.1, c * r.2)) = posLoop dyn p2 p1 l := by
  induction l with
  | nil => intro p2 p1; rfl
  | cons p l ih => intro p2 p1; simp only [List.map_cons, posLoop, deviates_scaled hc, ih p1 p]

theorem refine_scaled {c : ℝ} (hc : c ≠ 0) (dyn : ℝ) (m a : List ℝ) : refine dyn m (a.map (c * ·)) = refine dyn m a := by
  unfold refine
  rw [zip_scaled, ← List.map_reverse, List.length_map]
  cases m.zip a with
  | nil => rfl
  | cons p0 l =>
    cases l with
    | nil => rfl
    | cons p1 l =>
      cases (p0 :: p1 :: l).reverse with
      | nil => rfl
      | cons q0 s =>
        cases s with
        | nil => rfl
        | cons q1 s =>
          simp only [List.map_cons, ← List.map_dropLast, negLoop_scaled hc, posLoop_scaled hc]

/-- What scaling does to a file: spectra are scaled, widths are not. -/
noncomputable def scaledFile (c : ℝ) (f : Saved) : Saved := if f.name = "a" then { f with lines := scaled c f.lines } else f

theorem save_scaled (c : ℝ) (x y : List ℝ) (i : Nat) (t : ℝ) : save "a" x (y.map (c * ·)) i t = scaledFile c (save "a" x y i t) := by
  unfold save scaledFile scaled
  simp only [if_true, zip_scaled, List.filter_map]
  rfl

theorem iteration_scaled {o : Opt} (h : o.OK) (hp : o.positivity = false) (hs : o.saveall = false) {c : ℝ} (hc : c ≠ 0)
    {p : List (ℝ × ℝ)} {n i : Nat} {s : St} (hst : StOK o p n i s) :
    iteration (eff o) (scaled c p) i { s with out := s.out.map (scaledFile c) } =
      (iteration (eff o) p i s).map fun s => { s with out := s.out.map (scaledFile c) } := by
  have hl : s.mesh.length = (valuesOn o p s.mesh s.b).length := by simp [valuesOn]
  have hli : s.mesh.length = (integrate s.mesh (valuesOn o p s.mesh s.b)).length := (integrate_length hl).symm
  have hbr : broaden (eff o) p s.mesh s.b = valuesOn o p s.mesh s.b := broaden_eq _ _ _ _
  have hbr' : broaden (eff o) (scaled c p) s.mesh s.b = (valuesOn o p s.mesh s.b).map (c * ·) :=
    (broaden_eq _ _ _ _).trans (valuesOn_scaled hp c p s.mesh s.b)
  have hfst : (scaled c p).map Prod.fst = p.map Prod.fst := by unfold scaled; rw [List.map_map]; rfl
  unfold iteration recalcB
  rw [hbr]
  simp only [hbr', integrate_scaled, combB_scaled hst.mesh hli, combC_scaled, deriv_scaled hc, refine_scaled hc, hfst, save_scaled, hs]
  by_cases hm : s.mesh = []
  · simp only [if_pos hm]; rfl
  simp only [if_neg hm]
  cases recalcLoop (lower o) (s.mesh.zip (calcB (eff o)
      (deriv s.mesh (combB s.mesh (integrate s.mesh (valuesOn o p s.mesh s.b))))
      (deriv s.mesh (combC (integrate s.mesh (valuesOn o p s.mesh s.b))))))
    (s.mesh.zip (calcB (eff o) (deriv s.mesh (integrate s.mesh (valuesOn o p s.mesh s.b)))
      (deriv s.mesh (combB s.mesh (integrate s.mesh (valuesOn o p s.mesh s.b))))))
    ⟨none, 0, 0, 0, 0, 0, false⟩ ⟨none, 0, 0, 0, 0, 0, false⟩ (p.map Prod.fst) with
  | error x => rfl
  | ok b =>
    dsimp only
    have hb : ∀ x y i t, scaledFile c (save "b" x y i t) = save "b" x y i t := by
      intro x y i t; simp [scaledFile, save]
    have hout : (s.out.map (scaledFile c) ++ (if o.savemore = true ∨ (i : Int) = o.iters then
          [scaledFile c (save "a" s.mesh (valuesOn o p s.mesh s.b) i (trimming o))] else []) ++ [] ++
          (if o.savemore = true then [save "b" (p.map Prod.fst) b i (trimming o)] else [])) =
        (s.out ++ (if o.savemore = true ∨ (i : Int) = o.iters then
          [save "a" s.mesh (valuesOn o p s.mesh s.b) i (trimming o)] else []) ++ [] ++
          (if o.savemore = true then [save "b" (p.map Prod.fst) b i (trimming o)] else [])).map (scaledFile c) := by
      simp only [List.map_append]
      congr 1
      · congr 1
        congr 1
        split <;> rfl
      · split
        · simp [hb]
        · rfl
    simp only [Bool.false_eq_true, if_false]
    rw [hout]
    by_cases hd : 0 < o.dyn
    · simp only [if_pos hd]
      cases refine o.dyn s.mesh (valuesOn o p s.mesh s.b) <;> rfl
    · simp only [if_neg hd]
      rfl

theorem iterate_scaled {o : Opt} (h : o.OK) (hp : o.positivity = false) (hs : o.saveall = false) {c : ℝ} (hc : c ≠ 0)
    {p : List (ℝ × ℝ)} {n : Nat} (k : Nat) : ∀ (i : Nat) (s : St), StOK o p n i s →
    iterate (eff o) (scaled c p) i k { s with out := s.out.map (scaledFile c) } =
      (iterate (eff o) p i k s).map fun s => { s with out := s.out.map (scaledFile c) } := by
  induction k with
  | zero => intro i s _; rfl
  | succ k ih =>
    intro i s hst
    obtain ⟨s1, e1, h1, -⟩ := iteration_spec h hst
    simp only [iterate]
    rw [iteration_scaled h hp hs hc hst, e1]
    exact ih (i + 1) s1 h1

theorem addPoint_scaled (c w v : ℝ) (m : List (ℝ × ℝ)) : addPoint w (c * v) (scaled c m) = scaled c (addPoint w v m) := by
  induction m with
  | nil => rfl
  | cons q m ih =>
    obtain ⟨x, y⟩ := q
    unfold scaled at ih ⊢
    simp only [List.map_cons, addPoint]
    split
    · rfl
    · split
      · simp [mul_add]
      · simp only [List.map_cons]; rw [ih]

theorem mergeFiles_scaled (c : ℝ) (l : List (List (ℝ × ℝ))) : mergeFiles (l.map (scaled c)) = scaled c (mergeFiles l) := by
  have one : ∀ (f m : List (ℝ × ℝ)), (scaled c f).foldl (fun m p => addPoint p.1 p.2 m) (scaled c m) =
      scaled c (f.foldl (fun m p => addPoint p.1 p.2 m) m) := by
    intro f
    induction f with
    | nil => intro m; rfl
    | cons r f ih =>
      intro m
      have : scaled c (r :: f) = (r.1, c * r.2) :: scaled c f := rfl
      rw [this, List.foldl_cons, List.foldl_cons]
      dsimp only
      rw [addPoint_scaled, ih]
  have all : ∀ (l : List (List (ℝ × ℝ))) (m : List (ℝ × ℝ)),
      (l.map (scaled c)).foldl (fun m f => f.foldl (fun m p => addPoint p.1 p.2 m) m) (scaled c m) =
        scaled c (l.foldl (fun m f => f.foldl (fun m p => addPoint p.1 p.2 m) m) m) := by
    intro l
    induction l with
    | nil => intro m; rfl
    | cons f l ih => intro m; rw [List.map_cons, List.foldl_cons, List.foldl_cons, one, ih]
  unfold mergeFiles collect
  have h := all l []
  rw [show scaled c [] = [] from rfl] at h
  rw [h, List.length_map]
  unfold scaled
  rw [List.map_map, List.map_map]
  refine List.map_congr_left fun r _ => ?_
  simp only [Function.comp, mul_div_assoc]

/-- **C102.** Only relative weights matter for the widths: if all weights of the input
are multiplied by a nonzero number, every spectrum is multiplied by this number, on
the same mesh, and the widths that are written are the same. -/
theorem bw_scaling {o : Opt} (h : o.OK) (hp : o.positivity = false) (hs : o.saveall = false) {c : ℝ} (hc : c ≠ 0)
    {files files' : Option Nat → Option Bin} {data data' : Nat → List ℝ} (hf : FilesOK o files data) (hf' : FilesOK o files' data')
    (hd : ∀ i, peaksOf (data' i) = (peaksOf (data i)).map fun r => (r.1, c * r.2)) :
    ∃ N, ∀ fuel, N ≤ fuel → ∃ out, main o files fuel = .ok out ∧ main o files' fuel = .ok (out.map fun f =>
      if f.name = "a" then ⟨f.name, f.iter, f.lines.map fun r => (r.1, c * r.2)⟩ else f) := by
  obtain ⟨N, n, -, -, hN⟩ := start_ok h
  refine ⟨N, fun fuel hfu => ?_⟩
  obtain ⟨m, g1, hs0⟩ := hN fuel hfu
  have hcheck : check o = .ok () := if_pos ⟨h.b0_pos, h.Nz_pos⟩
  have hread : readAll files (eff o) = .ok (peaks o data) := readAll_eq (o := eff o) hf
  have hpk : peaks o data' = scaled c (peaks o data) := by
    unfold peaks
    rw [← mergeFiles_scaled, List.map_map]
    congr 1
    refine List.map_congr_left fun i _ => ?_
    exact hd (i + 1)
  have hread' : readAll files' (eff o) = .ok (scaled c (peaks o data)) := (readAll_eq (o := eff o) hf').trans (by rw [← hpk]; rfl)
  have hst := hs0 (peaks o data)
    (if o.savemore then [save "b" ((peaks o data).map Prod.fst) ((peaks o data).map fun _ => o.b0) 0 (trimming o)] else [])
  obtain ⟨s', e1, -⟩ := iterate_spec h o.iters.toNat 1 _ hst
  have e2 := iterate_scaled h hp hs hc o.iters.toNat 1 _ hst
  rw [e1] at e2
  refine ⟨s'.out, ?_, ?_⟩
  · unfold main
    rw [hcheck]
    dsimp only
    rw [defaults_eq h]
    dsimp only
    rw [hread]
    dsimp only
    rw [g1]
    dsimp only
    rw [e1]
  · unfold main
    rw [hcheck]
    dsimp only
    rw [defaults_eq h]
    dsimp only
    rw [hread']
    dsimp only
    rw [g1]
    dsimp only
    have hb : (scaled c (peaks o data)).map (fun _ => o.b0) = (peaks o data).map fun _ => o.b0 := by
      unfold scaled; rw [List.map_map]; rfl
    have hfst : (scaled c (peaks o data)).map Prod.fst = (peaks o data).map Prod.fst := by
      unfold scaled; rw [List.map_map]; rfl
    rw [hb, hfst]
    have hout : (if o.savemore then [save "b" ((peaks o data).map Prod.fst) ((peaks o data).map fun _ => o.b0) 0 (trimming o)] else []).map
        (scaledFile c) = (if o.savemore then [save "b" ((peaks o data).map Prod.fst) ((peaks o data).map fun _ => o.b0) 0 (trimming o)] else []) := by
      split <;> simp [scaledFile, save]
    dsimp only at e2
    rw [hout] at e2
    rw [e2]
    rfl

/-! ## Settings with which the tool fails -/

theorem up_endless {max ratio : ℝ} (hm : 0 < max) (hr : 0 < ratio) (n : Nat) : ∀ z, z ≤ 0 → up max ratio n z = none := by
  induction n with
  | zero => intro z _; rfl
  | succ n ih =>
    intro z hz
    simp only [up]
    rw [if_pos (by linarith), ih _ (by nlinarith)]
    rfl

/-- **C103.** A lower end of the mesh that is not positive is not refused: the loop
that makes the mesh never ends. -/
theorem bw_endless {o : Opt} (h1 : 0 < o.b0) (h2 : 1 ≤ o.Nz) (h3 : o.min ≤ 0) (h4 : 0 < o.max) (h5 : 1 < o.ratio)
    (h6 : lower o ≤ o.b0) {files : Option Nat → Option Bin} {data : Nat → List ℝ} (hf : FilesOK o files data) (fuel : Nat) :
    main o files fuel = .error .fuel := by
  have hcheck : check o = .ok () := if_pos ⟨h1, h2⟩
  have hdef : ∃ t, defaults o = .ok { o with bmin := lower o, trim := t } := by
    unfold defaults
    dsimp only
    by_cases hd : 0 < o.dyn
    · rw [if_pos hd]
      refine ⟨if o.trim < 0 then o.min * 10 else o.trim, ?_⟩
      unfold lower
      by_cases hb : o.bmin < 0
      · rw [if_pos hb, if_neg (not_le.2 hb), if_pos hd]
      · rw [if_neg hb, if_pos (not_lt.1 hb)]
    · rw [if_neg hd]
      have e : (if o.bmin < 0 then o.ratio - 1 else o.bmin) = lower o := by
        unfold lower
        by_cases hb : o.bmin < 0
        · rw [if_pos hb, if_neg (not_le.2 hb), if_neg hd]
        · rw [if_neg hb, if_pos (not_lt.1 hb)]
      rw [e, if_pos h6]
      exact ⟨_, rfl⟩
  obtain ⟨t, ht⟩ := hdef
  have hread : readAll files { o with bmin := lower o, trim := t } = .ok (peaks o data) :=
    readAll_eq (o := { o with bmin := lower o, trim := t }) hf
  unfold main
  rw [hcheck]
  dsimp only
  rw [ht]
  dsimp only
  rw [hread]
  dsimp only
  unfold makeMesh
  rw [if_pos ⟨by dsimp only; linarith, h5⟩, up_endless h4 (by linarith) fuel _ h3]

/-- **C103.** Nothing is written unless every input file is there and holds whole
pairs of numbers. -/
theorem bw_refuses_partial {o : Opt} {files : Option Nat → Option Bin} {i : Nat} (h1 : 1 ≤ i) (h2 : (i : Int) ≤ o.Nz)
    (hbad : ∀ b, files (fileOf o i) = some b → ¬(b.extra = 0 ∧ b.data.length % 2 = 0)) (fuel : Nat) :
    ∃ x, main o files fuel = .error x := by
  have hload : ∀ o' : Opt, o'.Nz = o.Nz → o'.one = o.one → ∃ x, readAll files o' = .error x := by
    intro o' e1 e2
    unfold readAll
    cases hm : ((List.range o'.Nz.toNat).map fun i : Nat => fileOf o' (i + 1)).mapM (load files) with
    | error x => exact ⟨x, rfl⟩
    | ok ls =>
      exfalso
      have hmem : fileOf o i ∈ (List.range o'.Nz.toNat).map fun i : Nat => fileOf o' (i + 1) := by
        refine List.mem_map.2 ⟨i - 1, List.mem_range.2 (by rw [e1]; omega), ?_⟩
        rw [show i - 1 + 1 = i by omega]
        unfold fileOf
        rw [e1, e2]
      have hok : ∀ (l : List (Option Nat)) ls, l.mapM (load files) = .ok ls → ∀ a ∈ l, ∃ y, load files a = .ok y := by
        intro l
        induction l with
        | nil => intro _ _ a ha; simp at ha
        | cons b l ih =>
          intro ls hls a ha
          rw [List.mapM_cons] at hls
          cases hb : load files b with
          | error x => rw [hb] at hls; cases hls
          | ok y =>
            rcases List.mem_cons.1 ha with rfl | ha
            · exact ⟨y, hb⟩
            · cases hl : l.mapM (load files) with
              | error x => rw [hb, hl] at hls; cases hls
              | ok ys => exact ih ys hl a ha
      obtain ⟨y, hy⟩ := hok _ ls hm _ hmem
      unfold load at hy
      cases hff : files (fileOf o i) with
      | none => rw [hff] at hy; cases hy
      | some b => rw [hff] at hy; dsimp only at hy; rw [if_neg (hbad b hff)] at hy; cases hy
  unfold main
  cases hc : check o with
  | error x => exact ⟨x, rfl⟩
  | ok _ =>
    dsimp only
    cases hd : defaults o with
    | error x => exact ⟨x, rfl⟩
    | ok o' =>
      have e : o'.Nz = o.Nz ∧ o'.one = o.one := by
        unfold defaults at hd
        dsimp only at hd
        generalize (if o.bmin < 0 then o.ratio - 1 else o.bmin) = bm at hd
        generalize (if o.bmin < 0 then 0 else o.bmin) = bd at hd
        split at hd
        · obtain rfl := Except.ok.inj hd; exact ⟨rfl, rfl⟩
        · split at hd
          · obtain rfl := Except.ok.inj hd; exact ⟨rfl, rfl⟩
          · cases hd
      obtain ⟨x, hx⟩ := hload o' e.1 e.2
      dsimp only
      rw [hx]
      exact ⟨x, rfl⟩

end Verif.Bw
