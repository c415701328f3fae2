import Verif.Bw.Steps
/-!
# C102: adaptive broadening
-/

namespace Verif.Bw
open Verif.Tools MeasureTheory

/-! ## Settings and files -/

theorem defaults_eq {o : Opt} (h : o.OK) : defaults o = .ok { o with bmin := lower o, trim := trimming o } := by
  have ht : (if o.trim < 0 then o.min * 10 else o.trim) = trimming o := by
    unfold trimming
    by_cases h : o.trim < 0
    · rw [if_pos h, if_neg (not_le.2 h), mul_comm]
    · rw [if_neg h, if_pos (not_lt.1 h)]
  unfold defaults
  dsimp only
  rw [ht]
  have hl := h.lower_le
  by_cases hd : 0 < o.dyn
  · rw [if_pos hd]
    unfold lower
    by_cases hb : o.bmin < 0
    · rw [if_pos hb, if_neg (not_le.2 hb), if_pos hd]
    · rw [if_neg hb, if_pos (not_lt.1 hb)]
  · rw [if_neg hd]
    have e : (if o.bmin < 0 then o.ratio - 1 else o.bmin) = lower o := by
      unfold lower
      by_cases hb : o.bmin < 0
      · rw [if_pos hb, if_neg (not_le.2 hb), if_neg hd]
      · rw [if_neg hb, if_pos (not_lt.1 hb)]
    rw [e, if_pos hl]

theorem mapM_all_ok {α β ε : Type} {f : α → Except ε β} {g : α → β} (l : List α) (h : ∀ a ∈ l, f a = .ok (g a)) :
    l.mapM f = .ok (l.map g) := by
  induction l with
  | nil => rfl
  | cons a l ih =>
    rw [List.mapM_cons, h a (by simp), ih fun a ha => h a (by simp [ha])]
    rfl

theorem points_eq (d : List ℝ) : points 1 1 d = peaksOf d := rfl

theorem readAll_eq {o : Opt} {files : Option Nat → Option Bin} {data : Nat → List ℝ} (hf : FilesOK o files data) :
    readAll files o = .ok (peaks o data) := by
  unfold readAll
  have h : ((List.range o.Nz.toNat).map fun i : Nat => fileOf o (i + 1)).mapM (load files) =
      .ok ((List.range o.Nz.toNat).map fun i : Nat => peaksOf (data (i + 1))) := by
    rw [List.mapM_map]
    apply mapM_all_ok
    intro i hi
    have hi := List.mem_range.1 hi
    obtain ⟨h1, h2⟩ := hf (i + 1) (by omega) (by omega)
    simp only [Function.comp, load, h1, h2]
    rfl
  rw [h]
  rfl

/-! ## The iteration -/

/-- What is kept from iteration to iteration. -/
structure StOK (o : Opt) (p : List (ℝ × ℝ)) (n : Nat) (i : Nat) (s : St) : Prop where
  mesh : MeshOK s.mesh
  range : ∀ x ∈ s.mesh, |x| ≤ o.min * o.ratio ^ (n + 1)
  ends : s.mesh.head? = some (-(o.min * o.ratio ^ (n + 1))) ∧ s.mesh.getLast? = some (o.min * o.ratio ^ (n + 1))
  old : ∀ x, InitialPoint o n x → x ∈ s.mesh
  six : 0 < o.dyn → 6 ≤ s.mesh.length
  widths : s.b.length = p.length ∧ ∀ w ∈ s.b, 0 < w ∧ lower o ≤ w ∧ w ≤ o.b0
  run : Run o p n i s.mesh s.b

/-- A file with a spectrum is one of the specification. -/
def SpectrumFile (o : Opt) (p : List (ℝ × ℝ)) (n : Nat) (s : Saved) : Prop :=
  ∃ m b, Run o p n s.iter m b ∧ Spectrum o p n b s ∧
    s.lines = (m.zip (valuesOn o p m b)).filter fun l => decide (trimming o ≤ |l.1|)

theorem refines_ends {m : List ℝ} (hm : m.Pairwise (· < ·)) {r : ℝ} (h1 : m.head? = some (-r)) (h2 : m.getLast? = some r) :
    ∀ x ∈ m, |x| ≤ r := by
  intro x hx
  obtain ⟨t, ht⟩ : ∃ t, m = -r :: t := by
    cases m with
    | nil => simp at h1
    | cons a t => simp at h1; exact ⟨t, by rw [h1]⟩
  obtain ⟨u, hu⟩ := List.getLast?_eq_some_iff.1 h2
  rw [abs_le]
  constructor
  · rw [ht] at hm hx
    rcases List.mem_cons.1 hx with rfl | hx
    · exact le_rfl
    · exact ((List.pairwise_cons.1 hm).1 x hx).le
  · rw [hu] at hm hx
    rcases List.mem_append.1 hx with hx | hx
    · exact ((List.pairwise_append.1 hm).2.2 x hx r (by simp)).le
    · rw [List.mem_singleton] at hx; exact hx.le

theorem trim_filter {o : Opt} (h : o.OK) (l : List (ℝ × ℝ)) :
    (l.filter fun p => !(decide (trimming o ≠ 0) && decide (|p.1| < trimming o))) = l.filter fun p => decide (trimming o ≤ |p.1|) := by
  have h0 : 0 ≤ trimming o := by
    unfold trimming
    split
    · assumption
    · have := h.min_pos; positivity
  refine List.filter_congr fun p _ => ?_
  by_cases hp : |p.1| < trimming o
  · have : trimming o ≠ 0 := by have := abs_nonneg p.1; intro e; linarith
    simp [hp, this]
  · simp [hp, not_lt.1 hp]

/-- A saved spectrum of a state. -/
theorem save_spec {o : Opt} (h : o.OK) {p : List (ℝ × ℝ)} {n i : Nat} {s : St} (hs : StOK o p n i s) :
    SpectrumFile o p n (save "a" s.mesh (valuesOn o p s.mesh s.b) i (trimming o)) := by
  have hl : s.mesh.length = (valuesOn o p s.mesh s.b).length := by simp [valuesOn]
  have hlines : (save "a" s.mesh (valuesOn o p s.mesh s.b) i (trimming o)).lines =
      (s.mesh.zip (valuesOn o p s.mesh s.b)).filter fun l => decide (trimming o ≤ |l.1|) := trim_filter h _
  refine ⟨s.mesh, s.b, hs.run, ⟨hs.widths, ?_, ?_, ?_⟩, hlines⟩
  · rw [hlines]
    refine List.Pairwise.sublist (List.Sublist.map Prod.fst (List.filter_sublist)) ?_
    rw [map_fst_zip _ _ hl]
    exact hs.mesh.inc
  · rw [hlines]
    constructor
    · intro x hx
      obtain ⟨l, hl', rfl⟩ := List.mem_map.1 hx
      obtain ⟨h1, h2⟩ := List.mem_filter.1 hl'
      have h3 : l.1 ∈ s.mesh := by
        rw [← map_fst_zip _ _ hl]; exact List.mem_map_of_mem h1
      exact ⟨hs.mesh.nz _ h3, of_decide_eq_true h2, hs.range _ h3⟩
    · intro x hx ht
      have h3 := hs.old x hx
      refine List.mem_map.2 ⟨(x, if o.positivity = true ∧ shape p s.b x < 0 then 1 / 10 ^ 16 else shape p s.b x), ?_, rfl⟩
      rw [List.mem_filter]
      refine ⟨?_, decide_eq_true ht⟩
      unfold valuesOn
      rw [Broad.zip_map_self]
      exact List.mem_map.2 ⟨x, h3, rfl⟩
  · intro l hl'
    rw [hlines] at hl'
    have h1 := (List.mem_filter.1 hl').1
    unfold valuesOn at h1
    rw [Broad.zip_map_self] at h1
    obtain ⟨x, _, rfl⟩ := List.mem_map.1 h1
    dsimp only
    by_cases hc : o.positivity = true ∧ shape p s.b x < 0
    · rw [if_pos hc]; exact Or.inr ⟨hc.1, hc.2, rfl⟩
    · rw [if_neg hc]; exact Or.inl rfl

/-- The settings in effect. -/
noncomputable abbrev eff (o : Opt) : Opt := { o with bmin := lower o, trim := trimming o }

theorem iteration_spec {o : Opt} (h : o.OK) {p : List (ℝ × ℝ)} {n i : Nat} {s : St} (hs : StOK o p n i s) :
    ∃ s', iteration (eff o) p i s = .ok s' ∧ StOK o p n (i + 1) s' ∧
      ∃ more, s'.out = s.out ++ more ∧
        (more.filter fun f => f.name == "a") = (if o.savemore ∨ (i : Int) = o.iters then
          [save "a" s.mesh (valuesOn o p s.mesh s.b) i (trimming o)] else []) := by
  have hl : s.mesh.length = (valuesOn o p s.mesh s.b).length := by simp [valuesOn]
  obtain ⟨b, hb1, hb2, hb3, hb4⟩ := widths_step (o := eff o) h.q_pos h.b0_pos p hs.mesh hl
  have hw : ∀ w ∈ b, 0 < w ∧ lower o ≤ w ∧ w ≤ o.b0 := by
    intro w hw
    obtain ⟨h1, h2, h3⟩ := hb4 w hw
    exact ⟨h1, h2, by rwa [max_eq_right h.lower_le] at h3⟩
  have hnew : NewWidths o (lower o) s.mesh (valuesOn o p s.mesh s.b) p b := hb2
  have hbr : broaden (eff o) p s.mesh s.b = valuesOn o p s.mesh s.b := broaden_eq _ _ _ _
  unfold iteration
  rw [hbr]
  dsimp only at hb1 ⊢
  rw [hb1]
  dsimp only
  by_cases hd : 0 < o.dyn
  · rw [if_pos hd]
    obtain ⟨m', r1, r2, r3, r4, r5, r6⟩ := refine_spec o.dyn hs.mesh hl (hs.six hd)
    rw [r1]
    refine ⟨_, rfl, ⟨r2, ?_, ?_, fun x hx => r3 x (hs.old x hx), fun _ => (hs.six hd).trans r6, ⟨hb3, hw⟩,
      Run.step i s.mesh s.b _ _ hs.run hnew ⟨r2.inc, r3, r4, r5, fun h => absurd hd (not_lt.2 h)⟩⟩, _, by
        dsimp only; rw [List.append_assoc, List.append_assoc], ?_⟩
    · exact refines_ends r2.inc (r4.trans hs.ends.1) (r5.trans hs.ends.2)
    · exact ⟨r4.trans hs.ends.1, r5.trans hs.ends.2⟩
    · split <;> cases o.saveall <;> cases o.savemore <;> simp [save]
  · rw [if_neg hd]
    refine ⟨_, rfl, ⟨hs.mesh, hs.range, hs.ends, hs.old, fun h => absurd h hd, ⟨hb3, hw⟩,
      Run.step i s.mesh s.b _ _ hs.run hnew ⟨hs.mesh.inc, fun x hx => hx, rfl, rfl, fun _ => rfl⟩⟩, _, by
        dsimp only; rw [List.append_assoc, List.append_assoc], ?_⟩
    split <;> cases o.saveall <;> cases o.savemore <;> simp [save]

theorem iterate_spec {o : Opt} (h : o.OK) {p : List (ℝ × ℝ)} {n : Nat} (k : Nat) : ∀ (i : Nat) (s : St), StOK o p n i s →
    ∃ s', iterate (eff o) p i k s = .ok s' ∧ StOK o p n (i + k) s' ∧
      ∃ more, s'.out = s.out ++ more ∧ (∀ f ∈ more, f.name = "a" → SpectrumFile o p n f) ∧
        (more.filter fun f => f.name == "a").map Saved.iter = (List.range' i k).filter fun (j : Nat) => o.savemore || decide ((j : Int) = o.iters) := by
  induction k with
  | zero => intro i s hs; exact ⟨s, rfl, hs, [], by simp, by simp, by simp⟩
  | succ k ih =>
    intro i s hs
    obtain ⟨s1, e1, h1, more1, m1, m2⟩ := iteration_spec h hs
    obtain ⟨s2, e2, h2, more2, m3, m4, m5⟩ := ih (i + 1) s1 h1
    refine ⟨s2, by simp only [iterate]; rw [e1]; exact e2, by rw [show i + (k + 1) = i + 1 + k by omega]; exact h2,
      more1 ++ more2, by rw [m3, m1, List.append_assoc], ?_, ?_⟩
    · intro f hf hn
      rcases List.mem_append.1 hf with hf | hf
      · have : f ∈ more1.filter fun f => f.name == "a" := List.mem_filter.2 ⟨hf, by simp [hn]⟩
        rw [m2] at this
        split at this
        · rw [List.mem_singleton] at this; subst this; exact save_spec h hs
        · simp at this
      · exact m4 f hf hn
    · rw [List.filter_append, List.map_append, m5, m2, List.range'_succ, List.filter_cons]
      by_cases hc : o.savemore ∨ (i : Int) = o.iters
      · rw [if_pos hc, if_pos (by simpa using hc)]; rfl
      · rw [if_neg hc, if_neg (by simpa using hc)]; rfl

/-- The state before the first iteration. -/
theorem start_ok {o : Opt} (h : o.OK) : ∃ N n, (∀ k, k < n → o.min * o.ratio ^ k < o.max) ∧ o.max ≤ o.min * o.ratio ^ n ∧
    ∀ fuel, N ≤ fuel → ∃ m, makeMesh (eff o) fuel = .ok m ∧ ∀ p out, StOK o p n 1 ⟨m, p.map fun _ => o.b0, out⟩ := by
  obtain ⟨N, n, hN⟩ := makeMesh_spec (o := eff o) h.min_pos h.min_max h.ratio_gt
  obtain ⟨m0, -, -, hn1, hn2, hn3, -, -⟩ := hN N le_rfl
  refine ⟨N, n, hn2, hn3, fun fuel hfu => ?_⟩
  obtain ⟨m, g1, g2, -, -, -, g3, g4⟩ := hN fuel hfu
  have hinit : ∀ x, x ∈ m ↔ InitialPoint o n x := g4
  have hr0 : (0:ℝ) < o.ratio := by linarith [h.ratio_gt]
  have hR : 0 < o.min * o.ratio ^ (n + 1) := mul_pos h.min_pos (pow_pos hr0 _)
  have hrange : ∀ x ∈ m, |x| ≤ o.min * o.ratio ^ (n + 1) := by
    intro x hx
    rcases (hinit x).1 hx with ⟨k, hk, e⟩ | e
    · rw [e]
      exact mul_le_mul_of_nonneg_left (pow_le_pow_right₀ h.ratio_gt.le (by omega)) h.min_pos.le
    · exact e.le
  have hends : m.head? = some (-(o.min * o.ratio ^ (n + 1))) ∧ m.getLast? = some (o.min * o.ratio ^ (n + 1)) := by
    have i1 : -(o.min * o.ratio ^ (n + 1)) ∈ m := (hinit _).2 (Or.inr (by rw [abs_neg, abs_of_pos hR]))
    have i2 : o.min * o.ratio ^ (n + 1) ∈ m := (hinit _).2 (Or.inr (abs_of_pos hR))
    have hinc := g2.inc
    constructor
    · cases m with
      | nil => simp at i1
      | cons a t =>
        rcases List.mem_cons.1 i1 with e | e
        · rw [e]; rfl
        · have h1 := (List.pairwise_cons.1 hinc).1 _ e
          have h2 := (abs_le.1 (hrange a (by simp))).1
          linarith
    · rcases List.eq_nil_or_concat' m with rfl | ⟨t, a, rfl⟩
      · simp at i1
      · rcases List.mem_append.1 i2 with e | e
        · have h1 := (List.pairwise_append.1 hinc).2.2 _ e a (by simp)
          have h2 := (abs_le.1 (hrange a (by simp))).2
          linarith
        · rw [List.mem_singleton] at e; rw [← e]; simp
  refine ⟨m, g1, fun p out => ?_⟩
  · refine ⟨g2, hrange, hends, fun x hx => (hinit x).2 hx, ?_, ⟨by simp, ?_⟩, Run.start m g2.inc hinit⟩
    · intro hd
      dsimp only
      have h2 : 2 ≤ n := by
        by_contra hc
        have : n = 1 := by omega
        subst this
        have h3 := h.dyn_mesh hd
        have h4 : o.max ≤ o.min * o.ratio ^ 1 := hn3
        rw [pow_one] at h4
        linarith
      omega
    · intro w hw
      obtain ⟨_, _, rfl⟩ := List.mem_map.1 hw
      exact ⟨h.b0_pos, h.lower_le, le_rfl⟩

/-- **C102.** With sensible settings and complete input files the tool always
finishes, whatever the spectrum: no assertion fails, no interpolation is outside of
its table, no loop is endless.  Every spectrum it writes is a sum of the input peaks,
broadened by logarithmic Gaussians whose widths are positive and between the least
width and `b0`; it is given on an increasing mesh that never contains zero and that
contains at least the initial mesh points; in the first iteration all widths are
`b0`, and in the others they follow from the spectrum of the iteration before. -/
theorem bw_result {o : Opt} (h : o.OK) {files : Option Nat → Option Bin} {data : Nat → List ℝ} (hf : FilesOK o files data) :
    ∃ N n, (∀ k, k < n → o.min * o.ratio ^ k < o.max) ∧ o.max ≤ o.min * o.ratio ^ n ∧
      ∀ fuel, N ≤ fuel → ∃ out, main o files fuel = .ok out ∧
        (∀ f ∈ out, f.name = "a" → ∃ m b, Run o (peaks o data) n f.iter m b ∧ Spectrum o (peaks o data) n b f ∧
          f.lines = (m.zip (valuesOn o (peaks o data) m b)).filter fun l => decide (trimming o ≤ |l.1|)) ∧
        (out.filter fun f => f.name == "a").map Saved.iter =
          (List.range' 1 o.iters.toNat).filter fun (j : Nat) => o.savemore || decide ((j : Int) = o.iters) := by
  obtain ⟨N, n, hn2, hn3, hN⟩ := start_ok h
  refine ⟨N, n, hn2, hn3, fun fuel hfu => ?_⟩
  obtain ⟨m, g1, hs0⟩ := hN fuel hfu
  have hcheck : check o = .ok () := if_pos ⟨h.b0_pos, h.Nz_pos⟩
  have hread : readAll files (eff o) = .ok (peaks o data) := readAll_eq (o := eff o) hf
  obtain ⟨s', e1, -, more, e2, e3, e4⟩ := iterate_spec h o.iters.toNat 1 _
    (hs0 (peaks o data) (if o.savemore then [save "b" ((peaks o data).map Prod.fst) ((peaks o data).map fun _ => o.b0) 0 (trimming o)] else []))
  refine ⟨s'.out, ?_, ?_, ?_⟩
  · unfold main
    rw [hcheck]
    dsimp only
    rw [defaults_eq h]
    dsimp only
    rw [hread]
    dsimp only
    rw [g1]
    dsimp only
    rw [e1]
  · intro f hf hn
    rw [e2] at hf
    rcases List.mem_append.1 hf with hf | hf
    · exfalso
      dsimp only at hf
      split at hf
      · rw [List.mem_singleton] at hf; subst hf; simp [save] at hn
      · simp at hf
    · exact e3 f hf hn
  · rw [e2, List.filter_append, List.map_append, e4]
    have : ((if o.savemore then [save "b" ((peaks o data).map Prod.fst) ((peaks o data).map fun _ => o.b0) 0 (trimming o)] else []).filter
        fun f => f.name == "a") = [] := by
      split <;> simp [save]
    dsimp only
    rw [this]
    rfl

end Verif.Bw
