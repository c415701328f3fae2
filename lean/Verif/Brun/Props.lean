import Verif.Brun.Lemmas
/-!
# The program `broaden`, from files to the spectrum
-/

namespace Verif.Brun
open Verif.Text
open Verif.Zrun (Files Bin Stored sumRows freq weight)
open Verif.Cmd (Line given argOf colsOf brOf int num)
open Verif.Table (Dec.value fileText values LineT readTable)

/-- The settings of the kernel for a command line. -/
noncomputable def kernel (l : Line) (a t : Str) (w : ℚ) : Broad.Settings :=
  ⟨(num a : ℝ), (w : ℝ) * (num t : ℝ), ((brOf l.options).accumulation : ℝ), given 'n' l.options, given 'g' l.options⟩

theorem asks_main {l : Line} {n z a t : Str} {w : ℚ} (h : Asks l n z a t w) :
    Cmd.broadenMain l.words = .ok ⟨brOf l.options, n, int z, num a, num t, w⟩ := by
  obtain ⟨h0, h1, h2, h3, h4, h5, h6, h7, h8⟩ := h
  exact (Cmd.broaden_command l h0 _).2 ⟨n, z, a, t, w, h1, h2, h3, h4, h5, h6, h7, h8, rfl⟩

theorem run_on (bins : Files (Bin ℝ)) (texts : Files Str) (fuel : Nat) (l : Line) (n z a t : Str) (w : ℚ) (h : Asks l n z a t w) (rows : Nat → List (List ℝ))
    (hs : Stored bins (given 'o' l.options) (int z).toNat n (colsOf l.options).nrcol rows) (m : List ℝ) (hm : mesh texts fuel (brOf l.options) = .ok m)
    (hp : m.Pairwise (· ≤ ·)) (h0 : given 'g' l.options = true ∨ (0 : ℝ) ∉ m) :
    ∃ o, broaden bins texts fuel l.words = .ok o ∧ Right (brOf l.options) (kernel l a t w) (num t) (int z).toNat rows m o := by
  obtain ⟨g0, g1, g2, g3, g4, g5, g6, g7, g8⟩ := h
  have hc := asks_main ⟨g0, g1, g2, g3, g4, g5, g6, g7, g8⟩
  have hsp := Zrun.spectrum_stored (K := ℝ) g2 (Zrun.colsOf_le l.options) hs
  have hinc : Tools.Increasing (Tools.mergeFiles ((List.range (int z).toNat).map fun i : Nat => Zrun.pairs (colsOf l.options).col (rows (i + 1)))) := (Tools.merge_spec _).1
  have hset : settings ⟨brOf l.options, n, int z, num a, num t, w⟩ = kernel l a t w := rfl
  have hcol : (brOf l.options).cols = colsOf l.options := rfl
  have hval : ∀ x : ℝ, Broad.broadenAt (kernel l a t w) (filter (brOf l.options)
      (Tools.mergeFiles ((List.range (int z).toNat).map fun i : Nat => Zrun.pairs (colsOf l.options).col (rows (i + 1))))) x =
      mean (brOf l.options) (int z).toNat rows fun y => Broad.bfnc (kernel l a t w) x y := fun x =>
    filtered_sum (brOf l.options) (fun y => Broad.bfnc (kernel l a t w) x y) (int z).toNat rows
  have hbr : Broad.broaden (kernel l a t w) (filter (brOf l.options)
      (Tools.mergeFiles ((List.range (int z).toNat).map fun i : Nat => Zrun.pairs (colsOf l.options).col (rows (i + 1))))) m =
      m.map fun x => mean (brOf l.options) (int z).toNat rows fun y => Broad.bfnc (kernel l a t w) x y :=
    List.map_congr_left fun x _ => hval x
  have hS : (kernel l a t w).OK := ⟨show (0 : ℝ) < ((num a : ℚ) : ℝ) by exact_mod_cast g3, mul_pos (by exact_mod_cast g5) (by exact_mod_cast g4)⟩
  have hnn : ¬ ∃ x ∈ m, ∃ p ∈ filter (brOf l.options)
      (Tools.mergeFiles ((List.range (int z).toNat).map fun i : Nat => Zrun.pairs (colsOf l.options).col (rows (i + 1)))), NotNumber (kernel l a t w) x p.1 :=
    number_of_ne h0
  refine ⟨{
    spec := m.zip (passes ⟨brOf l.options, n, int z, num a, num t, w⟩ m
      (m.map fun x => mean (brOf l.options) (int z).toNat rows fun y => Broad.bfnc (kernel l a t w) x y))
    cumulative := if (brOf l.options).cumulative then some (m.zip (Tools.cumulative m (filter (brOf l.options)
      (Tools.mergeFiles ((List.range (int z).toNat).map fun i : Nat => Zrun.pairs (colsOf l.options).col (rows (i + 1))))) 0)) else none
    sums := if (brOf l.options).sumrules then some (Broad.sumrules (num t) (filter (brOf l.options)
      (Tools.mergeFiles ((List.range (int z).toNat).map fun i : Nat => Zrun.pairs (colsOf l.options).col (rows (i + 1)))))) else none
    weight := Broad.trapez m (passes ⟨brOf l.options, n, int z, num a, num t, w⟩ m
      (m.map fun x => mean (brOf l.options) (int z).toNat rows fun y => Broad.bfnc (kernel l a t w) x y)) }, ?_, ?_⟩
  · rw [broaden, hc]
    dsimp only [compute]
    rw [show (brOf l.options).cols.one = given 'o' l.options from rfl, hcol, hsp]
    dsimp only
    rw [hm]
    dsimp only [finish]
    rw [hset, if_neg (not_not.2 hp), if_neg hnn, hbr]
  · have hlen := passes_length ⟨brOf l.options, n, int z, num a, num t, w⟩ m
      (m.map fun x => mean (brOf l.options) (int z).toNat rows fun y => Broad.bfnc (kernel l a t w) x y) (by simp)
    refine ⟨?_, ?_, ?_, ?_, ?_, ?_, ?_, ?_⟩
    · intro e1 e2
      simp only [passes, e1, e2]
      exact zip_self m _
    · intro g e1 e2
      simp only [passes, e1, e2]
    · intro g e1 e2
      simp only [passes, e1, e2]
    · intro g d e1 e2
      simp only [passes, e1, e2]
    · dsimp only
      congr 2
      rw [Tools.cumulative_spec m _ (filter_increasing _ _ hinc) hp, zip_self]
      refine List.map_congr_left fun x _ => ?_
      rw [below_sum]
      exact congrArg _ (filtered_sum (brOf l.options) (fun y => if y < x then 1 else 0) (int z).toNat rows)
    · dsimp only
      congr 2
      rw [sums_eq]
      have := fun f : ℝ → ℝ => filtered_sum (brOf l.options) f (int z).toNat rows
      rw [hcol] at this
      simp only [Broad.Sums.mk.injEq]
      exact ⟨this fun _ => 1, this fun y => if 0 < y then 1 else 0, this fun y => if y < 0 then 1 else 0, this fun y => 1 / (1 + Real.exp (-y / num t)),
        this fun y => if y = 0 then 0 else 1 / (1 - Real.exp (-y / num t)), this fun y => 1 / (1 + Real.exp (y / num t)),
        this fun y => if y = 0 then 0 else 1 / (1 - Real.exp (y / num t))⟩
    · dsimp only
      rw [zip_snd _ _ hlen]
    · intro hw p hp'
      have hin : p.2 ∈ passes ⟨brOf l.options, n, int z, num a, num t, w⟩ m
          (m.map fun x => mean (brOf l.options) (int z).toNat rows fun y => Broad.bfnc (kernel l a t w) x y) := (List.of_mem_zip (a := p.1) (b := p.2) hp').2
      refine passes_nonneg _ m _ (by simp) hp g4 ?_ ?_ ?_ _ hin
      · intro g e
        obtain ⟨s, hs1, rfl⟩ := Option.map_eq_some_iff.1 (show (argOf 'f' l.options).map num = some g from e)
        exact g6 s hs1
      · intro g e
        obtain ⟨s, hs1, rfl⟩ := Option.map_eq_some_iff.1 (show (argOf 'x' l.options).map num = some g from e)
        exact g7 s hs1
      · intro y hy
        obtain ⟨x, -, rfl⟩ := List.mem_map.1 hy
        exact mean_nonneg _ _ _ _ (fun y => (Broad.kernel_nonneg _ hS x y).1) hw

/-- **C132.** `broaden` without `-L`: a positive lower limit below the upper one, a ratio above one, and an accumulation point that is not negative (or `-g`). The program
ends; `spec.dat` has one line for each point of the geometric mesh of the sides requested, and all results are right. -/
theorem broaden_run (bins : Files (Bin ℝ)) (texts : Files Str) (l : Line) (n z a t : Str) (w : ℚ) (h : Asks l n z a t w) (rows : Nat → List (List ℝ))
    (hs : Stored bins (given 'o' l.options) (int z).toNat n (colsOf l.options).nrcol rows) (hL : given 'L' l.options = false)
    (h1 : 0 < (brOf l.options).min) (h2 : (brOf l.options).min < (brOf l.options).max) (h3 : 1 < (brOf l.options).ratio)
    (h4 : given 'g' l.options = true ∨ 0 ≤ (brOf l.options).accumulation) :
    ∃ (m : List ℝ) (o : Out) (N : Nat), Geometric (brOf l.options) m ∧ (∀ fuel, N ≤ fuel → broaden bins texts fuel l.words = .ok o) ∧
      Right (brOf l.options) (kernel l a t w) (num t) (int z).toNat rows m o := by
  obtain ⟨N, m, hg, hN⟩ := makeMesh_spec (brOf l.options) h1 h2 h3
  have hmesh : (brOf l.options).mesh = [] := by
    have : argOf 'L' l.options = none := by
      rw [argOf]
      have : l.options.filter (fun p => p.1 == 'L') = [] := by
        rw [List.filter_eq_nil_iff]
        exact fun p hp => List.any_eq_false.1 hL p hp
      rw [this]
      rfl
    change (argOf 'L' l.options).getD [] = []
    rw [this]; rfl
  have hside : (brOf l.options).meshpos = true ∨ (brOf l.options).meshneg = true := by
    rcases h.2.2.2.2.2.2.2.2 with e | e
    · exact Or.inl (by change (!given 'B' l.options) = true; rw [e]; rfl)
    · exact Or.inr (by change (!given 'A' l.options) = true; rw [e]; rfl)
  have hne := geometric_ne hg hside
  have hm : ∀ fuel, N ≤ fuel → mesh texts fuel (brOf l.options) = .ok m := by
    intro fuel hf
    rw [mesh, if_pos hmesh, hN fuel hf]
    cases m with
    | nil => exact absurd rfl hne
    | cons x m => rfl
  have hp : m.Pairwise (· ≤ ·) := by obtain ⟨_, _, _, h, _⟩ := hg; exact h
  have h0 : given 'g' l.options = true ∨ (0 : ℝ) ∉ m := h4.imp id fun h4 => geometric_zero hg h1 h2 h3 h4
  obtain ⟨o, ho, hr⟩ := run_on bins texts N l n z a t w h rows hs m (hm N le_rfl) hp h0
  refine ⟨m, o, N, hg, fun fuel hf => ?_, hr⟩
  rw [← ho, broaden, broaden, asks_main h]
  dsimp only [compute]
  rw [hm fuel hf, hm N le_rfl]

/-- **C132.** `broaden -L`: the mesh is the first column of a table in increasing order, without zero (or with `-g`); `-m`, `-M`, `-r`, `-A` and `-B` have no effect. -/
theorem broaden_mesh (bins : Files (Bin ℝ)) (texts : Files Str) (fuel : Nat) (l : Line) (n z a t : Str) (w : ℚ) (h : Asks l n z a t w) (rows : Nat → List (List ℝ))
    (hs : Stored bins (given 'o' l.options) (int z).toNat n (colsOf l.options).nrcol rows) (f : Str) (hf : argOf 'L' l.options = some f) (hne : f ≠ [])
    (ls : List LineT) (hl : ∀ x ∈ ls, x.OK) (ht : texts f = some (fileText ls)) (hv : values ls ≠ [])
    (m : List ℝ) (hm : m = (values ls).map fun p => ((Dec.value p.1 : ℚ) : ℝ)) (hp : m.Pairwise (· ≤ ·)) (h0 : given 'g' l.options = true ∨ (0 : ℝ) ∉ m) :
    ∃ o, broaden bins texts fuel l.words = .ok o ∧ Right (brOf l.options) (kernel l a t w) (num t) (int z).toNat rows m o := by
  have hmesh : (brOf l.options).mesh = f := by
    change (argOf 'L' l.options).getD [] = f
    rw [hf]; rfl
  refine run_on bins texts fuel l n z a t w h rows hs m ?_ hp h0
  rw [mesh, hmesh, if_neg hne, loadMesh, ht]
  dsimp only
  rw [Table.readTable_file ls hl]
  dsimp only
  rw [← hm]
  cases m with
  | nil => exact absurd (List.map_eq_nil_iff.1 hm.symm) hv
  | cons x m => rfl

/-- **C132.** The parts with `-P` and `-N` add up to the whole, for every run that succeeds. -/
theorem halves_add (bins : Files (Bin ℝ)) (texts : Files Str) (fuel : Nat) (l lp ln : Line) (n z a t : Str) (w : ℚ) (h : Asks l n z a t w) (hp : Asks lp n z a t w)
    (hn : Asks ln n z a t w) (k1 : (brOf l.options).keeppos = true) (k2 : (brOf l.options).keepneg = true) (k3 : (brOf l.options).finalGauss = none) (k4 : (brOf l.options).finalDer = none)
    (e1 : brOf lp.options = { brOf l.options with keepneg := false }) (e2 : brOf ln.options = { brOf l.options with keeppos := false })
    (o : Out) (ho : broaden bins texts fuel l.words = .ok o) :
    ∃ op on, broaden bins texts fuel lp.words = .ok op ∧ broaden bins texts fuel ln.words = .ok on ∧
      op.spec.map Prod.fst = o.spec.map Prod.fst ∧ on.spec.map Prod.fst = o.spec.map Prod.fst ∧
      List.zipWith (· + ·) (op.spec.map Prod.snd) (on.spec.map Prod.snd) = o.spec.map Prod.snd := by
  classical
  rw [broaden, asks_main h] at ho
  dsimp only [compute] at ho
  rw [broaden, broaden, asks_main hp, asks_main hn]
  dsimp only [compute]
  rw [e1, e2]
  dsimp only
  cases hs : Zrun.spectrum (brOf l.options).cols.one (brOf l.options).cols.nrcol (brOf l.options).cols.col (int z) n bins with
  | error e => rw [hs] at ho; simp at ho
  | ok s =>
    rw [hs] at ho
    dsimp only at ho ⊢
    have hmm : ∀ b1 b2 : Bool, mesh texts fuel { brOf l.options with keeppos := b1, keepneg := b2 } = mesh texts fuel (brOf l.options) := fun _ _ => rfl
    have hmp := hmm (brOf l.options).keeppos false
    have hmn := hmm false (brOf l.options).keepneg
    cases hm : mesh texts fuel (brOf l.options) with
    | error e => rw [hm] at ho; simp at ho
    | ok m =>
      rw [hm] at ho hmp hmn
      rw [hmp, hmn]
      dsimp only [finish] at ho ⊢
      have st1 : settings ⟨{ brOf l.options with keepneg := false }, n, int z, num a, num t, w⟩ = settings ⟨brOf l.options, n, int z, num a, num t, w⟩ := rfl
      have st2 : settings ⟨{ brOf l.options with keeppos := false }, n, int z, num a, num t, w⟩ = settings ⟨brOf l.options, n, int z, num a, num t, w⟩ := rfl
      rw [st1, st2]
      split at ho
      · simp at ho
      · rename_i ho1
        split at ho
        · simp at ho
        · rename_i ho2
          have hfr : ∀ set' : Cmd.BrSet, (∃ x ∈ m, ∃ p ∈ filter set' s, NotNumber (settings ⟨brOf l.options, n, int z, num a, num t, w⟩) x p.1) ↔
              ∃ x ∈ m, ∃ p ∈ s, NotNumber (settings ⟨brOf l.options, n, int z, num a, num t, w⟩) x p.1 := by
            intro set'
            rw [filter_spec]
            simp
          rw [hfr] at ho2
          simp only [Except.ok.injEq] at ho
          rw [if_neg ho1, if_neg ho1, if_neg (mt (hfr _).1 ho2), if_neg (mt (hfr _).1 ho2)]
          refine ⟨_, _, rfl, rfl, ?_⟩
          rw [← ho]
          simp only [passes, k3, k4, Broad.broaden, zip_self, List.map_map]
          refine ⟨rfl, rfl, ?_⟩
          rw [List.zipWith_map, List.zipWith_self]
          refine List.map_congr_left fun x _ => ?_
          simp only [Function.comp, Broad.broadenAt]
          rw [filter_spec, filter_spec, filter_spec]
          simp only [List.map_map]
          rw [← List.sum_map_add]
          congr 1
          refine List.map_congr_left fun p _ => ?_
          simp only [Function.comp, Kept, k1, k2, implies_true, and_true]
          by_cases q1 : (((brOf l.options).low : ℚ) : ℝ) ≤ |p.1|
          · by_cases q2 : ∀ h : ℚ, (brOf l.options).high = some h → |p.1| ≤ (h : ℝ)
            · rcases lt_or_ge p.1 0 with q3 | q3
              · have : ¬ 0 ≤ p.1 := not_le.mpr q3
                simp [q1, q2, q3, this]
              · have : ¬ p.1 < 0 := not_lt.mpr q3
                simp [q1, q2, q3, this]
            · simp [q2]
          · simp [q1]

/-- **C132.** Averaging first: after a successful `binavg name Nz` the program, applied with `-o` to the one file written, gives what it gives for all calculations. -/
theorem broaden_average_first (bins bins' : Files (Bin ℝ)) (texts : Files Str) (fuel : Nat) (l l1 l2 : Line) (hl : l.OK ['h', 'v', 'o', '2', '3']) (n z : Str)
    (ho : l.operands = [n, z]) (hb : Zrun.binavg bins l.words = .ok bins') (n' z' : Str)
    (hn : n' = if given 'o' l.options then ['s', 'p', 'e', 'c', '.', 'b', 'i', 'n'] else n) (hz' : int z' = 1) (a t : Str) (w : ℚ)
    (h1 : Asks l1 n z a t w) (h2 : Asks l2 n' z' a t w) (e1 : colsOf l1.options = colsOf l.options)
    (e2 : brOf l2.options = { brOf l1.options with cols := ⟨true, 1, 1⟩ }) :
    broaden bins' texts fuel l2.words = broaden bins texts fuel l1.words := by
  have hg : given 'h' l.options = false := by
    cases hgh : given 'h' l.options with
    | false => rfl
    | true => rw [Zrun.binavg, (Cmd.binavg_command l hl).1 hgh] at hb; simp at hb
  have hr := ((Cmd.binavg_command l hl).2 hg ⟨colsOf l.options, n, int z⟩).2 ⟨n, z, ho, h1.2.2.1, rfl⟩
  unfold Zrun.binavg at hb
  rw [hr] at hb
  dsimp only at hb
  cases hsp : Zrun.spectrum (colsOf l.options).one (colsOf l.options).nrcol (colsOf l.options).col (int z) n bins with
  | error e => rw [hsp] at hb; simp at hb
  | ok s =>
    rw [hsp] at hb
    simp only [Except.ok.injEq] at hb
    have hf : bins' n' = some (Zrun.saved s) := by
      rw [← hb, hn, show (colsOf l.options).one = given 'o' l.options from rfl, Zrun.specBin, Zrun.write, if_pos rfl]
    have hav := Zrun.spectrum_average hsp bins' n' hf
    rw [broaden, broaden, asks_main h1, asks_main h2]
    dsimp only [compute]
    rw [e2, hz']
    dsimp only
    rw [hav, show (brOf l1.options).cols = colsOf l.options from e1, hsp]
    rfl

/-- Non-vacuity: two calculations, a coarse mesh on both sides. -/
example : ∃ (bins : Files (Bin ℝ)) (l : Line) (rows : Nat → List (List ℝ)), Asks l ['a'] ['2'] ['1'] ['1'] (1 / 1000000000) ∧
    Stored bins (given 'o' l.options) (int ['2']).toNat ['a'] (colsOf l.options).nrcol rows ∧ given 'L' l.options = false ∧
    0 < (brOf l.options).min ∧ (brOf l.options).min < (brOf l.options).max ∧ 1 < (brOf l.options).ratio ∧ 0 ≤ (brOf l.options).accumulation ∧
    rows 1 = [[1, 1], [-1, 1]] ∧ rows 2 = [[2, 4]] := by
  refine ⟨fun n => if n = ['1', '/', 'a'] then some ⟨[1, 1, -1, 1], 0⟩ else if n = ['2', '/', 'a'] then some ⟨[2, 4], 0⟩ else none,
    ⟨[.flags ['v', 'c'], .apart [] 'm' ['1'], .operand ['a'], .operand ['2'], .operand ['1'], .operand ['1']], none⟩,
    fun i => if i = 1 then [[1, 1], [-1, 1]] else [[2, 4]], ?_, ?_, by decide, by decide +kernel, by decide +kernel, by decide +kernel, by decide +kernel, rfl, rfl⟩
  · refine ⟨?_, Or.inl ⟨rfl, rfl⟩, by decide, by decide +kernel, by decide +kernel, by norm_num, ?_, ?_, Or.inl (by decide)⟩
    · intro p hp
      simp only [List.mem_cons, List.not_mem_nil, or_false] at hp
      rcases hp with rfl | rfl | rfl | rfl | rfl | rfl
      · exact ⟨by simp, fun f hf => (Cmd.kind_iff _ _).1.1 (by
          simp only [List.mem_cons, List.not_mem_nil, or_false] at hf
          rcases hf with rfl | rfl <;> decide)⟩
      · exact ⟨by simp, (Cmd.kind_iff _ _).2.1 (by decide)⟩
      all_goals exact Or.inl (by decide)
    · intro g hg
      rw [show argOf 'f' _ = none by decide] at hg
      simp at hg
    · intro g hg
      rw [show argOf 'x' _ = none by decide] at hg
      simp at hg
  · intro i h1 h2
    have : i = 1 ∨ i = 2 := by
      have : (int ['2']).toNat = 2 := by decide
      omega
    rcases this with rfl | rfl
    · refine ⟨?_, ?_⟩
      · intro r hr
        simp only [if_true, List.mem_cons, List.not_mem_nil, or_false] at hr
        rcases hr with rfl | rfl <;> rfl
      · rfl
    · refine ⟨?_, ?_⟩
      · intro r hr
        simp only [if_false, List.mem_cons, List.not_mem_nil, or_false, Nat.succ_ne_self, OfNat.ofNat_ne_one] at hr
        rw [hr]; rfl
      · rfl

end Verif.Brun
