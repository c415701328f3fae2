import Verif.Wrun.Lemmas
import Verif.Wrun.Spec
/-!
# The program `bw` from command line and raw spectra to its files
-/

namespace Verif.Wrun
open Verif.Text Verif.Cmd
open Verif.Zrun (Files Stored colsOf_le freq weight sumRows pairs)

theorem asks_main {l : Line} {n b z : Str} (h : Asks l n b z) : Cmd.bw.main l.words = .ok ⟨bwOf l.options, n, num b, int z⟩ :=
  ((Cmd.bw_command l h.1).2 h.2.1 _).2 ⟨n, b, z, h.2.2.1, h.2.2.2.1, h.2.2.2.2, rfl⟩

theorem asks_bw {l : Line} {n b z : Str} (h : Asks l n b z) (bins : Files (Zrun.Bin ℝ)) (texts : Files Table) (fuel : Nat) :
    bw bins texts fuel l.words = match Bw.main (wanted l b z) (input bins n) fuel with
      | .error e => .error (.run e)
      | .ok out => .ok (writeAll texts out) := by
  unfold bw
  rw [asks_main h]
  rfl

theorem mean_of (N : Nat) (rows : Nat → List (List ℝ)) : Mean N rows (Tools.mergeFiles ((List.range N).map fun i : Nat => pairs 1 (rows (i + 1)))) := by
  classical
  obtain ⟨a1, a2, -, a4⟩ := Tools.merge_spec ((List.range N).map fun i : Nat => pairs 1 (rows (i + 1)))
  refine ⟨a1, fun x => ?_, fun p hp => ?_⟩
  · have : (∃ v, (x, v) ∈ Tools.mergeFiles ((List.range N).map fun i : Nat => pairs 1 (rows (i + 1)))) ↔
        x ∈ (Tools.mergeFiles ((List.range N).map fun i : Nat => pairs 1 (rows (i + 1)))).map Prod.fst := by
      simp
    rw [this, a4]
    constructor
    · rintro ⟨f, hf, hx⟩
      obtain ⟨i, hi, rfl⟩ := List.mem_map.1 hf
      obtain ⟨q, hq, rfl⟩ := List.mem_map.1 hx
      obtain ⟨r, hr, rfl⟩ := List.mem_map.1 hq
      exact ⟨i + 1, by omega, by simpa using hi, r, hr, rfl⟩
    · rintro ⟨i, h1, h2, r, hr, rfl⟩
      refine ⟨pairs 1 (rows i), List.mem_map.2 ⟨i - 1, by simp; omega, by rw [Nat.sub_add_cancel h1]⟩, ?_⟩
      exact List.mem_map.2 ⟨(freq r, weight 1 r), List.mem_map.2 ⟨r, hr, rfl⟩, rfl⟩
  · have hw := Zrun.weightAt_of_mem a1 hp
    rw [a2, List.map_map, List.length_map, List.length_range] at hw
    rw [← hw, sumRows]
    congr 2
    refine List.map_congr_left fun i _ => ?_
    simp only [Function.comp, Tools.weightAt, pairs]
    generalize rows (i + 1) = rs
    induction rs with
    | nil => rfl
    | cons r rs ih =>
      simp only [List.map_cons, List.sum_cons, List.filter_cons]
      by_cases hr : freq r = p.1
      · simp only [hr, decide_true, if_true, List.map_cons, List.sum_cons]
        rw [← hr] at ih ⊢
        rw [ih]
      · simp only [hr, decide_false, if_false, zero_add]
        exact ih

theorem stored_files {bins : Files (Zrun.Bin ℝ)} {l : Line} {n b z : Str} {rows : Nat → List (List ℝ)}
    (hs : Stored bins (given 'o' l.options) (int z).toNat n 1 rows) : Bw.FilesOK (wanted l b z) (input bins n) fun i => (rows i).flatten := by
  intro i h1 h2
  have h2' : (i : Int) ≤ int z := h2
  obtain ⟨g1, g2⟩ := hs i h1 (by omega)
  have hlen : ∀ rs : List (List ℝ), (∀ r ∈ rs, r.length = 1 + 1) → rs.flatten.length % 2 = 0 := by
    intro rs
    induction rs with
    | nil => intro _; rfl
    | cons r rs ih =>
      intro h
      rw [List.flatten_cons, List.length_append, h r (by simp)]
      have := ih fun r hr => h r (by simp [hr])
      omega
  refine ⟨?_, hlen _ g1⟩
  unfold input
  have : source n (Bw.fileOf (wanted l b z) i) = if given 'o' l.options = true ∧ (int z).toNat = 1 then n else natStr i ++ '/' :: n := by
    unfold Bw.fileOf
    have hz : (int z = 1) ↔ (int z).toNat = 1 := by omega
    change source n (if given 'o' l.options = true ∧ int z = 1 then none else some i) = _
    simp only [hz]
    split <;> rfl
  rw [this, g2]
  rfl

theorem stored_peaks {bins : Files (Zrun.Bin ℝ)} {l : Line} {n b z : Str} {rows : Nat → List (List ℝ)} (hz : 1 ≤ int z)
    (hs : Stored bins (given 'o' l.options) (int z).toNat n 1 rows) :
    Bw.peaks (wanted l b z) (fun i => (rows i).flatten) = Tools.mergeFiles ((List.range (int z).toNat).map fun i : Nat => pairs 1 (rows (i + 1))) := by
  unfold Bw.peaks
  refine congrArg Tools.mergeFiles (List.map_congr_left fun i hi => ?_)
  obtain ⟨g1, -⟩ := hs (i + 1) (by omega) (by have := List.mem_range.1 hi; exact this)
  have hp := (Tools.points_spec 1 1 (rows (i + 1)) (by simpa using g1) (by omega)).2
  exact (Bw.points_eq _).symm.trans hp

theorem name_result {f : Bw.Saved} {i : Nat} (hi : 1 ≤ i) (h1 : f.name = "a") (h2 : f.iter = i) : fileName f = result i := by
  unfold fileName result numbered
  rw [h1, h2, if_pos (by omega)]
  rfl

theorem mayWrite {o : Bw.Opt} {f : Bw.Saved}
    (h : (o.savemore = true ∧ f.name = "b" ∧ f.iter = 0) ∨ ∃ j : Nat, 1 ≤ j ∧ (j : Int) ≤ o.iters ∧ Part o j f) : f.name ∈ kinds ∧ MayWrite o (fileName f) := by
  rcases h with ⟨a, b, c⟩ | ⟨j, a, b, c, d⟩
  · refine ⟨by rw [b]; decide, Or.inl ⟨a, ?_⟩⟩
    unfold fileName
    rw [b, c]
    rfl
  · have hn : ∀ k : String, f.name = k → fileName f = numbered k.toList j := by
      intro k e
      unfold fileName numbered
      rw [e, c, if_pos (by omega)]
    rcases d with ⟨d1, d2⟩ | ⟨d1, d2⟩ | ⟨d1, d2⟩
    · exact ⟨by rw [d1]; decide, Or.inr ⟨j, a, b, Or.inl ⟨hn _ d1, d2⟩⟩⟩
    · simp only [List.mem_cons, List.not_mem_nil, or_false] at d2
      rcases d2 with e | e | e | e | e | e | e | e
      all_goals refine ⟨by rw [e]; decide, Or.inr ⟨j, a, b, Or.inr (Or.inr ⟨d1, _, ?_, hn _ e⟩)⟩⟩
      all_goals decide
    · exact ⟨by rw [d2]; decide, Or.inr ⟨j, a, b, Or.inr (Or.inl ⟨d1, hn _ d2⟩)⟩⟩

/-- **C140.** The program as a whole. With settings with which it can work and complete raw spectra it ends with success; the file `a<i>.dat` of the last iteration, and
with `-s` of every iteration, is the spectrum of that iteration for the mean of all raw spectra; nothing is written but the files that belong to the options. Neither
depends on the files that were there before. -/
theorem bw_run (bins : Files (Zrun.Bin ℝ)) (l : Line) (n b z : Str) (h : Asks l n b z) (ho : (wanted l b z).OK) (rows : Nat → List (List ℝ))
    (hs : Stored bins (given 'o' l.options) (int z).toNat n 1 rows) :
    ∃ (s : List (ℝ × ℝ)) (N k : Nat), Mean (int z).toNat rows s ∧
      (∀ j, j < k → (wanted l b z).min * (wanted l b z).ratio ^ j < (wanted l b z).max) ∧ (wanted l b z).max ≤ (wanted l b z).min * (wanted l b z).ratio ^ k ∧
      ∀ fuel, N ≤ fuel → ∃ after : Files Table → Files Table, (∀ texts, bw bins texts fuel l.words = .ok (after texts)) ∧
        (∀ i : Nat, 1 ≤ i → (i : Int) ≤ (wanted l b z).iters → ((wanted l b z).savemore = true ∨ (i : Int) = (wanted l b z).iters) →
          ∃ t m w, (∀ texts, after texts (result i) = some t) ∧ Bw.Run (wanted l b z) s k i m w ∧ Bw.Spectrum (wanted l b z) s k w ⟨"a", i, t⟩ ∧
            t = (m.zip (Bw.valuesOn (wanted l b z) s m w)).filter fun p => decide (Bw.trimming (wanted l b z) ≤ |p.1|)) ∧
        ∀ texts fn, ¬ MayWrite (wanted l b z) fn → after texts fn = texts fn := by
  have hf := stored_files (b := b) hs
  have hpk := stored_peaks (b := b) h.2.2.2.2 hs
  obtain ⟨N, k, k1, k2, hN⟩ := Bw.bw_result ho hf
  rw [hpk] at hN
  refine ⟨_, N, k, mean_of _ rows, k1, k2, fun fuel hfu => ?_⟩
  obtain ⟨out, m1, m2, m3⟩ := hN fuel hfu
  have hco := core_out ((main_core ho.b0_pos ho.Nz_pos (Bw.readAll_eq hf) fuel).symm.trans m1)
  refine ⟨fun texts => writeAll texts out, fun texts => by rw [asks_bw h, m1], ?_, ?_⟩
  · intro i h1 h2 h3
    have hex : ∃ f ∈ out, fileName f = result i := by
      have : i ∈ (out.filter fun f => f.name == "a").map Bw.Saved.iter := by
        rw [m3, List.mem_filter]
        refine ⟨List.mem_range'_1.2 ⟨h1, by omega⟩, ?_⟩
        simpa using h3
      obtain ⟨f, hf, e⟩ := List.mem_map.1 this
      rw [List.mem_filter, beq_iff_eq] at hf
      exact ⟨f, hf.1, name_result h1 hf.2 e⟩
    obtain ⟨f, q1, q2, q3⟩ := writeAll_mem (result i) out (fun _ => none) hex
    obtain ⟨hk, -⟩ := mayWrite (hco f q1)
    obtain ⟨e1, e2⟩ := fileName_inj (g := ⟨"a", i, []⟩) hk (show "a" ∈ kinds by decide) (q2.trans (name_result h1 rfl rfl).symm)
    dsimp only at e1 e2
    obtain ⟨m, w, r1, r2, r3⟩ := m2 f q1 e1
    rw [e2] at r1
    refine ⟨f.lines, m, w, q3, r1, ?_, r3⟩
    have : f = ⟨"a", i, f.lines⟩ := by rw [← e1, ← e2]
    rw [← this]
    exact r2
  · intro texts fn hfn
    exact writeAll_frame fn out texts fun f hf e => hfn (e ▸ (mayWrite (hco f hf)).2)

/-- **C140.** The files of one run have different names: kind and number can be read off the name. -/
theorem names_distinct (k k' : Str) (i j : Nat) (hk : ∀ c ∈ k, isDigit c = false) (hk' : ∀ c ∈ k', isDigit c = false) (h : numbered k i = numbered k' j) :
    k = k' ∧ i = j := by
  unfold numbered at h
  rw [← List.append_assoc, ← List.append_assoc] at h
  obtain ⟨h1, h2⟩ := split_digits _ _ _ _ hk hk' (natStr_isDigit i) (natStr_isDigit j) (List.append_cancel_right h)
  exact ⟨h1, natStr_injective h2⟩

/-- **C140.** Averaging first: after a successful `binavg name Nz`, `bw -o` applied to the one file it has written does exactly what `bw` does for all the
calculations, whatever the other options. -/
theorem bw_average_first (bins bins' : Files (Zrun.Bin ℝ)) (hw : ∀ n f, bins n = some f → f.extra < 8) (texts : Files Table) (fuel : Nat) (l l1 l2 : Line)
    (hl : l.OK ['h', 'v', 'o', '2', '3']) (n z : Str) (ho : l.operands = [n, z]) (hb : Zrun.binavg bins l.words = .ok bins') (n' z' : Str)
    (hn : n' = if given 'o' l.options then ['s', 'p', 'e', 'c', '.', 'b', 'i', 'n'] else n) (hz' : int z' = 1) (b : Str)
    (h1 : Asks l1 n b z) (h2 : Asks l2 n' b z') (hcol : (colsOf l.options).nrcol = 1) (hoo : given 'o' l1.options = given 'o' l.options)
    (e2 : bwOf l2.options = { bwOf l1.options with one := true }) :
    bw bins' texts fuel l2.words = bw bins texts fuel l1.words := by
  have hg : given 'h' l.options = false := by
    cases hgh : given 'h' l.options with
    | false => rfl
    | true => rw [Zrun.binavg, (Cmd.binavg_command l hl).1 hgh] at hb; simp at hb
  have hr := ((Cmd.binavg_command l hl).2 hg ⟨colsOf l.options, n, int z⟩).2 ⟨n, z, ho, h1.2.2.2.2, rfl⟩
  unfold Zrun.binavg at hb
  rw [hr] at hb
  dsimp only at hb
  cases hsp : Zrun.spectrum (colsOf l.options).one (colsOf l.options).nrcol (colsOf l.options).col (int z) n bins with
  | error e => rw [hsp] at hb; simp at hb
  | ok s =>
    rw [hsp] at hb
    simp only [Except.ok.injEq] at hb
    have hf : bins' n' = some (Zrun.saved s) := by
      rw [← hb, hn, show (colsOf l.options).one = given 'o' l.options from rfl, Zrun.specBin, Zrun.write, if_pos rfl]
    have hw' : ∀ n f, bins' n = some f → f.extra < 8 := by
      intro m f hm
      rw [← hb] at hm
      generalize (if (colsOf l.options).one = true then Zrun.specBin else n) = q at hm
      unfold Zrun.write at hm
      split at hm
      · simp only [Option.some.injEq] at hm
        rw [← hm]
        show 0 < 8
        omega
      · exact hw m f hm
    have hav := Zrun.spectrum_average hsp bins' n' hf
    have hc1 : (colsOf l.options).col = 1 := by
      have h1 := colsOf_le l.options
      have h2 : 1 ≤ (colsOf l.options).col := by unfold colsOf; dsimp only; split <;> omega
      omega
    rw [hcol, hc1] at hsp
    have r1 : Bw.readAll (input bins n) (opt ⟨bwOf l1.options, n, num b, int z⟩) = .ok s := by
      apply spectrum_readAll hw
      rw [← hsp]
      exact congrArg (fun o => Zrun.spectrum o 1 1 (int z) n bins) hoo
    have r2 : Bw.readAll (input bins' n') (opt ⟨bwOf l2.options, n', num b, int z'⟩) = .ok s := by
      apply spectrum_readAll hw'
      rw [← hav, e2, hz']
      rfl
    have hb0 : (0 : ℝ) < (num b : ℚ) := by exact_mod_cast h1.2.2.2.1
    unfold bw
    rw [asks_main h1, asks_main h2]
    dsimp only
    rw [main_core hb0 h1.2.2.2.2 r1, main_core hb0 h2.2.2.2.2 r2]
    have : opt ⟨bwOf l2.options, n', num b, int z'⟩ = { opt ⟨bwOf l1.options, n, num b, int z⟩ with one := true, Nz := int z' } := by
      rw [e2]; rfl
    rw [this, core_other]

/-- Two calculations. -/
noncomputable def exBins : Files (Zrun.Bin ℝ) := fun n => if n = ['1', '/', 'a'] then some ⟨[1, 1, -1, 1], 0⟩ else if n = ['2', '/', 'a'] then some ⟨[2, 4], 0⟩ else none

def exRows : Nat → List (List ℝ) := fun i => if i = 1 then [[1, 1], [-1, 1]] else [[2, 4]]

theorem exStored : Stored exBins false (int ['2']).toNat ['a'] 1 exRows := by
  intro i h1 h2
  have : i = 1 ∨ i = 2 := by
    have : (int ['2']).toNat = 2 := by decide
    omega
  rcases this with rfl | rfl
  · refine ⟨?_, rfl⟩
    intro r hr
    simp only [exRows, if_true, List.mem_cons, List.not_mem_nil, or_false] at hr
    rcases hr with rfl | rfl <;> rfl
  · refine ⟨?_, rfl⟩
    intro r hr
    simp only [exRows, if_false, List.mem_cons, List.not_mem_nil, or_false, OfNat.ofNat_ne_one] at hr
    rw [hr]; rfl

/-- `bw -s -m 1 -n <k> a 1 2`. -/
def exLine (k : Str) : Line := ⟨[.flags ['s'], .apart [] 'm' ['1'], .apart [] 'n' k, .operand ['a'], .operand ['1'], .operand ['2']], none⟩

theorem exLine_asks (k : Str) : Asks (exLine k) ['a'] ['1'] ['2'] := by
  refine ⟨?_, rfl, rfl, by decide +kernel, by decide⟩
  intro p hp
  simp only [exLine, List.mem_cons, List.not_mem_nil, or_false] at hp
  rcases hp with rfl | rfl | rfl | rfl | rfl | rfl
  · exact ⟨by simp, fun f hf => (Cmd.kind_iff _ _).1.1 (by
      simp only [List.mem_cons, List.not_mem_nil, or_false] at hf
      rcases hf with rfl; decide)⟩
  · exact ⟨by simp, (Cmd.kind_iff _ _).2.1 (by decide)⟩
  · exact ⟨by simp, (Cmd.kind_iff _ _).2.1 (by decide)⟩
  all_goals exact Or.inl (by decide)

theorem exLine_ok (k : Str) : (wanted (exLine k) ['1'] ['2']).OK := by
  have e1 : (wanted (exLine k) ['1'] ['2']).min = ((1 : ℚ) : ℝ) := congrArg Rat.cast (show num ['1'] = 1 by decide +kernel)
  have e2 : (wanted (exLine k) ['1'] ['2']).max = ((2 : ℚ) : ℝ) := rfl
  have e3 : (wanted (exLine k) ['1'] ['2']).ratio = ((101 / 100 : ℚ) : ℝ) := rfl
  have e4 : (wanted (exLine k) ['1'] ['2']).b0 = ((1 : ℚ) : ℝ) := congrArg Rat.cast (show num ['1'] = 1 by decide +kernel)
  have e5 : (wanted (exLine k) ['1'] ['2']).Nz = 2 := by show int ['2'] = 2; decide
  have e6 : (wanted (exLine k) ['1'] ['2']).q = ((1 : ℚ) : ℝ) := rfl
  have e7 : (wanted (exLine k) ['1'] ['2']).bmin = ((-999 : ℚ) : ℝ) := rfl
  have e8 : (wanted (exLine k) ['1'] ['2']).dyn = ((-999 : ℚ) : ℝ) := rfl
  refine ⟨?_, ?_, ?_, ?_, ?_, ?_, ?_, ?_⟩ <;> (simp only [Bw.lower, e1, e2, e3, e4, e5, e6, e7, e8]; norm_num)

/-- Non-vacuity: two calculations, three iterations, all spectra are written. -/
example : ∃ N, ∀ fuel, N ≤ fuel → ∃ after : Files Table → Files Table, (∀ texts, bw exBins texts fuel (exLine ['3']).words = .ok (after texts)) ∧
    ∀ i ∈ [1, 2, 3], ∃ t, ∀ texts, after texts (result i) = some t := by
  obtain ⟨s, N, k, -, -, -, h⟩ := bw_run exBins (exLine ['3']) _ _ _ (exLine_asks _) (exLine_ok _) exRows exStored
  refine ⟨N, fun fuel hf => ?_⟩
  obtain ⟨after, h1, h2, -⟩ := h fuel hf
  refine ⟨after, h1, fun i hi => ?_⟩
  have hit : (wanted (exLine ['3']) ['1'] ['2']).iters = 3 := by show int ['3'] = 3; decide
  have hi' : 1 ≤ i ∧ i ≤ 3 := by
    simp only [List.mem_cons, List.not_mem_nil, or_false] at hi
    omega
  obtain ⟨t, -, -, e, -⟩ := h2 i hi'.1 (by rw [hit]; omega) (Or.inl rfl)
  exact ⟨t, e⟩

/-- Non-vacuity: averaging first. -/
example : ∃ (l l2 : Line) (bins' : Files (Zrun.Bin ℝ)), l.OK ['h', 'v', 'o', '2', '3'] ∧ l.operands = [['a'], ['2']] ∧ Zrun.binavg exBins l.words = .ok bins' ∧
    Asks l2 ['a'] ['1'] ['1'] ∧ (colsOf l.options).nrcol = 1 ∧ given 'o' l.options = false ∧ bwOf l2.options = { bwOf (exLine ['3']).options with one := true } := by
  have hl : Line.OK ['h', 'v', 'o', '2', '3'] ⟨[.operand ['a'], .operand ['2']], none⟩ := by
    intro p hp
    simp only [List.mem_cons, List.not_mem_nil, or_false] at hp
    rcases hp with rfl | rfl <;> exact Or.inl (by decide)
  obtain ⟨s, h1, -⟩ := Zrun.binavg_run exBins ⟨[.operand ['a'], .operand ['2']], none⟩ hl rfl ['a'] ['2'] rfl (by decide) exRows exStored
  refine ⟨_, ⟨[.flags ['o', 's'], .apart [] 'm' ['1'], .apart [] 'n' ['3'], .operand ['a'], .operand ['1'], .operand ['1']], none⟩, _, hl, rfl, h1, ?_, rfl, rfl, rfl⟩
  refine ⟨?_, rfl, rfl, by decide +kernel, by decide⟩
  intro p hp
  simp only [List.mem_cons, List.not_mem_nil, or_false] at hp
  rcases hp with rfl | rfl | rfl | rfl | rfl | rfl
  · exact ⟨by simp, fun f hf => (Cmd.kind_iff _ _).1.1 (by
      simp only [List.mem_cons, List.not_mem_nil, or_false] at hf
      rcases hf with rfl | rfl <;> decide)⟩
  · exact ⟨by simp, (Cmd.kind_iff _ _).2.1 (by decide)⟩
  · exact ⟨by simp, (Cmd.kind_iff _ _).2.1 (by decide)⟩
  all_goals exact Or.inl (by decide)

end Verif.Wrun
