import Verif.Brun.Props
import Verif.Zrun.Bad
/-!
# What `broaden` does with unusable input
-/

namespace Verif.Brun
open Verif.Text
open Verif.Zrun (Files Bin Stored sumRows freq weight)
open Verif.Cmd (Line given argOf colsOf brOf int num)
open Verif.Table (Dec.value fileText values LineT readTable)

theorem each_mem {A : Type} (f : Str → Except Zrun.Fail A) (l : List Str) (as : List A) (h : Zrun.each f l = .ok as) : ∀ n ∈ l, ∃ x, f n = .ok x := by
  induction l generalizing as with
  | nil => simp
  | cons m l ih =>
    rw [Zrun.each] at h
    cases hf : f m with
    | error e => rw [hf] at h; simp at h
    | ok a =>
      rw [hf] at h
      dsimp only at h
      cases he : Zrun.each f l with
      | error e => rw [he] at h; simp at h
      | ok bs =>
        intro n hn
        rcases List.mem_cons.1 hn with rfl | hn
        · exact ⟨a, hf⟩
        · exact ih bs he n hn

/-- **C133, partial.** When the program writes `spec.dat`, the command line is a good one, every file of raw data is there with a whole number of rows, and the mesh is
ordered and not empty, from a table that could be read or between limits in the right order. In all other cases no file is changed. Not refused: see below. -/
theorem broaden_files_partial (bins : Files (Bin ℝ)) (texts : Files Str) (fuel : Nat) (argv : List Str) (o : Out) (h : broaden bins texts fuel argv = .ok o) :
    ∃ c, Cmd.broadenMain argv = .ok c ∧
      (∀ i : Nat, 1 ≤ i → i ≤ c.Nz.toNat → ∃ f, bins (if c.set.cols.one = true ∧ c.Nz = 1 then c.name else natStr i ++ '/' :: c.name) = some f ∧
        8 * (1 + c.set.cols.nrcol) ∣ 8 * f.nums.length + f.extra) ∧
      o.spec ≠ [] ∧ (o.spec.map Prod.fst).Pairwise (· ≤ ·) ∧
      (c.set.mesh ≠ [] → ∃ s t, texts c.set.mesh = some s ∧ readTable s = some t ∧ o.spec.map Prod.fst = t.map fun p => ((Dec.value p.1 : ℚ) : ℝ)) ∧
      (c.set.mesh = [] → c.set.min < c.set.max ∧ 1 < c.set.ratio) := by
  rw [broaden] at h
  cases hc : Cmd.broadenMain argv with
  | error e => rw [hc] at h; simp at h
  | ok c =>
    rw [hc] at h
    dsimp only [compute] at h
    refine ⟨c, rfl, ?_⟩
    cases hs : Zrun.spectrum c.set.cols.one c.set.cols.nrcol c.set.cols.col c.Nz c.name bins with
    | error e => rw [hs] at h; simp at h
    | ok s =>
      rw [hs] at h
      dsimp only at h
      cases hm : mesh texts fuel c.set with
      | error e => rw [hm] at h; simp at h
      | ok m =>
        rw [hm] at h
        dsimp only [finish] at h
        split at h
        · simp at h
        · rename_i hp
          split at h
          · simp at h
          · simp only [Except.ok.injEq] at h
            have hlen := passes_length c m (Broad.broaden (settings c) (filter c.set s) m) (by simp [Broad.broaden])
            have hfst : o.spec.map Prod.fst = m := by
              rw [← h]
              exact List.map_fst_zip (by omega)
            have hmne : m ≠ [] := by
              intro e
              rw [e, mesh] at hm
              split at hm <;> simp at hm
            refine ⟨?_, ?_, ?_, ?_, ?_⟩
            · intro i h1 h2
              unfold Zrun.spectrum at hs
              cases he : Zrun.each (Zrun.load c.set.cols.nrcol c.set.cols.col bins) (Zrun.places c.set.cols.one c.Nz c.name) with
              | error e => rw [he] at hs; simp at hs
              | ok as =>
                obtain ⟨x, hx⟩ := each_mem _ _ _ he (Zrun.place c.set.cols.one c.Nz c.name i)
                  (List.mem_map.2 ⟨i - 1, by simp; omega, by rw [Nat.sub_add_cancel h1]⟩)
                have hname : Zrun.place c.set.cols.one c.Nz c.name i = if c.set.cols.one = true ∧ c.Nz = 1 then c.name else natStr i ++ '/' :: c.name := by
                  simp only [Zrun.place, Bool.and_eq_true, decide_eq_true_eq]
                rw [hname, Zrun.load] at hx
                split at hx
                · simp at hx
                · rename_i f hf
                  split at hx
                  · simp at hx
                  · rename_i hd
                    refine ⟨f, hf, ?_⟩
                    rw [not_not, Bin.size, Nat.mul_comm _ 8] at hd
                    exact Nat.dvd_of_mod_eq_zero hd
            · intro e
              rw [e] at hfst
              exact hmne hfst.symm
            · rw [hfst]; exact not_not.1 hp
            · intro hne
              rw [mesh, if_neg hne, loadMesh] at hm
              cases ht : texts c.set.mesh with
              | none => rw [ht] at hm; simp at hm
              | some x =>
                rw [ht] at hm
                dsimp only at hm
                cases hr : readTable x with
                | none => rw [hr] at hm; simp at hm
                | some t =>
                  rw [hr] at hm
                  refine ⟨x, t, rfl, hr, ?_⟩
                  rw [hfst]
                  cases t with
                  | nil => simp at hm
                  | cons p t => simp only [List.map_cons, Except.ok.injEq] at hm ⊢; exact hm.symm
            · intro he
              rw [mesh, if_pos he, makeMesh] at hm
              split at hm
              · simp at hm
              all_goals
                rename_i heq
                split at heq
                · rename_i hb
                  exact ⟨by exact_mod_cast hb.1, by exact_mod_cast hb.2⟩
                · simp at heq

/-- **C133, negation.** A negative lower limit of the mesh is accepted; the loop never ends (the list of points grows without bound). -/
theorem negative_min_endless (bins : Files (Bin ℝ)) (texts : Files Str) (fuel : Nat) (l : Line) (n z a t : Str) (w : ℚ) (h : Asks l n z a t w)
    (rows : Nat → List (List ℝ)) (hs : Stored bins (given 'o' l.options) (int z).toNat n (colsOf l.options).nrcol rows) (hL : (brOf l.options).mesh = [])
    (h1 : (brOf l.options).min < 0) (h2 : (brOf l.options).min < (brOf l.options).max) (h3 : 1 < (brOf l.options).ratio) :
    broaden bins texts fuel l.words = .error .endless := by
  have hsp := Zrun.spectrum_stored (K := ℝ) h.2.2.1 (Zrun.colsOf_le l.options) hs
  have h1' : ((brOf l.options).min : ℝ) < 0 := by exact_mod_cast h1
  have h2' : ((brOf l.options).min : ℝ) < ((brOf l.options).max : ℝ) := by exact_mod_cast h2
  have h3' : (1 : ℝ) < ((brOf l.options).ratio : ℝ) := by exact_mod_cast h3
  rw [broaden, asks_main h]
  dsimp only [compute]
  rw [show (brOf l.options).cols.one = given 'o' l.options from rfl, show (brOf l.options).cols = colsOf l.options from rfl, hsp]
  dsimp only
  rw [mesh, if_pos hL, makeMesh, if_pos ⟨h2', h3'⟩, down_endless h3' h1' fuel _ h2']

/-- **C133, negation.** The frequency zero in the table of `-L` is accepted; the value there is `0/0` as soon as the raw data have a peak away from zero, even one that
the options leave out, and `-f` or `-x` spread it. -/
theorem zero_on_mesh (bins : Files (Bin ℝ)) (texts : Files Str) (fuel : Nat) (l : Line) (n z a t : Str) (w : ℚ) (h : Asks l n z a t w)
    (rows : Nat → List (List ℝ)) (hs : Stored bins (given 'o' l.options) (int z).toNat n (colsOf l.options).nrcol rows) (f : Str) (hf : argOf 'L' l.options = some f) (hne : f ≠ [])
    (ls : List LineT) (hl : ∀ x ∈ ls, x.OK) (ht : texts f = some (fileText ls)) (m : List ℝ) (hm : m = (values ls).map fun p => ((Dec.value p.1 : ℚ) : ℝ))
    (hp : m.Pairwise (· ≤ ·)) (h0 : (0 : ℝ) ∈ m) (hg : given 'g' l.options = false) (ha : 0 ≤ (brOf l.options).accumulation)
    (i : Nat) (hi : 1 ≤ i) (hi' : i ≤ (int z).toNat) (r : List ℝ) (hr : r ∈ rows i) (hr0 : freq r ≠ 0) :
    broaden bins texts fuel l.words = .error .nan := by
  have hsp := Zrun.spectrum_stored (K := ℝ) h.2.2.1 (Zrun.colsOf_le l.options) hs
  have hmesh : (brOf l.options).mesh = f := by
    change (argOf 'L' l.options).getD [] = f
    rw [hf]; rfl
  have hM : mesh texts fuel (brOf l.options) = .ok m := by
    rw [mesh, hmesh, if_neg hne, loadMesh, ht]
    dsimp only
    rw [Table.readTable_file ls hl]
    dsimp only
    rw [← hm]
    cases m with
    | nil => simp at h0
    | cons x m => rfl
  rw [broaden, asks_main h]
  dsimp only [compute]
  rw [show (brOf l.options).cols.one = given 'o' l.options from rfl, show (brOf l.options).cols = colsOf l.options from rfl, hsp]
  dsimp only
  rw [hM]
  dsimp only [finish]
  rw [if_neg (not_not.2 hp), if_pos]
  classical
  have ha' : (0 : ℝ) ≤ ((brOf l.options).accumulation : ℝ) := by exact_mod_cast ha
  have hin : freq r ∈ (Tools.mergeFiles ((List.range (int z).toNat).map fun i : Nat => Zrun.pairs (colsOf l.options).col (rows (i + 1)))).map Prod.fst := by
    rw [(Tools.merge_spec _).2.2.2]
    refine ⟨Zrun.pairs (colsOf l.options).col (rows i), List.mem_map.2 ⟨i - 1, by simp; omega, by rw [Nat.sub_add_cancel hi]⟩, ?_⟩
    exact List.mem_map.2 ⟨(freq r, weight (colsOf l.options).col r), List.mem_map.2 ⟨r, hr, rfl⟩, rfl⟩
  obtain ⟨p, hp1, hp2⟩ := List.mem_map.1 hin
  refine ⟨0, h0, (p.1, if Kept (brOf l.options) p.1 then p.2 else 0), ?_, hg, ?_⟩
  · rw [filter_spec]
    exact List.mem_map.2 ⟨p, hp1, rfl⟩
  · have hsh : Broad.shift ((brOf l.options).accumulation : ℝ) 0 p.1 = (0, p.1) := by
      have k1 : ¬ (((brOf l.options).accumulation : ℝ) < 0 ∧ ((brOf l.options).accumulation : ℝ) < p.1) := fun h => by linarith [h.1]
      have k2 : ¬ ((0 : ℝ) < -((brOf l.options).accumulation : ℝ) ∧ p.1 < -((brOf l.options).accumulation : ℝ)) := fun h => by linarith [h.1]
      simp only [Broad.shift, if_neg k1, if_neg k2]
    change (Broad.shift ((brOf l.options).accumulation : ℝ) 0 p.1).1 = 0 ∧ (Broad.shift ((brOf l.options).accumulation : ℝ) 0 p.1).2 ≠ 0
    rw [hsh]
    exact ⟨rfl, by dsimp only; rw [hp2]; exact hr0⟩

/-- **C133, negation.** `-P` and `-N` together are accepted, although nothing is left: the spectrum is zero everywhere. -/
theorem nothing_kept (bins : Files (Bin ℝ)) (texts : Files Str) (fuel : Nat) (argv : List Str) (o : Out) (h : broaden bins texts fuel argv = .ok o)
    (c : Cmd.Broaden) (hc : Cmd.broadenMain argv = .ok c) (h1 : c.set.keeppos = false) (h2 : c.set.keepneg = false)
    (h3 : c.set.finalGauss = none) (h4 : c.set.finalDer = none) : ∀ p ∈ o.spec, p.2 = 0 := by
  classical
  rw [broaden, hc] at h
  dsimp only [compute] at h
  cases hs : Zrun.spectrum c.set.cols.one c.set.cols.nrcol c.set.cols.col c.Nz c.name bins with
  | error e => rw [hs] at h; simp at h
  | ok s =>
    rw [hs] at h
    dsimp only at h
    cases hm : mesh texts fuel c.set with
    | error e => rw [hm] at h; simp at h
    | ok m =>
      rw [hm] at h
      dsimp only [finish] at h
      split at h
      · simp at h
      · split at h
        · simp at h
        · simp only [Except.ok.injEq] at h
          rw [← h]
          simp only [passes, h3, h4, Broad.broaden, zip_self]
          intro p hp
          obtain ⟨x, -, rfl⟩ := List.mem_map.1 hp
          dsimp only [Broad.broadenAt]
          rw [filter_spec, List.map_map]
          refine List.sum_eq_zero fun y hy => ?_
          obtain ⟨q, -, rfl⟩ := List.mem_map.1 hy
          simp only [Function.comp]
          rw [if_neg, zero_mul]
          rintro ⟨-, -, k1, k2⟩
          rw [h1] at k1
          rw [h2] at k2
          rcases lt_or_ge q.1 0 with hq | hq
          · exact absurd (k2 hq) (by simp)
          · exact absurd (k1 hq) (by simp)

/-- **C133, negation.** An accumulation point equal to the largest frequency is accepted: all points of the mesh fall on `max` and `-max`. -/
theorem accumulation_at_max (set : Cmd.BrSet) (h0 : 0 < set.min) (h1 : set.min < set.max) (h2 : 1 < set.ratio) (ha : set.accumulation = set.max) :
    ∃ N, ∀ fuel, N ≤ fuel → ∃ m, makeMesh set fuel = .ok m ∧ ∀ x ∈ m, x = set.max ∨ x = -(set.max : ℝ) := by
  obtain ⟨N, m, hg, hN⟩ := makeMesh_spec set h0 h1 h2
  refine ⟨N, fun fuel hf => ⟨m, hN fuel hf, fun x hx => ?_⟩⟩
  obtain ⟨n, -, -, -, hp⟩ := hg
  rw [hp.mem_iff, ha, sub_self, zero_div] at hx
  simp only [mul_zero, add_zero] at hx
  rcases List.mem_append.1 hx with hx | hx
  · split at hx
    · obtain ⟨k, -, rfl⟩ := List.mem_map.1 hx; exact Or.inl rfl
    · simp at hx
  · split at hx
    · obtain ⟨k, -, rfl⟩ := List.mem_map.1 hx; exact Or.inr rfl
    · simp at hx

/-- Non-vacuity: a command line with a negative limit that is accepted. -/
example : ∃ l : Line, Asks l ['a'] ['1'] ['1'] ['1'] (1 / 1000000000) ∧ (brOf l.options).mesh = [] ∧ (brOf l.options).min < 0 ∧
    (brOf l.options).min < (brOf l.options).max ∧ 1 < (brOf l.options).ratio ∧ (brOf l.options).keeppos = false ∧ (brOf l.options).keepneg = false := by
  refine ⟨⟨[.flags ['P', 'N'], .apart [] 'm' ['-', '1'], .operand ['a'], .operand ['1'], .operand ['1'], .operand ['1']], none⟩, ?_, by decide, by decide +kernel, by decide +kernel,
    by decide +kernel, by decide, by decide⟩
  refine ⟨?_, Or.inl ⟨rfl, rfl⟩, by decide, by decide +kernel, by decide +kernel, by norm_num, ?_, ?_, Or.inl (by decide)⟩
  · intro p hp
    simp only [List.mem_cons, List.not_mem_nil, or_false] at hp
    rcases hp with rfl | rfl | rfl | rfl | rfl | rfl
    · exact ⟨by simp, fun f hf => (Cmd.kind_iff _ _).1.1 (by
        simp only [List.mem_cons, List.not_mem_nil, or_false] at hf
        rcases hf with rfl | rfl <;> decide)⟩
    · exact ⟨by simp, (Cmd.kind_iff _ _).2.1 (by decide)⟩
    all_goals exact Or.inl (by decide)
  · intro g hg
    rw [show argOf 'f' _ = none by decide] at hg
    simp at hg
  · intro g hg
    rw [show argOf 'x' _ = none by decide] at hg
    simp at hg

/-- Non-vacuity: a table with zero. -/
example : (∀ x ∈ [LineT.row [] ⟨false, ['0'], none, none⟩ [' '] ⟨false, ['0'], none, none⟩ []], x.OK) ∧
    (0 : ℝ) ∈ (values [LineT.row [] ⟨false, ['0'], none, none⟩ [' '] ⟨false, ['0'], none, none⟩ []]).map fun p => ((Dec.value p.1 : ℚ) : ℝ) := by
  refine ⟨fun x hx => ?_, ?_⟩
  · rw [List.mem_singleton.1 hx]
    have hlit : DataFile.Lit.OK ⟨false, ['0'], none, none⟩ := by simp [DataFile.Lit.OK, DataFile.Lit.frac, DataFile.ExOK, isDigit]
    exact ⟨by simp [Table.Plain], hlit, by simp [Table.Plain], by simp, hlit, by simp [Table.Plain]⟩
  · refine List.mem_map.2 ⟨_, List.mem_singleton.2 rfl, ?_⟩
    simp [Dec.value, DataFile.Lit.val, DataFile.Lit.frac, show natValue ['0'] = 0 by decide]

end Verif.Brun
