import Verif.Bw.Weight
/-!
# Adaptive broadening: cases that meet the hypotheses
-/

namespace Verif.Bw
open Verif.Tools

/-- The default settings with `b0 = 0.3`, two calculations, and intermediate files. -/
noncomputable def exOpt : Opt := { b0 := 3 / 10, Nz := 2, savemore := true }

/-- The same with refinement of the mesh. -/
noncomputable def exDyn : Opt := { b0 := 3 / 10, Nz := 2, dyn := 1 / 10, bmin := 1 / 100 }

theorem exOpt_ok : exOpt.OK := by
  refine ⟨?_, ?_, ?_, ?_, ?_, ?_, ?_, ?_⟩ <;> norm_num [exOpt, lower]

theorem exDyn_ok : exDyn.OK := by
  refine ⟨?_, ?_, ?_, ?_, ?_, ?_, ?_, ?_⟩ <;> norm_num [exDyn, lower]

/-- Two files: three peaks, one of them at zero, and a single one. -/
noncomputable def exData : Nat → List ℝ
  | 1 => [-1 / 2, 1 / 4, 0, 1 / 4, 1 / 2, 1 / 2]
  | _ => [1 / 2, 1]

noncomputable def exFiles : Option Nat → Option Bin
  | some 1 => some ⟨exData 1, 0⟩
  | some 2 => some ⟨exData 2, 0⟩
  | _ => none

theorem exFiles_ok (o : Opt) (h : o.Nz = 2) : FilesOK o exFiles exData := by
  intro i h1 h2
  have hf : fileOf o i = some i := by unfold fileOf; rw [if_neg (by rw [h]; omega)]
  rw [hf]
  obtain rfl | rfl : i = 1 ∨ i = 2 := by omega
  · exact ⟨rfl, rfl⟩
  · exact ⟨rfl, rfl⟩

/-- All ten spectra are written. -/
example : ∃ N, ∀ fuel, N ≤ fuel → ∃ out, main exOpt exFiles fuel = .ok out ∧
    (out.filter fun f => f.name == "a").map Saved.iter = [1, 2, 3, 4, 5, 6, 7, 8, 9, 10] := by
  obtain ⟨N, n, -, -, h⟩ := bw_result exOpt_ok (exFiles_ok exOpt rfl)
  refine ⟨N, fun fuel hf => ?_⟩
  obtain ⟨out, h1, -, h2⟩ := h fuel hf
  exact ⟨out, h1, h2.trans rfl⟩

/-- Only the last one is written. -/
example : ∃ N, ∀ fuel, N ≤ fuel → ∃ out, main exDyn exFiles fuel = .ok out ∧
    (out.filter fun f => f.name == "a").map Saved.iter = [10] := by
  obtain ⟨N, n, -, -, h⟩ := bw_result exDyn_ok (exFiles_ok exDyn rfl)
  refine ⟨N, fun fuel hf => ?_⟩
  obtain ⟨out, h1, -, h2⟩ := h fuel hf
  exact ⟨out, h1, h2.trans rfl⟩

/-- Weight 7/8 of 1 is left: the peak at zero had 1/8 after averaging. -/
example : (((List.range exOpt.Nz.toNat).map fun i : Nat =>
    ((peaksOf (exData (i + 1))).map fun r => if r.1 = 0 then 0 else r.2).sum).sum) / (exOpt.Nz.toNat : ℝ) = 7 / 8 := by
  have h2 : exOpt.Nz.toNat = 2 := rfl
  rw [h2]
  simp [List.range_succ, peaksOf, exData]
  norm_num

/-- Scaled input. -/
example : ∀ i, peaksOf ((fun i => match i with | 1 => [-1 / 2, 1 / 2, 0, 1 / 2, 1 / 2, 1] | _ => [1 / 2, 2]) i : List ℝ) =
    (peaksOf (exData i)).map fun r => (r.1, 2 * r.2) := by
  intro i
  match i with
  | 1 => simp [exData, peaksOf, List.range_succ]; norm_num
  | 0 => simp [exData, peaksOf]
  | n + 2 => simp [exData, peaksOf]

/-- The loop without end. -/
example (fuel : Nat) : main { b0 := 3 / 10, Nz := 2, min := 0 } exFiles fuel = .error .fuel :=
  bw_endless (by norm_num) (by norm_num) (by norm_num) (by norm_num) (by norm_num) (by norm_num [lower]) (exFiles_ok _ rfl) fuel

/-- A file with half a pair. -/
example (fuel : Nat) : ∃ x, main { b0 := 3 / 10, Nz := 2 } (fun f => if f = some 2 then some ⟨[1, 2, 3], 0⟩ else exFiles f) fuel = .error x := by
  refine bw_refuses_partial (i := 2) (by norm_num) (by norm_num) ?_ fuel
  intro b hb
  have : b = ⟨[1, 2, 3], 0⟩ := by simpa [fileOf] using hb.symm
  rw [this]; simp

end Verif.Bw
