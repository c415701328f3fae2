import Verif.Gemm.Lemmas
/-!
# Products in memory are the products of the matrices
-/

namespace Verif.Gemm
open Verif.Mat (Mat)
open Finset

variable {K : Type} [Field K] [StarRing K] [DecidableEq K]

theorem fine_bounds {lim : Nat} {v : View} (h : Fine lim v) (t : Tr) : opRows t v ≤ lim ∧ opCols t v ≤ lim := by
  obtain ⟨_, h2, h3, h4⟩ := h
  cases t <;> simp [opRows, opCols] <;> omega

theorem fine_strideErr {lim : Nat} {v : View} (h : Fine lim v) : strideErr lim v = none := by
  obtain ⟨h1, _, _, h4⟩ := h
  simp [strideErr, h1, h4]

/-- **The general product of matrices.** For all sizes, transpositions and factors, and for blocks of larger matrices,
`gemm_rowmajor` replaces `C` by `alpha op(A) op(B) + beta C` and writes nothing else. For `beta = 0` the old contents of `C` may be uninitialised. -/
theorem gemm_correct (dbg : Bool) (lim : Nat) (α β : K) {A B C : Arr K} {MA MB MC : Mat K} (tA tB : Tr) (hA : Holds A MA)
    (hB : Holds B MB) (fA : Fine lim A.v) (fB : Fine lim B.v) (fC : Fine lim C.v) (hk : (op tA MA).c = (op tB MB).r)
    (hr : C.v.rows = (op tA MA).r) (hc : C.v.cols = (op tB MB).c) (hC : β ≠ 0 → Holds C MC) :
    ∃ mem, gemmRow dbg lim α A tA B tB β C = .ok mem ∧ Becomes C (gemmValue α MA tA MB tB β MC) mem := by
  obtain ⟨sA1, sA2⟩ := op_size hA tA
  obtain ⟨sB1, sB2⟩ := op_size hB tB
  have hinj : ∀ i < C.v.rows, ∀ j < C.v.cols, ∀ i' < C.v.rows, ∀ j' < C.v.cols, C.v.addr i j = C.v.addr i' j' → i = i' ∧ j = j' := by
    intro i _ j hj i' _ j' hj' e
    obtain ⟨f1, f2, _, _⟩ := fC
    simp only [View.addr, f1] at e
    exact addr_inj (s := C.v.stride) (by omega) (by omega) (by omega)
  unfold gemmRow
  simp only [sA1, sA2, sB1, sB2, hk, ne_eq, not_true_eq_false, if_false, hr, hc, and_self, and_false]
  by_cases h0 : (op tA MA).r = 0 ∨ (op tB MB).c = 0
  · rw [if_pos h0]
    refine ⟨_, rfl, ⟨hr, hc, ?_⟩, fun _ _ => rfl⟩
    intro i hi j hj
    simp only [gemmValue] at hi hj
    omega
  rw [if_neg h0]
  by_cases hk0 : (op tB MB).r = 0
  · rw [if_pos hk0]
    obtain ⟨l1, l2⟩ := loop_spec (fun j i => C.v.addr i j) (fun _ _ x => if β = 0 then some (0 : K) else x.map fun y => y * β)
      (op tB MB).c (op tA MA).r
      (by
        intro j hj i hi j' hj' i' hi' e
        exact (hinj i (by omega) j (by omega) i' (by omega) j' (by omega) e).symm) C.mem
    refine ⟨_, rfl, ⟨hr, hc, ?_⟩, ?_⟩
    · intro i hi j hj
      simp only [gemmValue] at hi hj ⊢
      rw [l1 j hj i hi]
      have : (Verif.Mat.mul (op tA MA) (op tB MB)).e i j = 0 := by simp [Verif.Mat.mul, hk, hk0]
      rw [this]
      by_cases hb : β = 0
      · simp [hb]
      · obtain ⟨_, _, c3⟩ := hC hb
        obtain ⟨c1, c2, _⟩ := hC hb
        simp [hb, c3 i (by omega) j (by omega), mul_comm]
    · intro p hp
      exact l2 p fun j hj i hi => hp i (by omega) j (by omega)
  rw [if_neg hk0]
  have harg : argErr lim (op tA MA).r (op tB MB).c (op tB MB).r A.v B.v C.v = none := by
    have a := fine_bounds fA tA
    have b := fine_bounds fB tB
    rw [sA1, sA2] at a
    rw [sB1, sB2] at b
    rw [argErr, if_neg (by omega), fine_strideErr fA, fine_strideErr fB, fine_strideErr fC]
    rfl
  rw [harg]
  dsimp only
  obtain ⟨l1, l2⟩ := loop_spec (fun j i => C.v.off + (j + i * C.v.stride))
      (fun j i x => cell α β (dot (fun l => felem tB.char (fun p => B.mem (B.v.off + p)) B.v.stride j l)
        (fun l => felem tA.char (fun p => A.mem (A.v.off + p)) A.v.stride l i) (op tB MB).r) x)
      (op tB MB).c (op tA MA).r
      (by
        intro j hj i hi j' hj' i' hi' e
        obtain ⟨f1, f2, _, _⟩ := fC
        exact (addr_inj (s := C.v.stride) (i := i) (i' := i') (j := j) (j' := j') (by omega) (by omega) (by omega)).symm)
      C.mem
  have ead : ∀ i j, C.v.off + (j + i * C.v.stride) = C.v.addr i j := by
    intro i j
    simp only [View.addr, fC.1]
    omega
  have hg : ¬ B.v.stride < max 1 (if tB.char = 'N' then (op tB MB).c else (op tB MB).r) ∧
      ¬ A.v.stride < max 1 (if tA.char = 'N' then (op tB MB).r else (op tA MA).r) ∧ ¬ C.v.stride < max 1 (op tB MB).c := by
    obtain ⟨_, b2, _, _⟩ := fB
    obtain ⟨_, a2, _, _⟩ := fA
    obtain ⟨_, c2, _, _⟩ := fC
    refine ⟨?_, ?_, by omega⟩
    · cases tB <;> simp [Tr.char, opRows, opCols] at sB1 sB2 ⊢ <;> omega
    · cases tA <;> simp [Tr.char, opRows, opCols] at sA1 sA2 ⊢ <;> omega
  rw [xgemm, if_neg hg.1, if_neg hg.2.1, if_neg hg.2.2]
  refine ⟨_, rfl, ⟨hr, hc, ?_⟩, ?_⟩
  · intro i hi j hj
    simp only [gemmValue] at hi hj ⊢
    have h := l1 j hj i hi
    rw [ead] at h
    rw [h]
    rw [dot_spec _ _ (fun l => (op tB MB).e l j) (fun l => (op tA MA).e i l) _
      (fun l hl => felem_spec hB fB.1 tB l j hl hj) (fun l hl => felem_spec hA fA.1 tA i l hi (by omega))]
    rw [cell_spec α β _ (MC.e i j)]
    · simp only [Verif.Mat.mul, hk, mul_comm]
    · intro hb
      obtain ⟨c1, c2, c3⟩ := hC hb
      exact c3 i (by omega) j (by omega)
  · intro p hp
    refine l2 p fun j hj i hi e => ?_
    rw [ead] at e
    exact hp i (by omega) j (by omega) e

/-- **Matrices that do not fit are never multiplied**, with or without assertions. -/
theorem gemm_mismatch (dbg : Bool) (lim : Nat) (α β : K) (A B C : Arr K) (tA tB : Tr) (h : opCols tA A.v ≠ opRows tB B.v) :
    gemmRow dbg lim α A tA B tB β C = .error .inner := by
  unfold gemmRow
  simp [h]

/-- **Sizes that the BLAS cannot represent are refused**: whatever the result of a product is, all sizes handed
over were in range and the rows of the matrices contiguous. -/
theorem gemm_range (dbg : Bool) (lim : Nat) (α β : K) (A B C : Arr K) (tA tB : Tr) (mem : Mem K)
    (h : gemmRow dbg lim α A tA B tB β C = .ok mem) (hm : opRows tA A.v ≠ 0) (hn : opCols tB B.v ≠ 0) (hk : opCols tA A.v ≠ 0) :
    (opRows tA A.v ≤ lim ∧ opCols tB B.v ≤ lim ∧ opCols tA A.v ≤ lim) ∧
    ∀ v ∈ [A.v, B.v, C.v], v.inner = 1 ∧ v.stride ≤ lim := by
  unfold gemmRow at h
  dsimp only at h
  split at h
  · cases h
  split at h
  · cases h
  have h1 : ¬ (opRows tA A.v = 0 ∨ opCols tB B.v = 0) := by omega
  simp only [h1, if_false, hk] at h
  cases hx : argErr lim (opRows tA A.v) (opCols tB B.v) (opCols tA A.v) A.v B.v C.v with
  | some e => rw [hx] at h; cases h
  | none =>
    unfold argErr at hx
    split at hx
    · cases hx
    · rename_i hb
      have key : ∀ v, strideErr lim v = none → v.inner = 1 ∧ v.stride ≤ lim := by
        intro v hv
        unfold strideErr at hv
        split at hv
        · cases hv
        · split at hv
          · cases hv
          · omega
      simp only [Option.or_eq_none_iff] at hx
      refine ⟨by omega, ?_⟩
      simp only [List.mem_cons, List.not_mem_nil, or_false, forall_eq_or_imp, forall_eq]
      exact ⟨key _ hx.1.1, key _ hx.1.2, key _ hx.2⟩

end Verif.Gemm
