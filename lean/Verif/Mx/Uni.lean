import Verif.Mx.Files
import Verif.Gemm.Callers
import Verif.Spectral.AlgoProps
import Mathlib.Data.List.GetD
/-!
# C106: `unitary`
-/

namespace Verif.Mx
open Verif.Text
open Verif.DataFile
open Verif.Mat (Mat)
open Verif.Gemm (Arr Holds Fine)

variable {K : Type}

theorem flatten_get (c : Nat) (m : List (List K)) (h : ∀ r ∈ m, r.length = c) (i j : Nat) (hi : i < m.length) (hj : j < c) :
    m.flatten[i * c + j]? = (m.getD i [])[j]? := by
  induction m generalizing i with
  | nil => simp at hi
  | cons r m ih =>
    have hr := h r (by simp)
    rw [List.flatten_cons]
    cases i with
    | zero => rw [Nat.zero_mul, Nat.zero_add, List.getElem?_append_left (by omega)]; rfl
    | succ i =>
      have e : (i + 1) * c + j - r.length = i * c + j := by rw [Nat.add_mul]; omega
      rw [List.getElem?_append_right (by rw [Nat.add_mul]; omega), e, ih (fun r hr => h r (by simp [hr])) i (by simpa using hi)]
      rfl

theorem holds_arr [Zero K] (c : Nat) (m : List (List K)) (h : ∀ r ∈ m, r.length = c) :
    Holds (Tab.arr ⟨m.length, c, m⟩) (matOf c m) := by
  refine ⟨rfl, rfl, fun i hi j hj => ?_⟩
  have hi' : i < m.length := hi
  have hj' : j < c := hj
  have hl : (m.getD i []).length = c := by
    rw [List.getD_eq_getElem _ _ hi']; exact h _ (List.getElem_mem _)
  simp only [Tab.arr, Verif.Gemm.View.addr, Nat.zero_add, Nat.mul_one]
  rw [flatten_get c m h i j hi' hj', List.getElem?_eq_getElem (by omega), matOf]
  simp only [Option.some.injEq]
  exact (List.getD_eq_getElem _ _ (by omega)).symm

theorem holds_trans {A : Arr K} {M : Mat K} (h : Holds A M) : Holds (transArr A) (flip true M) := by
  obtain ⟨h1, h2, h3⟩ := h
  refine ⟨h2, h1, fun i hi j hj => ?_⟩
  have hi' : i < M.c := hi
  have hj' : j < M.r := hj
  simp only [transArr, Verif.Gemm.View.addr, Nat.zero_add, Nat.mul_one, h1, h2]
  have hlt : i * M.r + j < M.c * M.r := by
    have := Nat.mul_le_mul_right M.r (Nat.succ_le_of_lt hi')
    rw [Nat.succ_mul] at this
    omega
  have e1 : (i * M.r + j) % M.r = j := by rw [Nat.mul_comm, Nat.mul_add_mod]; exact Nat.mod_eq_of_lt hj'
  have e2 : (i * M.r + j) / M.r = i := by
    rw [Nat.mul_comm, Nat.mul_add_div (by omega), Nat.div_eq_of_lt hj', Nat.add_zero]
  rw [if_pos hlt, e1, e2]
  exact h3 j hj' i hi'

theorem holds_transIf {A : Arr K} {M : Mat K} (b : Bool) (h : Holds A M) : Holds (transIf b A) (flip b M) := by
  cases b with
  | false => exact h
  | true => exact holds_trans h

theorem fine_arr (lim : Nat) (t : Tab K) (hr : t.r ≤ lim) (hc : t.c ≤ lim) : Fine lim t.arr.v := ⟨rfl, le_refl _, hr, hc⟩

theorem fine_transIf (lim : Nat) (b : Bool) {A : Arr K} (h : Fine lim A.v) : Fine lim (transIf b A).v := by
  cases b with
  | false => exact h
  | true =>
    obtain ⟨_, h2, h3, h4⟩ := h
    exact ⟨rfl, le_refl _, le_trans h2 h4, h3⟩

section arith
variable [Field K] [StarRing K] [LinearOrder K]

theorem holds_scale (s : K) {M : Arr K} {R : Mat K} (h : Holds M R) :
    Holds (scaleArr s M) ⟨R.r, R.c, fun i j => s * R.e i j⟩ := by
  obtain ⟨h1, h2, h3⟩ := h
  unfold scaleArr
  by_cases hs : s = 1
  · rw [if_neg (by simp [hs])]
    exact ⟨h1, h2, fun i hi j hj => by
      change M.mem (M.v.addr i j) = some (s * R.e i j)
      rw [h3 i hi j hj, hs, one_mul]⟩
  · rw [if_pos hs]
    exact ⟨h1, h2, fun i hi j hj => by
      change ((M.mem (M.v.addr i j)).map fun x => s * x) = _
      rw [h3 i hi j hj]; rfl⟩

/-- The rows of a matrix. -/
def rowsOf (R : Mat K) : List (List K) := (List.range R.r).map fun i => (List.range R.c).map fun j => R.e i j

theorem arrRows_holds {M : Arr K} {R : Mat K} (h : Holds M R) : arrRows M = some (rowsOf R) := by
  obtain ⟨h1, h2, h3⟩ := h
  unfold arrRows rowsOf
  rw [h1, h2]
  refine Verif.Spectral.mapM_of_forall _ _ _ fun i hi => ?_
  refine Verif.Spectral.mapM_of_forall _ _ _ fun j hj => ?_
  exact h3 i (List.mem_range.mp hi) j (List.mem_range.mp hj)

theorem sandwich_spec (dbg : Bool) (lim : Nat) (o : UOpt K) {A B C : Arr K} {MA MB MC : Mat K} (hA : Holds A MA) (hB : Holds B MB)
    (hC : Holds C MC) (fA : Fine lim A.v) (fB : Fine lim B.v) (fC : Fine lim C.v) (h1 : (flip o.first MA).c = MB.r)
    (h2 : MB.c = (flip o.last MC).r) :
    ∃ M, sandwich dbg lim o A B C = .ok M ∧
      Holds M ⟨(flip o.first MA).r, (flip o.last MC).c, fun i j =>
        o.scale * (Verif.Mat.mul (flip o.first MA) (Verif.Mat.mul MB (flip o.last MC))).e i j⟩ := by
  have gA := holds_transIf o.first hA
  have gC := holds_transIf o.last hC
  obtain ⟨N, n1, n2, n3⟩ := Verif.Gemm.matrixProd_correct dbg lim hB gC fB (fine_transIf lim o.last fC) h2
  obtain ⟨M, m1, m2, m3⟩ := Verif.Gemm.matrixProd_correct dbg lim gA n2 (fine_transIf lim o.first fA) n3 h1
  refine ⟨scaleArr o.scale M, ?_, holds_scale o.scale m2⟩
  unfold sandwich
  dsimp only
  rw [if_neg (by rintro ⟨_, h⟩; exact h (by rw [gA.2.1, hB.1]; exact h1)),
    if_neg (by rintro ⟨_, h⟩; exact h (by rw [hB.2.1, gC.1]; exact h2)), n1]
  dsimp only
  rw [m1]

theorem chop_eq (F : Fmt K) (tol x : K) : chop F tol x = cut F tol x := rfl

/-- The result of `unitary`: `scale · A · B · C`, where `A` and `C` are transposed on request, and small numbers are replaced by zero. -/
def resultOf (F : Fmt K) (o : UOpt K) (A B C : Mat K) : Mat K :=
  ⟨(flip o.first A).r, (flip o.last C).c, fun i j =>
    cut F o.tol (o.scale * (Verif.Mat.mul (flip o.first A) (Verif.Mat.mul B (flip o.last C))).e i j)⟩

/-- The files after `unitary` if the three matrices can be read and multiplied: only the output file is written, and nothing
without `-o`. -/
theorem unitary_spec (F : Fmt K) (dbg : Bool) (lim : Nat) (o : UOpt K) (fA fB fC : Str) (fs : Files)
    (cA cB cC : Nat) (mA mB mC : List (List K)) (hA : IsMatrix F o.bin fs fA cA mA) (hB : IsMatrix F false fs fB cB mB)
    (hC : IsMatrix F o.bin fs fC cC mC) (lA : mA.length ≤ lim ∧ cA ≤ lim) (lB : mB.length ≤ lim ∧ cB ≤ lim) (lC : mC.length ≤ lim ∧ cC ≤ lim)
    (h1 : (flip o.first (matOf cA mA)).c = mB.length) (h2 : cB = (flip o.last (matOf cC mC)).r) :
    unitary F dbg lim o fA fB fC fs = .ok (match o.out with
      | none => fs
      | some n => write fs n (matText F (rowsOf (resultOf F o (matOf cA mA) (matOf cB mB) (matOf cC mC))))) := by
  unfold unitary
  rw [hA.1]
  dsimp only
  rw [hB.1]
  dsimp only
  rw [hC.1]
  dsimp only
  obtain ⟨M, m1, m2⟩ := sandwich_spec dbg lim o (holds_arr cA mA hA.2) (holds_arr cB mB hB.2) (holds_arr cC mC hC.2)
    (fine_arr lim _ lA.1 lA.2) (fine_arr lim _ lB.1 lB.2) (fine_arr lim _ lC.1 lC.2) h1 h2
  rw [m1]
  dsimp only
  unfold saveResult
  cases o.out with
  | none => rfl
  | some n =>
    dsimp only
    rw [matrixText, arrRows_holds m2]
    simp only [Option.map_some]
    congr 3
    simp [rowsOf, resultOf, Function.comp_def, chop_eq]

/-- The output of `unitary` is read again as the result. -/
theorem unitary_output (F : Fmt K) (dbg : Bool) (lim : Nat) (o : UOpt K) (fA fB fC out : Str) (fs : Files)
    (cA cB cC : Nat) (mA mB mC : List (List K)) (hA : IsMatrix F o.bin fs fA cA mA) (hB : IsMatrix F false fs fB cB mB)
    (hC : IsMatrix F o.bin fs fC cC mC) (lA : mA.length ≤ lim ∧ cA ≤ lim) (lB : mB.length ≤ lim ∧ cB ≤ lim) (lC : mC.length ≤ lim ∧ cC ≤ lim)
    (h1 : (flip o.first (matOf cA mA)).c = mB.length) (h2 : cB = (flip o.last (matOf cC mC)).r) (ho : o.out = some out)
    (hp : 0 < (flip o.last (matOf cC mC)).c ∧ 0 < (flip o.first (matOf cA mA)).r)
    (hr : ∀ i < (flip o.first (matOf cA mA)).r, ∀ j < (flip o.last (matOf cC mC)).c,
      F.rep ((resultOf F o (matOf cA mA) (matOf cB mB) (matOf cC mC)).e i j)) :
    ∃ fs', unitary F dbg lim o fA fB fC fs = .ok fs' ∧ (∀ n, n ≠ out → fs' n = fs n) ∧
      IsMatrix F false fs' out (flip o.last (matOf cC mC)).c (rowsOf (resultOf F o (matOf cA mA) (matOf cB mB) (matOf cC mC))) := by
  refine ⟨_, unitary_spec F dbg lim o fA fB fC fs cA cB cC mA mB mC hA hB hC lA lB lC h1 h2, ?_, ?_, ?_⟩
  · intro n hn
    rw [ho]
    simp [write, hn]
  · rw [ho]
    simp only [readMatrix, write, if_true]
    have hrow : ∀ r ∈ rowsOf (resultOf F o (matOf cA mA) (matOf cB mB) (matOf cC mC)),
        r.length = (flip o.last (matOf cC mC)).c ∧ ∀ x ∈ r, F.rep x := by
      intro r hmem
      obtain ⟨i, hi, rfl⟩ := List.mem_map.mp hmem
      refine ⟨by simp [resultOf], ?_⟩
      intro x hx
      obtain ⟨j, hj, rfl⟩ := List.mem_map.mp hx
      exact hr i (List.mem_range.mp hi) j (List.mem_range.mp hj)
    have := matText_read F _ _ hp.1 hrow
    rw [if_neg (by simp [rowsOf, resultOf]; omega)] at this
    simpa using this
  · intro r hmem
    obtain ⟨i, hi, rfl⟩ := List.mem_map.mp hmem
    simp [resultOf]

/-- Matrices that do not fit are refused, and nothing is written. -/
theorem unitary_mismatch (F : Fmt K) (dbg : Bool) (lim : Nat) (o : UOpt K) (fA fB fC : Str) (fs : Files)
    (A B C : Tab K) (hA : readMatrix F o.bin fs fA = .ok A) (hB : readMatrix F false fs fB = .ok B)
    (hC : readMatrix F o.bin fs fC = .ok C)
    (h : (if o.first then A.r else A.c) ≠ B.r ∨ B.c ≠ (if o.last then C.c else C.r)) :
    ∃ e, unitary F dbg lim o fA fB fC fs = .error (.gemm e) := by
  have vA : (transIf o.first A.arr).v.cols = if o.first then A.r else A.c := by cases o.first <;> rfl
  have vC : (transIf o.last C.arr).v.rows = if o.last then C.c else C.r := by cases o.last <;> rfl
  have hs : ∃ e, sandwich dbg lim o A.arr B.arr C.arr = .error e := by
    unfold sandwich
    dsimp only
    split
    · exact ⟨_, rfl⟩
    split
    · exact ⟨_, rfl⟩
    cases hp : Verif.Gemm.matrixProd dbg lim B.arr (transIf o.last C.arr) with
    | error e => exact ⟨e, rfl⟩
    | ok N =>
      dsimp only
      cases hq : Verif.Gemm.matrixProd dbg lim (transIf o.first A.arr) N with
      | error e => exact ⟨e, rfl⟩
      | ok M =>
        exfalso
        have key : ∀ (X Y Z : Arr K), Verif.Gemm.matrixProd dbg lim X Y = .ok Z → X.v.cols = Y.v.rows ∧ Z.v.rows = X.v.rows := by
          intro X Y Z hz
          unfold Verif.Gemm.matrixProd at hz
          split at hz
          · simp at hz
          · dsimp only at hz
            cases hg : Verif.Gemm.gemmRow dbg lim 1 X .none Y .none 0 (Verif.Gemm.alloc K X.v.rows Y.v.cols) with
            | error e => rw [hg] at hz; simp at hz
            | ok mem =>
              rw [hg] at hz
              simp only [Except.ok.injEq] at hz
              subst hz
              refine ⟨?_, rfl⟩
              by_contra hne
              have hne' : Verif.Gemm.opCols .none X.v ≠ Verif.Gemm.opRows .none Y.v := hne
              rw [Verif.Gemm.gemm_mismatch] at hg
              · simp at hg
              · exact hne'
        obtain ⟨k1, k2⟩ := key _ _ _ hp
        obtain ⟨k3, _⟩ := key _ _ _ hq
        rw [vC] at k1
        rw [vA, k2] at k3
        rcases h with h | h
        · exact h k3
        · exact h k1
  obtain ⟨e, he⟩ := hs
  refine ⟨e, ?_⟩
  unfold unitary
  rw [hA]
  dsimp only
  rw [hB]
  dsimp only
  rw [hC]
  dsimp only
  rw [he]

end arith

end Verif.Mx
