import Verif.Gemm.Props
/-!
# The matrix helpers in memory refine those on matrices

`Verif.Mat` defines the helpers on matrices with exact entries, and the models of the recalculation of operators, of the density matrices and of the spectral
functions use those. Here the versions that work in memory are shown to do the same.
-/

namespace Verif.Gemm
open Verif.Mat (Mat)
open Finset

variable {K : Type} [Field K] [StarRing K] [DecidableEq K]

theorem Holds.eqv {A : Arr K} {R R' : Mat K} (h : Holds A R) (e : R.Eqv R') : Holds A R' := by
  obtain ⟨h1, h2, h3⟩ := h
  obtain ⟨e1, e2, e3⟩ := e
  exact ⟨h1.trans e1, h2.trans e2, fun i hi j hj => by rw [h3 i (by omega) j (by omega), e3 i (by omega) j (by omega)]⟩

theorem Becomes.eqv {M : Arr K} {R R' : Mat K} {mem : Mem K} (h : Becomes M R mem) (e : R.Eqv R') : Becomes M R' mem :=
  ⟨h.1.eqv e, h.2⟩

theorem finite_eq {A : Arr K} {M : Mat K} (h : Holds A M) : finite A = Verif.Mat.finiteSize M := by
  obtain ⟨h1, h2, _⟩ := h
  simp [finite, Verif.Mat.finiteSize, h1, h2]

theorem fine_alloc {lim r c : Nat} (hr : r ≤ lim) (hc : c ≤ lim) : Fine lim (alloc K r c).v := ⟨rfl, Nat.le_refl _, hr, hc⟩

theorem fine_size {lim : Nat} {A : Arr K} {M : Mat K} (h : Holds A M) (f : Fine lim A.v) : M.r ≤ lim ∧ M.c ≤ lim := by
  obtain ⟨h1, h2, _⟩ := h
  obtain ⟨_, f2, f3, f4⟩ := f
  omega

theorem unchanged {M : Arr K} {R : Mat K} (h : Holds M R) : Becomes M R M.mem := ⟨h, fun _ _ => rfl⟩

/-- A product into freshly allocated memory. -/
theorem fresh (dbg : Bool) (lim : Nat) {A B : Arr K} {MA MB : Mat K} (tA : Tr) (hA : Holds A MA)
    (hB : Holds B MB) (fA : Fine lim A.v) (fB : Fine lim B.v) (hk : (op tA MA).c = MB.r) {r c : Nat} (hr : r = (op tA MA).r)
    (hc : c = MB.c) :
    ∃ mem, gemmRow dbg lim 1 A tA B .none 0 (alloc K r c) = .ok mem ∧
      Holds ⟨mem, (alloc K r c).v⟩ (Verif.Mat.mul (op tA MA) MB) := by
  have fine : Fine lim (alloc K r c).v := by
    have b := fine_size hB fB
    have a := fine_bounds fA tA
    rw [(op_size hA tA).1] at a
    exact fine_alloc (by omega) (by omega)
  obtain ⟨mem, h1, h2⟩ := gemm_correct dbg lim (1 : K) 0 (C := alloc K r c) (MC := MB) tA .none hA hB fA fB fine hk hr hc
    (fun h => absurd rfl h)
  refine ⟨mem, h1, h2.1.eqv ⟨?_, ?_, ?_⟩⟩
  · rfl
  · rfl
  · intro i _ j _
    simp [gemmValue, op]

/-- **`product`** adds `factor · A · B†`. -/
theorem product_refines (dbg : Bool) (lim : Nat) (factor : K) {M A B : Arr K} {MM MA MB R : Mat K} (hM : Holds M MM) (hA : Holds A MA)
    (hB : Holds B MB) (fM : Fine lim M.v) (fA : Fine lim A.v) (fB : Fine lim B.v) (h : Verif.Mat.product MM factor MA MB = some R) :
    ∃ mem, product dbg lim M factor A B = .ok mem ∧ Becomes M R mem := by
  unfold Verif.Mat.product at h
  unfold product
  rw [finite_eq hA, finite_eq hB]
  split at h
  · rename_i hf
    rw [if_pos hf]
    split at h
    · rename_i hs
      obtain ⟨s1, s2, s3⟩ := hs
      have hh : M.v.rows = A.v.rows ∧ A.v.cols = B.v.cols ∧ B.v.rows = M.v.cols := by
        rw [hM.1, hM.2.1, hA.1, hA.2.1, hB.1, hB.2.1]
        exact ⟨s1, s2, s3⟩
      rw [if_neg (by simp [hh])]
      obtain ⟨mem, h1, h2⟩ := gemm_correct dbg lim factor 1 (C := M) (MC := MM) .none .conj hA hB fA fB fM s2
        (by rw [hM.1]; exact s1) (by rw [hM.2.1]; exact s3.symm) (fun _ => hM)
      refine ⟨mem, h1, h2.eqv ?_⟩
      rw [← Option.some.inj h]
      refine ⟨s1.symm, s3, ?_⟩
      intro i _ j _
      simp [gemmValue, Verif.Mat.axpy, op, add_comm]
    · cases h
  · rename_i hf
    rw [if_neg hf]
    cases h
    exact ⟨_, rfl, unchanged hM⟩

/-- **`transform`** adds `factor · A · O · B†`. -/
theorem transform_refines (dbg : Bool) (lim : Nat) (factor : K) {M A O B : Arr K} {MM MA MO MB R : Mat K} (hM : Holds M MM)
    (hA : Holds A MA) (hO : Holds O MO) (hB : Holds B MB) (fM : Fine lim M.v) (fA : Fine lim A.v) (fO : Fine lim O.v)
    (fB : Fine lim B.v) (h : Verif.Mat.transform MM factor MA MO MB = some R) :
    ∃ mem, transform dbg lim M factor A O B = .ok mem ∧ Becomes M R mem := by
  unfold Verif.Mat.transform at h
  unfold transform
  rw [finite_eq hA, finite_eq hB]
  split at h
  · rename_i hf
    rw [if_pos hf]
    split at h
    · rename_i hs
      obtain ⟨s1, s2, s3, s4⟩ := hs
      have hh : M.v.rows = A.v.rows ∧ A.v.cols = O.v.rows ∧ O.v.cols = B.v.cols ∧ B.v.rows = M.v.cols := by
        rw [hM.1, hM.2.1, hA.1, hA.2.1, hB.1, hB.2.1, hO.1, hO.2.1]
        exact ⟨s1, s2, s3, s4⟩
      rw [if_neg (by simp [hh])]
      obtain ⟨t, h1, h2⟩ := fresh dbg lim .none hA hO fA fO s2 (r := A.v.rows) (c := O.v.cols) hA.1 hO.2.1
      dsimp only
      rw [h1]
      dsimp only
      have ft : Fine lim (alloc K A.v.rows O.v.cols).v :=
        fine_alloc (by rw [hA.1]; exact (fine_size hA fA).1) (by rw [hO.2.1]; exact (fine_size hO fO).2)
      obtain ⟨mem, h3, h4⟩ := gemm_correct dbg lim factor 1 (A := ⟨t, (alloc K A.v.rows O.v.cols).v⟩) (C := M) (MC := MM) .none .conj
        h2 hB ft fB fM s3 (by rw [hM.1]; exact s1) (by rw [hM.2.1]; exact s4.symm) (fun _ => hM)
      refine ⟨mem, h3, h4.eqv ?_⟩
      rw [← Option.some.inj h]
      refine ⟨s1.symm, s4, ?_⟩
      intro i _ j _
      simp [gemmValue, Verif.Mat.axpy, op, add_comm]
    · cases h
  · rename_i hf
    rw [if_neg hf]
    cases h
    exact ⟨_, rfl, unchanged hM⟩

/-- **`rotate`** adds `factor · U† · O · U`. -/
theorem rotate_refines (dbg : Bool) (lim : Nat) (factor : K) {M U O : Arr K} {MM MU MO R : Mat K} (hM : Holds M MM)
    (hU : Holds U MU) (hO : Holds O MO) (fM : Fine lim M.v) (fU : Fine lim U.v) (fO : Fine lim O.v)
    (h : Verif.Mat.rotate MM factor MU MO = some R) :
    ∃ mem, rotate dbg lim M factor U O = .ok mem ∧ Becomes M R mem := by
  unfold Verif.Mat.rotate at h
  unfold rotate
  rw [finite_eq hU]
  split at h
  · rename_i hf
    rw [if_pos hf]
    split at h
    · rename_i hs
      obtain ⟨s1, s2, s3, s4⟩ := hs
      have hh : M.v.rows = U.v.cols ∧ U.v.rows = O.v.rows ∧ O.v.cols = U.v.rows ∧ U.v.cols = M.v.cols := by
        rw [hM.1, hM.2.1, hU.1, hU.2.1, hO.1, hO.2.1]
        exact ⟨s1, s2, s3, s4⟩
      rw [if_neg (by simp [hh])]
      obtain ⟨t, h1, h2⟩ := fresh dbg lim .conj hU hO fU fO s2 (r := U.v.cols) (c := O.v.cols) hU.2.1 hO.2.1
      dsimp only
      rw [h1]
      dsimp only
      have ft : Fine lim (alloc K U.v.cols O.v.cols).v :=
        fine_alloc (by rw [hU.2.1]; exact (fine_size hU fU).2) (by rw [hO.2.1]; exact (fine_size hO fO).2)
      obtain ⟨mem, h3, h4⟩ := gemm_correct dbg lim factor 1 (A := ⟨t, (alloc K U.v.cols O.v.cols).v⟩) (C := M) (MC := MM) .none .none
        h2 hU ft fU fM s3 (by rw [hM.1]; exact s1) (by rw [hM.2.1]; exact s4.symm) (fun _ => hM)
      refine ⟨mem, h3, h4.eqv ?_⟩
      rw [← Option.some.inj h]
      refine ⟨s1.symm, s4, ?_⟩
      intro i _ j _
      simp [gemmValue, Verif.Mat.axpy, op, add_comm]
    · cases h
  · rename_i hf
    rw [if_neg hf]
    cases h
    exact ⟨_, rfl, unchanged hM⟩

/-- **`rotate_diagonal`** adds `factor · U† · diag(O) · U`. -/
theorem rotateDiagonal_refines (dbg : Bool) (lim : Nat) (factor : K) {M U O : Arr K} {MM MU MO R : Mat K} (hM : Holds M MM)
    (hU : Holds U MU) (hO : Holds O MO) (fM : Fine lim M.v) (fU : Fine lim U.v)
    (h : Verif.Mat.rotateDiagonal MM factor MU MO = some R) :
    ∃ mem, rotateDiagonal dbg lim M factor U O = .ok mem ∧ Becomes M R mem := by
  unfold Verif.Mat.rotateDiagonal at h
  unfold rotateDiagonal
  rw [finite_eq hU]
  split at h
  · rename_i hf
    rw [if_pos hf]
    split at h
    · rename_i hs
      obtain ⟨s1, s2, s3, s4⟩ := hs
      have hh : M.v.rows = U.v.cols ∧ U.v.rows = O.v.rows ∧ O.v.cols = U.v.rows ∧ U.v.cols = M.v.cols := by
        rw [hM.1, hM.2.1, hU.1, hU.2.1, hO.1, hO.2.1]
        exact ⟨s1, s2, s3, s4⟩
      rw [if_neg (by simp [hh])]
      have ft : Fine lim (alloc K U.v.rows U.v.cols).v :=
        fine_alloc (by rw [hU.1]; exact (fine_size hU fU).1) (by rw [hU.2.1]; exact (fine_size hU fU).2)
      obtain ⟨l1, _⟩ := loop_spec (fun j i => (alloc K U.v.rows U.v.cols).v.addr i j)
        (fun j i _ => (O.get i i).bind fun x => (U.get i j).map fun y => x * y) U.v.cols U.v.rows
        (by
          intro j hj i hi j' hj' i' hi' e
          simp only [View.addr, alloc] at e
          exact (addr_inj (s := U.v.cols) hj hj' (by omega)).symm) (alloc K U.v.rows U.v.cols).mem
      generalize hmem : loop (fun j i => (alloc K U.v.rows U.v.cols).v.addr i j)
        (fun j i _ => (O.get i i).bind fun x => (U.get i j).map fun y => x * y) U.v.cols U.v.rows (alloc K U.v.rows U.v.cols).mem = t
        at l1
      dsimp only
      rw [hmem]
      have ht : Holds ⟨t, (alloc K U.v.rows U.v.cols).v⟩ (⟨MU.r, MU.c, fun i j => MO.e i i * MU.e i j⟩ : Mat K) := by
        refine ⟨hU.1, hU.2.1, ?_⟩
        intro i hi j hj
        simp only at hi hj ⊢
        rw [l1 j (by rw [hU.2.1]; exact hj) i (by rw [hU.1]; exact hi)]
        simp [Arr.get, hO.2.2 i (by omega) i (by omega), hU.2.2 i hi j hj]
      obtain ⟨mem, h3, h4⟩ := gemm_correct dbg lim factor 1 (B := ⟨t, (alloc K U.v.rows U.v.cols).v⟩) (C := M) (MC := MM) .conj .none
        hU ht fU ft fM rfl (by rw [hM.1]; exact s1) (by rw [hM.2.1]; exact s4.symm) (fun _ => hM)
      refine ⟨mem, h3, h4.eqv ?_⟩
      rw [← Option.some.inj h]
      refine ⟨s1.symm, s4, ?_⟩
      intro i _ j _
      simp [gemmValue, Verif.Mat.axpy, op, add_comm]
    · cases h
  · rename_i hf
    rw [if_neg hf]
    cases h
    exact ⟨_, rfl, unchanged hM⟩

/-- **`matrix_prod`** is the product of two matrices of fitting sizes. -/
theorem matrixProd_correct (dbg : Bool) (lim : Nat) {A B : Arr K} {MA MB : Mat K} (hA : Holds A MA) (hB : Holds B MB)
    (fA : Fine lim A.v) (fB : Fine lim B.v) (hk : MA.c = MB.r) :
    ∃ C, matrixProd dbg lim A B = .ok C ∧ Holds C (Verif.Mat.mul MA MB) ∧ Fine lim C.v := by
  unfold matrixProd
  have hh : A.v.cols = B.v.rows := by rw [hA.2.1, hB.1]; exact hk
  rw [if_neg (by simp [hh])]
  obtain ⟨t, h1, h2⟩ := fresh dbg lim .none hA hB fA fB hk (r := A.v.rows) (c := B.v.cols) hA.1 hB.2.1
  dsimp only
  rw [h1]
  refine ⟨_, rfl, h2, fine_alloc (K := K) (by rw [hA.1]; exact (fine_size hA fA).1) (by rw [hB.2.1]; exact (fine_size hB fB).2)⟩

/-- **`matrix_adj_prod`** is the product of the adjoint of a matrix with another matrix. -/
theorem matrixAdjProd_correct (dbg : Bool) (lim : Nat) {A B : Arr K} {MA MB : Mat K} (hA : Holds A MA) (hB : Holds B MB)
    (fA : Fine lim A.v) (fB : Fine lim B.v) (hk : MA.r = MB.r) :
    ∃ C, matrixAdjProd dbg lim A B = .ok C ∧ Holds C (Verif.Mat.mul (Verif.Mat.adj MA) MB) ∧ Fine lim C.v := by
  unfold matrixAdjProd
  have hh : A.v.rows = B.v.rows := by rw [hA.1, hB.1]; exact hk
  rw [if_neg (by simp [hh])]
  obtain ⟨t, h1, h2⟩ := fresh dbg lim .conj hA hB fA fB hk (r := A.v.cols) (c := B.v.cols) hA.2.1 hB.2.1
  dsimp only
  rw [h1]
  refine ⟨_, rfl, h2, fine_alloc (K := K) (by rw [hA.2.1]; exact (fine_size hA fA).2) (by rw [hB.2.1]; exact (fine_size hB fB).2)⟩

/-- A block of a stored matrix. -/
theorem sub_holds {lim : Nat} {A : Arr K} {MA S : Mat K} {r1 r2 c1 c2 : Nat} (hA : Holds A MA) (fA : Fine lim A.v)
    (h : Verif.Mat.submatrix MA r1 r2 c1 c2 = some S) : Holds (A.sub r1 r2 c1 c2) S ∧ Fine lim (A.sub r1 r2 c1 c2).v := by
  unfold Verif.Mat.submatrix at h
  split at h
  · rename_i hs
    cases h
    refine ⟨⟨rfl, rfl, ?_⟩, ⟨fA.1, ?_, ?_, fA.2.2.2⟩⟩
    · intro i hi j hj
      simp only at hi hj
      have := hA.2.2 (r1 + i) (by omega) (c1 + j) (by omega)
      rw [← this]
      simp only [Arr.sub, View.addr]
      congr 1
      rw [Nat.add_mul, Nat.add_mul]
      omega
    · have := fA.2.1
      rw [hA.2.1] at this
      simp only [Arr.sub]
      omega
    · have := fA.2.2.1
      rw [hA.1] at this
      simp only [Arr.sub]
      omega
  · cases h

theorem bind_some' {α β : Type} {x : Option α} {f : α → Option β} {b : β} (h : x.bind f = some b) : ∃ a, x = some a ∧ f a = some b := by
  cases x with
  | none => cases h
  | some a => exact ⟨a, rfl, h⟩

/-- **`prod_fit`** multiplies matrices of which one is larger than the other. -/
theorem prodFit_refines (dbg : Bool) (lim : Nat) {A B : Arr K} {MA MB R : Mat K} (hA : Holds A MA) (hB : Holds B MB)
    (fA : Fine lim A.v) (fB : Fine lim B.v) (h : Verif.Mat.prodFit MA MB = some R) :
    ∃ C, prodFit dbg lim A B = .ok C ∧ Holds C R := by
  unfold Verif.Mat.prodFit at h
  unfold prodFit
  rw [hA.2.1, hB.1]
  split at h
  · rename_i hle
    rw [if_pos hle]
    unfold Verif.Mat.prodFitLeft at h
    unfold prodFitLeft
    rw [if_pos hle] at h
    rw [hA.1, hB.2.1, hA.2.1, hB.1, if_neg (by simp [hle])]
    split at h
    · rename_i hz
      rw [if_pos hz]
      cases h
      exact ⟨_, rfl, rfl, rfl, fun i hi => absurd hi (Nat.not_lt_zero i)⟩
    · rename_i hz
      rw [if_neg hz]
      obtain ⟨S, hs, he⟩ := bind_some' h
      obtain ⟨s1, s2⟩ := sub_holds hA fA hs
      cases he
      obtain ⟨C, c1, c2, _⟩ := matrixProd_correct dbg lim s1 hB s2 fB (by
        unfold Verif.Mat.submatrix at hs
        split at hs
        · cases hs
          rfl
        · cases hs)
      exact ⟨C, c1, c2⟩
  · rename_i hle
    rw [if_neg hle]
    unfold Verif.Mat.prodFitRight at h
    unfold prodFitRight
    rw [if_pos (by omega)] at h
    rw [hA.1, hB.2.1, hA.2.1, hB.1, if_neg (by omega)]
    split at h
    · rename_i hz
      rw [if_pos hz]
      cases h
      exact ⟨_, rfl, rfl, rfl, fun i hi => absurd hi (Nat.not_lt_zero i)⟩
    · rename_i hz
      rw [if_neg hz]
      obtain ⟨S, hs, he⟩ := bind_some' h
      obtain ⟨s1, s2⟩ := sub_holds hB fB hs
      cases he
      obtain ⟨C, c1, c2, _⟩ := matrixProd_correct dbg lim hA s1 fA s2 (by
        unfold Verif.Mat.submatrix at hs
        split at hs
        · cases hs
          rfl
        · cases hs)
      exact ⟨C, c1, c2⟩

/-- **`prod_adj_fit_left`** likewise, with the adjoint. -/
theorem prodAdjFit_refines (dbg : Bool) (lim : Nat) {A B : Arr K} {MA MB R : Mat K} (hA : Holds A MA) (hB : Holds B MB)
    (fA : Fine lim A.v) (fB : Fine lim B.v) (h : Verif.Mat.prodAdjFitLeft MA MB = some R) :
    ∃ C, prodAdjFitLeft dbg lim A B = .ok C ∧ Holds C R := by
  unfold Verif.Mat.prodAdjFitLeft at h
  unfold prodAdjFitLeft
  split at h
  · rename_i hle
    rw [hA.1, hB.2.1, hA.2.1, hB.1, if_neg (by simp [hle])]
    split at h
    · rename_i hz
      rw [if_pos hz]
      cases h
      exact ⟨_, rfl, rfl, rfl, fun i hi => absurd hi (Nat.not_lt_zero i)⟩
    · rename_i hz
      rw [if_neg hz]
      obtain ⟨S, hs, he⟩ := bind_some' h
      obtain ⟨s1, s2⟩ := sub_holds hA fA hs
      cases he
      obtain ⟨C, c1, c2, _⟩ := matrixAdjProd_correct dbg lim s1 hB s2 fB (by
        unfold Verif.Mat.submatrix at hs
        split at hs
        · cases hs
          rfl
        · cases hs)
      exact ⟨C, c1, c2⟩
  · cases h

end Verif.Gemm
