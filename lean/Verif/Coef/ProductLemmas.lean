import Mathlib.LinearAlgebra.Matrix.NonsingularInverse
import Verif.Coef.Spec
import Verif.Coef.All
import Verif.Ops.Props
import Verif.Oper.Props
/-!
# Lemmas for the product of operators
-/

namespace Verif.Coef
open Verif.Invar Verif.Symm Verif.Oper Verif.Dm Verif.Mat Finset

variable {𝕜 : Type} [RCLike 𝕜]

/-- Orthonormal rows of a square matrix are orthonormal columns. -/
theorem cols_orthonormal (V : Mat 𝕜) (n : ℕ)
    (h : ∀ a < n, ∀ b < n, ∑ x ∈ range n, V.e a x * star (V.e b x) = if a = b then 1 else 0) :
    ∀ x < n, ∀ y < n, ∑ a ∈ range n, star (V.e a x) * V.e a y = if x = y then 1 else 0 := by
  let M : Matrix (Fin n) (Fin n) 𝕜 := fun i j => V.e i j
  have h1 : M * M.conjTranspose = 1 := by
    ext i j
    have := h i i.2 j j.2
    rw [Finset.sum_range] at this
    rw [Matrix.mul_apply, Matrix.one_apply]
    exact this.trans (by simp only [Fin.ext_iff])
  have h2 : M.conjTranspose * M = 1 := mul_eq_one_comm.1 h1
  intro x hx y hy
  have := congrFun (congrFun h2 ⟨x, hx⟩) ⟨y, hy⟩
  rw [Matrix.mul_apply, Matrix.one_apply] at this
  simp only [Matrix.conjTranspose_apply, M, Fin.mk.injEq] at this
  rw [Finset.sum_range]
  exact this

/-- `(V1 O Vp†)(V1 P Vp†)† = V1 (O P†) V1†` when the columns of `Vp` are orthonormal. -/
theorem conjugate_mul (V1 Vp : Mat 𝕜) (O P : ℕ → ℕ → 𝕜) (n : ℕ)
    (h : ∀ x < Vp.c, ∀ y < Vp.c, ∑ a ∈ range n, star (Vp.e a x) * Vp.e a y = if x = y then 1 else 0) (a b : ℕ) :
    ∑ c ∈ range n, Ops.conjugate V1 O Vp a c * star (Ops.conjugate V1 P Vp b c) =
      Ops.conjugate V1 (fun x x' => ∑ y ∈ range Vp.c, O x y * star (P x' y)) V1 a b := by
  unfold Ops.conjugate
  have e1 : ∀ c ∈ range n, (∑ x ∈ range V1.c, ∑ y ∈ range Vp.c, V1.e a x * O x y * star (Vp.e c y)) *
      star (∑ x ∈ range V1.c, ∑ y ∈ range Vp.c, V1.e b x * P x y * star (Vp.e c y)) =
      ∑ x ∈ range V1.c, ∑ x' ∈ range V1.c, ∑ y ∈ range Vp.c, ∑ y' ∈ range Vp.c,
        V1.e a x * O x y * star (V1.e b x' * P x' y') * (star (Vp.e c y) * Vp.e c y') := by
    intro c _
    rw [star_sum, Finset.sum_mul]
    refine Finset.sum_congr rfl fun x _ => ?_
    rw [Finset.mul_sum]
    refine Finset.sum_congr rfl fun x' _ => ?_
    rw [star_sum, Finset.sum_mul]
    refine Finset.sum_congr rfl fun y _ => ?_
    rw [Finset.mul_sum]
    refine Finset.sum_congr rfl fun y' _ => ?_
    simp only [star_mul', star_star]
    ring
  rw [Finset.sum_congr rfl e1, Finset.sum_comm]
  refine Finset.sum_congr rfl fun x _ => ?_
  rw [Finset.sum_comm]
  refine Finset.sum_congr rfl fun x' _ => ?_
  rw [Finset.sum_comm, Finset.mul_sum, Finset.sum_mul]
  refine Finset.sum_congr rfl fun y hy => ?_
  rw [Finset.sum_comm]
  have e2 : ∀ y' ∈ range Vp.c, ∑ c ∈ range n, V1.e a x * O x y * star (V1.e b x' * P x' y') *
      (star (Vp.e c y) * Vp.e c y') = if y = y' then V1.e a x * O x y * star (V1.e b x' * P x' y') else 0 := by
    intro y' hy'
    rw [← Finset.mul_sum, h y (Finset.mem_range.1 hy) y' (Finset.mem_range.1 hy')]
    split <;> simp
  rw [Finset.sum_congr rfl e2, Finset.sum_ite_eq, if_pos hy, star_mul']
  ring

/-! ### Blocks -/

theorem dims_spec {S : Symmetry} (hv : RowsValid S) {old : Sizes} {J : Label} (hJ : Valid (types S.fields) J)
    {d : List Nat} (h : subspaceDims S old J = some d) :
    d.length = S.combs ∧ ∀ i < S.combs, ∃ B, S.ancestor J i = some B ∧
      d[i]? = some (if couplesTo S J i B = true then sizeSubspace old B else 0) := by
  rw [subspaceDims_eq _ hv old J hJ] at h
  cases h
  refine ⟨by simp [Symmetry.combs], fun i hi => ?_⟩
  have hi' : i < S.table.length := hi
  have hr := hv _ (List.getElem_mem hi')
  obtain ⟨c, hc, _⟩ := combine_valid hJ hr.1
  have ha : S.ancestor J i = some c := by
    simp only [Symmetry.ancestor, List.getElem?_eq_getElem hi', Option.bind_eq_bind, Option.bind_some]
    exact hc
  refine ⟨c, ha, ?_⟩
  have e : anc S J S.table[i] = c := by
    simp only [anc]
    rw [combine_comm _ _ _ hr.1 hJ, hc]; rfl
  simp only [List.getElem?_map, List.getElem?_eq_getElem hi', Option.map_some, e, couplesTo, ha, beq_self_eq_true,
    Bool.true_and]

theorem inBlock_unique {d : List Nat} {i j x : Nat} (hi : 1 ≤ i) (hj : 1 ≤ j) (h1 : Ops.InBlock d i x)
    (h2 : Ops.InBlock d j x) : i = j := by
  have mono : ∀ a b : Nat, a ≤ b → (d.take a).sum ≤ (d.take b).sum := by
    intro a b hab
    have : d.take a = (d.take b).take a := by rw [List.take_take, Nat.min_eq_left hab]
    rw [this]
    exact Subspaces.take_sum_le _ _
  unfold Ops.InBlock at h1 h2
  rcases Nat.lt_trichotomy i j with h | h | h
  · have := mono i (j - 1) (by omega); omega
  · exact h
  · have := mono j (i - 1) (by omega); omega

theorem inBlock_at {d : List Nat} {i l n : Nat} (h : d[i]? = some n) (hl : l < n) :
    Ops.InBlock d (i + 1) ((d.take i).sum + l) := by
  have := Ops.block_size (d := d) (i := i + 1) (n := n) (by omega) (by simpa using h)
  simp only [Nat.add_sub_cancel] at this
  exact ⟨by simp, by omega⟩

/-- The sum of the factors of the rows for a pair of combinations. -/
noncomputable def coefSum (𝕜 : Type) [RCLike 𝕜] (F : Nat → FVal) (rs : List OpRow) (i1 ip : Nat) : 𝕜 :=
  (rs.map fun r => if r.i1 = i1 ∧ r.ip = ip then ((F r.k).real : 𝕜) else 0).sum

theorem star_coefSum (F : Nat → FVal) (rs : List OpRow) (i1 ip : Nat) :
    star (coefSum 𝕜 F rs i1 ip) = coefSum 𝕜 F rs i1 ip := by
  unfold coefSum
  induction rs with
  | nil => simp
  | cons r rs ih =>
    simp only [List.map_cons, List.sum_cons, star_add, ih]
    congr 1
    split <;> simp

theorem sum_mul_right' {β : Type} (l : List β) (f : β → 𝕜) (c : 𝕜) :
    (l.map fun x => f x * c).sum = (l.map f).sum * c := by
  induction l with
  | nil => simp
  | cons x l ih => simp only [List.map_cons, List.sum_cons, ih, add_mul]

/-- An entry of the assembled operator. -/
theorem assembled_entry (T : OpTable) (I1 : Label) (rs : List OpRow) (d1 dp : List Nat) (cold : Ops.Elements 𝕜)
    {i1 ip0 k l n1 np : Nat} (A B : Label) (h1 : d1[i1]? = some n1) (hk : k < n1) (hp : dp[ip0]? = some np) (hl : l < np)
    (hi : ∀ r ∈ rs, 1 ≤ r.i1 ∧ 1 ≤ r.ip)
    (ha : ∀ r ∈ rs, r.i1 = i1 + 1 → evalLabel ((T.labs[r.a]?).getD []) I1 = A)
    (hb : ∀ r ∈ rs, r.ip = ip0 + 1 → evalLabel ((T.labs[r.b]?).getD []) I1 = B) :
    Ops.assembled d1 dp cold (valTable 𝕜 T I1 rs) ((d1.take i1).sum + k) ((dp.take ip0).sum + l) =
      coefSum 𝕜 (T.factor I1) rs (i1 + 1) (ip0 + 1) * Ops.optEntry (cold.lookup (A, B)) k l := by
  unfold Ops.assembled valTable coefSum
  rw [List.map_map, ← sum_mul_right']
  congr 1
  refine List.map_congr_left fun r hr => ?_
  simp only [Function.comp_apply]
  have b1 := inBlock_at h1 hk
  have bp := inBlock_at hp hl
  by_cases h : r.i1 = i1 + 1 ∧ r.ip = ip0 + 1
  · rw [if_pos h, if_pos ⟨by rw [h.1]; exact b1, by rw [h.2]; exact bp⟩, ha r hr h.1, hb r hr h.2, h.1, h.2]
    simp
  · rw [if_neg h, if_neg, zero_mul]
    rintro ⟨g1, g2⟩
    exact h ⟨inBlock_unique (hi r hr).1 (by omega) g1 b1, inBlock_unique (hi r hr).2 (by omega) g2 bp⟩

/-- The part of one target in `pairSum`. -/
noncomputable def targetSum (S : Symmetry) (F : Nat → FVal) (rs : List OpRow) (Ip : Label) (i1 i2 : Nat) (B : Label) : ℝ :=
  (rs.map fun r =>
    if r.i1 = i1 ∧ couplesTo S Ip (r.ip - 1) B = true then
      (rs.map fun s => if s.i1 = i2 ∧ s.ip = r.ip then (F r.k).real * (F s.k).real else 0).sum
    else 0).sum

theorem targetSum_eq (S : Symmetry) (F : Nat → FVal) (rs : List OpRow) (Ip : Label) (i1 i2 : Nat) (B : Label) (n : Nat)
    (hi : ∀ r ∈ rs, 1 ≤ r.ip ∧ r.ip ≤ n) :
    ((targetSum S F rs Ip i1 i2 B : ℝ) : 𝕜) = ∑ ip0 ∈ range n,
      if couplesTo S Ip ip0 B = true then coefSum 𝕜 F rs i1 (ip0 + 1) * coefSum 𝕜 F rs i2 (ip0 + 1) else 0 := by
  have e : ∀ l : List OpRow, (∀ r ∈ l, 1 ≤ r.ip ∧ r.ip ≤ n) →
      (((l.map fun r => if r.i1 = i1 ∧ couplesTo S Ip (r.ip - 1) B = true then
        (rs.map fun s => if s.i1 = i2 ∧ s.ip = r.ip then (F r.k).real * (F s.k).real else 0).sum else 0).sum : ℝ) : 𝕜) =
      ∑ ip0 ∈ range n, if couplesTo S Ip ip0 B = true then coefSum 𝕜 F l i1 (ip0 + 1) * coefSum 𝕜 F rs i2 (ip0 + 1)
        else 0 := by
    intro l hl
    induction l with
    | nil => simp [coefSum]
    | cons r l ih =>
      have hr := hl r (List.mem_cons_self ..)
      have c2 : ∀ ip, (((rs.map fun s => if s.i1 = i2 ∧ s.ip = ip then (F r.k).real * (F s.k).real else 0).sum : ℝ) : 𝕜) =
          ((F r.k).real : 𝕜) * coefSum 𝕜 F rs i2 ip := by
        intro ip
        unfold coefSum
        clear ih hl hi
        induction rs with
        | nil => simp
        | cons s rs ih =>
          simp only [List.map_cons, List.sum_cons, RCLike.ofReal_add, ih, mul_add]
          congr 1
          split <;> simp
      have c3 : ∀ ip0, coefSum 𝕜 F (r :: l) i1 (ip0 + 1) =
          (if r.i1 = i1 ∧ r.ip = ip0 + 1 then ((F r.k).real : 𝕜) else 0) + coefSum 𝕜 F l i1 (ip0 + 1) := by
        intro ip0; simp [coefSum]
      simp only [List.map_cons, List.sum_cons, RCLike.ofReal_add, ih fun r h => hl r (List.mem_cons_of_mem _ h)]
      have c4 : ∀ ip0 ∈ range n, (if couplesTo S Ip ip0 B = true then
            coefSum 𝕜 F (r :: l) i1 (ip0 + 1) * coefSum 𝕜 F rs i2 (ip0 + 1) else 0) =
          (if couplesTo S Ip ip0 B = true then (if r.i1 = i1 ∧ r.ip = ip0 + 1 then ((F r.k).real : 𝕜) else 0) *
            coefSum 𝕜 F rs i2 (ip0 + 1) else 0) +
          (if couplesTo S Ip ip0 B = true then coefSum 𝕜 F l i1 (ip0 + 1) * coefSum 𝕜 F rs i2 (ip0 + 1) else 0) := by
        intro ip0 _
        rw [c3]
        split
        · ring
        · simp
      rw [Finset.sum_congr rfl c4, Finset.sum_add_distrib]
      refine congrArg₂ (· + ·) ?_ rfl
      rw [Finset.sum_eq_single (r.ip - 1)]
      · have h1 : r.ip - 1 + 1 = r.ip := by omega
        rw [h1]
        by_cases h : r.i1 = i1 <;> by_cases h' : couplesTo S Ip (r.ip - 1) B = true <;> simp [h, h', c2]
      · intro b _ hb
        rw [if_neg (c := r.i1 = i1 ∧ r.ip = b + 1) (by omega)]
        simp
      · intro h
        rw [Finset.mem_range] at h
        omega
  exact e rs hi

theorem couplesTo_ancestor {S : Symmetry} {I B : Label} {i : Nat} (h : couplesTo S I i B = true) :
    S.ancestor I i = some B := by
  simp only [couplesTo, Bool.and_eq_true, beq_iff_eq] at h
  exact h.1

/-- The matrix elements between two old subspaces, multiplied. -/
def pairEntry (A B : Ops.Elements 𝕜) (A1 A2 : Label) (k k' : ℕ) (q : Label × ℕ) : 𝕜 :=
  ∑ l ∈ range q.2, Ops.optEntry (A.lookup (A1, q.1)) k l * star (Ops.optEntry (B.lookup (A2, q.1)) k' l)

/-- The sum over the states of one target, in the product basis. -/
theorem product_blocks {T : OpTable} {old : Sizes} (hn : (old.map Prod.fst).Nodup) (hv : RowsValid T.builtin.sym)
    (A B : Ops.Elements 𝕜) {I1 Ip : Label} (hp : Valid (types T.builtin.sym.fields) Ip) (rs : List OpRow)
    (hr : ∀ r ∈ rs, 1 ≤ r.i1 ∧ 1 ≤ r.ip ∧ r.ip ≤ T.builtin.sym.combs ∧
      T.builtin.sym.ancestor I1 (r.i1 - 1) = some (evalLabel ((T.labs[r.a]?).getD []) I1) ∧
      T.builtin.sym.ancestor Ip (r.ip - 1) = some (evalLabel ((T.labs[r.b]?).getD []) I1))
    {d1 dp : List Nat} (hdp : subspaceDims T.builtin.sym old Ip = some dp)
    {i1 i2 k k' n1 n2 : Nat} {A1 A2 : Label} (h1 : d1[i1]? = some n1) (h2 : d1[i2]? = some n2) (hk : k < n1) (hk' : k' < n2)
    (ha1 : T.builtin.sym.ancestor I1 i1 = some A1) (ha2 : T.builtin.sym.ancestor I1 i2 = some A2) :
    ∑ y ∈ range dp.sum, Ops.assembled d1 dp A (valTable 𝕜 T I1 rs) ((d1.take i1).sum + k) y *
        star (Ops.assembled d1 dp B (valTable 𝕜 T I1 rs) ((d1.take i2).sum + k') y) =
      (old.map fun q => ((targetSum T.builtin.sym (T.factor I1) rs Ip (i1 + 1) (i2 + 1) q.1 : ℝ) : 𝕜) *
        pairEntry A B A1 A2 k k' q).sum := by
  set S := T.builtin.sym with hS
  obtain ⟨hlen, hd⟩ := dims_spec hv hp hdp
  have hi : ∀ r ∈ rs, 1 ≤ r.i1 ∧ 1 ≤ r.ip := fun r h => ⟨(hr r h).1, (hr r h).2.1⟩
  have g1 : ∀ (j : Nat) (C : Label), S.ancestor I1 j = some C → ∀ r ∈ rs, r.i1 = j + 1 →
      evalLabel ((T.labs[r.a]?).getD []) I1 = C := by
    intro j C hC r h e
    have := (hr r h).2.2.2.1
    rw [e, Nat.add_sub_cancel, hC] at this
    exact (Option.some.inj this).symm
  have g2 : ∀ (j : Nat) (C : Label), S.ancestor Ip j = some C → ∀ r ∈ rs, r.ip = j + 1 →
      evalLabel ((T.labs[r.b]?).getD []) I1 = C := by
    intro j C hC r h e
    have := (hr r h).2.2.2.2
    rw [e, Nat.add_sub_cancel, hC] at this
    exact (Option.some.inj this).symm
  have hsum := Ops.sum_blocks dp (fun y => Ops.assembled d1 dp A (valTable 𝕜 T I1 rs) ((d1.take i1).sum + k) y *
        star (Ops.assembled d1 dp B (valTable 𝕜 T I1 rs) ((d1.take i2).sum + k') y)) dp.length le_rfl
  rw [List.take_length] at hsum
  rw [hsum, hlen]
  have e1 : ∀ q ∈ old, ((targetSum S (T.factor I1) rs Ip (i1 + 1) (i2 + 1) q.1 : ℝ) : 𝕜) * pairEntry A B A1 A2 k k' q =
      ∑ ip0 ∈ range S.combs, coefSum 𝕜 (T.factor I1) rs (i1 + 1) (ip0 + 1) * coefSum 𝕜 (T.factor I1) rs (i2 + 1) (ip0 + 1) *
        (if couplesTo S Ip ip0 q.1 = true then pairEntry A B A1 A2 k k' q else 0) := by
    intro q _
    rw [targetSum_eq S (T.factor I1) rs Ip (i1 + 1) (i2 + 1) q.1 S.combs fun r h => ⟨(hr r h).2.1, (hr r h).2.2.1⟩,
      Finset.sum_mul]
    refine Finset.sum_congr rfl fun ip0 _ => ?_
    split <;> simp
  rw [List.map_congr_left e1, Dm.sum_swap_range]
  refine Finset.sum_congr rfl fun ip0 hip => ?_
  obtain ⟨C, hC, hdC⟩ := hd ip0 (Finset.mem_range.1 hip)
  have e2 : (old.map fun q => coefSum 𝕜 (T.factor I1) rs (i1 + 1) (ip0 + 1) * coefSum 𝕜 (T.factor I1) rs (i2 + 1) (ip0 + 1) *
        (if couplesTo S Ip ip0 q.1 = true then pairEntry A B A1 A2 k k' q else 0)).sum =
      coefSum 𝕜 (T.factor I1) rs (i1 + 1) (ip0 + 1) * coefSum 𝕜 (T.factor I1) rs (i2 + 1) (ip0 + 1) *
        (if couplesTo S Ip ip0 C = true then pairEntry A B A1 A2 k k' (C, sizeSubspace old C) else 0) := by
    rw [List.sum_map_mul_left]
    congr 1
    by_cases hc : couplesTo S Ip ip0 C = true
    · rw [if_pos hc]
      have e3 : ∀ q ∈ old, (if couplesTo S Ip ip0 q.1 = true then pairEntry A B A1 A2 k k' q else 0) =
          if q.1 = C then (fun (a : Label) (n : ℕ) => pairEntry A B A1 A2 k k' (a, n)) q.1 q.2 else 0 := by
        intro q _
        refine if_congr ?_ rfl rfl
        constructor
        · intro h
          have := couplesTo_ancestor h
          rw [hC] at this
          exact (Option.some.inj this).symm
        · intro h; rw [h]; exact hc
      rw [List.map_congr_left e3]
      refine (Dm.sum_lookup old hn C fun (a : Label) (n : ℕ) => pairEntry A B A1 A2 k k' (a, n)).trans ?_
      unfold sizeSubspace
      cases old.lookup C with
      | none => simp [pairEntry]
      | some n => simp
    · rw [if_neg hc]
      refine List.sum_eq_zero fun z hz => ?_
      obtain ⟨q, _, rfl⟩ := List.mem_map.1 hz
      refine if_neg fun h => hc ?_
      have := couplesTo_ancestor h
      rw [hC] at this
      rw [Option.some.inj this]
      exact h
  rw [e2]
  have hget : dp.getD ip0 0 = if couplesTo S Ip ip0 C = true then sizeSubspace old C else 0 := by
    rw [List.getD_eq_getElem?_getD, hdC]; rfl
  rw [hget]
  by_cases hc : couplesTo S Ip ip0 C = true
  · rw [if_pos hc] at hdC ⊢
    rw [if_pos hc]
    unfold pairEntry
    rw [Finset.mul_sum]
    refine Finset.sum_congr rfl fun l hl => ?_
    rw [assembled_entry T I1 rs d1 dp A A1 C h1 hk hdC (Finset.mem_range.1 hl) hi (g1 i1 A1 ha1) (g2 ip0 C hC),
      assembled_entry T I1 rs d1 dp B A2 C h2 hk' hdC (Finset.mem_range.1 hl) hi (g1 i2 A2 ha2) (g2 ip0 C hC),
      star_mul', star_coefSum]
    ring
  · rw [if_neg hc, if_neg hc]
    simp

theorem conjugate_list {β : Type} (V : Mat 𝕜) (l : List β) (f : β → ℕ → ℕ → 𝕜) (a b : ℕ) :
    (l.map fun t => Ops.conjugate V (f t) V a b).sum = Ops.conjugate V (fun x x' => (l.map fun t => f t x x').sum) V a b := by
  unfold Ops.conjugate
  rw [Dm.sum_swap_range]
  refine Finset.sum_congr rfl fun x _ => ?_
  rw [Dm.sum_swap_range]
  refine Finset.sum_congr rfl fun y _ => ?_
  rw [List.sum_map_mul_right, List.sum_map_mul_left]

/-- A list in which one element matters. -/
theorem sum_single {β M : Type} [AddCommMonoid M] (l : List β) (R : β → β → Prop) (hp : l.Pairwise R) (P : β → Prop)
    [DecidablePred P] (hR : ∀ x y, R x y → ¬ (P x ∧ P y)) (g : β → M) (t : β) (ht : t ∈ l) (hP : P t) :
    (l.map fun x => if P x then g x else 0).sum = g t := by
  induction l with
  | nil => cases ht
  | cons x l ih =>
    rw [List.pairwise_cons] at hp
    simp only [List.map_cons, List.sum_cons]
    rcases List.mem_cons.1 ht with rfl | h
    · rw [if_pos hP, List.sum_eq_zero, add_zero]
      intro z hz
      obtain ⟨y, hy, rfl⟩ := List.mem_map.1 hz
      exact if_neg fun h => hR _ _ (hp.1 y hy) ⟨hP, h⟩
    · rw [if_neg fun h' => hR _ _ (hp.1 t h) ⟨h', hP⟩, zero_add]
      exact ih hp.2 h

theorem lookup_of_mem' {α β : Type} [BEq α] [LawfulBEq α] (l : List (α × β)) (hn : (l.map Prod.fst).Nodup) (p : α × β)
    (hp : p ∈ l) : l.lookup p.1 = some p.2 := by
  induction l with
  | nil => simp at hp
  | cons q l ih =>
    obtain ⟨a, v⟩ := q
    simp only [List.map_cons, List.nodup_cons] at hn
    rcases List.mem_cons.1 hp with rfl | h
    · simp
    · have : p.1 ≠ a := by
        rintro rfl
        exact hn.1 (List.mem_map_of_mem h)
      rw [List.lookup_cons, beq_eq_false_iff_ne.2 this]
      exact ih hn.2 h

theorem mem_of_lookup' {α β : Type} [BEq α] [LawfulBEq α] (l : List (α × β)) (a : α) (v : β) (h : l.lookup a = some v) :
    (a, v) ∈ l := by
  induction l with
  | nil => simp at h
  | cons q l ih =>
    obtain ⟨b, w⟩ := q
    by_cases e : a = b
    · subst e; simp at h; simp [h]
    · rw [List.lookup_cons, beq_eq_false_iff_ne.2 e] at h
      exact List.mem_cons_of_mem _ (ih h)

/-- The ket labels of a function are well formed. -/
def shiftOk (T : OpTable) : Bool :=
  T.builtin.sym.fields.all fieldOk' && T.targets.all fun t =>
    match dispOf (noSym T) T.builtin.sym.fields t.shift with
    | some d => labelOk (types T.builtin.sym.fields) d
    | none => false

theorem tables_shiftOk : ∀ T ∈ opTables, T.Works → shiftOk T = true := by decide +kernel

theorem shift_valid {T : OpTable} (hT : T ∈ opTables) (hW : T.Works) {t : OpTarget} (ht : t ∈ T.targets) {I : Label}
    (hI : Valid (types T.builtin.sym.fields) I) (hz : T.builtin.symtype = "NONE" → I = [0]) :
    Valid (types T.builtin.sym.fields) (evalLabel t.shift I) := by
  have h := tables_shiftOk T hT hW
  simp only [shiftOk, Bool.and_eq_true] at h
  have h2 := List.all_eq_true.1 h.2 t ht
  cases hd : dispOf (noSym T) T.builtin.sym.fields t.shift with
  | none => rw [hd] at h2; cases h2
  | some d =>
    rw [hd] at h2
    have lI := (labelOk_valid h.1).2 hI
    have e : evalLabel t.shift I = dmul (types T.builtin.sym.fields) I d := by
      refine evalLabel_eq_dmul hd ?_ ?_
      · have := labelOk_length lI
        rw [this]; simp [types]
      · intro hz' y hy
        rw [hz (by simpa [noSym] using hz')] at hy
        simpa using hy
    rw [e]
    exact (labelOk_valid h.1).1 (labelOk_dmul lI h2)

end Verif.Coef
