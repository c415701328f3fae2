import Verif.Sumrule.Reduce
import Verif.Coef.Product
/-!
# Carrying singlet operators
-/

namespace Verif.Sumrule
open Verif.Invar Verif.Symm Verif.Mat Verif.Dm Finset
variable {K : Type} [Field K] [StarRing K]

/-- The diagonal blocks of an operator. -/
def diagonalOf (O : Ops.Elements K) : Scalar K := fun I a b => Ops.optEntry (O.lookup (I, I)) a b

/-- Blocks of eigenvectors can be glued together. -/
theorem exists_holdsRows (E : Eig K) (d : List ℕ) (hc : E.U.length = d.length)
    (hs : ∀ (i : ℕ) (B : Mat K), E.U[i]? = some B → B.r = E.nr ∧ d[i]? = some B.c) : ∃ V, Ops.HoldsRows E V d := by
  refine ⟨⟨E.nr, d.sum, fun a x => ∑ i ∈ range d.length,
    if Ops.InBlock d (i + 1) x then (E.U.getD i empty).e a (x - (d.take i).sum) else 0⟩, le_rfl, rfl, hc, ?_⟩
  intro i B hB
  obtain ⟨h1, h2⟩ := hs i B hB
  refine ⟨h1, h2, fun a _ k hk => ?_⟩
  have hin := Coef.inBlock_at h2 hk
  have hi : i < d.length := (List.getElem?_eq_some_iff.1 h2).1
  dsimp only
  rw [Finset.sum_eq_single i]
  · rw [if_pos hin, Nat.add_sub_cancel_left, List.getD_eq_getElem?_getD, hB]
    rfl
  · intro j _ hj
    refine if_neg fun h => hj ?_
    have := Coef.inBlock_unique (by omega) (by omega) h hin
    omega
  · intro h; rw [mem_range] at h; omega

theorem conjugate_finset (V1 Vp : Mat K) (s : Finset ℕ) (f : ℕ → ℕ → ℕ → K) (a b : ℕ) :
    Ops.conjugate V1 (fun x y => ∑ i ∈ s, f i x y) Vp a b = ∑ i ∈ s, Ops.conjugate V1 (f i) Vp a b := by
  unfold Ops.conjugate
  rw [sum_comm]
  have : ∀ x ∈ range V1.c, (∑ y ∈ range Vp.c, V1.e a x * (∑ i ∈ s, f i x y) * star (Vp.e b y))
      = ∑ i ∈ s, ∑ y ∈ range Vp.c, V1.e a x * f i x y * star (Vp.e b y) := by
    intro x _
    rw [sum_comm]
    refine sum_congr rfl fun y _ => ?_
    rw [mul_sum, sum_mul]
  rw [sum_comm, sum_congr rfl this, sum_comm]

/-- The old matrices of a singlet operator: square, with as many states as were kept. -/
def SingletOn (sizes : Sizes) (O : Ops.Elements K) : Prop :=
  ∀ A M, O.lookup (A, A) = some M → M.r = sizeSubspace sizes A ∧ M.c = sizeSubspace sizes A

theorem ancestor_anc {S : Symmetry} (hv : RowsValid S) {J : Label} (hJ : Valid (types S.fields) J) (i : ℕ) (hi : i < S.combs) :
    S.ancestor J i = some (anc S J (S.table.getD i ([], []))) := by
  have hr := table_getD S i hi
  have hm := hv _ (List.mem_of_getElem? hr)
  obtain ⟨c, hc, _⟩ := combine_valid hJ hm.1
  simp only [Symmetry.ancestor, hr, Option.bind_eq_bind, Option.bind_some, anc]
  rw [hc, combine_comm _ _ _ hm.1 hJ, hc]; rfl

theorem singlet_carried {S : Symmetry} (hv : RowsValid S) {prev : BackShell} {cur : Shell K} (hL : Linked S prev cur)
    (hal : ∀ p ∈ prev, allowed S.fields p.1 = true) {sub : List (Label × List ℕ)} {O : Ops.Elements K}
    (hO : SingletOn (keptSizes prev) O) {sing : Label} {q : Label × Eig K} (hq : q ∈ cur.diag)
    (htri : triangle S.fields q.1 q.1 sing = true)
    (hsub : ∃ s, cur.store.lookup q.1 = some s ∧ sub.lookup q.1 = some s.rmax) :
    ∃ M, Ops.recalcSinglet1 S cur.diag sub O sing q.1 = some (some M) ∧ M.r = q.2.nr ∧ M.c = q.2.nr ∧
      ∀ k < q.2.nr, ∀ l < q.2.nr, M.e k l = carried S q.2 q.1 (diagonalOf O) k l := by
  obtain ⟨s, hs, hok⟩ := hL.eigs q hq
  obtain ⟨s', hs', hsb⟩ := hsub
  rw [hs] at hs'
  cases hs'
  have hJ := (hL.curLabels q hq).1
  have hlk : cur.diag.lookup q.1 = some q.2 := lookup_of_mem _ hL.curNodup q hq
  have hdl := (Coef.dims_spec hv hJ hok.dims).1
  obtain ⟨V, hV⟩ := exists_holdsRows q.2 s.rmax (by rw [hok.count, hdl]) hok.shape
  set an : ℕ → Label := fun i => anc S q.1 (S.table.getD i ([], [])) with han
  have hanc : ∀ i < S.combs, S.ancestor q.1 i = some (an i) := fun i hi => ancestor_anc hv hJ i hi
  have htab : Ops.singletTable (K := K) S q.1 = some ((List.range S.combs).map fun i => ⟨i + 1, i + 1, an i, an i, 1⟩) := by
    unfold Ops.singletTable
    refine Symm.mapM_some _ _ (fun i => (⟨i + 1, i + 1, an i, an i, 1⟩ : Ops.Recalc K)) ?_
    intro i hi
    rw [List.mem_range] at hi
    rw [hanc i hi]; rfl
  obtain ⟨M, hM, hr, hc, he⟩ := Ops.recalcGeneral_conjugates S cur.diag sub O q.1 q.1 sing
    ((List.range S.combs).map fun i => (⟨i + 1, i + 1, an i, an i, 1⟩ : Ops.Recalc K)) htri q.2 q.2 s.rmax s.rmax V V hlk hlk
    hsb hsb hdl hdl hV hV
    (by
      intro l hl'
      obtain ⟨i, hi, rfl⟩ := List.mem_map.1 hl'
      rw [List.mem_range] at hi
      exact ⟨⟨by simp, hi⟩, ⟨by simp, hi⟩, by simpa using hanc i hi, by simpa using hanc i hi⟩)
    (by
      intro l hl' M hM h1 h2
      obtain ⟨i, hi, rfl⟩ := List.mem_map.1 hl'
      rw [List.mem_range] at hi
      simp only [Nat.add_sub_cancel] at h1 h2 hM ⊢
      have e := eig_rmax hok i hi
      rcases rmax_cases hv hJ hok.dims i _ (table_getD S i hi) with h0 | ⟨t, ht, hk⟩
      · rw [e.2.2.2] at h0
        rw [e.2.2.1, h0] at h1
        exact absurd rfl h1
      · have hmem := mem_of_lookup _ _ _ ht
        have ha := hal _ hmem
        have hsz : sizeSubspace (keptSizes prev) (an i) = t.kept := by
          have : (an i, t.kept) ∈ keptSizes prev := List.mem_map.2 ⟨_, hmem, rfl⟩
          exact Coef.size_of_mem (p := (an i, t.kept)) (by
            simp only [keptSizes, List.map_map, Function.comp_def]
            exact hL.prevNodup) this
        obtain ⟨m1, m2⟩ := hO _ _ hM
        rw [hsz] at m1 m2
        rw [e.2.2.2] at hk
        exact ⟨ha, ha, by rw [e.2.2.1, m1, hk], by rw [e.2.2.1, m2, hk]⟩)
  refine ⟨M, ?_, hr, hc, fun a ha b hb => ?_⟩
  · unfold Ops.recalcSinglet1
    rw [htab]
    exact hM
  · rw [he a ha b hb]
    have hass : Ops.assembled s.rmax s.rmax O ((List.range S.combs).map fun i => (⟨i + 1, i + 1, an i, an i, 1⟩ : Ops.Recalc K))
        = fun x y => ∑ i ∈ range S.combs, if Ops.InBlock s.rmax (i + 1) x ∧ Ops.InBlock s.rmax (i + 1) y then
          1 * diagonalOf O (an i) (x - (s.rmax.take (i + 1 - 1)).sum) (y - (s.rmax.take (i + 1 - 1)).sum) else 0 := by
      funext x y
      unfold Ops.assembled
      rw [List.map_map, ← List.sum_toFinset _ List.nodup_range, List.toFinset_range]
      rfl
    rw [hass, conjugate_finset]
    unfold carried
    refine sum_congr rfl fun i hi => ?_
    rw [mem_range] at hi
    have e := eig_rmax hok i hi
    rw [Ops.line_conjugate hV.cols hV.cols (by omega) (by omega) (by simpa using e.2.2.1) (by simpa using e.2.2.1)]
    obtain ⟨_, _, hB⟩ := hV.blocks i _ e.1
    simp only [Nat.add_sub_cancel, one_mul]
    refine sum_congr rfl fun j hj => sum_congr rfl fun k hk => ?_
    rw [mem_range] at hj hk
    rw [hB a (by rw [e.2.1]; exact ha) j hj, hB b (by rw [e.2.1]; exact hb) k hk]

end Verif.Sumrule
