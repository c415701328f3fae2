import Verif.Coef.Carried
/-!
# Carrying a product of operators
-/

namespace Verif.Coef
open Verif.Invar Verif.Symm Verif.Oper Verif.Dm Verif.Mat Finset

variable {𝕜 : Type} [RCLike 𝕜]

section
variable {T : OpTable} (hT : T ∈ opTables) (hW : T.Works) {old : Sizes} {diag : DiagU 𝕜} {sub : List (Label × List Nat)}
  (hs : NothingLost T old diag sub) {d : Label × Eig 𝕜 → List Nat} {V : Label × Eig 𝕜 → Mat 𝕜}
  (hb : Bases T old diag sub d V)

/-- The product of the two operators in the product basis. -/
def productBasis (S : Symmetry) (old : Sizes) (A B : Ops.Elements 𝕜) (I : Label) (d : List Nat) (x x' : ℕ) : 𝕜 :=
  ∑ i ∈ range S.combs, if Ops.InBlock d (i + 1) x ∧ Ops.InBlock d (i + 1) x' then
    prodEntry old A B ((S.ancestor I i).getD []) (x - (d.take i).sum) (x' - (d.take i).sum) else 0

theorem inBlock_split {d : List Nat} {x : ℕ} (h : x < d.sum) :
    ∃ i k n, i < d.length ∧ d[i]? = some n ∧ k < n ∧ x = (d.take i).sum + k := by
  obtain ⟨i, h1, h2, h3⟩ := Subspaces.exists_block d x h
  have := Ops.block_size (d := d) (i := i + 1) (n := d[i]) (by omega) (by simp)
  simp only [Nat.add_sub_cancel] at this
  exact ⟨i, x - (d.take i).sum, d[i], h1, List.getElem?_eq_getElem h1, by omega, by omega⟩

theorem productBasis_at (S : Symmetry) (old : Sizes) (A B : Ops.Elements 𝕜) (I : Label) (d : List Nat) (hl : d.length = S.combs)
    {i1 i2 k k' n1 n2 : ℕ} (h1 : d[i1]? = some n1) (h2 : d[i2]? = some n2) (hk : k < n1) (hk' : k' < n2) {A1 : Label}
    (ha : S.ancestor I i1 = some A1) :
    productBasis S old A B I d ((d.take i1).sum + k) ((d.take i2).sum + k') =
      if i1 = i2 then prodEntry old A B A1 k k' else 0 := by
  unfold productBasis
  have b1 := inBlock_at h1 hk
  have b2 := inBlock_at h2 hk'
  have hi : i1 < S.combs := by
    rw [← hl]; exact (List.getElem?_eq_some_iff.1 h1).1
  rw [Finset.sum_eq_single i1]
  · by_cases h : i1 = i2
    · subst h
      rw [if_pos ⟨b1, b2⟩, if_pos rfl, ha]
      simp
    · rw [if_neg h, if_neg]
      rintro ⟨_, h'⟩
      have := inBlock_unique (by omega) (by omega) h' b2
      omega
  · intro j _ hj
    refine if_neg ?_
    rintro ⟨h', _⟩
    have := inBlock_unique (by omega) (by omega) h' b1
    omega
  · intro h; rw [Finset.mem_range] at h; omega

include hT hW hs hb in
/-- Carrying the product as a singlet operator. -/
theorem singlet_value {A B P : Ops.Elements 𝕜} (hP : IsProduct old A B P) {p : Label × Eig 𝕜} (hp : p ∈ diag) :
    ∃ M, Ops.recalcSinglet1 T.builtin.sym diag sub P ((invarSinglet.lookup T.builtin.symtype).getD []) p.1 = some (some M) ∧
      M.r = p.2.nr ∧ M.c = p.2.nr ∧
      ∀ a < p.2.nr, ∀ b < p.2.nr, M.e a b = Ops.conjugate (V p) (productBasis T.builtin.sym old A B p.1 (d p)) (V p) a b := by
  obtain ⟨vI, _, zI⟩ := hs.labels.valid _ (diag_mem hs hp)
  dsimp only at vI zI
  have hv := tables_rowsValid hT
  obtain ⟨hl, hd⟩ := dims_spec hv vI (hb.dims p hp)
  set S := T.builtin.sym with hS
  have hB : T.builtin ∈ builtins := by
    have h : T.builtin ∈ opTables.map OpTable.builtin := List.mem_map_of_mem hT
    rw [tables_builtins, List.mem_filterMap] at h
    obtain ⟨i, _, hi⟩ := h
    exact List.mem_of_getElem? hi
  have hne : T.builtin.symtype ≠ "SPSU2LR" := by
    intro h
    cases hk : T.kind with
    | doublet => exact hW.1 (by rw [h, hk]; decide)
    | triplet => exact hW.1 (by rw [h, hk]; decide)
    | orbTriplet =>
      have : ∀ T ∈ opTables, T.builtin.symtype = "SPSU2LR" → T.kind ≠ .orbTriplet := by decide +kernel
      exact this T hT h hk
    | quadruplet =>
      have : ∀ T ∈ opTables, T.builtin.symtype = "SPSU2LR" → T.kind ≠ .quadruplet := by decide +kernel
      exact this T hT h hk
  have hph : Oper.Physical S.fields p.1 := by
    have := hs.spins p hp
    unfold Symm.Physical at this
    unfold Oper.Physical
    refine List.Forall₂.imp ?_ this
    intro f x h
    exact ⟨fun h' => h.2.1 h', h.2.2⟩
  have htr := singletOk_sound (builtins_singletOk T.builtin hB hne) vI hph
  let anc : ℕ → Label := fun i => (S.ancestor p.1 i).getD []
  have hanc : ∀ i < S.combs, S.ancestor p.1 i = some (anc i) := by
    intro i hi
    obtain ⟨A, h, _⟩ := hd i hi
    simp only [anc, h, Option.getD_some]
  have htab : Ops.singletTable (K := 𝕜) S p.1 = some ((List.range S.combs).map fun i => ⟨i + 1, i + 1, anc i, anc i, 1⟩) := by
    unfold Ops.singletTable
    refine Symm.mapM_some _ _ (fun i => (⟨i + 1, i + 1, anc i, anc i, 1⟩ : Ops.Recalc 𝕜)) ?_
    intro i hi
    rw [List.mem_range] at hi
    rw [hanc i hi]; rfl
  have hsize : ∀ i < S.combs, (d p)[i]? ≠ some 0 → couplesTo S p.1 i (anc i) = true ∧ 0 < sizeSubspace old (anc i) ∧
      (d p)[i]? = some (sizeSubspace old (anc i)) := by
    intro i hi h
    obtain ⟨A, h1, h2⟩ := hd i hi
    rw [hanc i hi] at h1
    rw [← Option.some.inj h1] at h2
    rw [h2] at h ⊢
    have c1 : couplesTo S p.1 i (anc i) = true := by
      by_contra hc; rw [if_neg hc] at h; exact h rfl
    rw [if_pos c1] at h ⊢
    exact ⟨c1, Nat.pos_of_ne_zero fun h0 => h (by rw [h0]), rfl⟩
  obtain ⟨M, hM, hr, hc, he⟩ := Ops.recalcGeneral_conjugates S diag sub P p.1 p.1
    ((invarSinglet.lookup T.builtin.symtype).getD [])
    ((List.range S.combs).map fun i => (⟨i + 1, i + 1, anc i, anc i, 1⟩ : Ops.Recalc 𝕜)) htr p.2 p.2 (d p) (d p) (V p) (V p) (diag_lookup hs hp) (diag_lookup hs hp)
    (hb.sub p hp) (hb.sub p hp) hl hl (hb.rows p hp) (hb.rows p hp)
    (by
      intro l hl'
      obtain ⟨i, hi, rfl⟩ := List.mem_map.1 hl'
      rw [List.mem_range] at hi
      exact ⟨⟨by simp, hi⟩, ⟨by simp, hi⟩, by simpa using hanc i hi, by simpa using hanc i hi⟩)
    (by
      intro l hl' O hO h1 h2
      obtain ⟨i, hi, rfl⟩ := List.mem_map.1 hl'
      rw [List.mem_range] at hi
      simp only [Nat.add_sub_cancel] at h1 h2 hO ⊢
      obtain ⟨_, g2, g3⟩ := hsize i hi h1
      have hm := mem_of_size g2
      obtain ⟨M, m1, m2, m3, _⟩ := hP _ hm
      rw [hO] at m1
      cases m1
      have := (hs.oldLabels.valid _ hm).2.1
      exact ⟨this, this, by rw [g3, m2], by rw [g3, m3]⟩)
  refine ⟨M, ?_, hr, hc, fun a ha b hb' => ?_⟩
  · unfold Ops.recalcSinglet1
    rw [htab]
    exact hM
  · rw [he a ha b hb']
    refine Ops.conjugate_congr _ _ _ _ _ _ fun x hx x' hx' => ?_
    have hcols := (hb.rows p hp).cols
    rw [hcols] at hx hx'
    unfold Ops.assembled productBasis
    rw [List.map_map, ← List.sum_toFinset _ List.nodup_range]
    rw [List.toFinset_range]
    refine Finset.sum_congr rfl fun i hi => ?_
    rw [Finset.mem_range] at hi
    simp only [Function.comp_apply, Nat.add_sub_cancel]
    refine if_ctx_congr Iff.rfl (fun hx => ?_) fun _ => rfl
    obtain ⟨hx1, hx2⟩ := hx
    have hpos : (d p)[i]? ≠ some 0 := by
      intro h0
      have := Ops.block_size (d := d p) (i := i + 1) (n := 0) (by omega) (by simpa using h0)
      simp only [Nat.add_sub_cancel] at this
      unfold Ops.InBlock at hx1
      simp only [Nat.add_sub_cancel] at hx1
      omega
    obtain ⟨_, g2, g3⟩ := hsize i hi hpos
    obtain ⟨M', m1, _, _, m4⟩ := hP _ (mem_of_size g2)
    have hbs := Ops.block_size (d := d p) (i := i + 1) (n := sizeSubspace old (anc i)) (by omega) (by simpa using g3)
    unfold Ops.InBlock at hx1 hx2
    simp only [Nat.add_sub_cancel] at hx1 hx2 hbs
    dsimp only at m1 m4
    rw [m1, one_mul]
    exact m4 _ (by omega) _ (by omega)

end

end Verif.Coef
