import Verif.Coef.Carried
import Verif.Symm.Props
/-!
# Steps that keep all states
-/

namespace Verif.Coef
open Verif.Invar Verif.Symm Verif.Oper Verif.Dm Verif.Mat Finset

variable {𝕜 : Type} [RCLike 𝕜]

/-- A step that keeps all states.  `old`: the numbers of states of the previous step; `diag`:
the result of the diagonalisations, all non-empty subspaces with all their states; `sub`:
the structure of the subspaces. -/
structure KeepsAll (T : OpTable) (old : Sizes) (diag : DiagU 𝕜) (sub : List (Label × List Nat)) : Prop where
  oldNodup : (old.map Prod.fst).Nodup
  oldLabels : ∀ q ∈ old, Symm.Physical T.builtin.sym.fields q.1 ∧ (T.builtin.symtype = "NONE" → q.1 = [0])
  structured : substruct T.builtin.sym old = some sub
  all : fullStep T.builtin.sym old = some (stateCounts diag)
  /-- the eigenvectors of every subspace are orthonormal -/
  vectors : ∀ p ∈ diag, ∃ d V, sub.lookup p.1 = some d ∧ Ops.HoldsRows p.2 V d ∧
    ∀ a < p.2.nr, ∀ b < p.2.nr, ∑ x ∈ range V.c, V.e a x * star (V.e b x) = if a = b then 1 else 0

theorem physical_allowed {fs : List Field} (hf : ∀ f ∈ fs, goodField f = true) {J : Label} (h : Symm.Physical fs J) :
    allowed fs J = true := by
  induction fs generalizing J with
  | nil => cases h; rfl
  | cons f fs ih =>
    cases h with | cons h1 h2 =>
    simp only [allowed, Bool.and_eq_true]
    refine ⟨?_, ih (fun g hg => hf g (List.mem_cons_of_mem _ hg)) h2⟩
    have := hf f List.mem_cons_self
    obtain ⟨_, h3, h4⟩ := h1
    obtain ⟨nm, t, te, m, al⟩ := f
    dsimp only at h3 h4 ⊢
    cases al with
    | any => rfl
    | pos =>
      cases te <;> cases t <;> cases m <;> simp [goodField] at this
      simpa [evalAllow] using h3 rfl
    | nonneg =>
      cases te <;> cases t <;> cases m <;> simp [goodField] at this
      simpa [evalAllow] using h4 rfl

theorem none_desc : ∀ T ∈ opTables, T.builtin.symtype = "NONE" → ∀ r ∈ T.builtin.sym.table,
    desc (types T.builtin.sym.fields) r.1 [0] = [0] := by decide +kernel

theorem nothingLost {T : OpTable} (hT : T ∈ opTables) {old : Sizes} {diag : DiagU 𝕜} {sub : List (Label × List Nat)}
    (h : KeepsAll T old diag sub) : NothingLost T old diag sub := by
  have hB : T.builtin ∈ builtins := by
    have h : T.builtin ∈ opTables.map OpTable.builtin := List.mem_map_of_mem hT
    rw [tables_builtins, List.mem_filterMap] at h
    obtain ⟨i, _, hi⟩ := h
    exact List.mem_of_getElem? hi
  obtain ⟨ms, hdec⟩ := builtins_decompose T.builtin hB
  have hgood : ∀ f ∈ T.builtin.sym.fields, goodField f = true := by
    simp only [decomposes, Bool.and_eq_true, List.all_eq_true] at hdec
    exact hdec.1.1
  have hv := tables_rowsValid hT
  have hph := fun q hq => (h.oldLabels q hq).1
  obtain ⟨st, e1, hst, hmem, _, _⟩ := structure_complete T.builtin hB old h.oldNodup hph
  obtain ⟨d', e2, hn', hp', _⟩ := fullSteps_count T.builtin hB 1 old h.oldNodup hph
  simp only [fullSteps, h.all, Option.bind_some] at e2
  cases e2
  rw [h.structured] at e1
  cases e1
  -- the labels in `sub`
  have hsubv : ∀ e ∈ sub, Valid (types T.builtin.sym.fields) e.1 ∧ subspaceDims T.builtin.sym old e.1 = some e.2 := by
    intro e he
    have hJ := (hmem e.1).1 (List.mem_map_of_mem he)
    obtain ⟨_, p, hp, l, hl, hJl⟩ := hJ
    rw [newSubspaces_eq _ hv p.1 (physical_valid (hph p hp))] at hl
    cases hl
    obtain ⟨r, hr, hre⟩ := List.mem_map.1 hJl
    refine ⟨by rw [← hre]; exact (desc_compose (hv r hr).1 (physical_valid (hph p hp))).1, ?_⟩
    have hs := h.structured
    simp only [substruct, Option.bind_eq_bind, Option.pure_def] at hs
    obtain ⟨ls, _, hs⟩ := Option.bind_eq_some_iff.1 hs
    obtain ⟨i, hi⟩ := List.mem_iff_getElem?.1 he
    have hm := (Ops.mapM_getElem? _ _ _ hs).2 i
    rw [hi] at hm
    cases hls : ls[i]? with
    | none => rw [hls] at hm; simp at hm
    | some I =>
      rw [hls] at hm
      simp only [Option.bind_some] at hm
      obtain ⟨d, hd, he'⟩ := Option.bind_eq_some_iff.1 hm.symm
      cases he'
      exact hd
  have hfull : stateCounts diag = (sub.filter fun e => e.2.sum != 0).map fun e => (e.1, e.2.sum) := by
    have := h.all
    simp only [fullStep, h.structured, Option.bind_eq_bind, Option.bind_some, Option.pure_def, Option.some.injEq] at this
    exact this.symm
  have hin : ∀ p ∈ diag, ∃ d, (p.1, d) ∈ sub ∧ d.sum = p.2.nr := by
    intro p hp
    have : (p.1, p.2.nr) ∈ stateCounts diag := List.mem_map.2 ⟨p, hp, rfl⟩
    rw [hfull] at this
    obtain ⟨e, he, hee⟩ := List.mem_map.1 this
    obtain ⟨g1, g2⟩ := Prod.mk.inj hee
    exact ⟨e.2, by rw [← g1]; exact (List.mem_filter.1 he).1, g2⟩
  refine ⟨⟨h.oldNodup, fun q hq => ⟨physical_valid (hph q hq), physical_allowed hgood (hph q hq), (h.oldLabels q hq).2⟩⟩,
    ⟨hn', fun q hq => ?_⟩, fun p hp => hp' (p.1, p.2.nr) (List.mem_map.2 ⟨p, hp, rfl⟩), fun p hp => ?_, ?_⟩
  · obtain ⟨p, hp, rfl⟩ := List.mem_map.1 hq
    obtain ⟨d, hd, _⟩ := hin p hp
    have hP := hp' _ hq
    refine ⟨physical_valid hP, physical_allowed hgood hP, fun hN => ?_⟩
    obtain ⟨_, q, hq, l, hl, hJl⟩ := (hmem p.1).1 (List.mem_map.2 ⟨_, hd, rfl⟩)
    rw [newSubspaces_eq _ hv q.1 (physical_valid (hph q hq))] at hl
    cases hl
    obtain ⟨r, hr, hre⟩ := List.mem_map.1 hJl
    rw [(h.oldLabels q hq).2 hN] at hre
    rw [← hre]
    exact none_desc T hT hN r hr
  · obtain ⟨d, hd, hsum⟩ := hin p hp
    obtain ⟨d', V, h1, h2, h3⟩ := h.vectors p hp
    have hlk := Dm.lookup_of_mem sub hst _ hd
    dsimp only at hlk
    rw [hlk] at h1
    cases h1
    exact ⟨d, V, hlk, (hsubv _ hd).2, h2, hsum.symm, h3⟩
  · intro J hJ i A hc hA
    have hA' := mem_of_size hA
    have hanc := couplesTo_ancestor hc
    have hi := Ops.ancestor_range hanc
    have hi' : i < T.builtin.sym.table.length := hi
    have hr := hv _ (List.getElem_mem hi')
    have htri : triangle T.builtin.sym.fields J A (T.builtin.sym.table[i]'hi').2 = true := by
      simp only [couplesTo, Bool.and_eq_true, List.getElem?_eq_getElem hi'] at hc
      exact hc.2
    have hJp := triangle_physical _ hgood A J _ (hph _ hA') hr.2 hJ htri
    have hJd : J = desc (types T.builtin.sym.fields) (T.builtin.sym.table[i]'hi').1 A := by
      refine desc_unique hr.1 (physical_valid (hph _ hA')) hJ ?_
      simp only [Symmetry.ancestor, List.getElem?_eq_getElem hi', Option.bind_eq_bind, Option.bind_some] at hanc
      rw [combine_comm _ _ _ hJ hr.1] at hanc
      exact (combine_eq_some_iff hr.1 hJ).1 hanc
    have hJs : J ∈ sub.map Prod.fst := by
      rw [hmem]
      exact ⟨physical_allowed hgood hJp, _, hA', _, newSubspaces_eq _ hv A (physical_valid (hph _ hA')),
        List.mem_map.2 ⟨_, List.getElem_mem hi', hJd.symm⟩⟩
    obtain ⟨e, he, rfl⟩ := List.mem_map.1 hJs
    obtain ⟨_, hd⟩ := dims_spec hv hJ (hsubv e he).2
    obtain ⟨B, b1, b2⟩ := hd i hi
    rw [hanc] at b1
    rw [← Option.some.inj b1, if_pos hc] at b2
    have hpos : 0 < e.2.sum := lt_of_lt_of_le hA (List.single_le_sum (by simp) _ (List.mem_of_getElem? b2))
    have hm : (e.1, e.2.sum) ∈ stateCounts diag := by
      rw [hfull]
      exact List.mem_map.2 ⟨e, List.mem_filter.2 ⟨he, by simpa using by omega⟩, rfl⟩
    obtain ⟨p, hp, hpe⟩ := List.mem_map.1 hm
    exact List.mem_map.2 ⟨p, hp, (Prod.mk.inj hpe).1⟩

/-! ### Such steps exist -/

/-- The eigenvectors are the basis vectors. -/
def idEig (𝕜 : Type) [RCLike 𝕜] (d : List Nat) : Eig 𝕜 :=
  ⟨(List.range d.length).map fun i => ⟨d.sum, d.getD i 0, fun a k => if a = (d.take i).sum + k then 1 else 0⟩, d.sum⟩

theorem idEig_rows (d : List Nat) : Ops.HoldsRows (idEig 𝕜 d) ⟨d.sum, d.sum, fun a x => if a = x then 1 else 0⟩ d := by
  refine ⟨le_rfl, rfl, by simp [idEig], ?_⟩
  intro i B hB
  simp only [idEig, List.getElem?_map, Option.map_eq_some_iff] at hB
  obtain ⟨i', hi, rfl⟩ := hB
  obtain ⟨hl, rfl⟩ := List.getElem?_eq_some_iff.1 hi
  simp only [List.length_range] at hl
  rw [List.getElem_range]
  refine ⟨rfl, ?_, fun a _ k _ => rfl⟩
  dsimp only
  rw [List.getD_eq_getElem?_getD, List.getElem?_eq_getElem hl]; rfl

theorem idEig_ortho (n a b : ℕ) (ha : a < n) :
    ∑ x ∈ range n, (if a = x then (1 : 𝕜) else 0) * star (if b = x then (1 : 𝕜) else 0) = if a = b then 1 else 0 := by
  rw [Finset.sum_eq_single a]
  · by_cases h : a = b
    · simp [h]
    · simp [h, Ne.symm h]
  · intro x _ hx; simp [Ne.symm hx]
  · intro h; exact absurd (Finset.mem_range.2 ha) h

/-- Whatever the states of the previous step. -/
theorem keepsAll_exists (T : OpTable) (hT : T ∈ opTables) (old : Sizes) (hn : (old.map Prod.fst).Nodup)
    (hl : ∀ q ∈ old, Symm.Physical T.builtin.sym.fields q.1 ∧ (T.builtin.symtype = "NONE" → q.1 = [0])) :
    ∃ (sub : List (Label × List Nat)), substruct T.builtin.sym old = some sub ∧
      KeepsAll (𝕜 := 𝕜) T old ((sub.filter fun e => e.2.sum != 0).map fun e => (e.1, idEig 𝕜 e.2)) sub := by
  have hB : T.builtin ∈ builtins := by
    have h : T.builtin ∈ opTables.map OpTable.builtin := List.mem_map_of_mem hT
    rw [tables_builtins, List.mem_filterMap] at h
    obtain ⟨i, _, hi⟩ := h
    exact List.mem_of_getElem? hi
  obtain ⟨sub, e1, hst, _, _, _⟩ := structure_complete T.builtin hB old hn fun q hq => (hl q hq).1
  refine ⟨sub, e1, hn, hl, e1, ?_, ?_⟩
  · simp only [fullStep, e1, Option.bind_eq_bind, Option.bind_some, Option.pure_def, stateCounts, List.map_map]
    rfl
  · intro p hp
    obtain ⟨e, he, rfl⟩ := List.mem_map.1 hp
    exact ⟨e.2, _, Dm.lookup_of_mem sub hst e (List.mem_filter.1 he).1, idEig_rows e.2,
      fun a ha b _ => idEig_ortho _ _ _ ha⟩

end Verif.Coef
