import Verif.Hop.CheckA
import Verif.Hop.CheckB
import Verif.Hop.CheckC
import Verif.Hop.CheckD
import Verif.Symm.Props
/-!
# Lemmas on the hopping tables
-/

namespace Verif.Hop
open Verif.Invar Verif.Symm Verif.Subspaces

theorem hams_builtins : hams.map Ham.builtin = builtins := rfl

theorem builtin_mem {H : Ham} (hH : H ∈ hams) : H.builtin ∈ builtins := by
  rw [← hams_builtins]; exact List.mem_map_of_mem hH

theorem rowsValid_of_ham {H : Ham} (hH : H ∈ hams) : RowsValid H.builtin.sym := by
  obtain ⟨ms, h⟩ := builtins_decompose H.builtin (builtin_mem hH)
  exact rowsValid_of_decomposes _ ms h

theorem rowsOk_of_mem {H : Ham} (hH : H ∈ hams) {b : FBlock} (hb : b ∈ H.blocks) :
    Valid (types H.builtin.sym.fields) b.shift ∧ b.ch < H.builtin.channels ∧
    b.fnr < perchannel H.builtin.symtype ∧
    ∀ p ∈ b.rows, H.Index p.1 ∧ H.Index p.2 ∧ H.ConnectedBy b p.2 p.1 := by
  have h := List.all_eq_true.1 hams_rowsOk H hH
  have h := List.all_eq_true.1 h b hb
  simp only [Bool.and_eq_true, decide_eq_true_eq, validB_iff] at h
  obtain ⟨h1, h2, h3, h4⟩ := h
  refine ⟨h1, h2, h3, fun p hp => ?_⟩
  have h5 := List.all_eq_true.1 h4 p hp
  simp only [Bool.and_eq_true, decide_eq_true_eq, connected_iff] at h5
  exact h5

theorem hopsOk_of_mem {H : Ham} (hH : H ∈ hams) {T : HamTable} (hT : T ∈ H.variants) {g : HopGroup}
    (hg : g ∈ T.hops) : g.ch < H.builtin.channels ∧ g.fnr < perchannel H.builtin.symtype ∧
    ∀ p ∈ g.pairs, H.Index p.1 ∧ H.Index p.2 ∧ p.1 ≠ p.2 ∧
      ∃ b ∈ H.blocks, b.ch = g.ch ∧ b.fnr = g.fnr ∧ H.ConnectedBy b p.1 p.2 := by
  have h := List.all_eq_true.1 hams_hopsOk H hH
  have h := List.all_eq_true.1 h T hT
  have h := List.all_eq_true.1 h g hg
  simp only [Bool.and_eq_true, decide_eq_true_eq] at h
  obtain ⟨h1, h2, h3⟩ := h
  refine ⟨h1, h2, fun p hp => ?_⟩
  have h4 := List.all_eq_true.1 h3 p hp
  simp only [Bool.and_eq_true, decide_eq_true_eq, Bool.not_eq_true', beq_eq_false_iff_ne, List.any_eq_true,
    beq_iff_eq, connected_iff] at h4
  exact h4

/-- Compose the label relation between combinations with a label. -/
theorem anc_connected {H : Ham} (hH : H ∈ hams) {b : FBlock} (hb : b ∈ H.blocks) {i j : Nat}
    (hc : H.ConnectedBy b i j) {I : Label} (hI : Valid (types H.builtin.sym.fields) I) {ri rj : Label × Label}
    (hri : H.builtin.sym.table[i - 1]? = some ri) (hrj : H.builtin.sym.table[j - 1]? = some rj) :
    combine (types H.builtin.sym.fields) b.shift (anc H.builtin.sym I rj) = some (anc H.builtin.sym I ri) := by
  obtain ⟨x, y, hx, hy, hxy⟩ := hc
  simp only [Ham.inLabel] at hx hy
  split at hx
  · cases hx
  split at hy
  · cases hy
  rw [hri] at hx
  rw [hrj] at hy
  simp only [Option.map_some, Option.some.injEq] at hx hy
  subst hx hy
  have hv := rowsValid_of_ham hH
  have vi := (hv ri (List.mem_of_getElem? hri)).1
  have vj := (hv rj (List.mem_of_getElem? hrj)).1
  have vs := (rowsOk_of_mem hH hb).1
  obtain ⟨ci, hi1, hi2, hi3⟩ := combine_valid vi hI
  obtain ⟨cj, hj1, hj2, hj3⟩ := combine_valid vj hI
  have h1 := (combine_eq_some_iff vs vj).1 hxy
  simp only [anc, hi1, hj1, Option.getD_some]
  obtain ⟨c, hc1, hc2, hc3⟩ := combine_valid vs hj2
  rw [hc1, compose_unique hc3 (compose_assoc h1 hi3 hj3)]

theorem recalcBlock_some {H : Ham} (hH : H ∈ hams) (diag : Sizes) {Ip : Label}
    (hI : Valid (types H.builtin.sym.fields) Ip) {b : FBlock} (hb : b ∈ H.blocks) :
    ∃ r, recalcBlock H diag Ip b = some r := by
  obtain ⟨c, h, _⟩ := combine_valid (rowsOk_of_mem hH hb).1 hI
  exact ⟨_, by simp only [recalcBlock, h, Option.bind_eq_bind, Option.bind_some]; rfl⟩

theorem mapM_exists {α β} (l : List α) (f : α → Option β) (h : ∀ a ∈ l, ∃ b, f a = some b) :
    ∃ r, l.mapM f = some r ∧ (∀ a ∈ l, ∀ b, f a = some b → b ∈ r) ∧ ∀ b ∈ r, ∃ a ∈ l, f a = some b := by
  induction l with
  | nil => exact ⟨[], rfl, by simp, by simp⟩
  | cons a l ih =>
    obtain ⟨b, hb⟩ := h a (by simp)
    obtain ⟨r, hr, h1, h2⟩ := ih fun a ha => h a (by simp [ha])
    refine ⟨b :: r, by simp [List.mapM_cons, hb, hr], ?_, ?_⟩
    · intro x hx y hy
      rcases List.mem_cons.1 hx with rfl | hx
      · rw [hb] at hy; cases hy; simp
      · exact List.mem_cons_of_mem _ (h1 x hx y hy)
    · intro y hy
      rcases List.mem_cons.1 hy with rfl | hy
      · exact ⟨a, by simp, hb⟩
      · obtain ⟨x, hx, hxy⟩ := h2 y hy
        exact ⟨x, by simp [hx], hxy⟩

/-- `recalc_irreduc` succeeds, and these are the matrices it stores. -/
theorem recalcIrreduc_spec {H : Ham} (hH : H ∈ hams) (diag : Sizes)
    (hd : ∀ p ∈ diag, Valid (types H.builtin.sym.fields) p.1) :
    ∃ opch, recalcIrreduc H diag = some opch ∧
      ∀ e, e ∈ opch ↔ ∃ p ∈ diag, ∃ b ∈ H.blocks,
        combine (types H.builtin.sym.fields) b.shift p.1 = some e.bra ∧ haveStored H diag e.bra p.1 = true ∧
        e = ⟨b.ch, b.fnr, e.bra, p.1, sizeSubspace diag e.bra, sizeSubspace diag p.1⟩ := by
  have hin : ∀ p ∈ diag, ∃ m, (do let m ← H.blocks.mapM (recalcBlock H diag p.1); pure m.flatten : Option (List FEntry))
      = some m ∧ ∀ e, e ∈ m ↔ ∃ b ∈ H.blocks,
        combine (types H.builtin.sym.fields) b.shift p.1 = some e.bra ∧ haveStored H diag e.bra p.1 = true ∧
        e = ⟨b.ch, b.fnr, e.bra, p.1, sizeSubspace diag e.bra, sizeSubspace diag p.1⟩ := by
    intro p hp
    obtain ⟨r, hr, h1, h2⟩ := mapM_exists H.blocks (recalcBlock H diag p.1)
      fun b hb => recalcBlock_some hH diag (hd p hp) hb
    refine ⟨r.flatten, by simp [hr], fun e => ?_⟩
    rw [List.mem_flatten]
    constructor
    · rintro ⟨l, hl, he⟩
      obtain ⟨b, hb, hbl⟩ := h2 l hl
      obtain ⟨c, hc, _⟩ := combine_valid (rowsOk_of_mem hH hb).1 (hd p hp)
      simp only [recalcBlock, hc, Option.bind_eq_bind, Option.bind_some, Option.pure_def, Option.some.injEq] at hbl
      subst hbl
      split at he
      · rename_i hs
        rw [List.mem_singleton] at he
        subst he
        exact ⟨b, hb, hc, hs, rfl⟩
      · cases he
    · rintro ⟨b, hb, hc, hs, he⟩
      refine ⟨[e], h1 b hb _ ?_, by simp⟩
      simp only [recalcBlock, hc, Option.bind_eq_bind, Option.bind_some, Option.pure_def, if_pos hs]
      rw [← he]
  obtain ⟨r, hr, h1, h2⟩ := mapM_exists diag
    (fun p => (do let m ← H.blocks.mapM (recalcBlock H diag p.1); pure m.flatten : Option (List FEntry)))
    fun p hp => (hin p hp).imp fun m hm => hm.1
  refine ⟨r.flatten, by unfold recalcIrreduc; rw [hr]; rfl, fun e => ?_⟩
  rw [List.mem_flatten]
  constructor
  · rintro ⟨l, hl, he⟩
    obtain ⟨p, hp, hpl⟩ := h2 l hl
    obtain ⟨m, hm, hm2⟩ := hin p hp
    rw [hm] at hpl
    cases hpl
    exact ⟨p, hp, (hm2 e).1 he⟩
  · rintro ⟨p, hp, hx⟩
    obtain ⟨m, hm, hm2⟩ := hin p hp
    exact ⟨m, h1 p hp m hm, (hm2 e).2 hx⟩

theorem mem_of_size_pos {diag : Sizes} {I : Label} (h : 0 < sizeSubspace diag I) : ∃ p ∈ diag, p.1 = I := by
  unfold sizeSubspace at h
  cases hl : diag.lookup I with
  | none => rw [hl] at h; simp at h
  | some n => exact ⟨(I, n), Dm_mem diag I n hl, rfl⟩
where
  Dm_mem (diag : Sizes) (I : Label) (n : Nat) (h : diag.lookup I = some n) : (I, n) ∈ diag := by
    induction diag with
    | nil => cases h
    | cons p l ih =>
      obtain ⟨a, b⟩ := p
      rw [List.lookup_cons] at h
      split at h
      · rename_i he
        cases h
        have : I = a := by simpa using he
        subst this
        simp
      · exact List.mem_cons_of_mem _ (ih h)

/-- Look-up of a stored matrix. -/
theorem findF_recalc {H : Ham} (hH : H ∈ hams) {diag : Sizes}
    (hd : ∀ p ∈ diag, Valid (types H.builtin.sym.fields) p.1) {opch : List FEntry}
    (ho : recalcIrreduc H diag = some opch) {b : FBlock} (hb : b ∈ H.blocks) {I1 Ip : Label}
    (hc : combine (types H.builtin.sym.fields) b.shift Ip = some I1)
    (h1 : 0 < sizeSubspace diag I1) (hp : 0 < sizeSubspace diag Ip) (hcp : recalcFCoupled H I1 Ip = true) :
    findF opch b.ch b.fnr I1 Ip =
      some ⟨b.ch, b.fnr, I1, Ip, sizeSubspace diag I1, sizeSubspace diag Ip⟩ := by
  obtain ⟨o, ho', hm⟩ := recalcIrreduc_spec hH diag hd
  rw [ho] at ho'
  cases ho'
  have hin : (⟨b.ch, b.fnr, I1, Ip, sizeSubspace diag I1, sizeSubspace diag Ip⟩ : FEntry) ∈ opch := by
    obtain ⟨p, hpd, hpe⟩ := mem_of_size_pos hp
    subst hpe
    exact (hm _).2 ⟨p, hpd, b, hb, hc, by simp [haveStored, hcp, h1, hp], rfl⟩
  unfold findF
  cases hf : opch.find? fun e => e.ch == b.ch && e.fnr == b.fnr && e.bra == I1 && e.ket == Ip with
  | none =>
    have := List.find?_eq_none.1 hf _ hin
    simp at this
  | some e =>
    have hp2 := List.find?_some hf
    have hme := List.mem_of_find?_eq_some hf
    simp only [Bool.and_eq_true, beq_iff_eq] at hp2
    obtain ⟨⟨⟨e1, e2⟩, e3⟩, e4⟩ := hp2
    obtain ⟨p, _, b', _, _, _, he⟩ := (hm e).1 hme
    obtain ⟨ech, efnr, ebra, eket, er, ec⟩ := e
    simp only [FEntry.mk.injEq] at he e1 e2 e3 e4
    obtain ⟨_, _, _, k1, k2, k3⟩ := he
    subst e1 e2 e3 e4 k2 k3
    rw [k1]

/-- The value of `subspaceDims`, entry by entry. -/
theorem dims_get {H : Ham} (hH : H ∈ hams) {diag : Sizes} {I : Label}
    (hI : Valid (types H.builtin.sym.fields) I) {dims : Dims}
    (hdim : subspaceDims H.builtin.sym diag I = some dims) :
    dims.length = H.builtin.sym.combs ∧ ∀ (k : Nat) (r : Label × Label), H.builtin.sym.table[k]? = some r → dims[k]? =
      some (if triangle H.builtin.sym.fields I (anc H.builtin.sym I r) r.2
        then sizeSubspace diag (anc H.builtin.sym I r) else 0) := by
  rw [subspaceDims_eq _ (rowsValid_of_ham hH) diag I hI] at hdim
  cases hdim
  exact ⟨by simp [Symmetry.combs], fun k r hr => by simp [hr]⟩

theorem index_row {H : Ham} {i : Nat} (h : H.Index i) : ∃ r, H.builtin.sym.table[i - 1]? = some r :=
  ⟨_, List.getElem?_eq_getElem (by have := h.1; have := h.2; unfold Symmetry.combs at this; omega)⟩

/-- The value of `offdiag_contributes` for valid different indices. -/
theorem contributes_eq {d : Dims} {i j m n : Nat} (hi : 1 ≤ i) (hj : 1 ≤ j) (hne : i ≠ j)
    (hm : d[i - 1]? = some m) (hn : d[j - 1]? = some n) :
    offdiagContributes d i j = some (decide (0 < m) && decide (0 < n)) := by
  have h1 : i - 1 < d.length := by
    rw [List.getElem?_eq_some_iff] at hm; exact hm.1
  have h2 : j - 1 < d.length := by
    rw [List.getElem?_eq_some_iff] at hn; exact hn.1
  have h3 : 1 ≤ i ∧ i ≤ d.length ∧ 1 ≤ j ∧ j ≤ d.length := by omega
  simp [offdiagContributes, h3, hne, exists', hm, hn]

end Verif.Hop
