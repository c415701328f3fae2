import Verif.Sumrule.Spec
import Verif.Sumrule.Singlet
import Verif.Coef.Keep
/-!
# Scalar operators along the chain
-/

namespace Verif.Sumrule
open Verif.Invar Verif.Symm Verif.Mat Verif.Dm Finset
variable {𝕜 : Type} [RCLike 𝕜]

theorem lookup_mapM_key {β : Type} (f : (Label × Label) × Mat 𝕜 → Option β) :
    ∀ (l : Ops.Elements 𝕜) (r : List ((Label × Label) × β)),
    (l.mapM fun e => (f e).bind fun b => some (e.1, b)) = some r → ∀ k,
      r.lookup k = (l.lookup k).bind fun M => f (k, M)
  | [], r, h, k => by simp at h; subst h; rfl
  | e :: l, r, h, k => by
    rw [List.mapM_cons] at h
    simp only [Option.pure_def, Option.bind_eq_bind, Option.bind_eq_some_iff] at h
    obtain ⟨x, ⟨b, hb, hx⟩, rs, hrs, h⟩ := h
    cases hx
    cases h
    have ih := lookup_mapM_key f l rs hrs k
    obtain ⟨k', M⟩ := e
    by_cases hk : k = k'
    · subst hk; simp [List.lookup, hb]
    · have : (k == k') = false := by simpa using hk
      simp only [List.lookup, this]
      exact ih

/-- The blocks of a trimmed operator. -/
theorem trim_lookup {sizes : Sizes} {O O' : Ops.Elements 𝕜} (h : trimElements sizes O = some O') (k : Label × Label) :
    O'.lookup k = (O.lookup k).bind fun M => trim M (sizeSubspace sizes k.1) (sizeSubspace sizes k.2) :=
  lookup_mapM_key (fun e => trim e.2 (sizeSubspace sizes e.1.1) (sizeSubspace sizes e.1.2)) O O' h k

theorem trim_entries {M M' : Mat 𝕜} {n1 n2 : ℕ} (h : trim M n1 n2 = some M') : ∀ a b, M'.e a b = M.e a b := by
  obtain ⟨h1, h2⟩ := trim_spec M n1 n2
  by_cases h0 : M.r = 0 ∨ M.c = 0
  · rw [h1 h0] at h; cases h; exact fun _ _ => rfl
  · push Not at h0
    obtain ⟨h3, h4⟩ := h2 h0.1 h0.2
    by_cases hn : n1 ≤ M.r ∧ n2 ≤ M.c
    · obtain ⟨C, hC, _, _, he⟩ := h3 hn
      rw [hC] at h; cases h; exact he
    · rw [h4 hn] at h; cases h

theorem trim_size {M M' : Mat 𝕜} {n1 n2 : ℕ} (h : trim M n1 n2 = some M') (h0 : M.r ≠ 0) (h0' : M.c ≠ 0) : M'.r = n1 ∧ M'.c = n2 := by
  obtain ⟨h1, h2⟩ := trim_spec M n1 n2
  obtain ⟨h3, h4⟩ := h2 h0 h0'
  by_cases hn : n1 ≤ M.r ∧ n2 ≤ M.c
  · obtain ⟨C, hC, e1, e2, _⟩ := h3 hn
    rw [hC] at h; cases h; exact ⟨e1, e2⟩
  · rw [h4 hn] at h; cases h

theorem mem_of_lookup2 {β : Type} : ∀ (l : List ((Label × Label) × β)) (k : Label × Label) (v : β), l.lookup k = some v → (k, v) ∈ l
  | [], _, _, h => by simp at h
  | (k', w) :: l, k, v, h => by
    by_cases e : k = k'
    · subst e; simp [List.lookup] at h; simp [h]
    · have : (k == k') = false := by simpa using e
      simp only [List.lookup, this] at h
      exact List.mem_cons_of_mem _ (mem_of_lookup2 l k v h)

/-- A number of kept states. -/
theorem kept_le {s : Shell 𝕜} (hn : (s.diag.map Prod.fst).Nodup)
    (hs : ∀ p ∈ s.store, ∃ E, s.diag.lookup p.1 = some E ∧ p.2.kept ≤ E.nr) {q : Label × Eig 𝕜} (hq : q ∈ s.diag) :
    sizeSubspace (keptSizes s.store) q.1 ≤ q.2.nr := by
  unfold sizeSubspace
  cases h : (keptSizes s.store).lookup q.1 with
  | none => simp
  | some n =>
    obtain ⟨p, hp, hpe⟩ := List.mem_map.1 (Dm.mem_of_lookup _ _ _ h)
    obtain ⟨e1, e2⟩ := Prod.mk.inj hpe
    obtain ⟨E, hE, hle⟩ := hs p hp
    rw [e1, lookup_of_mem _ hn q hq] at hE
    cases hE
    simp only [Option.getD_some]
    omega

theorem substruct_lookup {S : Symmetry} {old : Sizes} {sub : List (Label × List ℕ)} (h : substruct S old = some sub) {J : Label}
    (hJ : J ∈ sub.map Prod.fst) : ∃ d, sub.lookup J = some d ∧ subspaceDims S old J = some d := by
  have hall : ∀ e ∈ sub, subspaceDims S old e.1 = some e.2 := by
    intro e he
    simp only [substruct, Option.bind_eq_bind, Option.pure_def] at h
    obtain ⟨ls, _, hs⟩ := Option.bind_eq_some_iff.1 h
    obtain ⟨i, hi⟩ := List.mem_iff_getElem?.1 he
    have hm := (Ops.mapM_getElem? _ _ _ hs).2 i
    rw [hi] at hm
    cases hls : ls[i]? with
    | none => rw [hls] at hm; simp at hm
    | some I =>
      rw [hls] at hm
      simp only [Option.bind_some] at hm
      obtain ⟨d, hd, he'⟩ := Option.bind_eq_some_iff.1 hm.symm
      cases he'
      exact hd
  cases hl : sub.lookup J with
  | none =>
    rw [List.lookup_eq_none_iff] at hl
    obtain ⟨e, he, rfl⟩ := List.mem_map.1 hJ
    have := hl e he
    simp at this
  | some d => exact ⟨d, rfl, hall _ (Dm.mem_of_lookup _ _ _ hl)⟩

theorem lookup_diagMap (N : Label × Eig 𝕜 → Mat 𝕜) : ∀ (l : DiagU 𝕜), (l.map Prod.fst).Nodup → ∀ {q}, q ∈ l →
    (l.map fun q => ((q.1, q.1), N q)).lookup (q.1, q.1) = some (N q)
  | [], _, _, hq => by simp at hq
  | x :: l, hn, q, hq => by
    simp only [List.map_cons, List.nodup_cons] at hn
    rcases List.mem_cons.1 hq with rfl | hq
    · simp [List.lookup]
    · have hx : ((q.1, q.1) == (x.1, x.1)) = false := by
        have : q.1 ≠ x.1 := fun h => hn.1 (by rw [← h]; exact List.mem_map_of_mem hq)
        simp [this]
      simp only [List.map_cons, List.lookup, hx]
      exact lookup_diagMap N l hn.2 hq

/-- Scalar operators stay scalar operators on all states, and are carried. -/
theorem carriedScalar_spec (B : Builtin) (hB : B ∈ builtins) (hne : B.symtype ≠ "SPSU2LR") {cur prev : FShell 𝕜 × Ops.Elements 𝕜}
    (hL : Linked B.sym prev.1.store cur.1.toShell) (hp : LabelsPhysical B.sym prev.1.toShell) (hc : LabelsPhysical B.sym cur.1.toShell)
    (hst : ∀ p ∈ prev.1.store, ∃ E, prev.1.diag.lookup p.1 = some E ∧ p.2.kept ≤ E.nr)
    (hO : ScalarOn prev.1.diag prev.2) (h : CarriedScalar B cur prev) :
    ScalarOn cur.1.diag cur.2 ∧ Carried B.sym cur.1.diag (diagonalOf prev.2) (diagonalOf cur.2) := by
  obtain ⟨sub, O', hsub, hin, htrim, hrec⟩ := h
  have hv := builtins_rowsValid B hB
  have hgood : ∀ f ∈ B.sym.fields, goodField f = true := by
    obtain ⟨ms, hdec⟩ := builtins_decompose B hB
    simp only [decomposes, Bool.and_eq_true, List.all_eq_true] at hdec
    exact hdec.1.1
  have hon : SingletOn (keptSizes prev.1.store) O' := by
    intro A M hM
    rw [trim_lookup htrim] at hM
    obtain ⟨M0, hM0, hM⟩ := Option.bind_eq_some_iff.1 hM
    obtain ⟨p, hp', e1, e2, e3⟩ := hO.sized _ (mem_of_lookup2 _ _ _ hM0)
    obtain ⟨rfl, _⟩ := Prod.mk.inj e1
    dsimp only at e2 e3 hM
    by_cases h0 : p.2.nr = 0
    · have := kept_le hp.1 hst hp'
      rw [(trim_spec M0 _ _).1 (Or.inl (by omega))] at hM
      cases hM
      omega
    · exact trim_size hM (by omega) (by omega)
  have hdg : diagonalOf O' = diagonalOf prev.2 → ∀ q ∈ cur.1.diag, ∃ M,
      Ops.recalcSinglet1 B.sym cur.1.diag sub O' ((Oper.invarSinglet.lookup B.symtype).getD []) q.1 = some (some M) ∧
      M.r = q.2.nr ∧ M.c = q.2.nr ∧
      ∀ k < q.2.nr, ∀ l < q.2.nr, M.e k l = carried B.sym q.2 q.1 (diagonalOf prev.2) k l := by
    intro hdo q hq
    have htri := Oper.singletOk_sound (Oper.builtins_singletOk B hB hne) (physical_valid (hc.2.1 q hq)) (by
      have := hc.2.1 q hq
      unfold Symm.Physical at this
      unfold Oper.Physical
      refine List.Forall₂.imp ?_ this
      intro f x h
      exact ⟨fun h' => h.2.1 h', h.2.2⟩)
    obtain ⟨s, hs, hok⟩ := hL.eigs q hq
    obtain ⟨d, hd1, hd2⟩ := substruct_lookup hsub (hin q hq)
    rw [hok.dims] at hd2
    cases hd2
    have := singlet_carried hv hL (fun p hp' => Coef.physical_allowed hgood (hp.2.2 p hp')) hon hq htri ⟨s, hs, hd1⟩
    rwa [hdo] at this
  have hdo : diagonalOf O' = diagonalOf prev.2 := by
    funext I a b
    unfold diagonalOf
    rw [trim_lookup htrim]
    cases hM : prev.2.lookup (I, I) with
    | none => rfl
    | some M =>
      obtain ⟨p, hp', e1, e2, e3⟩ := hO.sized _ (mem_of_lookup2 _ _ _ hM)
      obtain ⟨rfl, _⟩ := Prod.mk.inj e1
      dsimp only at e2 e3
      have hk := kept_le hp.1 hst hp'
      have : ∃ C, trim M (sizeSubspace (keptSizes prev.1.store) p.1) (sizeSubspace (keptSizes prev.1.store) p.1) = some C := by
        obtain ⟨t1, t2⟩ := trim_spec M (sizeSubspace (keptSizes prev.1.store) p.1) (sizeSubspace (keptSizes prev.1.store) p.1)
        by_cases h0 : p.2.nr = 0
        · exact ⟨M, t1 (Or.inl (by omega))⟩
        · obtain ⟨C, hC, _⟩ := (t2 (by omega) (by omega)).1 ⟨by omega, by omega⟩
          exact ⟨C, hC⟩
      obtain ⟨C, hC⟩ := this
      simp only [Option.bind_some]
      rw [hC]
      exact trim_entries hC a b
  have key := hdg hdo
  haveI : Nonempty (Mat 𝕜) := ⟨⟨0, 0, fun _ _ => 0⟩⟩
  choose! N hN1 hN2 hN3 hN4 using key
  have hval : cur.2 = cur.1.diag.map fun q => ((q.1, q.1), N q) := by
    unfold recalcSinglet at hrec
    rw [Symm.mapM_some _ _ (fun q : Label × Eig 𝕜 => [((q.1, q.1), N q)]) (by
      intro q hq
      rw [hN1 q hq]; rfl)] at hrec
    simp only [Option.bind_eq_bind, Option.bind_some, Option.pure_def, Option.some.injEq] at hrec
    rw [← hrec, ← List.flatMap_def]
    induction cur.1.diag with
    | nil => rfl
    | cons q l ih => simp [List.flatMap_cons, ih]
  have hlk : ∀ q ∈ cur.1.diag, cur.2.lookup (q.1, q.1) = some (N q) := by
    intro q hq
    rw [hval]
    exact lookup_diagMap N _ hc.1 hq
  refine ⟨⟨fun e he => ?_, fun p hp' => ?_⟩, ?_⟩
  · rw [hval] at he
    obtain ⟨q, hq, rfl⟩ := List.mem_map.1 he
    exact ⟨q, hq, rfl, hN2 q hq, hN3 q hq⟩
  · rw [hlk p hp']; rfl
  · intro p hp' k hk l hl
    unfold diagonalOf
    rw [hlk p hp']
    exact hN4 p hp' k hk l hl

end Verif.Sumrule
