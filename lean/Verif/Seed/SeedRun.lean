import Verif.Seed.Parse
import Mathlib.Algebra.Order.Field.Basic
/-! # Reading the subspaces and operators of a template -/

namespace Verif.Seed

open Verif.Text
open Verif.Invar (Label)
open Verif.DataFile

variable {K : Type} [Field K] [LinearOrder K]

/-! ## Subspaces -/

/-- What the program keeps of a subspace. -/
def TSub.run (f : K) (s : TSub K) : Sub K := ⟨s.q.body, labVal s.lab, s.dim, s.val.map (· * f), s.vec⟩

theorem evalFile_ok {C : Ctx K} {fn : Str} {m : Inst.Matrix K} (h : ∃ t, C.files fn = some t ∧ Inst.evaluateMatrix C.E t = .ok m) :
    C.evalFile fn = some m := by
  obtain ⟨t, h1, h2⟩ := h
  unfold Ctx.evalFile
  rw [h1]
  dsimp only
  rw [h2]

theorem readSub_ok {C : Ctx K} {s : TSub K} (h : s.OK C) (f : K) (done : List (Sub K)) (hd : labVal s.lab ∉ done.map (·.qn)) :
    readSub C f done s.q.body s.z.body s.d.body = some (s.run f) := by
  unfold readSub
  rw [h.qBody, parseInvar_line h.lab]
  dsimp only
  rw [parseSize_digits h.lns.2.1.ne h.zBody.1 h.zBody.2 h.dim.2]
  dsimp only
  rw [if_neg (by have := h.dim.1; omega), h.dBody, diagFile_line h.gap h.file h.tail]
  dsimp only
  rw [evalFile_ok h.eval]
  dsimp only
  rw [if_pos ⟨rfl, rfl⟩, h.diag]
  dsimp only
  rw [if_neg hd, ← h.qBody]
  rfl

theorem junk_three (s : TSub K) (sc : Option K) (out : Str) :
    scaleAfter s.d.pre (scaleAfter s.z.pre (scaleAfter s.q.pre sc)) = scaleAfter s.junk sc ∧
      out ++ comText s.q.pre ++ comText s.z.pre ++ comText s.d.pre = out ++ comText s.junk := by
  unfold TSub.junk
  rw [scaleAfter_append, scaleAfter_append, comText_append, comText_append]
  exact ⟨rfl, by simp⟩

theorem seedLoop_step {C : Ctx K} {s : TSub K} (h : s.OK C) (n : Nat) (fac : Option K) (done : List (Sub K)) (rest : List Str) (sc : Option K)
    (out : Str) (f : K) (hf : (match fac with | some f => some f | none => factor (scaleAfter s.junk sc)) = some f)
    (hd : labVal s.lab ∉ done.map (·.qn)) :
    seedLoop C (n + 1) fac done ⟨s.lines ++ rest, sc, out⟩ =
      seedLoop C n (some f) (done ++ [s.run f]) ⟨rest, scaleAfter s.junk sc, out ++ comText s.junk⟩ := by
  have e : s.lines ++ rest = s.q.lines ++ (s.z.lines ++ (s.d.lines ++ rest)) := by simp [TSub.lines]
  rw [seedLoop.eq_def]
  dsimp only
  rw [e, stnext_ln s.q h.lns.1]
  dsimp only
  rw [stnext_ln s.z h.lns.2.1]
  dsimp only
  rw [stnext_ln s.d h.lns.2.2]
  dsimp only
  rw [(junk_three s sc out).1, (junk_three s sc out).2]
  cases fac with
  | none =>
    dsimp only at hf ⊢
    rw [hf]
    dsimp only
    rw [readSub_ok h f done hd]
  | some g =>
    cases hf
    dsimp only
    rw [readSub_ok h f done hd]

theorem seedLoop_rest {C : Ctx K} (l : List (TSub K)) (h : ∀ s ∈ l, s.OK C) (f : K) (done : List (Sub K))
    (hd : (done.map (·.qn) ++ l.map fun s => labVal s.lab).Nodup) (rest : List Str) (sc : Option K) (out : Str) :
    seedLoop C l.length (some f) done ⟨l.flatMap TSub.lines ++ rest, sc, out⟩ =
      some (some f, done ++ l.map (TSub.run f), ⟨rest, scaleAfter (l.flatMap TSub.junk) sc, out ++ comText (l.flatMap TSub.junk)⟩) := by
  induction l generalizing done sc out with
  | nil => simp [seedLoop, scaleAfter, comText, coms]
  | cons s l ih =>
    have hs : labVal s.lab ∉ done.map (·.qn) := by
      intro hm
      rw [List.map_cons, List.nodup_append] at hd
      exact hd.2.2 _ hm _ (by simp) rfl
    rw [List.length_cons, List.flatMap_cons, List.append_assoc, seedLoop_step (h s (by simp)) _ (some f) done _ sc out f rfl hs]
    rw [ih (fun x hx => h x (by simp [hx]))]
    · rw [List.flatMap_cons, scaleAfter_append, comText_append]
      simp
    · rw [List.map_append, List.append_assoc]
      simpa [TSub.run] using hd

variable [IsStrictOrderedRing K]

theorem factor_pos {x : K} (h : 0 < x) : factor (some x) = some (1 / x) := by
  unfold factor
  dsimp only
  rw [if_pos h]

omit [IsStrictOrderedRing K] in
theorem seedLoop_all {C : Ctx K} (l : List (TSub K)) (hne : l ≠ []) (h : ∀ s ∈ l, s.OK C) (hd : (l.map fun s => labVal s.lab).Nodup) {x : K} (hx : 0 < x)
    (rest : List Str) (sc : Option K) (hsc : ∀ s ∈ l.head?, scaleAfter s.junk sc = some x) (out : Str) :
    seedLoop C l.length none [] ⟨l.flatMap TSub.lines ++ rest, sc, out⟩ =
      some (some (1 / x), l.map (TSub.run (1 / x)), ⟨rest, scaleAfter (l.flatMap TSub.junk) sc, out ++ comText (l.flatMap TSub.junk)⟩) := by
  cases l with
  | nil => exact absurd rfl hne
  | cons s l =>
    have hs := hsc s (by simp)
    have hf : factor (scaleAfter s.junk sc) = some (1 / x) := by
      rw [hs]
      unfold factor
      dsimp only
      rw [if_pos hx]
    rw [List.length_cons, List.flatMap_cons, List.append_assoc, seedLoop_step (h s (by simp)) _ none [] _ sc out (1 / x) hf (by simp)]
    rw [seedLoop_rest l (fun y hy => h y (by simp [hy])) (1 / x) _ (by simpa [TSub.run] using hd)]
    rw [List.flatMap_cons, scaleAfter_append, comText_append]
    simp

omit [IsStrictOrderedRing K] in
theorem head_le {l : List K} (h : l.Pairwise (· ≤ ·)) {e : K} (he : l.head? = some e) : ∀ x ∈ l, e ≤ x := by
  cases l with
  | nil => simp at he
  | cons a l =>
    simp only [List.head?_cons, Option.some.injEq] at he
    subst he
    intro x hx
    rcases List.mem_cons.1 hx with rfl | hx
    · exact le_refl _
    · exact (List.pairwise_cons.1 h).1 x hx

/-- The smallest energy is that of the ground state. -/
theorem smallest_ground {f : K} (hf : 0 < f) (l : List (TSub K)) (hne : l ≠ []) (hs : ∀ s ∈ l, s.val.Pairwise (· ≤ ·) ∧ s.val ≠ []) :
    ∃ e, smallest (l.map (TSub.run f)) = some (e * f) ∧ IsGround l e := by
  induction l with
  | nil => exact absurd rfl hne
  | cons s l ih =>
    have h0 := hs s (by simp)
    obtain ⟨a, r, ha⟩ : ∃ a r, s.val = a :: r := List.exists_cons_of_ne_nil h0.2
    have hlow : ∀ x ∈ s.val, a ≤ x := head_le h0.1 (by rw [ha]; rfl)
    have hh : (s.run f).val.head? = some (a * f) := by unfold TSub.run; rw [ha]; rfl
    rw [List.map_cons, smallest, hh]
    by_cases hl : l = []
    · subst hl
      refine ⟨a, rfl, ⟨s, by simp, by rw [ha]; simp⟩, ?_⟩
      intro t ht
      simp at ht; subst ht
      exact hlow
    · obtain ⟨e, h1, h2, h3⟩ := ih hl fun t ht => hs t (by simp [ht])
      rw [h1]
      refine ⟨min a e, ?_, ?_, ?_⟩
      · dsimp only
        rw [min_mul_of_nonneg _ _ hf.le]
      · rcases le_total a e with hae | hae
        · rw [min_eq_left hae]
          exact ⟨s, by simp, by rw [ha]; simp⟩
        · rw [min_eq_right hae]
          obtain ⟨t, ht, het⟩ := h2
          exact ⟨t, by simp [ht], het⟩
      · intro t ht x hx
        rcases List.mem_cons.1 ht with rfl | ht
        · exact le_trans (min_le_left _ _) (hlow x hx)
        · exact le_trans (min_le_right _ _) (h3 t ht x hx)

/-! ## Operators -/

omit [IsStrictOrderedRing K] in
theorem lit_head_ne_o {l : Lit} (h : l.OK) (r : Str) : (l.text ++ r).head? ≠ some 'o' := by
  obtain ⟨c, t, ht, -, -⟩ := Table.lit_head h
  rw [ht]
  intro hc
  simp only [List.cons_append, List.head?_cons, Option.some.injEq] at hc
  subst hc
  obtain ⟨neg, ip, fp, ex⟩ := l
  obtain ⟨h1, h2, h3, -⟩ := h
  unfold Lit.text at ht
  cases neg with
  | true => simp at ht
  | false =>
    cases ip with
    | cons c ip =>
      simp at ht
      have := h1 c (by simp)
      rw [ht.1] at this
      exact absurd this (by decide)
    | nil =>
      cases fp with
      | none => simp [Lit.frac] at h3
      | some f => simp at ht

omit [IsStrictOrderedRing K] in
theorem readMatrix_ok {C : Ctx K} {m : TMat K} {r c : Nat} (hr : 0 < r) (hc : 0 < c) (h : m.OK C r c) (rest : List Str) (sc : Option K) (out : Str) :
    ∃ first s, St.next ⟨lnLines m.lns ++ rest, sc, out⟩ = (some first, s) ∧
      readMatrix C first r c s = some (m.mat, ⟨rest, scaleAfter (junks m.lns) sc, out ++ comText (junks m.lns)⟩) := by
  cases m with
  | file l m =>
    obtain ⟨h1, h2, h3⟩ := h
    have e : lnLines (TMat.file l m).lns = l.lines := by simp [lnLines, TMat.lns]
    have e2 : junks (TMat.file l m).lns = l.pre := by simp [junks, TMat.lns]
    rw [e, e2, stnext_ln l h1]
    refine ⟨_, _, rfl, ?_⟩
    unfold readMatrix
    rw [if_pos h2, evalFile_ok h3]
    dsimp only
    rw [if_pos ⟨rfl, rfl⟩]
    rfl
  | inline ls =>
    obtain ⟨h1, h2⟩ := h
    cases ls with
    | nil => simp at h1; omega
    | cons p ls =>
      have e : lnLines (TMat.inline (K := K) (p :: ls)).lns ++ rest = p.1.lines ++ (lnLines (ls.map (·.1)) ++ rest) := by simp [lnLines, TMat.lns]
      have e2 : junks (TMat.inline (K := K) (p :: ls)).lns = p.1.pre ++ junks (ls.map (·.1)) := rfl
      obtain ⟨a1, a2, a3, a4, a5⟩ := h2 p (by simp)
      rw [e, e2, stnext_ln p.1 a1]
      refine ⟨_, _, rfl, ?_⟩
      unfold readMatrix
      have hne : ¬ p.1.body.head? = some 'o' := by
        rw [a2]
        cases hp : p.2 with
        | nil => rw [hp] at a3; simp at a3; omega
        | cons t ts =>
          have := lit_head_ne_o (a5 t (by rw [hp]; simp)) (ts.flatMap numText)
          simpa [atStart, numText] using this
      have hlen : r - 1 = (ls.map (·.1)).length := by simp at h1 ⊢; omega
      rw [if_neg hne, hlen, moreLines_lns _ (by
        intro l hl
        obtain ⟨q, hq, rfl⟩ := List.mem_map.1 hl
        exact (h2 q (by simp [hq])).1)]
      dsimp only
      have := inlineMatrix_rows (K := K) (p :: ls) c h2
      have e3 : p.1.body :: (ls.map (·.1)).map Ln.body = (p :: ls).map fun p => p.1.body := by simp
      rw [e3, this]
      dsimp only
      rw [scaleAfter_append, comText_append, List.append_assoc]
      rfl

omit [IsStrictOrderedRing K] in
/-- The subspace with given quantum numbers is found. -/
theorem findSub_ok {f : K} {subs : List (TSub K)} (hd : (subs.map fun s => labVal s.lab).Nodup) {s : TSub K} (hs : s ∈ subs) {I : Label}
    (h : labVal s.lab = I) : findSub (subs.map (TSub.run f)) I = some (s.run f) := by
  subst h
  unfold findSub
  induction subs with
  | nil => simp at hs
  | cons t subs ih =>
    rw [List.map_cons, List.nodup_cons] at hd
    rw [List.map_cons]
    rcases List.mem_cons.1 hs with rfl | hs
    · rw [List.find?_cons_of_pos (by simp [TSub.run])]
    · rw [List.find?_cons_of_neg, ih hd.2 hs]
      simp only [TSub.run, decide_eq_true_eq]
      intro he
      exact hd.1 (List.mem_map.2 ⟨s, hs, (of_decide_eq_true he : labVal t.lab = labVal s.lab).symm⟩)

/-- The matrix elements that are written: between the eigenstates. -/
def elemMat (s1 s2 : TSub K) (m : List (List K)) : List (List K) :=
  (List.range s1.dim).map fun i => (List.range s2.dim).map fun j => between s1 s2 (entry m) i j

omit [LinearOrder K] [IsStrictOrderedRing K] in
theorem transformed_eq (f : K) (s1 s2 : TSub K) (m : List (List K)) : transformed (s1.run f) (s2.run f) m = elemMat s1 s2 m := by
  unfold transformed elemMat between TSub.run
  dsimp only
  refine List.map_congr_left fun i _ => List.map_congr_left fun j _ => ?_
  refine Finset.sum_congr rfl fun a _ => ?_
  rw [Finset.mul_sum]
  exact Finset.sum_congr rfl fun b _ => by rw [mul_assoc]

/-- `w` are the elements that belong to `e`, with the line of quantum numbers. -/
def Elem (subs : List (TSub K)) (e : TElem K) (w : Str × List (List K)) : Prop :=
  w.1 = e.p.body ∧ ∃ s1 ∈ subs, ∃ s2 ∈ subs, labVal s1.lab = labVal e.lab1 ∧ labVal s2.lab = labVal e.lab2 ∧ w.2 = elemMat s1 s2 e.src.mat

omit [IsStrictOrderedRing K] in
theorem elemLoop_ok {C : Ctx K} {d : Seed K} {f : K} {subs : List (TSub K)} (hsub : d.subs = subs.map (TSub.run f)) (hd : (subs.map fun s => labVal s.lab).Nodup)
    (hS : ∀ s ∈ subs, s.OK C) (els : List (TElem K)) (h : ∀ e ∈ els, e.OK C subs) (rest : List Str) (sc : Option K) (out : Str) :
    ∃ ws, elemLoop C d els.length ⟨lnLines (els.flatMap TElem.lns) ++ rest, sc, out⟩ =
      some (ws, ⟨rest, scaleAfter (junks (els.flatMap TElem.lns)) sc, out ++ comText (junks (els.flatMap TElem.lns))⟩) ∧
      List.Forall₂ (Elem subs) els ws := by
  induction els generalizing sc out with
  | nil => exact ⟨[], by simp [elemLoop, lnLines, junks, scaleAfter, comText, coms], .nil⟩
  | cons e els ih =>
    obtain ⟨h1, h2, h3, h4, h5, s1, hs1, s2, hs2, h6, h7, h8⟩ := h e (by simp)
    have el : lnLines ((e :: els).flatMap TElem.lns) ++ rest = e.p.lines ++ (lnLines e.src.lns ++ (lnLines (els.flatMap TElem.lns) ++ rest)) := by
      simp [lnLines, TElem.lns]
    have ej : junks ((e :: els).flatMap TElem.lns) = e.p.pre ++ (junks e.src.lns ++ junks (els.flatMap TElem.lns)) := by
      simp [junks, TElem.lns]
    rw [List.length_cons, elemLoop, el, stnext_ln e.p h1]
    dsimp only
    rw [h2, parsePair_line h3 h4 h5]
    dsimp only
    rw [hsub, findSub_ok hd hs1 h6, findSub_ok hd hs2 h7]
    dsimp only
    obtain ⟨first, st, h9, h10⟩ := readMatrix_ok (hS s1 hs1).dim.1 (hS s2 hs2).dim.1 h8 (lnLines (els.flatMap TElem.lns) ++ rest)
      (scaleAfter e.p.pre sc) (out ++ comText e.p.pre)
    rw [h9]
    dsimp only
    rw [show (s1.run f).dim = s1.dim from rfl, show (s2.run f).dim = s2.dim from rfl, h10]
    dsimp only
    obtain ⟨ws, h11, h12⟩ := ih (fun x hx => h x (by simp [hx])) (scaleAfter (junks e.src.lns) (scaleAfter e.p.pre sc))
      (out ++ comText e.p.pre ++ comText (junks e.src.lns))
    rw [h11]
    dsimp only
    rw [transformed_eq]
    refine ⟨(e.p.body, elemMat s1 s2 e.src.mat) :: ws, ?_, .cons ⟨rfl, s1, hs1, s2, hs2, h6, h7, rfl⟩ h12⟩
    rw [ej, ← h2, scaleAfter_append, scaleAfter_append, comText_append, comText_append]
    simp

omit [IsStrictOrderedRing K] in
theorem readElems_ok {C : Ctx K} {d : Seed K} {f : K} {subs : List (TSub K)} (hsub : d.subs = subs.map (TSub.run f)) (hd : (subs.map fun s => labVal s.lab).Nodup)
    (hS : ∀ s ∈ subs, s.OK C) {o : TOp K} (h : o.OK C subs) (rest : List Str) (sc : Option K) (out : Str) :
    ∃ ws, readElems C d ⟨lnLines (o.c :: o.els.flatMap TElem.lns) ++ rest, sc, out⟩ =
      some (ws, ⟨rest, scaleAfter (junks (o.c :: o.els.flatMap TElem.lns)) sc, out ++ comText (junks (o.c :: o.els.flatMap TElem.lns))⟩) ∧
      List.Forall₂ (Elem subs) o.els ws := by
  obtain ⟨-, h2, h3, h4, h5, h6, -⟩ := h
  have el : lnLines (o.c :: o.els.flatMap TElem.lns) ++ rest = o.c.lines ++ (lnLines (o.els.flatMap TElem.lns) ++ rest) := by simp [lnLines]
  have ej : junks (o.c :: o.els.flatMap TElem.lns) = o.c.pre ++ junks (o.els.flatMap TElem.lns) := rfl
  obtain ⟨ws, h11, h12⟩ := elemLoop_ok hsub hd hS o.els h6 rest (scaleAfter o.c.pre sc) (out ++ comText o.c.pre)
  refine ⟨ws, ?_, h12⟩
  unfold readElems
  rw [el, stnext_ln o.c h2]
  dsimp only
  rw [parseSize_digits h2.ne h3 h4 h5]
  dsimp only
  rw [h11, ej, scaleAfter_append, comText_append, List.append_assoc]

end Verif.Seed
