import Verif.Seed.SeedRun
/-! # Reading the rest of a template -/

namespace Verif.Seed

open Verif.Text
open Verif.Invar (Label)
open Verif.DataFile

variable {K : Type} [Field K] [LinearOrder K]

/-- What is written for the operators of the chain. -/
inductive ChainOut (C : Ctx K) (subs : List (TSub K)) : List (TChain K) → Str → Prop
  | nil : ChainOut C subs [] []
  | cons {f : TChain K} {l : List (TChain K)} {ws : List (Str × List (List K))} {s : Str} :
    List.Forall₂ (Elem subs) f.op.els ws → ChainOut C subs l s →
      ChainOut C subs (f :: l) (comText (junks f.op.lns) ++ (elemsText C f.op.h.body ws ++ s))

/-- What is written for the blocks; `g` is the energy of the ground state. -/
inductive BlockOut (C : Ctx K) (subs : List (TSub K)) (g : K) : List (TBlock K) → Str → Prop
  | nil : BlockOut C subs g [] []
  | energy {h x : Ln} {l : List (TBlock K)} {s : Str} : BlockOut C subs g l s →
      BlockOut C subs g (.energy h x :: l) (comText (junks [h, x]) ++ (("e\n".toList ++ (C.fmt 18 g ++ ['\n'])) ++ s))
  | oper {k : Char} {n : Str} {o : TOp K} {l : List (TBlock K)} {ws : List (Str × List (List K))} {s : Str} :
    List.Forall₂ (Elem subs) o.els ws → BlockOut C subs g l s →
      BlockOut C subs g (.oper k n o :: l) (comText (junks o.lns) ++ (elemsText C o.h.body ws ++ s))

def isEnergy : TBlock K → Bool
  | .energy _ _ => true
  | .oper _ _ _ => false

/-- An operator: first line, then the rest. -/
theorem op_split (o : TOp K) (rest : List Str) :
    lnLines o.lns ++ rest = o.h.lines ++ (lnLines (o.c :: o.els.flatMap TElem.lns) ++ rest) ∧
      junks o.lns = o.h.pre ++ junks (o.c :: o.els.flatMap TElem.lns) := by
  constructor <;> simp [lnLines, junks, TOp.lns]

variable {C : Ctx K} {d : Seed K} {f : K} {subs : List (TSub K)}

theorem tail_chain (hsub : d.subs = subs.map (TSub.run f)) (hd : (subs.map fun s => labVal s.lab).Nodup)
    (hS : ∀ s ∈ subs, s.OK C) (l : List (TChain K)) (h : ∀ x ∈ l, x.OK C subs) (n w : Nat) (e : Bool) (exp : Nat) (hw : w + l.length ≤ exp)
    (rest : List Str) (sc : Option K) (out : Str) :
    ∃ sc' s, tailLoop C d exp (n + l.length) w e ⟨(l.flatMap fun x => lnLines x.op.lns) ++ rest, sc, out⟩ =
      tailLoop C d exp n (w + l.length) e ⟨rest, sc', out ++ s⟩ ∧ ChainOut C subs l s := by
  induction l generalizing w sc out with
  | nil => exact ⟨sc, [], by simp, .nil⟩
  | cons x l ih =>
    obtain ⟨h1, h2, h3, h4⟩ := h x (by simp)
    obtain ⟨es, ej⟩ := op_split x.op ((l.flatMap fun x => lnLines x.op.lns) ++ rest)
    rw [List.length_cons] at hw
    rw [List.flatMap_cons, List.append_assoc, es, List.length_cons, ← Nat.add_assoc, tailLoop, stnext_ln _ h1.1]
    dsimp only
    rw [if_pos (by rw [h2]; rfl), if_neg (by omega)]
    obtain ⟨ws, r1, r2⟩ := readElems_ok hsub hd hS h1 ((l.flatMap fun x => lnLines x.op.lns) ++ rest) (scaleAfter x.op.h.pre sc) (out ++ comText x.op.h.pre)
    rw [r1]
    dsimp only [St.put]
    obtain ⟨sc', s, r3, r4⟩ := ih (fun y hy => h y (by simp [hy])) (w + 1) (by omega)
      (scaleAfter (junks (x.op.c :: x.op.els.flatMap TElem.lns)) (scaleAfter x.op.h.pre sc))
      (out ++ comText x.op.h.pre ++ comText (junks (x.op.c :: x.op.els.flatMap TElem.lns)) ++ elemsText C x.op.h.body ws)
    rw [r3]
    refine ⟨sc', _, ?_, .cons r2 r4⟩
    rw [ej, comText_append, show w + 1 + l.length = w + (l.length + 1) by omega]
    simp

theorem isOper_kind {k : Char} (h : OperKind k) : isOper k = true ∧ k ≠ 'f' ∧ k ≠ 'e' ∧ k ≠ 'z' ∧ k ≠ 'Z' ∧ k ≠ 'T' := by
  rcases h with rfl | rfl | rfl | rfl | rfl | rfl | rfl <;> decide

theorem tail_blocks (hsub : d.subs = subs.map (TSub.run f)) (hd : (subs.map fun s => labVal s.lab).Nodup)
    (hS : ∀ s ∈ subs, s.OK C) (l : List (TBlock K)) (h : ∀ x ∈ l, x.OK C subs) (n w : Nat) (e : Bool) (exp : Nat)
    (rest : List Str) (sc : Option K) (out : Str) :
    ∃ sc' s, tailLoop C d exp (n + l.length) w e ⟨(l.flatMap fun x => lnLines x.lns) ++ rest, sc, out⟩ =
      tailLoop C d exp n w (e || l.any isEnergy) ⟨rest, sc', out ++ s⟩ ∧ BlockOut C subs d.ground l s := by
  induction l generalizing e sc out with
  | nil => exact ⟨sc, [], by simp, .nil⟩
  | cons x l ih =>
    have ih' := fun e sc out => ih (fun y hy => h y (by simp [hy])) e sc out
    have hx := h x (by simp)
    rw [List.flatMap_cons, List.append_assoc, List.length_cons, ← Nat.add_assoc, tailLoop]
    cases x with
    | energy a b =>
      obtain ⟨h1, h2, h3⟩ := hx
      have es : lnLines (TBlock.energy (K := K) a b).lns ++ ((l.flatMap fun x => lnLines x.lns) ++ rest) =
          a.lines ++ (b.lines ++ ((l.flatMap fun x => lnLines x.lns) ++ rest)) := by simp [lnLines, TBlock.lns]
      rw [es, stnext_ln _ h1]
      dsimp only
      rw [if_neg (by rw [h3]; decide), if_pos h3, stnext_ln _ h2]
      dsimp only [St.put]
      obtain ⟨sc', s, r3, r4⟩ := ih' true (scaleAfter b.pre (scaleAfter a.pre sc))
        (out ++ comText a.pre ++ comText b.pre ++ ("e\n".toList ++ (C.fmt 18 d.ground ++ ['\n'])))
      rw [r3]
      refine ⟨sc', _, ?_, .energy r4⟩
      rw [show junks [a, b] = a.pre ++ b.pre by simp [junks], comText_append]
      simp [isEnergy]
    | oper k nm o =>
      obtain ⟨h1, h2, h3⟩ := hx
      obtain ⟨k1, k2, k3, k4, k5, k6⟩ := isOper_kind h1
      obtain ⟨es, ej⟩ := op_split o ((l.flatMap fun x => lnLines x.lns) ++ rest)
      rw [show (TBlock.oper k nm o).lns = o.lns from rfl, es, stnext_ln _ h2.1]
      dsimp only
      have hh : o.h.body.head? = some k := by rw [h3]; rfl
      rw [if_neg (by rw [hh]; simpa using k2), if_neg (by rw [h3]; simp [k3]), if_neg (by rw [hh]; simp [k4, k5, k6]),
        if_pos (by rw [h3]; exact k1)]
      obtain ⟨ws, r1, r2⟩ := readElems_ok hsub hd hS h2 ((l.flatMap fun x => lnLines x.lns) ++ rest) (scaleAfter o.h.pre sc) (out ++ comText o.h.pre)
      rw [r1]
      dsimp only [St.put]
      obtain ⟨sc', s, r3, r4⟩ := ih' e
        (scaleAfter (junks (o.c :: o.els.flatMap TElem.lns)) (scaleAfter o.h.pre sc))
        (out ++ comText o.h.pre ++ comText (junks (o.c :: o.els.flatMap TElem.lns)) ++ elemsText C o.h.body ws)
      rw [r3]
      refine ⟨sc', _, ?_, .oper r2 r4⟩
      rw [ej, comText_append]
      simp [isEnergy]

theorem tail_end (js : List Junk) (hj : ∀ j ∈ js, j.OK) (stop : Option (Str × Str × List Str))
    (hs : ∀ lead l ls, stop = some (lead, l, ls) → Blank lead ∧ '\n' ∉ lead ∧ '\n' ∉ l ∧ (∀ x ∈ ls, '\n' ∉ x) ∧
      (l.head? = some 'z' ∨ l.head? = some 'Z' ∨ l.head? = some 'T')) (n w : Nat) (e : Bool) (exp : Nat) (sc : Option K) (out : Str) :
    ∃ st, tailLoop C d exp (n + 1) w e ⟨js.map Junk.line ++ stopLines stop, sc, out⟩ = some (w, e, st) ∧ st.out = out ++ comText js := by
  rw [tailLoop]
  have hn : St.next ⟨js.map Junk.line ++ stopLines stop, sc, out⟩ = next (stopLines stop) (scaleAfter js sc) (out ++ comText js) := next_junk js hj _ sc out
  rw [hn]
  cases stop with
  | none =>
    refine ⟨⟨[], _, _⟩, rfl, rfl⟩
  | some p =>
    obtain ⟨lead, l, ls⟩ := p
    obtain ⟨h1, -, -, -, h2⟩ := hs lead l ls rfl
    have key : ∃ c t, strip (lead ++ l) = c :: t ∧ (c = 'z' ∨ c = 'Z' ∨ c = 'T') := by
      cases l with
      | nil => simp at h2
      | cons c t =>
        simp only [List.head?_cons, Option.some.injEq] at h2
        have hc : isSpace c = false := by rcases h2 with rfl | rfl | rfl <;> decide
        have e1 : (lead ++ c :: t).dropWhile isSpace = c :: t := dropWhile_ws h1 (by intro x hx; simp at hx; subst hx; exact hc)
        have e2 : ∀ x : Str, (x ++ [c]).dropWhile isSpace = x.dropWhile isSpace ++ [c] := by
          intro x
          induction x with
          | nil => simp [hc]
          | cons y x ih =>
            rw [List.cons_append]
            by_cases hy : isSpace y = true
            · rw [List.dropWhile_cons_of_pos hy, List.dropWhile_cons_of_pos hy, ih]
            · rw [List.dropWhile_cons_of_neg hy, List.dropWhile_cons_of_neg hy, List.cons_append]
        refine ⟨c, (t.reverse.dropWhile isSpace).reverse, ?_, h2⟩
        unfold strip stripTrailing stripLeading
        rw [e1, List.reverse_cons, e2]
        simp
    obtain ⟨c, t, h3, h4⟩ := key
    rw [stopLines, next, h3]
    dsimp only
    rw [if_neg (by rcases h4 with rfl | rfl | rfl <;> decide)]
    dsimp only
    rw [if_neg (by rcases h4 with rfl | rfl | rfl <;> simp), if_neg (by rcases h4 with rfl | rfl | rfl <;> simp),
      if_pos (by rcases h4 with rfl | rfl | rfl <;> simp)]
    exact ⟨_, rfl, rfl⟩

end Verif.Seed
