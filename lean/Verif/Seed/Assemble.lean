import Verif.Seed.Out
import Verif.Seed.TailRun
/-! # The instantiated file as a well-formed data file -/

namespace Verif.Seed

open Verif.Text
open Verif.Invar (Label)
open Verif.DataFile

variable {K : Type} [Field K] [LinearOrder K] {C : Ctx K} {lit : Nat → K → Lit}

theorem rot_head {s f r : Str} (h : Rot s f) (hf : f.head? = some '\n') : (f ++ r).head? = some '\n' := by
  cases f with
  | nil => simp at hf
  | cons c f => simpa using hf

/-! ## Lines of operators -/

theorem mat_lns {C : Ctx K} {r c : Nat} {m : TMat K} (h : m.OK C r c) : ∀ l ∈ m.lns, l.OK := by
  cases m with
  | file l m => intro x hx; simp [TMat.lns] at hx; subst hx; exact h.1
  | inline ls =>
    intro x hx
    obtain ⟨p, hp, rfl⟩ := List.mem_map.1 hx
    exact (h.2 p hp).1

theorem op_lns {subs : List (TSub K)} {o : TOp K} (h : o.OK C subs) : ∀ l ∈ o.lns, l.OK := by
  obtain ⟨h1, h2, -, -, -, h3, -⟩ := h
  intro l hl
  unfold TOp.lns at hl
  rcases List.mem_cons.1 hl with rfl | hl
  · exact h1
  rcases List.mem_cons.1 hl with rfl | hl
  · exact h2
  obtain ⟨e, he, hl⟩ := List.mem_flatMap.1 hl
  obtain ⟨a1, -, -, -, -, s1, -, s2, -, -, -, a2⟩ := h3 e he
  rcases List.mem_cons.1 hl with rfl | hl
  · exact a1
  · exact mat_lns a2 l hl

/-! ## The chain -/

/-- One operator of the chain in the file. -/
theorem chain_one (hp : Prints C lit) (h0 : 0 < C.P.invdim) {subs : List (TSub K)} (hS : ∀ s ∈ subs, s.OK C) (f low : K) {x : TChain K} (hx : x.OK C subs)
    {ws : List (Str × List (List K))} (h : List.Forall₂ (Elem subs) x.op.els ws) :
    ∃ c : ChainT, Rot (elemsText C x.op.h.body ws) c.text ∧ c.OK C.P (subs.map (subT lit f low)) ∧ IsOp lit subs x.op c.op.val ∧
      c.text.head? = some '\n' := by
  obtain ⟨h1, h2, h3, h4⟩ := hx
  obtain ⟨O, o1, o2, o3, -⟩ := op_out hp h0 hS f low h1 h
  refine ⟨⟨['\n'], x.i, x.j, O⟩, ?_, ⟨nl_tok.1, nl_tok.2, h3, h4, o2⟩, o3, rfl⟩
  unfold elemsText ChainT.text
  rw [h2]
  have := (Rot.line ('f' :: (natText x.i ++ natText x.j))).append o1
  simpa using this

theorem chain_out (hp : Prints C lit) (h0 : 0 < C.P.invdim) {subs : List (TSub K)} (hS : ∀ s ∈ subs, s.OK C) (f low : K) {l : List (TChain K)} {s : Str}
    (h : ChainOut C subs l s) (hl : ∀ x ∈ l, x.OK C subs) (hc : ∀ x ∈ l, coms (junks x.op.lns) = []) :
    ∃ cs : List ChainT, Rot s (cs.flatMap ChainT.text) ∧ (∀ c ∈ cs, c.OK C.P (subs.map (subT lit f low))) ∧
      List.Forall₂ (fun x c => IsOp lit subs x.op c.op.val) l cs ∧ (∀ c ∈ cs, c.text.head? = some '\n') := by
  induction h with
  | nil => exact ⟨[], .nil, by simp, .nil, by simp⟩
  | cons h _ ih =>
    obtain ⟨cs, i1, i2, i3, i4⟩ := ih (fun y hy => hl y (by simp [hy])) (fun y hy => hc y (by simp [hy]))
    obtain ⟨c, a1, a2, a3, a4⟩ := chain_one hp h0 hS f low (hl _ (by simp)) h
    refine ⟨c :: cs, ?_, ?_, .cons a3 i3, ?_⟩
    · rw [show ∀ js, comText js = (coms js).flatMap _ from fun _ => rfl, hc _ (by simp), List.flatMap_nil, List.nil_append, List.flatMap_cons]
      exact a1.append i1
    · intro y hy
      rcases List.mem_cons.1 hy with rfl | hy
      · exact a2
      · exact i2 y hy
    · intro y hy
      rcases List.mem_cons.1 hy with rfl | hy
      · exact a4
      · exact i4 y hy

theorem chain_all (hp : Prints C lit) (h0 : 0 < C.P.invdim) {subs : List (TSub K)} (hS : ∀ s ∈ subs, s.OK C) (f low : K) {l : List (TChain K)} {s : Str}
    (h : ChainOut C subs l s) (hl : ∀ x ∈ l, x.OK C subs) (hpl : ∀ x ∈ l, ∀ c ∈ coms (junks x.op.lns), PlainCom c)
    (hc : ∀ x ∈ l.tail, coms (junks x.op.lns) = []) :
    ∃ (com : List ComT) (cs : List ChainT), Rot s (com.flatMap ComT.text ++ cs.flatMap ChainT.text) ∧ (∀ c ∈ com, c.OK) ∧
      (∀ c ∈ cs, c.OK C.P (subs.map (subT lit f low))) ∧
      List.Forall₂ (fun x c => IsOp lit subs x.op c.op.val) l cs ∧ (∀ c ∈ cs, c.text.head? = some '\n') := by
  cases h with
  | nil => exact ⟨[], [], .nil, by simp, by simp, .nil, by simp⟩
  | @cons x l ws s h hr =>
    obtain ⟨cs, i1, i2, i3, i4⟩ := chain_out hp h0 hS f low hr (fun y hy => hl y (by simp [hy])) (fun y hy => hc y (by simpa using hy))
    obtain ⟨c, a1, a2, a3, a4⟩ := chain_one hp h0 hS f low (hl _ (by simp)) h
    refine ⟨(coms (junks x.op.lns)).map comT, c :: cs, ?_, comT_ok (lns_junk (op_lns (hl x (by simp)).1)) (hpl x (by simp)), ?_, .cons a3 i3, ?_⟩
    · rw [List.flatMap_cons]
      exact (rot_com _).append (a1.append i1)
    · intro y hy
      rcases List.mem_cons.1 hy with rfl | hy
      · exact a2
      · exact i2 y hy
    · intro y hy
      rcases List.mem_cons.1 hy with rfl | hy
      · exact a4
      · exact i4 y hy

/-! ## Blocks -/

theorem lastOf_append {α : Type} (g : Body → Option α) (a b : List BlockT) : lastOf g (a ++ b) = (lastOf g b).or (lastOf g a) := by
  unfold lastOf
  rw [List.reverse_append, List.findSome?_append]

theorem lastOf_one {α : Type} (g : Body → Option α) (b : BlockT) : lastOf g [b] = g b.body := by
  unfold lastOf
  simp

theorem lastOf_com {α : Type} (g : Body → Option α) (hg : ∀ l, g (.comment l) = none) (cs : List (Str × Str)) : lastOf g (cs.map comB) = none := by
  unfold lastOf
  rw [List.findSome?_eq_none_iff]
  intro b hb
  obtain ⟨c, -, rfl⟩ := List.mem_map.1 (List.mem_reverse.1 hb)
  exact hg _

theorem lastOp_cons (x : TBlock K) (l : List (TBlock K)) (k : Char) (n : Str) : lastOp (x :: l) k n = (lastOp l k n).or (lastOp [x] k n) := by
  unfold lastOp
  rw [List.reverse_cons, List.findSome?_append]
  rfl

theorem rel_or {α β : Type} {R : α → β → Prop} {a a' : Option α} {b b' : Option β} (h : Option.Rel R a b) (h' : Option.Rel R a' b') :
    Option.Rel R (a.or a') (b.or b') := by
  cases h with
  | some h => exact .some h
  | none => exact h'

theorem block_out (hp : Prints C lit) (h0 : 0 < C.P.invdim) {subs : List (TSub K)} (hS : ∀ s ∈ subs, s.OK C) (f low g : K) {l : List (TBlock K)} {s : Str}
    (h : BlockOut C subs g l s) (hl : ∀ x ∈ l, x.OK C subs) :
    ∃ bs : List BlockT, Rot s (bs.flatMap BlockT.text) ∧ (∀ b ∈ bs, b.OK C.P 1 (subs.map (subT lit f low))) ∧
      (∀ k n, Option.Rel (IsOp lit subs) (lastOp l k n) (lastOf (operOf k n) bs)) ∧
      lastOf energyOf bs = (if l.any isEnergy then some (lit 18 g).val else none) ∧ ∀ k, lastOf (coefOf k) bs = none := by
  induction h with
  | nil => exact ⟨[], .nil, by simp, fun k n => .none, rfl, fun k => rfl⟩
  | @energy a x l s _ ih =>
    obtain ⟨bs, i1, i2, i3, i4, i5⟩ := ih fun y hy => hl y (by simp [hy])
    obtain ⟨e1, e2, e3⟩ := hl (.energy a x) (by simp)
    refine ⟨(coms (junks [a, x])).map comB ++ (⟨['\n'], .energy [] ⟨['\n'], lit 18 g⟩⟩ :: bs), ?_, ?_, ?_, ?_, ?_⟩
    · rw [List.flatMap_append, List.flatMap_cons]
      refine (rot_comB _).append (Rot.append ?_ i1)
      have := (Rot.line ['e']).append (Rot.line (lit 18 g).text)
      rw [(hp 18 g).1]
      exact this
    · intro b hb
      rcases List.mem_append.1 hb with hb | hb
      · refine comB_ok (lns_junk ?_) b hb
        intro y hy
        rcases List.mem_cons.1 hy with rfl | hy
        · exact e1
        · simp at hy; subst hy; exact e2
      rcases List.mem_cons.1 hb with rfl | hb
      · exact ⟨rfl, nl_tok.2, by simp [Body.line], Or.inl rfl, nl_tok, (hp 18 g).2⟩
      · exact i2 b hb
    · intro k n
      rw [lastOp_cons, lastOf_append, lastOf_com _ fun _ => rfl, ← List.singleton_append (l := bs), lastOf_append, lastOf_one, Option.or_none]
      refine rel_or (i3 k n) ?_
      exact .none
    · rw [lastOf_append, lastOf_com _ fun _ => rfl, ← List.singleton_append (l := bs), lastOf_append, lastOf_one, Option.or_none, i4]
      by_cases ha : l.any isEnergy = true
      · simp [ha, energyOf, isEnergy]
      · simp [ha, energyOf, isEnergy]
    · intro k
      rw [lastOf_append, lastOf_com _ fun _ => rfl, ← List.singleton_append (l := bs), lastOf_append, lastOf_one, Option.or_none, i5]
      rfl
  | @oper k' nm o l ws s h _ ih =>
    obtain ⟨bs, i1, i2, i3, i4, i5⟩ := ih fun y hy => hl y (by simp [hy])
    obtain ⟨e1, e2, e3⟩ := hl (.oper k' nm o) (by simp)
    obtain ⟨O, o1, o2, o3, o4⟩ := op_out hp h0 hS f low e2 h
    have hnl : '\n' ∉ nm := by
      have := e2.1.nl
      rw [e3] at this
      exact fun hm => this (by simp [hm])
    refine ⟨(coms (junks o.lns)).map comB ++ (⟨['\n'], .oper k' nm O⟩ :: bs), ?_, ?_, ?_, ?_, ?_⟩
    · rw [List.flatMap_append, List.flatMap_cons]
      refine (rot_comB _).append (Rot.append ?_ i1)
      unfold elemsText
      rw [e3]
      have := (Rot.line (k' :: nm)).append o1
      exact this
    · intro b hb
      rcases List.mem_append.1 hb with hb | hb
      · exact comB_ok (lns_junk (op_lns e2)) b hb
      rcases List.mem_cons.1 hb with rfl | hb
      · exact ⟨rfl, nl_tok.2, hnl, Or.inl o4, e1, o2⟩
      · exact i2 b hb
    · intro k n
      rw [lastOp_cons, lastOf_append, lastOf_com _ fun _ => rfl, ← List.singleton_append (l := bs), lastOf_append, lastOf_one, Option.or_none]
      refine rel_or (i3 k n) ?_
      unfold lastOp operOf
      simp only [List.reverse_singleton, List.findSome?_singleton]
      by_cases hk : k' = k ∧ nm = n
      · rw [if_pos hk, if_pos hk]; exact .some o3
      · rw [if_neg hk, if_neg hk]; exact .none
    · rw [lastOf_append, lastOf_com _ fun _ => rfl, ← List.singleton_append (l := bs), lastOf_append, lastOf_one, Option.or_none, i4]
      by_cases ha : l.any isEnergy = true
      · simp [ha, isEnergy]
      · simp [ha, energyOf, isEnergy]
    · intro k
      rw [lastOf_append, lastOf_com _ fun _ => rfl, ← List.singleton_append (l := bs), lastOf_append, lastOf_one, Option.or_none, i5]
      rfl

/-! ## Coefficients -/

def vecT (lit : Nat → K → Lit) (n : Nat) (v : List K) : VecT := ⟨⟨['\n'], n⟩, (v.take (n + 1)).map fun x => ⟨['\n'], lit 16 x⟩⟩

theorem coef_out (hp : Prints C lit) {v : List K} (hv : C.nmax < v.length) (hn : C.nmax < 2 ^ 64 - 1) :
    ∃ t, coefText C v = some t ∧ Rot t (vecT lit C.nmax v).text ∧ (vecT lit C.nmax v).OK true ∧
      (vecT lit C.nmax v).val = (v.take (C.nmax + 1)).map (fun x => (lit 16 x).val) := by
  refine ⟨_, by rw [coefText, if_neg (by omega)], ?_, ⟨⟨nl_tok, by simp [vecT]; omega⟩, ?_, ?_⟩, ?_⟩
  · unfold vecT VecT.text
    dsimp only
    refine (Rot.line _).append ?_
    rw [List.flatMap_map]
    induction v.take (C.nmax + 1) with
    | nil => exact .nil
    | cons x l ih =>
      rw [List.flatMap_cons, List.flatMap_cons, (hp 16 x).1]
      exact (Rot.line _).append ih
  · intro t ht
    obtain ⟨x, -, rfl⟩ := List.mem_map.1 ht
    exact ⟨nl_tok, (hp 16 x).2⟩
  · simp [vecT]
    omega
  · unfold vecT VecT.val
    rw [List.map_map]
    rfl

end Verif.Seed
