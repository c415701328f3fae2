import Verif.Seed.TailRun
/-! # What is written, as a data file -/

namespace Verif.Seed

open Verif.Text
open Verif.Invar (Label)
open Verif.DataFile

variable {K : Type} [Field K] [LinearOrder K]

/-- Lines that end with a line break, against lines that begin with one. -/
def Rot (s f : Str) : Prop := '\n' :: s = f ++ ['\n']

theorem Rot.nil : Rot [] [] := rfl

theorem Rot.append {s f s' f' : Str} (h : Rot s f) (h' : Rot s' f') : Rot (s ++ s') (f ++ f') := by
  unfold Rot at *
  rw [← List.cons_append, h, List.append_assoc, List.singleton_append, h', List.append_assoc]

theorem Rot.line (s : Str) : Rot (s ++ ['\n']) ('\n' :: s) := rfl

theorem Rot.flatMap {α β : Type} {R : α → β → Prop} {g : α → Str} {g' : β → Str} {l : List α} {l' : List β}
    (h : List.Forall₂ R l l') (hr : ∀ a b, R a b → Rot (g a) (g' b)) : Rot (l.flatMap g) (l'.flatMap g') := by
  induction h with
  | nil => exact .nil
  | cons h _ ih => rw [List.flatMap_cons, List.flatMap_cons]; exact (hr _ _ h).append ih

/-! ## Tokens -/

/-- The first token on a new line. -/
def onNew {α : Type} (l : List (Tok α)) : List (Tok α) :=
  match l with
  | [] => []
  | t :: r => ⟨['\n'], t.v⟩ :: r

theorem nl_tok : (['\n'] : Str) ≠ [] ∧ Blank ['\n'] := ⟨by simp, by intro c hc; simp at hc; subst hc; decide⟩
theorem sp_tok : ([' '] : Str) ≠ [] ∧ Blank [' '] := ⟨by simp, by intro c hc; simp at hc; subst hc; decide⟩

theorem labText_onNew {l : LabT} (h : l ≠ []) : labText (onNew l) = '\n' :: labText (atStart l) := by
  cases l with
  | nil => exact absurd rfl h
  | cons t r => rfl

theorem labVal_onNew (l : LabT) : labVal (onNew l) = labVal l := by cases l <;> rfl

theorem labOK_onNew {P : Par} {l : LabT} (h : LabLine P l) : LabOK P (onNew l) := by
  obtain ⟨h1, h2, h3⟩ := h
  cases l with
  | nil => exact ⟨h1, by intro t ht; simp [onNew] at ht⟩
  | cons t r =>
    refine ⟨h1, ?_⟩
    intro x hx
    rcases List.mem_cons.1 hx with rfl | hx
    · exact ⟨nl_tok, h3 t (by simp)⟩
    · exact ⟨(h2 x hx).1, h3 x (by simp [hx])⟩

theorem labOK_second {P : Par} {l : LabT} (h : LabLine P l) (hh : ∀ t ∈ l.head?, t.OK ∧ '\n' ∉ t.ws) : LabOK P l := by
  obtain ⟨h1, h2, h3⟩ := h
  refine ⟨h1, ?_⟩
  intro x hx
  cases l with
  | nil => simp at hx
  | cons t r =>
    refine ⟨?_, h3 x hx⟩
    rcases List.mem_cons.1 hx with rfl | hx
    · exact (hh x (by simp)).1
    · exact (h2 x hx).1

/-- Numbers on a line of their own. -/
def rowToks (ls : List Lit) : List (Tok Lit) :=
  match ls with
  | [] => []
  | a :: r => ⟨['\n'], a⟩ :: r.map fun l => ⟨[' '], l⟩

theorem rowToks_v (ls : List Lit) : (rowToks ls).map (fun t => t.v.val) = ls.map Lit.val ∧ (rowToks ls).length = ls.length := by
  cases ls with
  | nil => exact ⟨rfl, rfl⟩
  | cons a r => simp [rowToks, Function.comp_def]

theorem rowToks_ok {ls : List Lit} (h : ∀ l ∈ ls, l.OK) : ∀ t ∈ rowToks ls, NumOK t := by
  cases ls with
  | nil => intro t ht; simp [rowToks] at ht
  | cons a r =>
    intro t ht
    rcases List.mem_cons.1 ht with rfl | ht
    · exact ⟨nl_tok, h a (by simp)⟩
    · obtain ⟨l, hl, rfl⟩ := List.mem_map.1 ht
      exact ⟨sp_tok, h l (by simp [hl])⟩

theorem intersperse_flat (a : Str) (r : List Str) : ((a :: r).intersperse [' ']).flatten = a ++ r.flatMap fun x => ' ' :: x := by
  induction r generalizing a with
  | nil => simp
  | cons b r ih =>
    rw [List.intersperse_cons₂, List.flatten_cons, List.flatten_cons, ih]
    simp

theorem rot_row {ls : List Lit} (h : ls ≠ []) : Rot (rowText (ls.map Lit.text)) ((rowToks ls).flatMap numText) := by
  cases ls with
  | nil => exact absurd rfl h
  | cons a r =>
    unfold rowText Rot
    rw [List.map_cons, intersperse_flat, List.flatMap_map]
    simp only [rowToks, List.flatMap_cons, List.flatMap_map, numText]
    simp

/-! ## Comments -/

def comT (c : Str × Str) : ComT := ⟨'\n' :: c.1, c.2⟩
def comB (c : Str × Str) : BlockT := ⟨'\n' :: c.1, .comment c.2⟩

theorem rot_com (js : List Junk) : Rot (comText js) (((coms js).map comT).flatMap ComT.text) := by
  unfold comText
  rw [List.flatMap_map]
  induction coms js with
  | nil => exact .nil
  | cons c l ih =>
    rw [List.flatMap_cons, List.flatMap_cons]
    refine Rot.append ?_ ih
    unfold Rot comT ComT.text
    simp

theorem rot_comB (js : List Junk) : Rot (comText js) (((coms js).map comB).flatMap BlockT.text) := by
  have := rot_com js
  rw [List.flatMap_map] at this ⊢
  have e : (fun c => ComT.text (comT c)) = fun c => BlockT.text (comB c) := by
    funext c
    simp [ComT.text, comT, BlockT.text, comB, Body.letter, Body.line, Body.text]
  rw [← e]
  exact this

theorem coms_ok {js : List Junk} (h : ∀ j ∈ js, j.OK) : ∀ c ∈ coms js, Blank c.1 ∧ '\n' ∉ c.1 ∧ '\n' ∉ c.2 := by
  intro c hc
  obtain ⟨j, hj, he⟩ := List.mem_filterMap.1 hc
  cases j with
  | blank ws => simp at he
  | com a b =>
    simp at he
    subst he
    exact h _ hj

theorem comT_ok {js : List Junk} (h : ∀ j ∈ js, j.OK) (hp : ∀ c ∈ coms js, PlainCom c) : ∀ c ∈ (coms js).map comT, c.OK := by
  intro c hc
  obtain ⟨x, hx, rfl⟩ := List.mem_map.1 hc
  refine ⟨rfl, ?_, (coms_ok h x hx).2.2⟩
  intro y hy
  rcases List.mem_cons.1 hy with rfl | hy
  · simp
  · rcases hp x hx y hy with h | h <;> simp [h]

theorem comB_ok {P : Par} {ch : Nat} {S : List SubT} {js : List Junk} (h : ∀ j ∈ js, j.OK) : ∀ b ∈ (coms js).map comB, b.OK P ch S := by
  intro b hb
  obtain ⟨x, hx, rfl⟩ := List.mem_map.1 hb
  obtain ⟨h1, h2, h3⟩ := coms_ok h x hx
  refine ⟨rfl, ?_, h3, Or.inr rfl, trivial⟩
  intro c hc
  rcases List.mem_cons.1 hc with rfl | hc
  · decide
  · exact h1 c hc

theorem lns_junk {ls : List Ln} (h : ∀ l ∈ ls, l.OK) : ∀ j ∈ junks ls, j.OK := by
  intro j hj
  obtain ⟨l, hl, hj⟩ := List.mem_flatMap.1 hj
  exact (h l hl).pre j hj

/-! ## Subspaces -/

variable {C : Ctx K} {lit : Nat → K → Lit}

/-- A subspace in the file. -/
def subT (lit : Nat → K → Lit) (f low : K) (s : TSub K) : SubT :=
  ⟨onNew s.lab, ⟨⟨['\n'], s.dim⟩, rowToks (s.val.map fun x => lit 18 (x * f - low))⟩⟩

theorem lab_ne {P : Par} {l : LabT} (h : LabLine P l) (hp : 0 < P.invdim) : l ≠ [] := by
  rintro rfl
  have := h.1
  simp at this
  omega

theorem rot_sub (hp : Prints C lit) (h0 : 0 < C.P.invdim) {s : TSub K} (h : s.OK C) (f low : K) :
    Rot (subText C low (s.run f)) (subT lit f low s).text := by
  have hv : s.val ≠ [] := by
    intro he
    have := h.len; have := h.dim.1
    rw [he] at *
    simp at *
    omega
  unfold subText SubT.text VecT.text subT
  refine Rot.append ?_ (Rot.append ?_ ?_)
  · rw [labText_onNew (lab_ne h.lab h0), ← h.qBody]
    exact .line _
  · exact .line _
  · have : ((s.run f).val.map fun e => C.fmt 18 (e - low)) = (s.val.map fun x => lit 18 (x * f - low)).map Lit.text := by
      unfold TSub.run
      rw [List.map_map, List.map_map]
      exact List.map_congr_left fun x _ => (hp 18 _).1
    rw [this]
    exact rot_row (by simpa using hv)

theorem subT_ok (hp : Prints C lit) {s : TSub K} (h : s.OK C) (f low : K) : LabOK C.P (subT lit f low s).lab ∧ (subT lit f low s).vec.OK false := by
  refine ⟨labOK_onNew h.lab, ⟨nl_tok, h.dim.2⟩, ?_, ?_⟩
  · apply rowToks_ok
    intro l hl
    obtain ⟨x, -, rfl⟩ := List.mem_map.1 hl
    exact (hp 18 _).2
  · unfold subT
    simp only [Bool.false_eq_true, if_false]
    rw [(rowToks_v _).2, List.length_map, h.len]

theorem subT_lab (f low : K) (s : TSub K) : labVal (subT lit f low s).lab = labVal s.lab := labVal_onNew _

theorem subT_len (f low : K) {s : TSub K} (h : s.OK C) : (subT lit f low s).vec.vals.length = s.dim := by
  unfold subT
  dsimp only
  rw [(rowToks_v _).2, List.length_map, h.len]

/-! ## Operators -/

/-- One matrix of an operator in the file. -/
def matT (lit : Nat → K → Lit) (e : TElem K) (m : List (List K)) : MatT :=
  ⟨onNew e.lab1, e.lab2, m.map fun r => rowToks (r.map fun v => lit 18 (chop v))⟩

theorem elem_ok (hp : Prints C lit) (h0 : 0 < C.P.invdim) {subs : List (TSub K)} (hS : ∀ s ∈ subs, s.OK C) (f low : K) {e : TElem K} (he : e.OK C subs)
    {w : Str × List (List K)} (h : Elem subs e w) :
    Rot ((w.1 ++ ['\n']) ++ matrixText C w.2) (matT lit e w.2).text ∧ (matT lit e w.2).OK C.P (subs.map (subT lit f low)) ∧
      IsElem lit subs e (matT lit e w.2).val := by
  obtain ⟨h1, s1, hs1, s2, hs2, h2, h3, h4⟩ := h
  obtain ⟨-, e1, e2, e3, e4, -⟩ := he
  have hd := (hS s2 hs2).dim.1
  have hrow : ∀ r ∈ w.2, r.length = s2.dim := by
    intro r hr
    rw [h4] at hr
    obtain ⟨i, -, rfl⟩ := List.mem_map.1 hr
    simp
  refine ⟨?_, ⟨labOK_onNew e2, labOK_second e3 e4, subT lit f low s1, List.mem_map_of_mem hs1, subT lit f low s2, List.mem_map_of_mem hs2, ?_, ?_, ?_, ?_⟩,
    ?_, s1, hs1, s2, hs2, h2, h3, ?_⟩
  · unfold MatT.text matT
    dsimp only
    rw [← List.append_assoc, labText_onNew (lab_ne e2 h0)]
    refine Rot.append ?_ ?_
    · rw [h1, e1]
      exact .line _
    · unfold matrixText
      rw [List.flatMap_map]
      have : ∀ l : List (List K), (∀ r ∈ l, r.length = s2.dim) → Rot (l.flatMap fun r => rowText (r.map fun v => C.fmt 18 (if (1 : K) / 10 ^ 14 < |v| then v else 0)))
          (l.flatMap fun r => (rowToks (r.map fun v => lit 18 (chop v))).flatMap numText) := by
        intro l hl
        induction l with
        | nil => exact .nil
        | cons r l ih =>
          rw [List.flatMap_cons, List.flatMap_cons]
          refine Rot.append ?_ (ih fun x hx => hl x (by simp [hx]))
          have er : (r.map fun v => C.fmt 18 (if (1 : K) / 10 ^ 14 < |v| then v else 0)) = (r.map fun v => lit 18 (chop v)).map Lit.text := by
            rw [List.map_map]
            refine List.map_congr_left fun v _ => ?_
            rw [Function.comp_apply, ← (hp 18 _).1]
            unfold chop
            by_cases hc : (1 : K) / 10 ^ 14 < |v|
            · rw [if_pos hc, if_neg (not_le.2 hc)]
            · rw [if_neg hc, if_pos (not_lt.1 hc)]
          rw [er]
          refine rot_row ?_
          intro hx
          have := hl r (by simp)
          rw [List.map_eq_nil_iff] at hx
          rw [hx] at this
          simp at this
          omega
      exact this _ hrow
  · rw [subT_lab, h2]; exact (labVal_onNew _).symm
  · rw [subT_lab, h3]; rfl
  · rw [subT_len f low (hS s1 hs1)]
    unfold matT
    dsimp only
    rw [List.length_map, h4]
    unfold elemMat
    simp
  · intro r hr
    unfold matT at hr
    dsimp only at hr
    obtain ⟨x, hx, rfl⟩ := List.mem_map.1 hr
    refine ⟨?_, rowToks_ok ?_⟩
    · rw [subT_len f low (hS s2 hs2), (rowToks_v _).2, List.length_map, hrow x hx]
    · intro l hl
      obtain ⟨v, -, rfl⟩ := List.mem_map.1 hl
      exact (hp 18 _).2
  · unfold MatT.val matT
    dsimp only
    rw [labVal_onNew]
  · unfold MatT.val matT
    dsimp only
    rw [h4, List.map_map]
    unfold elemMat
    rw [List.map_map]
    refine List.map_congr_left fun i _ => ?_
    rw [Function.comp_apply, Function.comp_apply, (rowToks_v _).1]
    simp [Function.comp_def]

/-- The matrices of an operator in the file. -/
theorem op_out (hp : Prints C lit) (h0 : 0 < C.P.invdim) {subs : List (TSub K)} (hS : ∀ s ∈ subs, s.OK C) (f low : K) {o : TOp K} (ho : o.OK C subs)
    {ws : List (Str × List (List K))} (h : List.Forall₂ (Elem subs) o.els ws) :
    ∃ O : OperT, Rot ((natStr ws.length ++ ['\n']) ++ ws.flatMap fun e => (e.1 ++ ['\n']) ++ matrixText C e.2) O.text ∧ O.OK C.P (subs.map (subT lit f low)) ∧
      IsOp lit subs o O.val ∧ O.text.head? = some '\n' := by
  obtain ⟨-, -, -, -, hlen, hels, hnd⟩ := ho
  have key : ∀ (els : List (TElem K)) (ws : List (Str × List (List K))), List.Forall₂ (Elem subs) els ws → (∀ e ∈ els, e.OK C subs) →
      ∃ ms : List MatT, Rot (ws.flatMap fun e => (e.1 ++ ['\n']) ++ matrixText C e.2) (ms.flatMap MatT.text) ∧
        (∀ m ∈ ms, m.OK C.P (subs.map (subT lit f low))) ∧ List.Forall₂ (IsElem lit subs) els (ms.map MatT.val) ∧ ms.length = ws.length := by
    intro els ws h
    induction h with
    | nil => intro _; exact ⟨[], .nil, by simp, .nil, rfl⟩
    | cons h _ ih =>
      intro hk
      obtain ⟨ms, i1, i2, i3, i4⟩ := ih fun e he => hk e (by simp [he])
      obtain ⟨a1, a2, a3⟩ := elem_ok hp h0 hS f low (hk _ (by simp)) h
      refine ⟨_ :: ms, ?_, ?_, .cons a3 i3, by simp [i4]⟩
      · rw [List.flatMap_cons, List.flatMap_cons]
        exact a1.append i1
      · intro m hm
        rcases List.mem_cons.1 hm with rfl | hm
        · exact a2
        · exact i2 m hm
  obtain ⟨ms, i1, i2, i3, i4⟩ := key _ _ h hels
  have hl : ws.length = o.els.length := h.length_eq.symm
  refine ⟨⟨⟨['\n'], ws.length⟩, ms⟩, Rot.append (.line _) i1, ⟨⟨nl_tok, by rw [hl]; exact hlen⟩, i4, i2, ?_⟩, i3, rfl⟩
  have e : (OperT.val ⟨⟨['\n'], ws.length⟩, ms⟩).map (·.1) = o.pairs := by
    unfold OperT.val TOp.pairs
    dsimp only
    generalize hq : ms.map MatT.val = q at i3
    clear hq i1 i2 i4 h hels hnd hlen hl
    generalize o.els = els at i3
    induction i3 with
    | nil => rfl
    | cons h _ ih => rw [List.map_cons, List.map_cons, ih, h.1]
  rw [e]
  exact hnd

end Verif.Seed
