import Verif.DataFile.Lemmas
/-! # The parts of the file -/

namespace Verif.DataFile

open Verif.Text
open Verif.Invar (Label)

/-! ## Labels, lists, matrices, operators -/

theorem reads_lab (l : LabT) (h : ∀ t ∈ l, IntOK t) : Reads (extractor l.length : Rd Label) (labText l) (labVal l) := by
  induction l with
  | nil => exact Reads.ret []
  | cons t l ih =>
    rw [List.length_cons, extractor_succ]
    refine Reads.seq (w := intText t) (w' := labText l) (reads_int t (h t (by simp)))
      (Reads.map (ih fun x hx => h x (by simp [hx])) fun l => t.v :: l) ?_
    exact sep_flatMap _ _ fun x hx => sep_tok (h x (by simp [hx])).1 _

theorem sep_lab (P : Par) (hd : 0 < P.invdim) (l : LabT) (h : LabOK P l) (s : Str) :
    Sep (labText l ++ s) ∧ labText l ++ s ≠ [] := by
  obtain ⟨h1, h2⟩ := h
  cases l with
  | nil => simp at h1; omega
  | cons t l =>
    unfold labText
    rw [List.flatMap_cons, List.append_assoc, intText, List.append_assoc]
    exact sep_tok (h2 t (by simp)).1 _

theorem reads_lab' (P : Par) (l : LabT) (h : LabOK P l) : Reads (extractor P.invdim : Rd Label) (labText l) (labVal l) := by
  rw [← h.1]; exact reads_lab l h.2

theorem sep_num (l : List (Tok Lit)) (h : ∀ t ∈ l, NumOK t) : Sep (l.flatMap numText) :=
  sep_flatMap _ _ fun t ht => sep_tok (h t ht).1 _

theorem reads_nums (l : List (Tok Lit)) (h : ∀ t ∈ l, NumOK t) :
    Reads (readN readDec l.length) (l.flatMap numText) (l.map fun t => t.v.val) :=
  Reads.readN numText (fun t => t.v.val) l fun t ht => ⟨reads_num t (h t ht), sep_tok (h t ht).1 _⟩

theorem vec_len {b : Bool} {v : VecT} (h : v.OK b) :
    (if b then (v.n.v + 1) % 2 ^ 64 else v.n.v) = v.vals.length := by
  obtain ⟨h1, -, h3⟩ := h
  cases b with
  | true =>
    simp only [if_true] at h3 ⊢
    rw [Nat.mod_eq_of_lt h3.2]; exact h3.1.symm
  | false => simpa using h3.symm

theorem reads_vec {b : Bool} (v : VecT) (h : v.OK b) : Reads (readVec b) v.text v.val := by
  unfold readVec VecT.text VecT.val
  refine Reads.seq (reads_nat v.n h.1) ?_ (sep_num _ h.2.1)
  rw [vec_len h]
  exact reads_nums v.vals h.2.1

theorem sep_vec {b : Bool} (v : VecT) (h : v.OK b) (s : Str) : Sep (v.text ++ s) ∧ v.text ++ s ≠ [] := by
  unfold VecT.text natText
  rw [List.append_assoc, List.append_assoc]
  exact sep_tok h.1.1 _

theorem nice_readVec (b : Bool) : Nice (readVec b) := nice_readNat.seq fun _ => nice_readDec.readN _

theorem reads_sub (P : Par) (s : SubT) (h : LabOK P s.lab ∧ s.vec.OK false) :
    Reads (seq (extractor P.invdim : Rd Label) fun I => seq (readVec false) fun es => ret (I, es)) s.text s.val := by
  unfold SubT.text SubT.val
  refine Reads.seq (reads_lab' P s.lab h.1) (Reads.map (reads_vec s.vec h.2) fun es => (labVal s.lab, es)) ?_
  have := (sep_vec s.vec h.2 []).1
  rwa [List.append_nil] at this

theorem lookup_val (subs : List SubT) (hd : (subs.map fun s => labVal s.lab).Nodup) (s : SubT) (hs : s ∈ subs) :
    dimOf (subs.map SubT.val) (labVal s.lab) = some s.vec.vals.length := by
  unfold dimOf
  induction subs with
  | nil => exact absurd hs (by simp)
  | cons x l ih =>
    rw [List.map_cons]
    rw [List.map_cons, List.nodup_cons] at hd
    rcases List.mem_cons.1 hs with rfl | h
    · rw [SubT.val, List.lookup_cons_self]
      simp [VecT.val]
    · have hne : labVal s.lab ≠ labVal x.lab := by
        intro e
        exact hd.1 (by rw [← e]; exact List.mem_map.2 ⟨s, h, rfl⟩)
      rw [SubT.val, List.lookup_cons]
      have hb : (labVal s.lab == labVal x.lab) = false := by simpa using hne
      rw [hb]
      exact ih hd.2 h

theorem reads_rows (rows : List (List (Tok Lit))) (n : Nat) (h : ∀ r ∈ rows, r.length = n ∧ ∀ t ∈ r, NumOK t) :
    Reads (readN (readN readDec n) rows.length) (rows.flatMap fun r => r.flatMap numText)
      (rows.map fun r => r.map fun t => t.v.val) := by
  induction rows with
  | nil => exact Reads.ret []
  | cons r rows ih =>
    rw [List.length_cons, readN_succ, List.flatMap_cons, List.map_cons]
    obtain ⟨h1, h2⟩ := h r (by simp)
    have hr := reads_nums r h2
    rw [h1] at hr
    refine Reads.seq hr (Reads.map (ih fun x hx => h x (by simp [hx])) _) ?_
    clear ih hr h1 h2
    induction rows with
    | nil => exact sep_nil
    | cons x l ihl =>
      rw [List.flatMap_cons]
      refine sep_append (fun _ => sep_num x (h x (by simp)).2) (ihl fun y hy => h y ?_)
      rcases List.mem_cons.1 hy with rfl | hy
      · simp
      · simp [hy]

theorem sep_rows (rows : List (List (Tok Lit))) (n : Nat) (h : ∀ r ∈ rows, r.length = n ∧ ∀ t ∈ r, NumOK t) :
    Sep (rows.flatMap fun r => r.flatMap numText) := by
  induction rows with
  | nil => exact sep_nil
  | cons x l ihl =>
    rw [List.flatMap_cons]
    exact sep_append (fun _ => sep_num x (h x (by simp)).2) (ihl fun y hy => h y (by simp [hy]))

theorem reads_mat (P : Par) (hd0 : 0 < P.invdim) (subs : List SubT) (hd : (subs.map fun s => labVal s.lab).Nodup) (m : MatT)
    (h : m.OK P subs) : Reads (readBlock P (subs.map SubT.val)) m.text m.val := by
  obtain ⟨h1, h2, s1, hs1, s2, hs2, e1, e2, hr, hrows⟩ := h
  unfold readBlock MatT.text MatT.val
  refine Reads.seq (reads_lab' P m.lab1 h1) (Reads.seq (reads_lab' P m.lab2 h2) ?_ (sep_rows _ _ hrows)) ?_
  · rw [← e1, ← e2, lookup_val subs hd s1 hs1, lookup_val subs hd s2 hs2]
    dsimp only
    rw [← hr, e1, e2]
    exact Reads.map (reads_rows m.rows _ hrows) fun x => ((labVal m.lab1, labVal m.lab2), x)
  · exact (sep_lab P hd0 m.lab2 h2 _).1

theorem sep_mat (P : Par) (hd0 : 0 < P.invdim) (subs : List SubT) (m : MatT) (h : m.OK P subs) :
    Sep m.text ∧ m.text ≠ [] := sep_lab P hd0 m.lab1 h.1 _

theorem nice_readBlock (P : Par) (subs : List (Label × List Dec)) : Nice (readBlock P subs) := by
  refine (nice_extractor _).seq fun I1 => (nice_extractor _).seq fun I2 => ?_
  cases dimOf subs I1 with
  | none => exact Nice.fail
  | some n1 =>
    cases dimOf subs I2 with
    | none => exact Nice.fail
    | some n2 => exact ((nice_readDec.readN _).readN _).seq fun _ => Nice.ret _

theorem nice_readMatEl (P : Par) (subs : List (Label × List Dec)) : Nice (readMatEl P subs) :=
  nice_readNat.seq fun _ => ((nice_readBlock P subs).readN _).seq fun _ => Nice.check _ _

theorem Reads.check {α : Type} {f : Rd α} {w : Str} {a : α} (b : α → Bool) (hf : Reads f w a) (hb : b a = true) :
    Reads (DataFile.seq f fun l => DataFile.check (b l) l) w a := by
  intro rest hr
  unfold DataFile.seq
  rw [hf rest hr]
  unfold DataFile.check
  dsimp only
  rw [if_pos hb]

theorem reads_oper (P : Par) (hd0 : 0 < P.invdim) (subs : List SubT) (hd : (subs.map fun s => labVal s.lab).Nodup) (o : OperT)
    (h : o.OK P subs) : Reads (readMatEl P (subs.map SubT.val)) o.text o.val := by
  obtain ⟨h1, h2, h3, h4⟩ := h
  unfold readMatEl OperT.text
  refine Reads.seq (reads_nat o.nf h1) ?_ (sep_flatMap _ _ fun m hm => sep_mat P hd0 subs m (h3 m hm))
  refine Reads.check (fun l : MatEl => decide (l.map (·.1)).Nodup) ?_ (by simpa using h4)
  rw [← h2]
  exact Reads.readN MatT.text MatT.val o.mats fun m hm => ⟨reads_mat P hd0 subs hd m (h3 m hm), sep_mat P hd0 subs m (h3 m hm)⟩

theorem sep_oper {P : Par} {subs : List SubT} {o : OperT} (h : o.OK P subs) : Sep o.text ∧ o.text ≠ [] := by
  unfold OperT.text natText
  rw [List.append_assoc]
  exact sep_tok h.1.1 _

theorem nice_readF (P : Par) (subs : List (Label × List Dec)) : Nice (readF P subs) := by
  refine nice_readChar.seq fun c => nice_readNat.seq fun _ => nice_readNat.seq fun _ => ?_
  by_cases hc : c = 'f'
  · rw [if_pos hc]; exact nice_readMatEl P subs
  · rw [if_neg hc]; exact Nice.fail

theorem reads_char (ws : Str) (c : Char) (hw : Blank ws) (hc : isSpace c = false) : Reads readChar (ws ++ [c]) c := by
  intro rest _
  rw [reads_blank ins_readChar hw]
  unfold readChar
  rw [List.singleton_append, List.dropWhile_cons_of_neg (by rw [hc]; simp)]

theorem sep_nat (t : Tok Nat) (h : NatOK t) (s : Str) : Sep (natText t ++ s) ∧ natText t ++ s ≠ [] := by
  unfold natText
  rw [List.append_assoc]
  exact sep_tok h.1 _

theorem reads_chain (P : Par) (hd0 : 0 < P.invdim) (subs : List SubT) (hd : (subs.map fun s => labVal s.lab).Nodup) (f : ChainT)
    (h : f.OK P subs) : Reads (readF P (subs.map SubT.val)) f.text f.op.val := by
  obtain ⟨h1, h2, h3, h4, h5⟩ := h
  have e : f.text = (f.ws ++ ['f']) ++ (natText f.i ++ (natText f.j ++ f.op.text)) := by
    unfold ChainT.text; simp
  rw [e]
  unfold readF
  refine Reads.seq (reads_char f.ws 'f' h2 (by decide)) (Reads.seq (reads_nat f.i h3) (Reads.seq (reads_nat f.j h4) ?_
    (sep_oper h5).1) (sep_nat f.j h4 _).1) (sep_nat f.i h3 _).1
  rw [if_pos rfl]
  exact reads_oper P hd0 subs hd f.op h5

theorem sep_chain {P : Par} {subs : List SubT} {f : ChainT} (h : f.OK P subs) : Sep f.text ∧ f.text ≠ [] := by
  unfold ChainT.text
  refine ⟨sep_ws h.2.1 h.1, ?_⟩
  intro e
  exact h.1 (List.append_eq_nil_iff.1 e).1

/-! ## Comments -/

theorem afterLine_stable {p : Str} (h : afterLine p ≠ []) (t : Str) :
    afterLine (p ++ t) = afterLine p ++ t ∧ takeLine (p ++ t) = takeLine p := by
  unfold afterLine takeLine at *
  have h1 : p.dropWhile (· != '\n') ≠ [] := by
    intro e; rw [e] at h; exact h rfl
  obtain ⟨e1, e2⟩ := dropWhile_stable h1 t
  rw [e1, e2]
  refine ⟨?_, rfl⟩
  cases hp : p.dropWhile (· != '\n') with
  | nil => exact absurd hp h1
  | cons c u => rfl

theorem afterLine_length (p : Str) : (afterLine p).length ≤ p.length := by
  unfold afterLine
  rw [List.length_drop]
  have := (List.dropWhile_suffix (fun c : Char => c != '\n') (l := p)).length_le
  omega

theorem skip_stable (n m : Nat) (p t : Str) (hn : p.length ≤ n) (hm : n ≤ m) (h : skipComments n p ≠ []) :
    skipComments m (p ++ t) = skipComments n p ++ t := by
  induction n generalizing m p with
  | zero =>
    cases p with
    | nil => exact absurd rfl h
    | cons c p => simp at hn
  | succ n ih =>
    cases m with
    | zero => omega
    | succ m =>
      cases p with
      | nil => exact absurd rfl h
      | cons c p =>
        rw [List.cons_append, skipComments, skipComments]
        rw [skipComments] at h
        simp only [List.length_cons] at hn
        by_cases h1 : c = ' ' ∨ c = '\t' ∨ c = '\n'
        · rw [if_pos h1] at h ⊢
          rw [if_pos h1]
          exact ih m p (by omega) (by omega) h
        · rw [if_neg h1] at h ⊢
          rw [if_neg h1]
          by_cases h2 : c = '#'
          · rw [if_pos h2] at h ⊢
            rw [if_pos h2]
            have h3 : afterLine p ≠ [] := by
              intro e; rw [e] at h
              cases n <;> exact h rfl
            rw [(afterLine_stable h3 t).1]
            exact ih m (afterLine p) (by have := afterLine_length p; omega) (by omega) h
          · rw [if_neg h2, if_neg h2]; rfl

/-- A reader after `skip_comments`. -/
theorem nice_skip {α : Type} {f : Rd α} (hf : Nice f) : Nice (fun s => f (skipComments s.length s) : Rd α) := by
  constructor
  · intro p a r hr h t
    have h1 : skipComments p.length p ≠ [] := by
      intro e
      rw [e] at h
      exact hr (hf.nil a r h)
    show f (skipComments (p ++ t).length (p ++ t)) = _
    rw [skip_stable p.length (p ++ t).length p t (le_refl _) (by simp) h1]
    exact hf.stable _ a r hr h t
  · intro a r h
    exact hf.nil a r h

theorem skip_ws (n : Nat) (s : Str) (h : (s.dropWhile isSpace).head? ≠ some '#') :
    (skipComments n s).dropWhile isSpace = s.dropWhile isSpace := by
  induction n generalizing s with
  | zero => rfl
  | succ n ih =>
    cases s with
    | nil => rfl
    | cons c s =>
      rw [skipComments]
      by_cases h1 : c = ' ' ∨ c = '\t' ∨ c = '\n'
      · have hs : isSpace c = true := by rcases h1 with rfl | rfl | rfl <;> decide
        rw [List.dropWhile_cons_of_pos hs] at h ⊢
        rw [if_pos h1]
        exact ih s h
      · rw [if_neg h1]
        by_cases h2 : c = '#'
        · subst h2
          exact absurd rfl h
        · rw [if_neg h2]

theorem skip_line (n : Nat) (w line y : Str) (hw : ∀ x ∈ w, x = ' ' ∨ x = '\t' ∨ x = '\n') (hl : '\n' ∉ line) :
    skipComments (n + w.length + 1) (w ++ '#' :: (line ++ '\n' :: y)) = skipComments n y := by
  induction w with
  | nil =>
    rw [List.nil_append, List.length_nil, skipComments, if_neg (by decide), if_pos rfl]
    congr 1
    unfold afterLine
    have : ∀ c ∈ line, (c != '\n') = true := by
      intro c hc
      simp only [bne_iff_ne, ne_eq]
      rintro rfl; exact hl hc
    rw [List.dropWhile_append_of_pos this]
    rw [List.dropWhile_cons_of_neg (by simp)]
    rfl
  | cons c w ih =>
    rw [List.cons_append, List.length_cons, show n + (w.length + 1) + 1 = (n + w.length + 1) + 1 by omega, skipComments,
      if_pos (hw c (by simp))]
    exact ih fun x hx => hw x (by simp [hx])

theorem skip_fuel (n m : Nat) (p : Str) (hn : p.length ≤ n) (hm : n ≤ m) : skipComments m p = skipComments n p := by
  induction n generalizing m p with
  | zero =>
    cases p with
    | nil => cases m <;> rfl
    | cons c p => simp at hn
  | succ n ih =>
    cases m with
    | zero => omega
    | succ m =>
      cases p with
      | nil => rfl
      | cons c p =>
        rw [skipComments, skipComments]
        simp only [List.length_cons] at hn
        rw [ih m p (by omega) (by omega), ih m (afterLine p) (by have := afterLine_length p; omega) (by omega)]

theorem com_tail (cs : List ComT) (h : ∀ c ∈ cs, c.OK) (rest : Str) (hr : rest.head? = some '\n') :
    (cs.flatMap ComT.text ++ rest).head? = some '\n' := by
  cases cs with
  | nil => exact hr
  | cons c cs =>
    have := (h c (by simp)).1
    rw [List.flatMap_cons, ComT.text]
    cases hw : c.ws with
    | nil => rw [hw] at this; exact absurd this (by simp)
    | cons a w => rw [hw] at this; simpa using this

/-- `skip_comments` removes comments: what follows is the same up to leading white space. -/
theorem skip_comments (cs : List ComT) (h : ∀ c ∈ cs, c.OK) (rest : Str) (hr : rest.head? = some '\n')
    (hh : (rest.dropWhile isSpace).head? ≠ some '#') :
    (skipComments (cs.flatMap ComT.text ++ rest).length (cs.flatMap ComT.text ++ rest)).dropWhile isSpace =
      rest.dropWhile isSpace := by
  cases cs with
  | nil => exact skip_ws _ _ hh
  | cons c cs =>
    have key : ∀ (cs : List ComT) (w line : Str) (n : Nat), (∀ x ∈ w, x = ' ' ∨ x = '\t' ∨ x = '\n') → '\n' ∉ line →
        (∀ c ∈ cs, c.OK) → (w ++ '#' :: (line ++ (cs.flatMap ComT.text ++ rest))).length ≤ n →
        (skipComments n (w ++ '#' :: (line ++ (cs.flatMap ComT.text ++ rest)))).dropWhile isSpace =
          rest.dropWhile isSpace := by
      intro cs
      induction cs with
      | nil =>
        intro w line n hw hl _ hn
        rw [List.flatMap_nil, List.nil_append] at *
        cases rest with
        | nil => simp at hr
        | cons a y =>
          simp at hr; subst hr
          obtain ⟨k, rfl⟩ : ∃ k, n = k + w.length + 1 := ⟨n - w.length - 1, by simp at hn; omega⟩
          rw [skip_line k w line y hw hl]
          rw [List.dropWhile_cons_of_pos (by decide)] at hh ⊢
          exact skip_ws _ _ hh
      | cons c cs ih =>
        intro w line n hw hl hcs hn
        have hc := hcs c (by simp)
        rw [List.flatMap_cons, ComT.text] at *
        cases hcw : c.ws with
        | nil => have := hc.1; rw [hcw] at this; exact absurd this (by simp)
        | cons a w2 =>
          have ha := hc.1
          rw [hcw] at ha hn
          simp at ha; subst ha
          have e : '\n' :: w2 ++ '#' :: c.line ++ List.flatMap ComT.text cs ++ rest =
              '\n' :: (w2 ++ '#' :: (c.line ++ (cs.flatMap ComT.text ++ rest))) := by simp
          rw [e] at hn ⊢
          obtain ⟨k, rfl⟩ : ∃ k, n = k + w.length + 1 := ⟨n - w.length - 1, by
            simp only [List.length_append, List.length_cons] at hn; omega⟩
          rw [skip_line k w line _ hw hl]
          refine ih w2 c.line k (fun x hx => hc.2.1 x (by rw [hcw]; simp [hx])) hc.2.2 (fun d hd => hcs d (by simp [hd])) ?_
          simp only [List.length_append, List.length_cons] at hn ⊢
          omega
    have hc := h c (by simp)
    have e : (c :: cs).flatMap ComT.text ++ rest = c.ws ++ '#' :: (c.line ++ (cs.flatMap ComT.text ++ rest)) := by
      rw [List.flatMap_cons, ComT.text]; simp
    rw [e]
    exact key cs c.ws c.line _ hc.2.1 hc.2.2 (fun d hd => h d (by simp [hd])) (le_refl _)

end Verif.DataFile
