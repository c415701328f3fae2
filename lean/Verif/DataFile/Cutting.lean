import Verif.DataFile.Body
/-! # Truncated files -/

namespace Verif.DataFile

open Verif.Text
open Verif.Invar (Label)

theorem Cut.seq' {α β : Type} {f : Rd α} {g : α → Rd β} {w u : Str} {a : α} (hn : Nice f) (hf : Reads f w a)
    (hg : Cut (g a) u) (hs : Sep u) (hnil : ∀ p a', p <+: w → f p = some (a', []) → g a' [] = none) :
    Cut (DataFile.seq f g) (w ++ u) := by
  intro p hp
  unfold DataFile.seq
  rcases prefix_append_cases hp with ⟨h1, h2⟩ | ⟨p', rfl, h1⟩
  · cases hfp : f p with
    | none => rfl
    | some ar =>
      obtain ⟨b, r⟩ := ar
      have := weak_cut hn hf h1 h2 hfp
      subst this
      exact hnil p b h1 hfp
  · rw [hf p' (sep_prefix hs h1)]
    exact hg p' h1

theorem readN_nil {α : Type} {f : Rd α} (h : f [] = none) (n : Nat) : readN f (n + 1) [] = none := by
  rw [readN_succ]; unfold DataFile.seq; rw [h]

theorem Cut.readN_last {α β : Type} {f : Rd α} (text : β → Str) (val : β → α) (hn : Nice f) (h0 : f [] = none) (l : List β)
    (h : ∀ x ∈ l, Reads f (text x) (val x) ∧ Sep (text x) ∧ text x ≠ []) {u : Str} (hu : Cut f u) (hs : Sep u) :
    Cut (readN f (l.length + 1)) (l.flatMap text ++ u) := by
  induction l with
  | nil =>
    rw [List.length_nil, readN_succ]
    exact Cut.seq_left hu
  | cons x l ih =>
    rw [List.length_cons, readN_succ, List.flatMap_cons, List.append_assoc]
    refine Cut.seq hn (h x (by simp)).1 (Cut.seq_left (ih fun y hy => h y (by simp [hy]))) ?_ ?_
    · exact sep_append (fun _ => sep_flatMap _ _ fun y hy => (h y (by simp [hy])).2) hs
    · intro a'
      unfold DataFile.seq
      rw [readN_nil h0]

theorem cut_blank {ws : Str} (h : Blank ws) : Cut readDec ws := by
  intro p hp
  have hb : Blank p := fun c hc => h c (hp.subset hc)
  have := dropWhile_blank hb []
  rw [List.append_nil] at this
  rw [ins_readDec, this]
  rfl

/-! ## The count of a list cut short -/

theorem foldl_mono (s : Str) (a b : Nat) (h : a ≤ b) : a ≤ s.foldl (fun n c => 10 * n + (c.toNat - 48)) b := by
  induction s generalizing a b with
  | nil => exact h
  | cons c s ih => exact ih a _ (show a ≤ 10 * b + (c.toNat - 48) by omega)

theorem natValue_le {p s : Str} (h : p <+: s) : natValue p ≤ natValue s := by
  obtain ⟨t, rfl⟩ := h
  unfold natValue
  rw [List.foldl_append]
  exact foldl_mono t _ _ (le_refl _)

theorem count_cut {t : Tok Nat} (h : NatOK t) {p : Str} (hp : p <+: natText t) {v : Nat} {r : Str} (hr : readNat p = some (v, r)) :
    v ≤ t.v := by
  unfold natText at hp
  rcases prefix_append_cases hp with ⟨h1, -⟩ | ⟨q, rfl, h1⟩
  · have hb : Blank p := fun c hc => h.1.2 c (h1.subset hc)
    have := dropWhile_blank hb []
    rw [List.append_nil] at this
    rw [ins_readNat, this, show readNat (List.dropWhile isSpace []) = none by decide] at hr
    exact absurd hr (by simp)
  · rw [ins_readNat, dropWhile_blank h.1.2, ← ins_readNat] at hr
    cases q with
    | nil => rw [show readNat [] = none by decide] at hr; exact absurd hr (by simp)
    | cons c q =>
      have hd : ∀ x ∈ c :: q, isDigit x = true := fun x hx => natStr_isDigit t.v x (h1.subset hx)
      unfold readNat at hr
      dsimp only at hr
      rw [List.dropWhile_cons_of_neg (by rw [digit_not_space (hd c (by simp))]; simp),
        ne_sign_of_digit (hd c (by simp))] at hr
      have htw : (c :: q).takeWhile isDigit = c :: q := by
        have := List.takeWhile_append_of_pos (l₂ := []) hd
        simpa using this
      dsimp only at hr
      rw [htw, if_neg (by simp)] at hr
      have hle := natValue_le h1
      rw [natStr_value] at hle
      have h64 := h.2
      rw [if_neg (by omega)] at hr
      simp only [Bool.false_eq_true, false_and, if_false, Option.some.injEq, Prod.mk.injEq] at hr
      omega

theorem cut_vec {n : Tok Nat} {vs : List (Tok Lit)} {t : Tok Lit} (h : VecT.OK true ⟨n, vs ++ [t]⟩) :
    Cut (readVec true) (natText n ++ (vs.flatMap numText ++ t.ws)) := by
  obtain ⟨h1, h2, h3⟩ := h
  simp only [if_true] at h3 h1 h2
  have hvs : ∀ x ∈ vs, NumOK x := fun x hx => h2 x (by simp [hx])
  have ht := h2 t (by simp)
  unfold readVec
  refine Cut.seq' nice_readNat (reads_nat n h1) ?_ ?_ ?_
  · rw [if_pos rfl, Nat.mod_eq_of_lt h3.2, ← h3.1, List.length_append, List.length_singleton]
    exact Cut.readN_last numText (fun t => t.v.val) nice_readDec rfl vs
      (fun x hx => ⟨reads_num x (hvs x hx), sep_tok (hvs x hx).1 _⟩) (cut_blank ht.1.2) (sep_blank ht.1.2)
  · exact sep_append (fun _ => sep_num _ hvs) (sep_blank ht.1.2)
  · intro p v hp hv
    have := count_cut h1 hp hv
    rw [if_pos rfl, Nat.mod_eq_of_lt (by omega)]
    exact readN_nil rfl _

theorem readVec_nil (b : Bool) : readVec b [] = none := rfl

theorem sep_vec' {b : Bool} (v : VecT) (h : v.OK b) : Sep v.text ∧ v.text ≠ [] := by
  have := sep_vec v h []
  rwa [List.append_nil] at this

/-- Two sets of tables of which the last number is missing. -/
theorem cut_sets (c : Nat) {xi zs : List VecT} {n : Tok Nat} {vs : List (Tok Lit)} {t : Tok Lit}
    (hxi : xi.length = c ∧ ∀ v ∈ xi, v.OK true)
    (hz : (zs ++ [(⟨n, vs ++ [t]⟩ : VecT)]).length = c ∧ ∀ v ∈ zs ++ [⟨n, vs ++ [t]⟩], v.OK true) :
    Cut (readN (readN (readVec true) c) 2)
      (xi.flatMap VecT.text ++ (zs.flatMap VecT.text ++ (natText n ++ (vs.flatMap numText ++ t.ws)))) := by
  have hzs : ∀ v ∈ zs, v.OK true := fun v hv => hz.2 v (by simp [hv])
  have hlast : VecT.OK true ⟨n, vs ++ [t]⟩ := hz.2 _ (by simp)
  have hc : c = zs.length + 1 := by rw [← hz.1]; simp
  have hsep : Sep (natText n ++ (vs.flatMap numText ++ t.ws)) := (sep_nat n hlast.1 _).1
  rw [readN_succ]
  have hr := reads_set xi hxi.2
  rw [hxi.1] at hr
  refine Cut.seq ((nice_readVec true).readN c) hr ?_ ?_ ?_
  · refine Cut.seq_left ?_
    rw [readN_succ]
    refine Cut.seq_left ?_
    rw [hc]
    exact Cut.readN_last VecT.text VecT.val (nice_readVec true) rfl zs (fun v hv => ⟨reads_vec v (hzs v hv), sep_vec' v (hzs v hv)⟩)
      (cut_vec hlast) hsep
  · exact sep_append (fun _ => sep_flatMap _ _ fun v hv => sep_vec' v (hzs v hv)) hsep
  · intro a
    unfold DataFile.seq
    rw [hc, readN_nil (readN_nil rfl _)]

/-! ## Blocks cut short -/

theorem seq_some {α β : Type} {f : Rd α} {g : α → Rd β} {s r : Str} {b : β} (h : seq f g s = some (b, r)) :
    ∃ a r', f s = some (a, r') ∧ g a r' = some (b, r) := by
  unfold DataFile.seq at h
  cases hf : f s with
  | none => rw [hf] at h; exact absurd h (by simp)
  | some ar => rw [hf] at h; exact ⟨ar.1, ar.2, rfl, h⟩

theorem check_some {α : Type} {b : Bool} {a a' : α} {s r : Str} (h : check b a s = some (a', r)) : b = true ∧ a' = a := by
  unfold check at h
  by_cases hb : b
  · rw [if_pos hb] at h; simp at h; exact ⟨hb, h.1.symm⟩
  · rw [if_neg hb] at h; exact absurd h (by simp)

theorem ret_some {α : Type} {a a' : α} {s r : Str} (h : ret a s = some (a', r)) : a' = a := by
  unfold ret at h; simp at h; exact h.1.symm

theorem readBody_keeps {P : Par} {c : Nat} {subs : List (Label × List Dec)} {k : Char} {l : Str} {b b' : Blocks} {s r : Str}
    (hk : k ≠ 'z') (h : readBody P c subs k l b s = some (b', r)) : b'.coef 'z' = b.coef 'z' := by
  unfold readBody at h
  split at h
  · rw [ret_some h]
  · split at h
    · obtain ⟨x, r1, -, h⟩ := seq_some h
      rw [ret_some h]
    · split at h
      · obtain ⟨m, r1, -, h⟩ := seq_some h
        rw [ret_some h]; rfl
      · cases hn : coefSets k with
        | some n =>
          rw [hn] at h
          obtain ⟨t, r1, -, h⟩ := seq_some h
          rw [ret_some h]
          unfold Blocks.setCoef
          dsimp only
          rw [if_neg (fun e => hk e.symm)]
        | none => rw [hn] at h; exact absurd h (by simp)

theorem line_cut {q line y : Str} (hq : q <+: line ++ '\n' :: y) (hl : '\n' ∉ line) :
    '\n' ∉ q ∨ ∃ q', q = line ++ '\n' :: q' ∧ q' <+: y := by
  rcases prefix_append_cases hq with ⟨h1, -⟩ | ⟨q', rfl, h1⟩
  · exact Or.inl fun h => hl (h1.subset h)
  · cases q' with
    | nil => left; rw [List.append_nil]; exact hl
    | cons a q' =>
      rw [List.cons_prefix_cons] at h1
      exact Or.inr ⟨q', by rw [h1.1], h1.2⟩

/-- On a part of the blocks before the coefficients the reader fails or does not find them. -/
def Lost (r : Option Blocks) : Prop := ∀ b, r = some b → b.coef 'z' = none

theorem lost_some {b : Blocks} (h : b.coef 'z' = none) : Lost (some b) := by
  intro b' hb
  simp only [Option.some.injEq] at hb
  rw [← hb]; exact h

theorem lost_none : Lost none := fun b h => absurd h (by simp)

theorem prefix_head {p ws s : Str} {k : Char} (hp : p <+: ws ++ k :: s) (hw : Blank ws) :
    Blank p ∨ ∃ q, p = ws ++ k :: q ∧ q <+: s := by
  rcases prefix_append_cases hp with ⟨h1, -⟩ | ⟨p', rfl, h1⟩
  · exact Or.inl fun c hc => hw c (h1.subset hc)
  · cases p' with
    | nil => left; rw [List.append_nil]; exact hw
    | cons a q =>
      rw [List.cons_prefix_cons] at h1
      exact Or.inr ⟨q, by rw [h1.1], h1.2⟩

theorem blocks_cut {P : Par} {c : Nat} {subs : List SubT} (hd0 : 0 < P.invdim) (hc : 0 < P.coeffactor * c)
    (hd : (subs.map fun s => labVal s.lab).Nodup) (pre : List BlockT) (h : ∀ x ∈ pre, x.OK P c subs)
    (hz : ∀ x ∈ pre, x.body.letter ≠ 'z') {u : Str} (hnl : Nl u)
    (hu : ∀ n (b : Blocks), b.coef 'z' = none → ∀ p, p <+: u → Lost (readBlocks P c (subs.map SubT.val) n b p))
    (n : Nat) (b : Blocks) (hb : b.coef 'z' = none) (p : Str) (hp : p <+: pre.flatMap BlockT.text ++ u) :
    Lost (readBlocks P c (subs.map SubT.val) n b p) := by
  induction pre generalizing n b p with
  | nil => exact hu n b hb p hp
  | cons x pre ih =>
    cases n with
    | zero => exact lost_some hb
    | succ n =>
      have hpre : ∀ x ∈ pre, x.OK P c subs := fun y hy => h y (by simp [hy])
      have hx := h x (by simp)
      have hxz := hz x (by simp)
      rw [List.flatMap_cons, List.append_assoc] at hp
      rcases prefix_append_cases hp with ⟨h1, h2⟩ | ⟨p', rfl, h1⟩
      · obtain ⟨-, hw, hl, hn, hok⟩ := hx
        have hk := letter_not_space hok
        rcases prefix_head (h1 : p <+: x.ws ++ x.body.letter :: (x.body.line ++ x.body.text)) hw with hblank | ⟨q, rfl, hq⟩
        · rw [readBlocks_blank hblank]; exact lost_some hb
        · rcases body_cases hc hok hn (subs.map SubT.val) b with ⟨l, hcm⟩ | ⟨⟨y, hy⟩, hi⟩
          · rw [readBlocks_short hw hk]
            · exact lost_some hb
            · rw [hcm, Body.text, List.append_nil] at hq
              rw [hcm] at hl
              exact fun hh => hl (hq.subset hh)
          · rw [hy] at hq
            rcases line_cut hq hl with hnq | ⟨q', rfl, hq'⟩
            · rw [readBlocks_short hw hk hnq]; exact lost_some hb
            · rw [readBlocks_step hw hk hl]
              cases hrb : readBody P c (subs.map SubT.val) x.body.letter x.body.line b q' with
              | none => exact lost_none
              | some br =>
                obtain ⟨b', r⟩ := br
                have hb' : b'.coef 'z' = none := by rw [readBody_keeps hxz hrb]; exact hb
                have hne : '\n' :: q' ≠ x.body.text := by
                  intro e
                  apply h2
                  unfold BlockT.text
                  rw [← e]
                have e2 : readBody P c (subs.map SubT.val) x.body.letter x.body.line b ('\n' :: q') = some (b', r) := by
                  rw [hi ('\n' :: q'), List.dropWhile_cons_of_pos (by decide), ← hi, hrb]
                have hr : r = [] := weak_cut (nice_body _ _ _ _ _ _) (reads_body hd0 hd hok b)
                  (p := '\n' :: q') (by rw [hy, List.cons_prefix_cons]; exact ⟨rfl, hq'⟩) hne e2
                subst hr
                dsimp only
                rw [readBlocks_blank (by intro a ha; simp at ha)]
                exact lost_some hb'
      · have hnl' : Nl p' := by
          have hN := nl_blocks pre hpre u hnl
          cases p' with
          | nil => exact Or.inr rfl
          | cons a p' =>
            left
            rcases hN with hN | hN
            · obtain ⟨t, ht⟩ := h1
              rw [← ht] at hN
              simpa using hN
            · rw [hN] at h1; simp at h1
        rw [readBlocks_block hd0 hc hd hx b n p' hnl']
        refine ih hpre (fun y hy => hz y (by simp [hy])) n _ ?_ p' h1
        rw [upd_coef, hb, Option.or_none]
        cases hbody : x.body with
        | comment l => rfl
        | energy l y => rfl
        | oper k l o => rfl
        | coef k l t =>
          rw [hbody] at hxz
          exact if_neg hxz

/-- The last block without its last number. -/
theorem last_cut {P : Par} {c : Nat} {subs : List (Label × List Dec)} {ws line u : Str}
    (hw : Blank ws) (hl : '\n' ∉ line) (hne : 0 < P.coeffactor * c)
    (hcut : Cut (readN (readN (readVec true) (P.coeffactor * c)) 2) ('\n' :: u)) (n : Nat) (b : Blocks) (hb : b.coef 'z' = none)
    (p : Str) (hp : p <+: ws ++ 'z' :: (line ++ '\n' :: u)) : Lost (readBlocks P c subs n b p) := by
  have hk : isSpace 'z' = false := by decide
  rcases prefix_head hp hw with hblank | ⟨q, rfl, hq⟩
  · rw [readBlocks_blank hblank]; exact lost_some hb
  · rcases line_cut hq hl with hnq | ⟨q', rfl, hq'⟩
    · rw [readBlocks_short hw hk hnq]; exact lost_some hb
    · cases n with
      | zero => exact lost_some hb
      | succ n =>
        rw [readBlocks_step hw hk hl, readBody_coef (n := 2) rfl]
        have hi : Ins (readN (readN (readVec true) (P.coeffactor * c)) 2) := by
          obtain ⟨d, hd⟩ : ∃ d, P.coeffactor * c = d + 1 := ⟨P.coeffactor * c - 1, by omega⟩
          rw [hd]
          exact ((ins_readNat.seq _).readN d).readN 1
        have h1 := hcut ('\n' :: q') (by rw [List.cons_prefix_cons]; exact ⟨rfl, hq'⟩)
        rw [hi, List.dropWhile_cons_of_pos (by decide), ← hi] at h1
        unfold DataFile.seq
        rw [h1]
        exact lost_none

/-! ## What is read -/

theorem readN_spec {α : Type} {f : Rd α} {n : Nat} {s r : Str} {l : List α} (h : readN f n s = some (l, r)) :
    l.length = n ∧ ∀ a ∈ l, ∃ s r, f s = some (a, r) := by
  induction n generalizing s l r with
  | zero =>
    simp only [readN, Option.some.injEq, Prod.mk.injEq] at h
    rw [← h.1]; simp
  | succ n ih =>
    rw [readN_succ] at h
    unfold DataFile.seq at h
    cases hf : f s with
    | none => rw [hf] at h; exact absurd h (by simp)
    | some ar =>
      obtain ⟨a, r1⟩ := ar
      rw [hf] at h
      dsimp only at h
      cases hN : readN f n r1 with
      | none => rw [hN] at h; exact absurd h (by simp)
      | some lr =>
        obtain ⟨l', r2⟩ := lr
        rw [hN] at h
        simp only [ret, Option.some.injEq, Prod.mk.injEq] at h
        obtain ⟨h1, h2⟩ := ih hN
        rw [← h.1]
        refine ⟨by simp [h1], ?_⟩
        intro x hx
        rcases List.mem_cons.1 hx with rfl | hx
        · exact ⟨s, r1, hf⟩
        · exact h2 x hx

theorem extractor_length {n : Nat} {s r : Str} {I : Label} (h : (extractor n : Rd Label) s = some (I, r)) : I.length = n := by
  induction n generalizing s I r with
  | zero => simp [extractor] at h; rw [h.1]; rfl
  | succ n ih =>
    rw [extractor_succ] at h
    obtain ⟨a, r1, h1, h2⟩ := seq_some h
    obtain ⟨l, r2, h3, h4⟩ := seq_some h2
    rw [ret_some h4]
    simp [ih h3]

/-- Matrix elements between subspaces that exist, with their dimensions, no pair of subspaces twice. -/
def GoodMat (subs : List (Label × List Dec)) (m : MatEl) : Prop :=
  (m.map (·.1)).Nodup ∧ ∀ x ∈ m, ∃ e1 e2, (x.1.1, e1) ∈ subs ∧ (x.1.2, e2) ∈ subs ∧ x.2.length = e1.length ∧
    ∀ row ∈ x.2, row.length = e2.length

theorem dimOf_mem {subs : List (Label × List Dec)} {I : Label} {n : Nat} (h : dimOf subs I = some n) :
    ∃ e, (I, e) ∈ subs ∧ e.length = n := by
  unfold dimOf at h
  cases hl : subs.lookup I with
  | none => rw [hl] at h; exact absurd h (by simp)
  | some e =>
    rw [hl] at h
    simp only [Option.map_some, Option.some.injEq] at h
    refine ⟨e, ?_, h⟩
    clear h
    induction subs with
    | nil => simp at hl
    | cons x l ih =>
      obtain ⟨J, e'⟩ := x
      rw [List.lookup_cons] at hl
      cases hb : (I == J) with
      | true =>
        rw [hb] at hl
        simp only [Option.some.injEq] at hl
        rw [beq_iff_eq] at hb
        rw [hb, hl]; simp
      | false => rw [hb] at hl; exact List.mem_cons_of_mem _ (ih hl)

theorem readBlock_good {P : Par} {subs : List (Label × List Dec)} {s r : Str} {x : (Label × Label) × List (List Dec)}
    (h : readBlock P subs s = some (x, r)) : ∃ e1 e2, (x.1.1, e1) ∈ subs ∧ (x.1.2, e2) ∈ subs ∧ x.2.length = e1.length ∧
    ∀ row ∈ x.2, row.length = e2.length := by
  unfold readBlock at h
  obtain ⟨I1, r1, -, h⟩ := seq_some h
  obtain ⟨I2, r2, -, h⟩ := seq_some h
  cases h1 : dimOf subs I1 with
  | none => rw [h1] at h; exact absurd h (by simp)
  | some n1 =>
    cases h2 : dimOf subs I2 with
    | none => rw [h1, h2] at h; exact absurd h (by simp)
    | some n2 =>
      rw [h1, h2] at h
      dsimp only at h
      obtain ⟨m, r3, h3, h4⟩ := seq_some h
      rw [ret_some h4]
      obtain ⟨e1, he1, rfl⟩ := dimOf_mem h1
      obtain ⟨e2, he2, rfl⟩ := dimOf_mem h2
      obtain ⟨h5, h6⟩ := readN_spec h3
      refine ⟨e1, e2, he1, he2, h5, ?_⟩
      intro row hrow
      obtain ⟨s', r', h7⟩ := h6 row hrow
      exact (readN_spec h7).1

theorem readMatEl_good {P : Par} {subs : List (Label × List Dec)} {s r : Str} {m : MatEl}
    (h : readMatEl P subs s = some (m, r)) : GoodMat subs m := by
  unfold readMatEl at h
  obtain ⟨nf, r1, -, h⟩ := seq_some h
  obtain ⟨l, r2, h1, h2⟩ := seq_some h
  obtain ⟨h3, rfl⟩ := check_some h2
  refine ⟨by simpa using h3, ?_⟩
  intro x hx
  obtain ⟨s', r', h4⟩ := (readN_spec h1).2 x hx
  exact readBlock_good h4

theorem readF_good {P : Par} {subs : List (Label × List Dec)} {s r : Str} {m : MatEl}
    (h : readF P subs s = some (m, r)) : GoodMat subs m := by
  unfold readF at h
  obtain ⟨c, r1, -, h⟩ := seq_some h
  obtain ⟨_, r2, -, h⟩ := seq_some h
  obtain ⟨_, r3, -, h⟩ := seq_some h
  by_cases hc : c = 'f'
  · rw [if_pos hc] at h; exact readMatEl_good h
  · rw [if_neg hc] at h; exact absurd h (by simp)

/-- The data of the blocks fit together. -/
def GoodBlocks (P : Par) (channels : Nat) (subs : List (Label × List Dec)) (b : Blocks) : Prop :=
  (∀ k n m, b.oper k n = some m → OperKind k ∧ GoodMat subs m) ∧
    ∀ k t, b.coef k = some t → TableKind k t.length ∧ ∀ s ∈ t, s.length = P.coeffactor * channels

theorem readBody_good {P : Par} {c : Nat} {subs : List (Label × List Dec)} {k : Char} {l : Str} {b b' : Blocks} {s r : Str}
    (hb : GoodBlocks P c subs b) (h : readBody P c subs k l b s = some (b', r)) : GoodBlocks P c subs b' := by
  unfold readBody at h
  split at h
  · rw [ret_some h]; exact hb
  · split at h
    · obtain ⟨x, r1, -, h⟩ := seq_some h
      rw [ret_some h]; exact hb
    · split at h
      · rename_i hk
        obtain ⟨m, r1, h1, h⟩ := seq_some h
        rw [ret_some h]
        refine ⟨?_, hb.2⟩
        intro k' n' m' hm
        unfold Blocks.setOper at hm
        dsimp only at hm
        by_cases hkn : k' = k ∧ n' = l
        · rw [if_pos hkn] at hm
          simp only [Option.some.injEq] at hm
          rw [hkn.1, ← hm]
          exact ⟨(operKind_iff k).mpr hk, readMatEl_good h1⟩
        · rw [if_neg hkn] at hm; exact hb.1 _ _ _ hm
      · cases hn : coefSets k with
        | some n =>
          rw [hn] at h
          obtain ⟨t, r1, h1, h⟩ := seq_some h
          rw [ret_some h]
          refine ⟨hb.1, ?_⟩
          intro k' t' ht
          unfold Blocks.setCoef at ht
          dsimp only at ht
          by_cases hk : k' = k
          · rw [if_pos hk] at ht
            simp only [Option.some.injEq] at ht
            obtain ⟨h2, h3⟩ := readN_spec h1
            rw [hk, ← ht]
            refine ⟨(tableKind_iff _ _).mpr (by rw [hn, h2]), ?_⟩
            intro s' hs'
            obtain ⟨s1, r2, h4⟩ := h3 s' hs'
            exact (readN_spec h4).1
          · rw [if_neg hk] at ht; exact hb.2 _ _ ht
        | none => rw [hn] at h; exact absurd h (by simp)

theorem readBlocks_good {P : Par} {c : Nat} {subs : List (Label × List Dec)} {n : Nat} {b b' : Blocks} {s : Str}
    (hb : GoodBlocks P c subs b) (h : readBlocks P c subs n b s = some b') : GoodBlocks P c subs b' := by
  induction n generalizing b s with
  | zero => simp only [readBlocks, Option.some.injEq] at h; rw [← h]; exact hb
  | succ n ih =>
    rw [readBlocks] at h
    split at h
    · simp only [Option.some.injEq] at h; rw [← h]; exact hb
    · split at h
      · split at h
        · exact absurd h (by simp)
        · rename_i hr
          exact ih (readBody_good hb hr) h
      · simp only [Option.some.injEq] at h; rw [← h]; exact hb

end Verif.DataFile
