import Verif.DataFile.Head
/-! # Spectra, chain operators and blocks -/

namespace Verif.DataFile

open Verif.Text
open Verif.Invar (Label)

/-! ## Spectra -/

theorem intStr_head (v : Int) (s : Str) : ((intStr v ++ s).dropWhile isSpace).head? ≠ some '#' := by
  unfold intStr
  split
  · rw [List.cons_append, List.dropWhile_cons_of_neg (by decide)]
    simp
  · rw [(digit_head _ _).1]
    exact (digit_head _ _).2

theorem lab_head (P : Par) (hd : 0 < P.invdim) (l : LabT) (h : LabOK P l) (s : Str) :
    ((labText l ++ s).dropWhile isSpace).head? ≠ some '#' := by
  obtain ⟨h1, h2⟩ := h
  cases l with
  | nil => simp at h1; omega
  | cons t l =>
    unfold labText
    rw [List.flatMap_cons, List.append_assoc, intText, List.append_assoc, dropWhile_blank (h2 t (by simp)).1.2]
    exact intStr_head _ _

theorem sub_ne {P : Par} (hd : 0 < P.invdim) {x : SubT} (h : LabOK P x.lab ∧ x.vec.OK false) :
    Sep x.text ∧ x.text ≠ [] := sep_lab P hd x.lab h.1 _

theorem subs_start {P : Par} {f : File} (h : f.OK P) (rest : Str) :
    (f.subs.flatMap SubT.text ++ rest).head? = some '\n' ∧
      ((f.subs.flatMap SubT.text ++ rest).dropWhile isSpace).head? ≠ some '#' := by
  cases hs : f.subs with
  | nil => exact absurd hs h.subsNe
  | cons x l =>
    have hx := h.subs x (by rw [hs]; simp)
    constructor
    · have hnl := h.subsNl
      rw [hs] at hnl
      have hne : List.flatMap SubT.text (x :: l) ≠ [] := by
        rw [List.flatMap_cons]
        intro e
        exact (sub_ne h.dim hx).2 (List.append_eq_nil_iff.1 e).1
      rcases hnl with hnl | hnl
      · cases hf : List.flatMap SubT.text (x :: l) with
        | nil => exact absurd hf hne
        | cons c u => rw [hf] at hnl; simpa using hnl
      · exact absurd hnl hne
    · rw [List.flatMap_cons, SubT.text, List.append_assoc, List.append_assoc]
      exact lab_head P h.dim x.lab hx.1 _

theorem readDiag_ins (P : Par) (hd : 0 < P.invdim) (n : Nat) (hn : 0 < n) :
    Ins (seq (readN (seq (extractor P.invdim : Rd Label) fun I => seq (readVec false) fun es => ret (I, es)) n)
      (fun l => check (l.map (·.1)).Nodup l)) := by
  obtain ⟨k, rfl⟩ : ∃ k, n = k + 1 := ⟨n - 1, by omega⟩
  obtain ⟨m, hm⟩ : ∃ m, P.invdim = m + 1 := ⟨P.invdim - 1, by omega⟩
  rw [hm]
  exact (((ins_extractor m).seq _).readN k).seq _

theorem reads_diag {P : Par} {f : File} (h : f.OK P) : Reads (readDiag P f.nsubs.v) f.subsText (f.subs.map SubT.val) := by
  intro rest hr
  unfold readDiag File.subsText
  have hst := subs_start h rest
  have hpos : 0 < f.nsubs.v := by rw [← h.subsLen]; exact List.length_pos_iff.2 h.subsNe
  rw [List.append_assoc, readDiag_ins P h.dim _ hpos, skip_comments _ h.com1 _ hst.1 hst.2, ← readDiag_ins P h.dim _ hpos]
  have hrd : Reads (seq (readN (seq (extractor P.invdim : Rd Label) fun I => seq (readVec false) fun es => ret (I, es)) f.nsubs.v)
      (fun l => check (l.map (·.1)).Nodup l)) (f.subs.flatMap SubT.text) (f.subs.map SubT.val) := by
    refine Reads.check (fun l : List (Label × List Dec) => decide (l.map (·.1)).Nodup) ?_ ?_
    · rw [← h.subsLen]
      exact Reads.readN SubT.text SubT.val f.subs fun x hx => ⟨reads_sub P x (h.subs x hx), sub_ne h.dim (h.subs x hx)⟩
    · have := h.subsDup
      rw [List.map_map, decide_eq_true_iff]
      exact this
  exact hrd rest hr

theorem nice_readDiag (P : Par) (n : Nat) : Nice (readDiag P n) :=
  nice_skip ((((nice_extractor _).seq fun _ => (nice_readVec _).seq fun _ => Nice.ret _).readN _).seq fun _ => Nice.check _ _)

/-! ## Operators of the Wilson chain -/

theorem chainOps_eq (s : Str) : chainOps s = perchannel s := by
  unfold chainOps perchannel
  split <;> simp_all

theorem perchannel_pos (s : Str) : 0 < perchannel s := by
  unfold perchannel
  split
  · decide
  · split <;> decide

theorem ins_readF (P : Par) (subs : List (Label × List Dec)) : Ins (readF P subs) := ins_readChar.seq _

theorem reads_channels (P : Par) (hd0 : 0 < P.invdim) (subs : List SubT) (hd : (subs.map fun s => labVal s.lab).Nodup) (k : Nat)
    (cs : List (List ChainT)) (h : ∀ c ∈ cs, c.length = k ∧ ∀ x ∈ c, x.OK P subs) :
    Reads (readN (readN (readF P (subs.map SubT.val)) k) cs.length) (cs.flatMap fun c => c.flatMap ChainT.text)
      (cs.map fun c => c.map fun x => x.op.val) ∧ Sep (cs.flatMap fun c => c.flatMap ChainT.text) := by
  induction cs with
  | nil => exact ⟨Reads.ret [], sep_nil⟩
  | cons c cs ih =>
    obtain ⟨ih1, ih2⟩ := ih fun x hx => h x (by simp [hx])
    obtain ⟨h1, h2⟩ := h c (by simp)
    rw [List.length_cons, readN_succ, List.flatMap_cons, List.map_cons]
    have hr : Reads (readN (readF P (subs.map SubT.val)) c.length) (c.flatMap ChainT.text) (c.map fun x => x.op.val) :=
      Reads.readN ChainT.text (fun x => x.op.val) c fun x hx => ⟨reads_chain P hd0 subs hd x (h2 x hx), sep_chain (h2 x hx)⟩
    rw [h1] at hr
    refine ⟨Reads.seq hr (Reads.map ih1 _) ih2, ?_⟩
    exact sep_append (fun _ => sep_flatMap _ _ fun x hx => sep_chain (h2 x hx)) ih2

theorem opch_start {P : Par} {f : File} (h : f.OK P) (rest : Str) :
    ((f.opch.flatMap fun c => c.flatMap ChainT.text) ++ rest).head? = some '\n' ∧
      (((f.opch.flatMap fun c => c.flatMap ChainT.text) ++ rest).dropWhile isSpace).head? ≠ some '#' := by
  have hpos := h.channels.1
  rw [← h.opchLen] at hpos
  cases hc : f.opch with
  | nil => rw [hc] at hpos; simp at hpos
  | cons c cs =>
    obtain ⟨h1, h2⟩ := h.opch c (by rw [hc]; simp)
    cases c with
    | nil => have := perchannel_pos P.sym; rw [← chainOps_eq] at this; simp at h1; omega
    | cons x c =>
      have hx := h2 x (by simp)
      have e : (List.flatMap (fun c => List.flatMap ChainT.text c) ((x :: c) :: cs)) =
          x.text ++ (c.flatMap ChainT.text ++ cs.flatMap fun c => c.flatMap ChainT.text) := by simp
      constructor
      · have hnl := h.opchNl
        rw [hc, e] at hnl
        rw [e]
        have hne := (sep_chain hx).2
        rcases hnl with hnl | hnl
        · cases hf : x.text with
          | nil => exact absurd hf hne
          | cons c u => rw [hf] at hnl; simpa using hnl
        · exact absurd (List.append_eq_nil_iff.1 hnl).1 hne
      · rw [e, List.append_assoc, ChainT.text, List.append_assoc, dropWhile_blank hx.2.1, List.cons_append,
          List.dropWhile_cons_of_neg (by decide)]
        simp

theorem readOpch_ins (P : Par) (subs : List (Label × List Dec)) (n k : Nat) (hn : 0 < n) (hk : 0 < k) :
    Ins (readN (readN (readF P subs) k) n) := by
  obtain ⟨a, rfl⟩ : ∃ a, n = a + 1 := ⟨n - 1, by omega⟩
  obtain ⟨b, rfl⟩ : ∃ b, k = b + 1 := ⟨k - 1, by omega⟩
  exact ((ins_readF P subs).readN b).readN a

theorem reads_opch {P : Par} {f : File} (h : f.OK P) :
    Reads (readOpch P f.channels (f.subs.map SubT.val)) f.opchText f.val.opch := by
  intro rest hr
  unfold readOpch File.opchText
  have hst := opch_start h rest
  have hi := readOpch_ins P (f.subs.map SubT.val) f.channels _ h.channels.1 (perchannel_pos P.sym)
  rw [List.append_assoc, hi, skip_comments _ h.com2 _ hst.1 hst.2, ← hi]
  have := (reads_channels P h.dim f.subs h.subsDup _ f.opch h.opch).1
  rw [h.opchLen, chainOps_eq] at this
  exact this rest hr

theorem nice_readOpch (P : Par) (n : Nat) (subs : List (Label × List Dec)) : Nice (readOpch P n subs) :=
  nice_skip (((nice_readF P subs).readN _).readN _)

theorem readOpch_nil (P : Par) (n : Nat) (hn : 1 ≤ n) (subs : List (Label × List Dec)) : readOpch P n subs [] = none := by
  unfold readOpch
  rw [List.length_nil, skipComments]
  obtain ⟨a, rfl⟩ : ∃ a, n = a + 1 := ⟨n - 1, by omega⟩
  obtain ⟨b, hb⟩ : ∃ b, perchannel P.sym = b + 1 := ⟨perchannel P.sym - 1, by have := perchannel_pos P.sym; omega⟩
  rw [hb, readN_succ, readN_succ]
  rfl

/-! ## Blocks -/

/-- What a block does to the data. -/
def Body.upd : Body → Blocks → Blocks
  | .comment _, b => b
  | .energy _ x, b => { b with gs := some x.v.val }
  | .oper k n o, b => b.setOper k n o.val
  | .coef k _ t, b => b.setCoef k (t.map fun s => s.map VecT.val)

theorem coefSets_mem {k : Char} {n : Nat} (h : coefSets k = some n) : (k = 'z' ∨ k = 'Z' ∨ k = 'X' ∨ k = 'T') ∧ 0 < n := by
  unfold coefSets at h
  split at h <;> simp_all
  all_goals omega

theorem operKind_iff (k : Char) : OperKind k ↔ k ∈ operLetters := by
  simp [OperKind, operLetters]

theorem tableKind_iff (k : Char) (n : Nat) : TableKind k n ↔ coefSets k = some n := by
  unfold TableKind coefSets
  split <;> simp_all [eq_comm]

theorem sep_sets (c : Nat) (t : List (List VecT)) (h : ∀ s ∈ t, s.length = c ∧ ∀ v ∈ s, v.OK true) :
    Sep (t.flatMap fun s => s.flatMap VecT.text) := by
  induction t with
  | nil => exact sep_nil
  | cons s t ih =>
    rw [List.flatMap_cons]
    refine sep_append (fun _ => sep_flatMap _ _ fun v hv => ?_) (ih fun x hx => h x (by simp [hx]))
    have := sep_vec v ((h s (by simp)).2 v hv) []
    rwa [List.append_nil] at this

theorem reads_set (s : List VecT) (h : ∀ v ∈ s, v.OK true) :
    Reads (readN (readVec true) s.length) (s.flatMap VecT.text) (s.map VecT.val) := by
  refine Reads.readN VecT.text VecT.val s fun v hv => ⟨reads_vec v (h v hv), ?_⟩
  have := sep_vec v (h v hv) []
  rwa [List.append_nil] at this

theorem reads_sets (c : Nat) (t : List (List VecT)) (h : ∀ s ∈ t, s.length = c ∧ ∀ v ∈ s, v.OK true) :
    Reads (readN (readN (readVec true) c) t.length) (t.flatMap fun s => s.flatMap VecT.text)
      (t.map fun s => s.map VecT.val) := by
  induction t with
  | nil => exact Reads.ret []
  | cons s t ih =>
    rw [List.length_cons, readN_succ, List.flatMap_cons, List.map_cons]
    obtain ⟨h1, h2⟩ := h s (by simp)
    have hr := reads_set s h2
    rw [h1] at hr
    exact Reads.seq hr (Reads.map (ih fun x hx => h x (by simp [hx])) _) (sep_sets c t fun x hx => h x (by simp [hx]))

theorem readBody_coef {P : Par} {c : Nat} {subs : List (Label × List Dec)} {k : Char} {n : Nat} (h : coefSets k = some n)
    (l : Str) (b : Blocks) : readBody P c subs k l b =
      seq (readN (readN (readVec true) (P.coeffactor * c)) n) fun t => ret (b.setCoef k t) := by
  have hk := (coefSets_mem h).1
  unfold readBody
  rw [if_neg (by rcases hk with rfl | rfl | rfl | rfl <;> decide), if_neg (by rcases hk with rfl | rfl | rfl | rfl <;> decide),
    if_neg (by rcases hk with rfl | rfl | rfl | rfl <;> decide), h]

theorem readBody_oper {P : Par} {c : Nat} {subs : List (Label × List Dec)} {k : Char} (h : k ∈ operLetters)
    (l : Str) (b : Blocks) : readBody P c subs k l b = seq (readMatEl P subs) fun m => ret (b.setOper k l m) := by
  have hk : k ≠ '#' ∧ k ≠ 'e' := by
    constructor <;> (rintro rfl; revert h; decide)
  unfold readBody
  rw [if_neg hk.1, if_neg hk.2, if_pos h]

theorem readBody_energy {P : Par} {c : Nat} {subs : List (Label × List Dec)} (l : Str) (b : Blocks) :
    readBody P c subs 'e' l b = seq readDec fun x => ret { b with gs := some x } := by
  unfold readBody
  rw [if_neg (by decide), if_pos rfl]

theorem readBody_comment {P : Par} {c : Nat} {subs : List (Label × List Dec)} (l : Str) (b : Blocks) :
    readBody P c subs '#' l b = ret b := by
  unfold readBody
  rw [if_pos rfl]

theorem reads_body {P : Par} {c : Nat} {subs : List SubT} (hd0 : 0 < P.invdim) (hd : (subs.map fun s => labVal s.lab).Nodup)
    {x : Body} (h : x.OK P c subs) (b : Blocks) :
    Reads (readBody P c (subs.map SubT.val) x.letter x.line b) x.text (x.upd b) := by
  cases x with
  | comment l =>
    rw [Body.letter, readBody_comment]
    exact Reads.ret b
  | energy l x =>
    rw [Body.letter, readBody_energy]
    exact Reads.map (reads_num x h) fun v => { b with gs := some v }
  | oper k n o =>
    rw [Body.letter, readBody_oper ((operKind_iff _).mp h.1)]
    exact Reads.map (reads_oper P hd0 subs hd o h.2) fun m => b.setOper k n m
  | coef k l t =>
    rw [Body.letter, readBody_coef ((tableKind_iff _ _).mp h.1)]
    exact Reads.map (reads_sets _ t h.2) fun t => b.setCoef k t

theorem nice_body (P : Par) (c : Nat) (subs : List (Label × List Dec)) (k : Char) (l : Str) (b : Blocks) :
    Nice (readBody P c subs k l b) := by
  unfold readBody
  split
  · exact Nice.ret b
  · split
    · exact nice_readDec.seq fun _ => Nice.ret _
    · split
      · exact (nice_readMatEl P subs).seq fun _ => Nice.ret _
      · split
        · exact (((nice_readVec true).readN _).readN _).seq fun _ => Nice.ret _
        · exact Nice.fail

/-- A block is a comment, or something follows its first line and the reader ignores leading white space. -/
theorem body_cases {P : Par} {c : Nat} (hc : 0 < P.coeffactor * c) {subs : List SubT} {x : Body} (h : x.OK P c subs)
    (hnl : Nl x.text) (sv : List (Label × List Dec)) (b : Blocks) :
    (∃ l, x = .comment l) ∨ ((∃ y, x.text = '\n' :: y) ∧ Ins (readBody P c sv x.letter x.line b)) := by
  have hnl' : x.text ≠ [] → ∃ y, x.text = '\n' :: y := by
    intro hne
    rcases hnl with hnl | hnl
    · cases hx : x.text with
      | nil => exact absurd hx hne
      | cons a y => rw [hx] at hnl; simp at hnl; exact ⟨y, by rw [hnl]⟩
    · exact absurd hnl hne
  cases x with
  | comment l => exact Or.inl ⟨l, rfl⟩
  | energy l x =>
    refine Or.inr ⟨hnl' (sep_tok h.1 _).2, ?_⟩
    rw [Body.letter, readBody_energy]
    exact ins_readDec.seq _
  | oper k n o =>
    refine Or.inr ⟨hnl' (sep_oper h.2).2, ?_⟩
    rw [Body.letter, readBody_oper ((operKind_iff _).mp h.1)]
    exact (ins_readNat.seq _).seq _
  | coef k l t =>
    obtain ⟨h1, h2⟩ := h
    rw [tableKind_iff] at h1
    have h3 := (coefSets_mem h1).2
    refine Or.inr ⟨hnl' ?_, ?_⟩
    · cases t with
      | nil => simp at h3
      | cons s t =>
        obtain ⟨h4, h5⟩ := h2 s (by simp)
        cases s with
        | nil => simp at h4; simp only [mul_pos_iff] at hc; omega
        | cons v s =>
          have := sep_vec v (h5 v (by simp)) []
          intro e
          simp [Body.text] at e
          rw [List.append_nil] at this
          exact this.2 e.1
    · rw [Body.letter, readBody_coef h1]
      obtain ⟨a, ha⟩ : ∃ a, t.length = a + 1 := ⟨t.length - 1, by omega⟩
      obtain ⟨d, hd⟩ : ∃ d, P.coeffactor * c = d + 1 := ⟨P.coeffactor * c - 1, by omega⟩
      rw [ha, hd]
      exact (((ins_readNat.seq _).readN d).readN a).seq _

theorem letter_not_space {P : Par} {c : Nat} {subs : List SubT} {x : Body} (h : x.OK P c subs) : isSpace x.letter = false := by
  cases x with
  | comment l => exact (by decide : isSpace '#' = false)
  | energy l x => exact (by decide : isSpace 'e' = false)
  | oper k n o =>
    have : ∀ k ∈ operLetters, isSpace k = false := by decide
    exact this k ((operKind_iff _).mp h.1)
  | coef k l t =>
    have : ∀ k, (k = 'z' ∨ k = 'Z' ∨ k = 'X' ∨ k = 'T') → isSpace k = false := by
      rintro k (rfl | rfl | rfl | rfl) <;> decide
    exact this k (coefSets_mem ((tableKind_iff _ _).mp h.1)).1

theorem readBlocks_ws (P : Par) (c : Nat) (subs : List (Label × List Dec)) (n : Nat) (b : Blocks) (s t : Str)
    (h : s.dropWhile isSpace = t.dropWhile isSpace) : readBlocks P c subs n b s = readBlocks P c subs n b t := by
  cases n with
  | zero => rfl
  | succ n => rw [readBlocks, readBlocks, h]

theorem readBlocks_step {P : Par} {c : Nat} {subs : List (Label × List Dec)} {n : Nat} {b : Blocks} {ws line y : Str} {k : Char}
    (hw : Blank ws) (hk : isSpace k = false) (hl : '\n' ∉ line) :
    readBlocks P c subs (n + 1) b (ws ++ k :: (line ++ '\n' :: y)) =
      match readBody P c subs k line b y with
      | none => none
      | some (b', r') => readBlocks P c subs n b' r' := by
  rw [readBlocks, dropWhile_blank hw, List.dropWhile_cons_of_neg (by rw [hk]; simp)]
  dsimp only
  rw [if_pos (by simp), (line_split line y hl).1, (line_split line y hl).2]
  rfl

theorem readBlocks_short {P : Par} {c : Nat} {subs : List (Label × List Dec)} {n : Nat} {b : Blocks} {ws q : Str} {k : Char}
    (hw : Blank ws) (hk : isSpace k = false) (hq : '\n' ∉ q) :
    readBlocks P c subs n b (ws ++ k :: q) = some b := by
  cases n with
  | zero => rfl
  | succ n =>
    rw [readBlocks, dropWhile_blank hw, List.dropWhile_cons_of_neg (by rw [hk]; simp)]
    dsimp only
    rw [if_neg]
    simp only [List.any_eq_true, beq_iff_eq, exists_eq_right, ne_eq]
    exact hq

theorem readBlocks_blank {P : Par} {c : Nat} {subs : List (Label × List Dec)} {n : Nat} {b : Blocks} {ws : Str}
    (hw : Blank ws) : readBlocks P c subs n b ws = some b := by
  cases n with
  | zero => rfl
  | succ n =>
    have := dropWhile_blank hw []
    rw [List.append_nil] at this
    rw [readBlocks, this]
    rfl

/-- One block is read. -/
theorem readBlocks_block {P : Par} {c : Nat} {subs : List SubT} (hd0 : 0 < P.invdim) (hc : 0 < P.coeffactor * c)
    (hd : (subs.map fun s => labVal s.lab).Nodup) {x : BlockT} (h : x.OK P c subs) (b : Blocks) (n : Nat) (rest : Str)
    (hr : Nl rest) : readBlocks P c (subs.map SubT.val) (n + 1) b (x.text ++ rest) =
      readBlocks P c (subs.map SubT.val) n (x.body.upd b) rest := by
  obtain ⟨h1, h2, h3, h4, h5⟩ := h
  have hk := letter_not_space h5
  have e : x.text ++ rest = x.ws ++ x.body.letter :: (x.body.line ++ (x.body.text ++ rest)) := by
    unfold BlockT.text; simp
  rw [e]
  rcases body_cases hc h5 h4 (subs.map SubT.val) b with ⟨l, hx⟩ | ⟨⟨y, hy⟩, hi⟩
  · have hk' : isSpace '#' = false := by decide
    have h3' : '\n' ∉ l := by rw [hx] at h3; exact h3
    rw [hx, Body.text, Body.line, Body.letter, List.nil_append]
    clear hk h3
    cases rest with
    | nil =>
      rw [List.append_nil, readBlocks_short h2 hk' h3', readBlocks_blank (by intro c hc; simp at hc)]
      rfl
    | cons a y =>
      have ha : a = '\n' := by
        rcases hr with hr | hr
        · simpa using hr
        · exact absurd hr (by simp)
      subst ha
      rw [readBlocks_step h2 hk' h3', readBody_comment]
      dsimp only [ret]
      refine (readBlocks_ws _ _ _ _ _ _ _ ?_).symm
      rw [List.dropWhile_cons_of_pos (by decide)]
  · rw [hy, List.cons_append, readBlocks_step h2 hk h3]
    have hrd := reads_body hd0 hd h5 b rest (nl_sep hr)
    have e2 : readBody P c (subs.map SubT.val) x.body.letter x.body.line b (y ++ rest) =
        readBody P c (subs.map SubT.val) x.body.letter x.body.line b (x.body.text ++ rest) := by
      rw [hi (x.body.text ++ rest), hy, List.cons_append, List.dropWhile_cons_of_pos (by decide), ← hi]
    rw [e2, hrd]

theorem nl_blocks {P : Par} {c : Nat} {subs : List SubT} (bs : List BlockT) (h : ∀ x ∈ bs, x.OK P c subs) (rest : Str)
    (hr : Nl rest) : Nl (bs.flatMap BlockT.text ++ rest) := by
  cases bs with
  | nil => exact hr
  | cons x bs =>
    have := (h x (by simp)).1
    left
    rw [List.flatMap_cons, BlockT.text]
    cases hw : x.ws with
    | nil => rw [hw] at this; simp at this
    | cons a w => rw [hw] at this; simpa using this

theorem readBlocks_all {P : Par} {c : Nat} {subs : List SubT} (hd0 : 0 < P.invdim) (hc : 0 < P.coeffactor * c)
    (hd : (subs.map fun s => labVal s.lab).Nodup) (bs : List BlockT) (h : ∀ x ∈ bs, x.OK P c subs) (b : Blocks) (n : Nat)
    (hn : bs.length ≤ n) (rest : Str) (hr : Nl rest) :
    readBlocks P c (subs.map SubT.val) n b (bs.flatMap BlockT.text ++ rest) =
      readBlocks P c (subs.map SubT.val) (n - bs.length) (bs.foldl (fun b x => x.body.upd b) b) rest := by
  induction bs generalizing b n with
  | nil => rfl
  | cons x bs ih =>
    obtain ⟨k, rfl⟩ : ∃ k, n = k + 1 := ⟨n - 1, by simp at hn; omega⟩
    have hbs : ∀ x ∈ bs, x.OK P c subs := fun y hy => h y (by simp [hy])
    rw [List.flatMap_cons, List.append_assoc, readBlocks_block hd0 hc hd (h x (by simp)) b k _ (nl_blocks bs hbs rest hr),
      ih hbs (x.body.upd b) k (by simpa using hn), List.foldl_cons, List.length_cons]
    congr 1
    omega

/-! ## Values of the blocks -/

theorem upd_oper (x : Body) (b : Blocks) (k : Char) (n : Str) : (x.upd b).oper k n = (operOf k n x).or (b.oper k n) := by
  cases x with
  | comment l => rfl
  | energy l x => rfl
  | oper k' n' o =>
    simp only [Body.upd, Blocks.setOper, operOf]
    by_cases h : k = k' ∧ n = n'
    · rw [if_pos h, if_pos ⟨h.1.symm, h.2.symm⟩]; rfl
    · rw [if_neg h, if_neg (fun e => h ⟨e.1.symm, e.2.symm⟩)]; rfl
  | coef k' l t => rfl

theorem upd_gs (x : Body) (b : Blocks) : (x.upd b).gs = (energyOf x).or b.gs := by
  cases x <;> rfl

theorem upd_coef (x : Body) (b : Blocks) (k : Char) : (x.upd b).coef k = (coefOf k x).or (b.coef k) := by
  cases x with
  | comment l => rfl
  | energy l x => rfl
  | oper k' n' o => rfl
  | coef k' l t =>
    simp only [Body.upd, Blocks.setCoef, coefOf]
    by_cases h : k = k'
    · rw [if_pos h, if_pos h.symm]; rfl
    · rw [if_neg h, if_neg (fun e => h e.symm)]; rfl

theorem lastOf_fold {α : Type} (g : Body → Option α) (v : Blocks → Option α) (hv : ∀ x b, v (Body.upd x b) = (g x).or (v b))
    (bs : List BlockT) (b : Blocks) : v (bs.foldl (fun b x => x.body.upd b) b) = (lastOf g bs).or (v b) := by
  induction bs generalizing b with
  | nil => rfl
  | cons x bs ih =>
    rw [List.foldl_cons, ih, hv]
    unfold lastOf
    rw [List.reverse_cons, List.findSome?_append]
    cases List.findSome? (fun b => g b.body) bs.reverse with
    | some a => rfl
    | none =>
      cases hg : g x.body with
      | none => simp [List.findSome?, hg]
      | some a => simp [List.findSome?, hg]

theorem fold_val (f : File) : f.blocks.foldl (fun b x => x.body.upd b) Blocks.empty = f.val.blocks := by
  have h1 := fun k n => lastOf_fold (operOf k n) (fun b => b.oper k n) (fun x b => upd_oper x b k n) f.blocks Blocks.empty
  have h2 := lastOf_fold energyOf (fun b => b.gs) (fun x b => upd_gs x b) f.blocks Blocks.empty
  have h3 := fun k => lastOf_fold (coefOf k) (fun b => b.coef k) (fun x b => upd_coef x b k) f.blocks Blocks.empty
  generalize f.blocks.foldl (fun b x => x.body.upd b) Blocks.empty = r at *
  obtain ⟨o, g, cf⟩ := r
  simp only [Blocks.empty, Option.or_none] at h1 h2 h3
  unfold File.val
  congr 1
  · funext k n; exact h1 k n
  · funext k; exact h3 k

end Verif.DataFile
