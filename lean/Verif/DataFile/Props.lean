import Verif.DataFile.Cutting
/-!
# The file `data` is read faithfully, checked, and not taken for complete when cut short
-/

namespace Verif.DataFile

open Verif.Text
open Verif.Invar (Label)

/-! ## Reading what was written -/

theorem blocks_length {P : Par} {c : Nat} {subs : List SubT} (bs : List BlockT) (h : ∀ x ∈ bs, x.OK P c subs) :
    bs.length ≤ (bs.flatMap BlockT.text).length := by
  induction bs with
  | nil => simp
  | cons x bs ih =>
    rw [List.flatMap_cons, List.length_cons, List.length_append]
    have h1 : 1 ≤ x.text.length := by unfold BlockT.text; simp; omega
    have := ih fun y hy => h y (by simp [hy])
    omega

theorem sep_subs {P : Par} {f : File} (h : f.OK P) (rest : Str) : Sep (f.subsText ++ rest) := by
  have h1 := com_tail f.com1 h.com1 _ (subs_start h rest).1
  unfold File.subsText
  rw [List.append_assoc]
  exact nl_sep (Or.inl h1)

theorem sep_opch {P : Par} {f : File} (h : f.OK P) (rest : Str) : Sep (f.opchText ++ rest) := by
  have h1 := com_tail f.com2 h.com2 _ (opch_start h rest).1
  unfold File.opchText
  rw [List.append_assoc]
  exact nl_sep (Or.inl h1)

theorem final_ok {P : Par} {f : File} (h : f.OK P) : finalOK P f.val.header f.val.blocks = true := by
  unfold finalOK
  rcases h.chain with ht | ⟨xi, zeta, t, ts, h1, rfl, h2⟩
  · rw [ht]; rfl
  · rw [Bool.or_eq_true, decide_eq_true_iff]
    right
    unfold xiMax
    rw [show f.val.blocks.coef 'z' = _ from h1]
    dsimp only
    rw [if_neg (by rintro rfl; simp at h2), h2]
    have e : f.Nmax.v + 1 - 1 = f.Nmax.v := by omega
    rw [e]
    rfl

/-- **Every well-formed data file is read back as the data that it stands for**, whatever its layout: the header, all
subspaces with their energies, the operators of the Wilson chain, and all blocks; of several blocks of the
same kind and name the last one counts, comments have no effect. -/
theorem data_roundtrip {P : Par} {f : File} (h : f.OK P) : read P f.text = some f.val := by
  have hc : 0 < P.coeffactor * f.channels := Nat.mul_pos h.coefs h.channels.1
  have hblk : Nl (f.blocks.flatMap BlockT.text ++ f.trailer) := nl_blocks f.blocks h.blocks _ h.trailer.1
  have hlen := blocks_length f.blocks h.blocks
  unfold read File.text
  rw [reads_header h _ (sep_subs h _)]
  dsimp only
  rw [if_pos ⟨h.sym, h.channels.1⟩, show f.val.header.nsubs = f.nsubs.v from rfl, reads_diag h _ (sep_opch h _)]
  dsimp only
  rw [show f.val.header.channels = f.channels from rfl, reads_opch h _ (nl_sep hblk)]
  dsimp only
  rw [readBlocks_all h.dim hc h.subsDup f.blocks h.blocks _ _ (by rw [List.length_append]; omega) _ h.trailer.1,
    readBlocks_blank h.trailer.2, fold_val]
  dsimp only
  rw [if_pos (final_ok h)]
  rfl

/-! ## What is checked -/

/-- **Data that were read fit together**, for every file whatsoever: the symmetry type is the one asked for, there are as
many subspaces as announced, all different, their labels have the right number of quantum numbers; there is one
set of chain operators for every channel; all matrix elements are between subspaces that exist
and have their dimensions; the tables of coefficients are complete; and unless they are computed
by the program, there are `Nmax + 1` coefficients in the first one. -/
theorem read_consistent {P : Par} {s : Str} {d : Data} (h : read P s = some d) :
    d.header.sym = P.sym ∧ 1 ≤ d.header.channels ∧ d.subs.length = d.header.nsubs ∧ (d.subs.map (·.1)).Nodup ∧
      (∀ x ∈ d.subs, x.1.length = P.invdim) ∧ d.opch.length = d.header.channels ∧
      (∀ c ∈ d.opch, c.length = chainOps P.sym ∧ ∀ m ∈ c, GoodMat d.subs m) ∧
      GoodBlocks P d.header.channels d.subs d.blocks ∧
      (P.tricpp = false → ∃ t ts sets, d.blocks.coef 'z' = some ((t :: ts) :: sets) ∧ t.length = d.header.Nmax + 1) := by
  unfold read at h
  cases h1 : readHeader s with
  | none => rw [h1] at h; exact absurd h (by simp)
  | some hr =>
    obtain ⟨hd, r⟩ := hr
    rw [h1] at h
    dsimp only at h
    by_cases hs : hd.sym = P.sym ∧ 1 ≤ hd.channels
    · rw [if_pos hs] at h
      cases h2 : readDiag P hd.nsubs r with
      | none => rw [h2] at h; exact absurd h (by simp)
      | some sr =>
        obtain ⟨subs, r2⟩ := sr
        rw [h2] at h
        dsimp only at h
        cases h3 : readOpch P hd.channels subs r2 with
        | none => rw [h3] at h; exact absurd h (by simp)
        | some or =>
          obtain ⟨opch, r3⟩ := or
          rw [h3] at h
          dsimp only at h
          cases h4 : readBlocks P hd.channels subs (r3.length + 1) Blocks.empty r3 with
          | none => rw [h4] at h; exact absurd h (by simp)
          | some b =>
            rw [h4] at h
            dsimp only at h
            by_cases hf : finalOK P hd b = true
            · rw [if_pos hf] at h
              simp only [Option.some.injEq] at h
              subst h
              dsimp only
              unfold readDiag at h2
              obtain ⟨l, r4, h5, h6⟩ := seq_some h2
              obtain ⟨h7, rfl⟩ := check_some h6
              obtain ⟨h8, h9⟩ := readN_spec h5
              unfold readOpch at h3
              obtain ⟨h10, h11⟩ := readN_spec h3
              refine ⟨hs.1, hs.2, h8, by simpa using h7, ?_, h10, ?_, ?_, ?_⟩
              · intro x hx
                obtain ⟨s', r', hx'⟩ := h9 x hx
                obtain ⟨I, r5, h12, h13⟩ := seq_some hx'
                obtain ⟨es, r6, -, h14⟩ := seq_some h13
                rw [ret_some h14]
                exact extractor_length h12
              · intro c hc
                obtain ⟨s', r', hc'⟩ := h11 c hc
                obtain ⟨h12, h13⟩ := readN_spec hc'
                refine ⟨(h12.trans (chainOps_eq _).symm), ?_⟩
                intro m hm
                obtain ⟨s'', r'', hm'⟩ := h13 m hm
                exact readF_good hm'
              · refine readBlocks_good ?_ h4
                exact ⟨fun k n m hm => absurd hm (by simp [Blocks.empty]), fun k t ht => absurd ht (by simp [Blocks.empty])⟩
              · intro htri
                unfold finalOK at hf
                rw [htri, Bool.false_or, decide_eq_true_iff] at hf
                unfold xiMax at hf
                cases hz : b.coef 'z' with
                | none => rw [hz] at hf; exact absurd hf (by simp)
                | some sets =>
                  rw [hz] at hf
                  cases sets with
                  | nil => exact absurd hf (by simp)
                  | cons xi sets =>
                    cases xi with
                    | nil => exact absurd hf (by simp)
                    | cons t ts =>
                      dsimp only at hf
                      by_cases ht : t = []
                      · rw [if_pos ht] at hf; exact absurd hf (by simp)
                      · rw [if_neg ht] at hf
                        simp only [Option.some.injEq] at hf
                        have := List.length_pos_iff.2 ht
                        exact ⟨t, ts, sets, rfl, by omega⟩
            · rw [if_neg hf] at h; exact absurd h (by simp)
    · rw [if_neg hs] at h; exact absurd h (by simp)

/-- **Files of another version, or without version, are not read.** -/
theorem version_checked (P : Par) (rest : Str) (hr : (rest.dropWhile isSpace).head? ≠ some '#') :
    read P rest = none ∧ ∀ v : Int, inInt v → v ≠ 9 → read P ("#!".toList ++ (intStr v ++ '\n' :: rest)) = none := by
  constructor
  · unfold read readHeader seq
    rw [headerLoop_stop _ _ _ _ (head_of_ws hr)]
    dsimp only
    rw [if_neg (by decide)]
  · intro v hv h9
    have e : "#!".toList ++ (intStr v ++ '\n' :: rest) = '#' :: '!' :: (intStr v ++ '\n' :: rest) := by
      rw [show "#!".toList = ['#', '!'] by decide]; rfl
    unfold read readHeader seq
    rw [e, List.length_cons, headerLoop, if_pos rfl, if_pos List.head?_cons, List.drop_one, List.tail_cons,
      readInt_intStr v hv _ (by simp [NoDigit, isDigit])]
    dsimp only
    rw [show dropNl ('\n' :: rest) = rest from rfl, headerLoop_stop _ _ _ _ (head_of_ws hr)]
    dsimp only
    rw [if_neg h9]

/-! ## Files cut short -/

theorem read_lost {P : Par} (htri : P.tricpp = false) {hd : Header} {b : Blocks} (h : b.coef 'z' = none) : ¬ finalOK P hd b = true := by
  unfold finalOK xiMax
  rw [htri, h]
  simp

/-- **A file that lacks its last number, or more, is not read** — when the chain coefficients come last and are needed:
every proper part of a well-formed file that ends before the last number is rejected, wherever it
ends: in the header, in a label, in a count, in a matrix, between blocks. -/
theorem truncation_detected_partial {P : Par} {f : File} (h : f.OK P) (htri : P.tricpp = false) {pre : List BlockT} {ws line : Str}
    {xi zs : List VecT} {n : Tok Nat} {vs : List (Tok Lit)} {t : Tok Lit}
    (hb : f.blocks = pre ++ [⟨ws, .coef 'z' line [xi, zs ++ [⟨n, vs ++ [t]⟩]]⟩]) (hpre : ∀ x ∈ pre, x.body.letter ≠ 'z')
    {p : Str} (hp : p <+: f.text) (hlen : p.length + (t.v.text ++ f.trailer).length ≤ f.text.length) : read P p = none := by
  have hc : 0 < P.coeffactor * f.channels := Nat.mul_pos h.coefs h.channels.1
  have hblocks : ∀ x ∈ pre, x.OK P f.channels f.subs := fun x hx => h.blocks x (by rw [hb]; simp [hx])
  obtain ⟨hl1, hl2, hl3, hl4, hl5⟩ := h.blocks ⟨ws, .coef 'z' line [xi, zs ++ [⟨n, vs ++ [t]⟩]]⟩ (by rw [hb]; simp)
  dsimp only at hl1 hl2
  have hl3' : '\n' ∉ line := hl3
  have hxi : xi.length = P.coeffactor * f.channels ∧ ∀ v ∈ xi, v.OK true := hl5.2 xi (by simp)
  have hzeta := hl5.2 (zs ++ [⟨n, vs ++ [t]⟩]) (by simp)
  have hcut := cut_sets _ hxi hzeta
  obtain ⟨body, hbody⟩ : ∃ u, xi.flatMap VecT.text ++ (zs.flatMap VecT.text ++ (natText n ++ (vs.flatMap numText ++ t.ws))) =
      '\n' :: u := by
    have hne : ∃ x xs, xi = x :: xs := by
      cases xi with
      | nil => have := hxi.1; simp at this; simp only [mul_pos_iff] at hc; omega
      | cons x xs => exact ⟨x, xs, rfl⟩
    obtain ⟨x, xs, rfl⟩ := hne
    have hx := sep_vec' x (hxi.2 x (by simp))
    have hl4' : Nl ((Body.coef 'z' line [x :: xs, zs ++ [⟨n, vs ++ [t]⟩]]).text) := hl4
    have e : (Body.coef 'z' line [x :: xs, zs ++ [⟨n, vs ++ [t]⟩]]).text = x.text ++ (xs.flatMap VecT.text ++
        (zs ++ [(⟨n, vs ++ [t]⟩ : VecT)]).flatMap VecT.text) := by
      simp [Body.text]
    rw [e] at hl4'
    cases hxt : x.text with
    | nil => exact absurd hxt hx.2
    | cons a y =>
      have ha : a = '\n' := by
        rcases hl4' with h' | h'
        · rw [hxt] at h'; simpa using h'
        · rw [hxt] at h'; simp at h'
      subst ha
      refine ⟨y ++ (xs.flatMap VecT.text ++ (zs.flatMap VecT.text ++ (natText n ++ (vs.flatMap numText ++ t.ws)))), ?_⟩
      rw [List.flatMap_cons, hxt]
      simp
  rw [hbody] at hcut
  -- the text without the last number
  have etext : f.text = (f.headText ++ (f.subsText ++ (f.opchText ++ (pre.flatMap BlockT.text ++
      (ws ++ 'z' :: (line ++ '\n' :: body)))))) ++ (t.v.text ++ f.trailer) := by
    unfold File.text
    rw [hb, List.flatMap_append, ← hbody]
    simp [BlockT.text, Body.letter, Body.line, Body.text, VecT.text, numText]
  have hp' : p <+: f.headText ++ (f.subsText ++ (f.opchText ++ (pre.flatMap BlockT.text ++ (ws ++ 'z' :: (line ++ '\n' :: body))))) := by
    rw [etext] at hp hlen
    refine List.prefix_of_prefix_length_le hp (List.prefix_append _ _) ?_
    simp only [List.length_append] at hlen ⊢
    omega
  clear hp hlen
  have hNl : Nl (pre.flatMap BlockT.text ++ (ws ++ 'z' :: (line ++ '\n' :: body))) := by
    refine nl_blocks pre hblocks _ (Or.inl ?_)
    cases ws with
    | nil => simp at hl1
    | cons a w => simpa using hl1
  have hblk : ∀ m q, q <+: pre.flatMap BlockT.text ++ (ws ++ 'z' :: (line ++ '\n' :: body)) →
      Lost (readBlocks P f.channels (f.subs.map SubT.val) m Blocks.empty q) := by
    intro m q hq
    refine blocks_cut h.dim hc h.subsDup pre hblocks hpre (Or.inl ?_) ?_ m Blocks.empty rfl q hq
    · cases ws with
      | nil => simp at hl1
      | cons a w => simpa using hl1
    · intro n b hb p hp
      exact last_cut hl2 hl3' hc hcut n b hb p hp
  unfold read
  rcases prefix_append_cases hp' with ⟨h1, h2⟩ | ⟨p1, rfl, h1⟩
  · cases hh : readHeader p with
    | none => rfl
    | some hr =>
      obtain ⟨hd, r⟩ := hr
      have : r = [] := weak_cut nice_header (reads_header h) h1 h2 hh
      subst this
      dsimp only
      by_cases hs : hd.sym = P.sym ∧ 1 ≤ hd.channels
      · rw [if_pos hs]
        cases hdg : readDiag P hd.nsubs [] with
        | none => rfl
        | some sr =>
          obtain ⟨subs, r2⟩ := sr
          have : r2 = [] := (nice_readDiag P _).nil _ _ hdg
          subst this
          dsimp only
          rw [readOpch_nil P _ hs.2]
      · rw [if_neg hs]
  · have hsep1 : Sep p1 := sep_prefix (sep_subs h _) h1
    rw [reads_header h _ hsep1]
    dsimp only
    rw [if_pos ⟨h.sym, h.channels.1⟩, show f.val.header.nsubs = f.nsubs.v from rfl, show f.val.header.channels = f.channels from rfl]
    rcases prefix_append_cases h1 with ⟨h3, h4⟩ | ⟨p2, rfl, h3⟩
    · cases hdg : readDiag P f.nsubs.v p1 with
      | none => rfl
      | some sr =>
        obtain ⟨subs, r2⟩ := sr
        have : r2 = [] := weak_cut (nice_readDiag P _) (reads_diag h) h3 h4 hdg
        subst this
        dsimp only
        rw [readOpch_nil P _ h.channels.1]
    · rw [reads_diag h _ (sep_prefix (sep_opch h _) h3)]
      dsimp only
      rcases prefix_append_cases h3 with ⟨h5, h6⟩ | ⟨p3, rfl, h5⟩
      · cases hop : readOpch P f.channels (f.subs.map SubT.val) p2 with
        | none => rfl
        | some or =>
          obtain ⟨opch, r3⟩ := or
          have : r3 = [] := weak_cut (nice_readOpch P _ _) (reads_opch h) h5 h6 hop
          subst this
          dsimp only
          rw [readBlocks_blank (by intro a ha; simp at ha)]
          dsimp only
          rw [if_neg (read_lost htri rfl)]
      · rw [reads_opch h _ (sep_prefix (nl_sep hNl) h5)]
        dsimp only
        have hlost := hblk (p3.length + 1) p3 h5
        cases hbl : readBlocks P f.channels (f.subs.map SubT.val) (p3.length + 1) Blocks.empty p3 with
        | none => rfl
        | some b =>
          dsimp only
          rw [if_neg (read_lost htri (hlost b hbl))]

/-! ## A file -/

def exPar : Par := ⟨"QS".toList, 2, 1, false⟩

def nlt (l : Lit) : Tok Lit := ⟨['\n'], l⟩
def nln (n : Nat) : Tok Nat := ⟨['\n'], n⟩
def nli (n : Int) : Tok Int := ⟨['\n'], n⟩
def spi (n : Int) : Tok Int := ⟨[' '], n⟩
def spn (n : Nat) : Tok Nat := ⟨[' '], n⟩

def exSubs : List SubT :=
  [⟨[nli (-1), spi 1], ⟨nln 1, [nlt ⟨false, ['0'], some [], none⟩]⟩⟩,
   ⟨[nli 0, spi 2], ⟨nln 1, [nlt ⟨false, ['0'], some ['5'], some ⟨false, some true, ['0', '2']⟩⟩]⟩⟩]

def exOp : OperT := ⟨nln 1, [⟨[nli 0, spi 2], [spi (-1), spi 1], [[nlt ⟨true, ['1'], some ['5'], none⟩]]⟩]⟩

def exFile : File where
  before := [.txt " Input file".toList, .ver]
  symPre := " the ".toList
  symGap := [' ']
  sym := "QS".toList
  after := [.txt []]
  ws := []
  channels := 1
  Nmax := spn 0
  nsubs := spn 2
  com1 := [⟨['\n'], " subspaces".toList⟩]
  subs := exSubs
  com2 := []
  opch := [[⟨['\n'], spn 0, spn 0, exOp⟩]]
  blocks := [⟨['\n'], .energy [] (nlt ⟨true, ['3'], none, none⟩)⟩, ⟨['\n'], .comment " c".toList⟩,
    ⟨['\n'], .oper 'd' "A_d".toList exOp⟩,
    ⟨['\n'], .coef 'z' [] [[⟨nln 0, [nlt ⟨false, ['1'], some ['5'], none⟩]⟩],
      [⟨nln 0, [nlt ⟨true, ['0'], some ['2', '5'], none⟩]⟩]]⟩]
  trailer := ['\n']

theorem blank_nl : Blank ['\n'] := by intro c hc; simp at hc; subst hc; decide
theorem blank_sp : Blank [' '] := by intro c hc; simp at hc; subst hc; decide

theorem exNone : ExOK none := by intro x hx; simp at hx
theorem exSome : ExOK (some ⟨false, some true, ['0', '2']⟩) := by intro x hx; simp at hx; subst hx; decide

theorem exOp_ok : exOp.OK exPar exSubs := by
  refine ⟨⟨⟨by decide, blank_nl⟩, by decide⟩, rfl, ?_, by decide⟩
  intro m hm
  simp only [exOp, List.mem_singleton] at hm
  subst hm
  refine ⟨⟨rfl, ?_⟩, ⟨rfl, ?_⟩, ⟨[nli 0, spi 2], ⟨nln 1, [nlt ⟨false, ['0'], some ['5'], some ⟨false, some true, ['0', '2']⟩⟩]⟩⟩, by simp [exSubs],
    ⟨[nli (-1), spi 1], ⟨nln 1, [nlt ⟨false, ['0'], some [], none⟩]⟩⟩, by simp [exSubs], by decide, by decide, rfl, ?_⟩
  · intro t ht
    simp only [List.mem_cons, List.not_mem_nil, or_false] at ht
    rcases ht with rfl | rfl
    · exact ⟨⟨by decide, blank_nl⟩, by decide⟩
    · exact ⟨⟨by decide, blank_sp⟩, by decide⟩
  · intro t ht
    simp only [List.mem_cons, List.not_mem_nil, or_false] at ht
    rcases ht with rfl | rfl
    · exact ⟨⟨by decide, blank_sp⟩, by decide⟩
    · exact ⟨⟨by decide, blank_sp⟩, by decide⟩
  · intro r hr
    simp only [List.mem_singleton] at hr
    subst hr
    refine ⟨rfl, ?_⟩
    intro t ht
    simp only [List.mem_singleton] at ht
    subst ht
    exact ⟨⟨by decide, blank_nl⟩, by decide, by decide, by decide, exNone⟩

theorem exFile_ok : exFile.OK exPar where
  before := by
    intro l hl
    simp only [exFile, List.mem_cons, List.not_mem_nil, or_false] at hl
    rcases hl with rfl | rfl
    · exact ⟨by decide, by decide, by decide⟩
    · trivial
  after := by
    intro l hl
    simp only [exFile, List.mem_cons, List.not_mem_nil, or_false] at hl
    subst hl
    exact ⟨by decide, by decide, by decide⟩
  ver := by simp [exFile]
  symPre := by decide
  symGap := by decide
  symNl := by decide
  symWord := by decide
  sym := rfl
  dim := by decide
  coefs := by decide
  ws := by intro c hc; simp [exFile] at hc
  channels := by decide
  Nmax := ⟨⟨by decide, blank_sp⟩, by decide⟩
  nsubs := ⟨⟨by decide, blank_sp⟩, by decide⟩
  com1 := by
    intro c hc
    simp only [exFile, List.mem_singleton] at hc
    subst hc
    exact ⟨rfl, by decide, by decide⟩
  subsLen := rfl
  subsNe := by simp [exFile, exSubs]
  subs := by
    intro s hs
    simp only [exFile, exSubs, List.mem_cons, List.not_mem_nil, or_false] at hs
    rcases hs with rfl | rfl
    · refine ⟨⟨rfl, ?_⟩, ⟨⟨by decide, blank_nl⟩, by decide⟩, ?_, rfl⟩
      · intro t ht
        simp only [List.mem_cons, List.not_mem_nil, or_false] at ht
        rcases ht with rfl | rfl
        · exact ⟨⟨by decide, blank_nl⟩, by decide⟩
        · exact ⟨⟨by decide, blank_sp⟩, by decide⟩
      · intro t ht
        simp only [List.mem_singleton] at ht
        subst ht
        exact ⟨⟨by decide, blank_nl⟩, by decide, by decide, by decide, exNone⟩
    · refine ⟨⟨rfl, ?_⟩, ⟨⟨by decide, blank_nl⟩, by decide⟩, ?_, rfl⟩
      · intro t ht
        simp only [List.mem_cons, List.not_mem_nil, or_false] at ht
        rcases ht with rfl | rfl
        · exact ⟨⟨by decide, blank_nl⟩, by decide⟩
        · exact ⟨⟨by decide, blank_sp⟩, by decide⟩
      · intro t ht
        simp only [List.mem_singleton] at ht
        subst ht
        exact ⟨⟨by decide, blank_nl⟩, by decide, by decide, by decide, exSome⟩
  subsNl := Or.inl rfl
  subsDup := by decide
  com2 := by intro c hc; simp [exFile] at hc
  opchLen := rfl
  opch := by
    intro c hc
    simp only [exFile, List.mem_singleton] at hc
    subst hc
    refine ⟨by decide, ?_⟩
    intro x hx
    simp only [List.mem_singleton] at hx
    subst hx
    exact ⟨by decide, blank_nl, ⟨⟨by decide, blank_sp⟩, by decide⟩, ⟨⟨by decide, blank_sp⟩, by decide⟩, exOp_ok⟩
  opchNl := Or.inl rfl
  blocks := by
    intro b hb
    simp only [exFile, List.mem_cons, List.not_mem_nil, or_false] at hb
    rcases hb with rfl | rfl | rfl | rfl
    · exact ⟨rfl, blank_nl, by decide, Or.inl rfl, ⟨by decide, blank_nl⟩, by decide, by decide, by decide, exNone⟩
    · exact ⟨rfl, blank_nl, by decide, Or.inr rfl, trivial⟩
    · exact ⟨rfl, blank_nl, by decide, Or.inl rfl, by simp [OperKind], exOp_ok⟩
    · refine ⟨rfl, blank_nl, by decide, Or.inl rfl, Or.inl ⟨rfl, rfl⟩, ?_⟩
      intro s hs
      simp only [List.mem_cons, List.not_mem_nil, or_false] at hs
      rcases hs with rfl | rfl
      all_goals
        refine ⟨rfl, ?_⟩
        intro v hv
        simp only [List.mem_singleton] at hv
        subst hv
        refine ⟨⟨⟨by decide, blank_nl⟩, by decide⟩, ?_, by decide⟩
        intro t ht
        simp only [List.mem_singleton] at ht
        subst ht
        exact ⟨⟨by decide, blank_nl⟩, by decide, by decide, by decide, exNone⟩
  trailer := ⟨Or.inl rfl, blank_nl⟩
  chain := Or.inr ⟨[[⟨15, -1⟩]], [[⟨-25, -2⟩]], [⟨15, -1⟩], [], by decide, rfl, rfl⟩

/-- The text of the file. -/
def exString : String := "# Input file\n#!9\n# the symtype QS\n#\n1 0 2\n# subspaces\n-1 1\n1\n0.\n0 2\n1\n0.5e-02\nf 0 0\n1\n0 2 -1 1\n-1.5\ne\n-3\n# c\ndA_d\n1\n0 2 -1 1\n-1.5\nz\n0\n1.5\n0\n-0.25\n"

example : exFile.text = exString.toList := by decide +kernel

example : ∃ d, read exPar exString.toList = some d ∧ d.header = ⟨"QS".toList, 1, 0, 2⟩ ∧
    d.subs = [([-1, 1], [⟨0, 0⟩]), ([0, 2], [⟨5, -3⟩])] ∧ d.blocks.gs = some ⟨-3, 0⟩ ∧
    d.blocks.oper 'd' "A_d".toList = some [(([0, 2], [-1, 1]), [[⟨-15, -1⟩]])] := by
  refine ⟨exFile.val, ?_, rfl, by decide, rfl, by decide⟩
  rw [← show exFile.text = exString.toList by decide +kernel]
  exact data_roundtrip exFile_ok

/-- Every part of this file that ends before the last number is rejected. -/
example (p : Str) (hp : p <+: exString.toList) (hl : p.length + 6 ≤ exString.toList.length) : read exPar p = none := by
  have e : exFile.text = exString.toList := by decide +kernel
  rw [← e] at hp hl
  refine truncation_detected_partial exFile_ok rfl (pre := exFile.blocks.take 3) (ws := ['\n']) (line := []) (zs := []) (n := nln 0) (vs := [])
    (t := nlt ⟨true, ['0'], some ['2', '5'], none⟩) rfl ?_ hp ?_
  · intro x hx
    simp only [exFile, List.take_succ_cons, List.take_zero, List.mem_cons, List.not_mem_nil, or_false] at hx
    rcases hx with rfl | rfl | rfl <;> (show _ ≠ _; decide)
  · exact hl

/-- **Finding.** A file that ends within its last number is accepted, with another value of the number. -/
theorem truncated_digit_accepted :
    (read exPar (exString.toList.take (exString.toList.length - 2))).map (fun d => d.blocks.coef 'z') =
      some (some [[[⟨15, -1⟩]], [[⟨-2, -1⟩]]]) ∧
    (read exPar exString.toList).map (fun d => d.blocks.coef 'z') = some (some [[[⟨15, -1⟩]], [[⟨-25, -2⟩]]]) := by
  decide +kernel

/-- **Finding.** When the chain coefficients are computed by the program (`tri=cpp`), a file that ends before a block is
accepted: operators and the energy of the ground state are missing without notice. -/
theorem truncated_blocks_accepted_cpp :
    (read { exPar with tricpp := true } (exString.toList.take 100)).map (fun d => (d.blocks.gs.isNone, (d.blocks.oper 'd' "A_d".toList).isNone)) =
      some (true, true) ∧ 100 < exString.toList.length := by
  decide +kernel

/-- **Finding.** A negative count of coefficients is accepted as an empty table: −1 is taken for the
largest integer and one is added. -/
theorem negative_count_accepted :
    (read exPar "#!9\n# the symtype QS\n1 0 1\n0 1\n0\nf 0 0\n0\nz\n0\n1.5\n-1\n".toList).map (fun d => d.blocks.coef 'z') =
      some (some [[[⟨15, -1⟩]], [[]]]) := by
  decide +kernel

end Verif.DataFile
