import Verif.Calc.AgreeSpec
import Verif.Calc.Lex
import Verif.Inst.Props
/-!
# The texts of the calculator as texts of the evaluator, and the values
-/

namespace Verif.Calc
open Verif.Text (Str isDigit isSpace natStr natValue)
open Verif.DataFile (Dec Lit)
open Spec
open Verif.Inst (Ign)

variable {K : Type} [Field K] [DecidableEq K]

/-- A sequence of tokens, each preceded by text without meaning. -/
inductive Covers : List Tok → Str → Prop
  | nil : Covers [] []
  | cons {t : Tok} {ts : List Tok} {i w s : Str} : Ign i → Spells t w → Covers ts s → Covers (t :: ts) (i ++ (w ++ s))

theorem ign_append {a b : Str} (ha : Ign a) (hb : Ign b) : Ign (a ++ b) := by
  induction ha with
  | nil => exact hb
  | space c s hc _ ih => exact .space c _ hc ih
  | comment t s ht _ ih =>
    have := Ign.comment t _ ht ih
    simpa using this

/-- Tokens and trailing text without meaning. -/
def CoversEnd (ts : List Tok) (s : Str) : Prop := ∃ w j, Covers ts w ∧ Ign j ∧ s = w ++ j

theorem covers_pre {ts : List Tok} {i s : Str} (hi : Ign i) (h : CoversEnd ts s) : CoversEnd ts (i ++ s) := by
  obtain ⟨w, j, hw, hj, rfl⟩ := h
  cases hw with
  | nil => exact ⟨[], i ++ j, .nil, ign_append hi hj, by simp⟩
  | @cons t ts i' w' s' hi' hs hc => exact ⟨(i ++ i') ++ (w' ++ s'), j, .cons (ign_append hi hi') hs hc, hj, by simp⟩

theorem covers_tok {t : Tok} {ts : List Tok} {w s : Str} (ht : Spells t w) (h : CoversEnd ts s) : CoversEnd (t :: ts) (w ++ s) := by
  obtain ⟨v, j, hv, hj, rfl⟩ := h
  exact ⟨[] ++ (w ++ v), j, .cons .nil ht hv, hj, by simp⟩

theorem spells_head {t : Tok} {w : Str} (h : Spells t w) : ∀ c ∈ w.head?, c ≠ '\n' := by
  cases h with
  | name c s hc =>
    intro d hd
    simp only [List.head?_cons, Option.mem_def, Option.some.injEq] at hd
    subst hd
    rintro rfl
    revert hc; decide
  | int n =>
    intro d hd
    rintro rfl
    have := Verif.Text.natStr_isDigit n '\n' (List.mem_of_mem_head? hd)
    revert this; decide
  | num l f hl hn hf =>
    intro d hd
    rintro rfl
    rw [Lit.text, hn, hf] at hd
    cases hip : l.ip with
    | nil => rw [hip] at hd; simp at hd
    | cons a u =>
      rw [hip] at hd
      simp at hd
      have := hl.1 a (by rw [hip]; simp)
      rw [hd] at this
      revert this; decide
  | short l c x hl hn hf hip =>
    intro d hd
    rintro rfl
    rw [Lit.text, hn, hf, hip] at hd
    simp at hd
    have := hl.1 c (by rw [hip]; simp)
    rw [hd] at this
    revert this; decide
  | word k t hk =>
    simp only [keywords, List.mem_cons, List.not_mem_nil, or_false, Prod.mk.injEq, Option.some.injEq, reduceCtorEq, and_false] at hk
    rcases hk with ⟨rfl, rfl⟩ | ⟨rfl, rfl⟩ | ⟨rfl, rfl⟩ | ⟨rfl, rfl⟩ | ⟨rfl, rfl⟩ | ⟨rfl, rfl⟩ <;> simp
  | sign c hc =>
    intro d hd
    simp only [List.head?_cons, Option.mem_def, Option.some.injEq] at hd
    subst hd
    rintro rfl
    revert hc; decide

theorem spells_nl {w : Str} : ¬ Spells (.ch '\n') w := by
  intro h
  cases h with
  | word k t hk =>
    simp [keywords] at hk
  | sign c hc => revert hc; decide

/-- The tokens without ends of lines. -/
def noLines (ts : List Tok) : List Tok := ts.filter fun t => decide (t ≠ .ch '\n')

theorem written_covers {bol : Bool} {br : Nat} {ts : List Tok} {s : Str} (h : Written bol br ts s) (hd : '$' ∉ s) :
    CoversEnd (noLines ts) s ∧ ∀ s', s = '\n' :: s' → CoversEnd (noLines ts) s' := by
  have hnl : Ign ['\n'] := .space '\n' [] (by decide) .nil
  induction h with
  | nil => exact ⟨⟨[], [], .nil, .nil, rfl⟩, by intro s' h; cases h⟩
  | stop => exact absurd List.mem_cons_self hd
  | @tok bol br br' t w ts s hs hm h1 h2 h3 hw ih =>
    have ht : t ≠ .ch '\n' := by rintro rfl; exact spells_nl hs
    have hf : noLines (t :: ts) = t :: noLines ts := by rw [noLines, List.filter_cons_of_pos (by simpa using ht)]; rfl
    refine ⟨?_, ?_⟩
    · rw [hf]
      exact covers_tok hs (ih fun h => hd (List.mem_append_right _ h)).1
    · intro s' he
      cases w with
      | nil => exact absurd rfl (spells_ne hs)
      | cons a u =>
        have : a = '\n' := (List.cons.inj he).1
        exact absurd this (spells_head hs a rfl)
  | @line bol ts s hw ih =>
    have := (ih fun h => hd (List.mem_cons_of_mem _ h)).1
    have hf : noLines (.ch '\n' :: ts) = noLines ts := by rw [noLines, List.filter_cons_of_neg (by simp)]; rfl
    rw [hf]
    exact ⟨covers_pre hnl this, by intro s' he; cases he; exact this⟩
  | @inner bol br ts s hw ih =>
    have := (ih fun h => hd (List.mem_cons_of_mem _ h)).1
    exact ⟨covers_pre hnl this, by intro s' he; cases he; exact this⟩
  | @blank bol br ts c s hc hw ih =>
    have := (ih fun h => hd (List.mem_cons_of_mem _ h)).1
    refine ⟨covers_pre (i := [c]) (.space c [] (by rcases hc with rfl | rfl <;> decide) .nil) this, ?_⟩
    intro s' he
    rcases hc with rfl | rfl <;> cases he
  | @comment br ts t s ht hw ih =>
    have := (ih fun h => hd (List.mem_cons_of_mem _ (List.mem_append_right _ h))).2 s rfl
    refine ⟨?_, by intro s' he; cases he⟩
    have hi : Ign ('#' :: (t ++ '\n' :: [])) := .comment t [] ht .nil
    have := covers_pre hi this
    simpa using this

theorem covers_split {a b : List Tok} : ∀ {w : Str}, Covers (a ++ b) w → ∃ u v, w = u ++ v ∧ Covers a u ∧ Covers b v := by
  induction a with
  | nil => intro w h; exact ⟨[], w, rfl, .nil, h⟩
  | cons t a ih =>
    intro w h
    cases h with
    | @cons _ _ i w s hi hs hc =>
      obtain ⟨u, v, rfl, hu, hv⟩ := ih hc
      exact ⟨i ++ (w ++ u), v, by simp, .cons hi hs hu, hv⟩

theorem covers_cons {t : Tok} {ts : List Tok} {w : Str} (h : Covers (t :: ts) w) : ∃ i v s, w = i ++ (v ++ s) ∧ Ign i ∧ Spells t v ∧ Covers ts s := by
  cases h with
  | cons hi hs hc => exact ⟨_, _, _, rfl, hi, hs, hc⟩

theorem covers_nil {w : Str} (h : Covers [] w) : w = [] := by cases h; rfl

theorem spells_ch {c : Char} {v : Str} (h : Spells (.ch c) v) : v = [c] := by
  cases h with
  | word k t hk => simp [keywords] at hk
  | sign => rfl

theorem spells_int {n : Nat} {v : Str} (h : Spells (.int n) v) : v = natStr n := by
  cases h with
  | int => rfl
  | word k t hk => simp [keywords] at hk

theorem spells_num {d : Dec} {v : Str} (h : Spells (.num d) v) : ∃ l : Lit, l.OK ∧ l.neg = false ∧ d = l.val ∧ v = l.text := by
  cases h with
  | num l f hl hn => exact ⟨l, hl, hn, rfl, rfl⟩
  | short l c x hl hn => exact ⟨l, hl, hn, rfl, rfl⟩
  | word k t hk => simp [keywords] at hk

theorem isName_of {c : Char} {s : Str} (hc : isLetter c = true) (hs : ∀ d ∈ s, isNameChar d = true) : Verif.Inst.IsName (c :: s) := by
  rw [letter_spec] at hc
  rw [nameChar_spec] at hs
  have hc' : Verif.Inst.isAlpha c = true := hc
  refine ⟨⟨c, s, rfl, .inl hc'⟩, ?_⟩
  intro d hd
  rcases List.mem_cons.mp hd with rfl | hd
  · simp [Verif.Inst.identChar, hc']
  · exact hs d hd

theorem spells_name {s v : Str} (h : Spells (.name s) v) : v = s ∧ Verif.Inst.IsName s ∧ s ≠ "parse".toList := by
  cases h with
  | name c s hc hs hk => exact ⟨rfl, isName_of hc hs, fun e => hk ("parse".toList, none) (by simp [keywords]) e.symm⟩
  | word k t hk => simp [keywords] at hk

theorem isName_word {s : Str} (h : s ∈ ["gammaPolCh".toList, "coefxi".toList, "coefzeta".toList]) : Verif.Inst.IsName s := by
  simp only [List.mem_cons, List.not_mem_nil, or_false] at h
  rcases h with rfl | rfl | rfl
  · exact isName_of (c := 'g') (s := "ammaPolCh".toList) (by decide) (by decide)
  · exact isName_of (c := 'c') (s := "oefxi".toList) (by decide) (by decide)
  · exact isName_of (c := 'c') (s := "oefzeta".toList) (by decide) (by decide)

/-- The name of a function of the evaluator. -/
def coefName : Coef → Str
  | .xi => "coefxi".toList
  | _ => "coefzeta".toList

theorem spells_gamma {v : Str} (h : Spells .gamma v) : v = "gammaPolCh".toList := by
  cases h with
  | word k t hk => simpa [keywords] using hk

theorem spells_coef {k : Coef} {v : Str} (hk : k = .xi ∨ k = .zeta) (h : Spells k.tok v) : v = coefName k := by
  rcases hk with rfl | rfl
  · generalize ht : Coef.xi.tok = t at h
    cases h with
    | word k t hk =>
      subst ht
      simpa [keywords, Coef.tok, coefName] using hk
    | _ => cases ht
  · generalize ht : Coef.zeta.tok = t at h
    cases h with
    | word k t hk =>
      subst ht
      simpa [keywords, Coef.tok, coefName] using hk
    | _ => cases ht

/-- A tree of the calculator as a tree of the evaluator. -/
def trans (E : Env K) : Spec.Ex → Verif.Inst.Ex K
  | .num d => .num (E.val d)
  | .int n => .num (n : K)
  | .var s => .var s
  | .call s _ e => .call s [trans E e]
  | .gamma i => .call "gammaPolCh".toList [.num (i : K)]
  | .coef k i j => .call (coefName k) [.num (i : K), .num (j : K)]
  | .neg e => .neg (trans E e)
  | .par e => trans E e
  | .bin .add a b => .add (trans E a) (trans E b)
  | .bin .sub a b => .sub (trans E a) (trans E b)
  | .bin .mul a b => .mul (trans E a) (trans E b)
  | .bin .div a b => .div (trans E a) (trans E b)

/-- The kind of phrase for a precedence. -/
def level : Nat → Verif.Inst.Ex K → Verif.Inst.Cat K
  | 0, e => .expr e
  | 1, e => .expr e
  | 2, e => .product e
  | _, e => .unary e

theorem of_unary {I : Verif.Inst.Env K} {e : Verif.Inst.Ex K} {s : Str} (h : Verif.Inst.Text I (.unary e) s) : ∀ p, Verif.Inst.Text I (level p e) s
  | 0 => .ofProduct (.ofUnary h)
  | 1 => .ofProduct (.ofUnary h)
  | 2 => .ofUnary h
  | _ + 3 => h

theorem of_primary {I : Verif.Inst.Env K} {e : Verif.Inst.Ex K} {s : Str} (h : Verif.Inst.Text I (.primary e) s) (p : Nat) : Verif.Inst.Text I (level p e) s := of_unary (.ofPrimary h) p

/-- In parentheses. -/
theorem paren_text {I : Verif.Inst.Env K} {e : Verif.Inst.Ex K} {l : List Tok} (h : ∀ s, Covers l s → Verif.Inst.Text I (.expr e) s) {w : Str}
    (hw : Covers (paren true l) w) : Verif.Inst.Text I (.primary e) w := by
  rw [paren, if_pos rfl] at hw
  obtain ⟨i, v, s, rfl, hi, hv, hs⟩ := covers_cons hw
  obtain ⟨u, u', rfl, hu, hu'⟩ := covers_split hs
  obtain ⟨j, v', s', rfl, hj, hv', hs'⟩ := covers_cons hu'
  rw [spells_ch hv, spells_ch hv', covers_nil hs']
  have := Verif.Inst.Text.paren hi (h u hu) hj
  simpa using this

theorem num_arg {I : Verif.Inst.Env K} {E : Env K} (hS : Same I E) {i : Str} (hi : Ign i) (n : Nat) : Verif.Inst.Text I (.expr (.num (n : K))) (i ++ natStr n) :=
  of_primary (.num hi (hS.int n)) 1

/-- The text of an expression for the calculator is one for the evaluator. -/
theorem expr_text {I : Verif.Inst.Env K} {E : Env K} (hS : Same I E) (vars : Str → K) :
    ∀ (e : Spec.Ex) (p : Nat), e.common I vars → ∀ w, Covers (e.pr p) w → Verif.Inst.Text I (level p (trans E e)) w := by
  intro e
  induction e with
  | num d =>
    intro p _ w h
    obtain ⟨i, v, s, rfl, hi, hv, hs⟩ := covers_cons h
    obtain ⟨l, h1, h2, rfl, rfl⟩ := spells_num hv
    rw [covers_nil hs, List.append_nil]
    exact of_primary (.num hi (hS.num l h1 h2)) p
  | int n =>
    intro p _ w h
    obtain ⟨i, v, s, rfl, hi, hv, hs⟩ := covers_cons h
    rw [covers_nil hs, List.append_nil, spells_int hv]
    exact of_primary (.num hi (hS.int n)) p
  | var x =>
    intro p _ w h
    obtain ⟨i, v, s, rfl, hi, hv, hs⟩ := covers_cons h
    obtain ⟨rfl, h1, _⟩ := spells_name hv
    rw [covers_nil hs, List.append_nil]
    exact of_primary (.var hi h1) p
  | call x sq e ih =>
    intro p hc w h
    change Covers (.name x :: .ch _ :: (e.pr 1 ++ [.ch _])) w at h
    obtain ⟨i, v, s, rfl, hi, hv, hs⟩ := covers_cons h
    obtain ⟨rfl, h1, _⟩ := spells_name hv
    obtain ⟨j, v', s', rfl, hj, hv', hs'⟩ := covers_cons hs
    obtain ⟨u, u', rfl, hu, hu'⟩ := covers_split hs'
    obtain ⟨k, v'', s'', rfl, hk, hv'', hs''⟩ := covers_cons hu'
    rw [spells_ch hv', spells_ch hv'', covers_nil hs'']
    have hb : Verif.Inst.Brackets (if sq then '[' else '(') (if sq then ']' else ')') := by cases sq <;> simp [Verif.Inst.Brackets]
    have := Verif.Inst.Text.call hi h1 hj hb (.argOne (ih 1 hc.2 u hu)) hk
    refine of_primary ?_ p
    simpa [trans] using this
  | gamma n =>
    intro p _ w h
    obtain ⟨i, v, s, rfl, hi, hv, hs⟩ := covers_cons h
    obtain ⟨j, v1, s1, rfl, hj, hv1, hs1⟩ := covers_cons hs
    obtain ⟨k, v2, s2, rfl, hk, hv2, hs2⟩ := covers_cons hs1
    obtain ⟨m, v3, s3, rfl, hm, hv3, hs3⟩ := covers_cons hs2
    rw [spells_gamma hv, spells_ch hv1, spells_int hv2, spells_ch hv3, covers_nil hs3]
    have := Verif.Inst.Text.call hi (isName_word (s := "gammaPolCh".toList) (by simp)) hj (.inr ⟨rfl, rfl⟩) (.argOne (num_arg hS hk n)) hm
    refine of_primary ?_ p
    simpa [trans] using this
  | coef c a b =>
    intro p hc w h
    obtain ⟨i, v, s, rfl, hi, hv, hs⟩ := covers_cons h
    obtain ⟨j, v1, s1, rfl, hj, hv1, hs1⟩ := covers_cons hs
    obtain ⟨k, v2, s2, rfl, hk, hv2, hs2⟩ := covers_cons hs1
    obtain ⟨m, v3, s3, rfl, hm, hv3, hs3⟩ := covers_cons hs2
    obtain ⟨n, v4, s4, rfl, hn, hv4, hs4⟩ := covers_cons hs3
    obtain ⟨o, v5, s5, rfl, ho, hv5, hs5⟩ := covers_cons hs4
    rw [spells_coef hc hv, spells_ch hv1, spells_int hv2, spells_ch hv3, spells_int hv4, spells_ch hv5, covers_nil hs5]
    have hname : Verif.Inst.IsName (coefName c) := isName_word (by rcases hc with rfl | rfl <;> simp [coefName])
    have := Verif.Inst.Text.call hi hname hj (.inr ⟨rfl, rfl⟩) (.argMore (num_arg hS hk a) hm (.argOne (num_arg hS hn b))) ho
    refine of_primary ?_ p
    simpa [trans] using this
  | neg e ih =>
    intro p hc w h
    obtain ⟨i, v, s, rfl, hi, hv, hs⟩ := covers_cons h
    rw [spells_ch hv]
    have := Verif.Inst.Text.neg hi (ih 3 hc s hs)
    refine of_unary ?_ p
    simpa [trans] using this
  | par e ih =>
    intro p hc w h
    exact of_primary (paren_text (ih 1 hc) h) p
  | bin o a b iha ihb =>
    intro p hc w h
    have key : ∀ s, Covers (a.pr o.prec ++ o.tok :: b.pr (o.prec + 1)) s → Verif.Inst.Text I (level o.prec (trans E (.bin o a b))) s := by
      intro s hs
      obtain ⟨u, u', rfl, hu, hu'⟩ := covers_split hs
      obtain ⟨j, v, s', rfl, hj, hv, hs'⟩ := covers_cons hu'
      have ha := iha o.prec hc.1 u hu
      have hb := ihb (o.prec + 1) hc.2 s' hs'
      cases o <;> rw [spells_ch hv]
      · simpa [trans, level, Op.prec] using Verif.Inst.Text.add ha hj hb
      · simpa [trans, level, Op.prec] using Verif.Inst.Text.sub ha hj hb
      · simpa [trans, level, Op.prec] using Verif.Inst.Text.mul ha hj hb
      · simpa [trans, level, Op.prec] using Verif.Inst.Text.div ha hj hb
    have up : ∀ s, Verif.Inst.Text I (level o.prec (trans E (.bin o a b))) s → Verif.Inst.Text I (.expr (trans E (.bin o a b))) s := by
      intro s hs
      cases o
      · exact hs
      · exact hs
      · exact .ofProduct hs
      · exact .ofProduct hs
    rw [Ex.pr] at h
    by_cases hp : o.prec < p
    · rw [decide_eq_true hp] at h
      exact of_primary (paren_text (fun s hs => up s (key s hs)) h) p
    · rw [decide_eq_false hp, paren, if_neg (by simp)] at h
      have hk := key w h
      have hle : p ≤ o.prec := by omega
      cases o <;> simp only [Op.prec] at hle hk
      · match p, hle with
        | 0, _ => exact hk
        | 1, _ => exact hk
      · match p, hle with
        | 0, _ => exact hk
        | 1, _ => exact hk
      · match p, hle with
        | 0, _ => exact .ofProduct hk
        | 1, _ => exact .ofProduct hk
        | 2, _ => exact hk
      · match p, hle with
        | 0, _ => exact .ofProduct hk
        | 1, _ => exact .ofProduct hk
        | 2, _ => exact hk

/-- Elements separated by commas. -/
theorem items_text {I : Verif.Inst.Env K} {α : Type} (f : α → List Tok) (g : α → Verif.Inst.VEx K) :
    ∀ (l : List α), (∀ a ∈ l, ∀ s, Covers (f a) s → Verif.Inst.VText I (.value (g a)) s) → l ≠ [] → ∀ w, Covers (commas (l.map f)) w → Verif.Inst.VText I (.items (l.map g)) w
  | [], _, h, _, _ => absurd rfl h
  | [a], h, _, w, hw => .one (h a (by simp) w hw)
  | a :: b :: l, h, _, w, hw => by
    change Covers (f a ++ .ch ',' :: commas ((b :: l).map f)) w at hw
    obtain ⟨u, u', rfl, hu, hu'⟩ := covers_split hw
    obtain ⟨j, v, s', rfl, hj, hv, hs'⟩ := covers_cons hu'
    rw [spells_ch hv]
    have := items_text f g (b :: l) (fun a ha => h a (List.mem_cons_of_mem _ ha)) (by simp) s' hs'
    exact Verif.Inst.VText.more (h a (by simp) u hu) hj this

theorem braces_text {I : Verif.Inst.Env K} {α : Type} (f : α → List Tok) (g : α → Verif.Inst.VEx K) (l : List α)
    (h : ∀ a ∈ l, ∀ s, Covers (f a) s → Verif.Inst.VText I (.value (g a)) s) (w : Str) (hw : Covers (braces (l.map f)) w) :
    Verif.Inst.VText I (.value (.list (l.map g))) w := by
  rw [braces] at hw
  obtain ⟨i, v, s, rfl, hi, hv, hs⟩ := covers_cons hw
  obtain ⟨u, u', rfl, hu, hu'⟩ := covers_split hs
  obtain ⟨j, v', s', rfl, hj, hv', hs'⟩ := covers_cons hu'
  rw [spells_ch hv, spells_ch hv', covers_nil hs']
  by_cases hl : l = []
  · subst hl
    rw [covers_nil hu]
    simpa using Verif.Inst.VText.empty hi hj
  · simpa using Verif.Inst.VText.list hi (items_text f g l h hl u hu) hj

/-- A statement as a value. -/
def transSt (E : Env K) : St → Verif.Inst.VEx K
  | .expr e => .scalar (trans E e)
  | .vec l => .list (l.map fun e => .scalar (trans E e))
  | .mat m => .list (m.map fun l => .list (l.map fun e => .scalar (trans E e)))
  | _ => .list []

theorem st_text {I : Verif.Inst.Env K} {E : Env K} (hS : Same I E) (vars : Str → K) (x : St) (hx : x.common I vars) (w : Str) (hw : Covers x.pr w) :
    Verif.Inst.VText I (.value (transSt E x)) w := by
  have hrow : ∀ l : List Spec.Ex, (∀ e ∈ l, e.common I vars) → ∀ w, Covers (braces (l.map (·.pr 1))) w →
      Verif.Inst.VText I (.value (.list (l.map fun e => .scalar (trans E e)))) w := by
    intro l hl w hw
    exact braces_text (fun e : Spec.Ex => e.pr 1) (fun e => .scalar (trans E e)) l (fun e he s hs => .scalar (expr_text hS vars e 1 (hl e he) s hs)) w hw
  cases x with
  | assign s e => exact absurd hx (by simp [St.common])
  | empty => exact absurd hx (by simp [St.common])
  | expr e => exact .scalar (expr_text hS vars e 1 hx w hw)
  | vec l => exact hrow l hx w hw
  | mat m =>
    obtain ⟨hne, hall⟩ := hx
    have hp : (St.mat m).pr = braces (m.map fun l => braces (l.map (·.pr 1))) := by
      cases m with
      | nil => exact absurd rfl hne
      | cons a m => rfl
    rw [hp] at hw
    exact braces_text _ _ m (fun l hl s hs => hrow l (hall l hl) s hs) w hw

/-! ### Values -/

/-- Either both give the value, or one fails and the other writes a message or stops. -/
def Agrees {α : Type} (r : Except Verif.Inst.Err α) (q : List (Ev K) × Option α) : Prop :=
  (∃ x, r = .ok x ∧ q = ([], some x)) ∨ ((∃ e, r = .error e) ∧ (q.1 ≠ [] ∨ q.2 = none))

theorem Agrees.bad {α β : Type} {q : List (Ev K) × Option α} {f : α → List (Ev K) × Option β} (h : q.1 ≠ [] ∨ q.2 = none) :
    (andThen q f).1 ≠ [] ∨ (andThen q f).2 = none := by
  unfold andThen
  cases hq : q.2 with
  | none => exact .inr rfl
  | some x =>
    rcases h with h | h
    · left; simp [h]
    · rw [hq] at h; cases h

theorem andThen_ok {α β : Type} (x : α) (f : α → List (Ev K) × Option β) : andThen ([], some x) f = f x := by
  simp [andThen]

theorem call_fn (I : Verif.Inst.Env K) (E : Env K) (hS : Same I E) (s : Str) (hs : s ∈ ["Sqrt".toList, "sqrt".toList, "exp".toList, "log".toList]) (x : K) :
    Agrees (I.call s [x]) (applyFn E s x) := by
  left
  simp only [List.mem_cons, List.not_mem_nil, or_false] at hs
  rcases hs with rfl | rfl | rfl | rfl
  · exact ⟨E.sqrt x, by simp [Verif.Inst.Env.call, hS.sqrt], rfl⟩
  · exact ⟨E.sqrt x, by simp [Verif.Inst.Env.call, hS.sqrt], rfl⟩
  · exact ⟨E.exp x, by simp [Verif.Inst.Env.call, hS.exp], rfl⟩
  · exact ⟨E.log x, by simp [Verif.Inst.Env.call, hS.log], rfl⟩

theorem channel_eq (I : Verif.Inst.Env K) (i : Nat) : I.channel ((i + 1 : Nat) : Int) = match I.channels[i]? with | some c => .ok c | none => .error .channel := by
  unfold Verif.Inst.Env.channel
  have e : (((i + 1 : Nat) : Int) - 1).toNat = i := by omega
  rw [e]
  split
  · rename_i h
    have : I.channels.length ≤ i := by omega
    rw [List.getElem?_eq_none this]
  · rfl

theorem channel_zero (I : Verif.Inst.Env K) : I.channel 0 = .error .channel := by
  unfold Verif.Inst.Env.channel
  rw [if_pos (by omega)]

theorem coefficient_eq (l : List K) (j : Nat) : Verif.Inst.coefficient l (j : Int) = match l[j]? with | some v => .ok v | none => .error .index := by
  unfold Verif.Inst.coefficient
  rw [if_neg (by omega)]
  rfl

theorem call_gamma (I : Verif.Inst.Env K) (x : K) (n : Int) (h1 : I.notIntegral x = false) (h2 : I.round x = n) :
    I.call "gammaPolCh".toList [x] = (match I.channel n with | .ok c => .ok (I.sqrt (c.1 / I.pi)) | .error e => .error e) := by
  unfold Verif.Inst.Env.call
  simp [Verif.Inst.Env.integral, h1, h2, bind, Except.bind, pure, Except.pure]
  cases I.channel n <;> rfl

theorem call_coef (I : Verif.Inst.Env K) (x y : K) (n m : Int) (h1 : I.notIntegral x = false) (h2 : I.round x = n) (h3 : I.notIntegral y = false) (h4 : I.round y = m) :
    I.call "coefxi".toList [x, y] = (match I.channel n with | .ok c => Verif.Inst.coefficient c.2.1 m | .error e => .error e) ∧
    I.call "coefzeta".toList [x, y] = (match I.channel n with | .ok c => Verif.Inst.coefficient c.2.2 m | .error e => .error e) := by
  constructor
  · unfold Verif.Inst.Env.call
    simp [Verif.Inst.Env.integral, h1, h2, h3, h4, bind, Except.bind]
    cases I.channel n <;> rfl
  · unfold Verif.Inst.Env.call
    simp [Verif.Inst.Env.integral, h1, h2, h3, h4, bind, Except.bind]
    cases I.channel n <;> rfl

theorem gamma_agrees (I : Verif.Inst.Env K) (E : Env K) (hS : Same I E) (i : Nat) : Agrees (I.call "gammaPolCh".toList [(i : K)]) (([], hybrid E i) : List (Ev K) × Option K) := by
  have h := hS.integral i
  rw [call_gamma I _ _ h.1 h.2]
  cases i with
  | zero =>
    right
    refine ⟨⟨.channel, ?_⟩, .inr rfl⟩
    rw [Nat.cast_zero, channel_zero]
  | succ i =>
    have hc : (match I.channel ((i + 1 : Nat) : Int) with | .ok c => Except.ok (I.sqrt (c.1 / I.pi)) | .error e => .error e) =
        (match I.channels[i]? with | some c => .ok (I.sqrt (c.1 / I.pi)) | none => .error .channel) := by
      rw [channel_eq]
      cases I.channels[i]? <;> rfl
    rw [hc, hybrid, hS.theta, List.getElem?_map, hS.sqrt, hS.pi]
    cases I.channels[i]? with
    | none => exact .inr ⟨⟨_, rfl⟩, .inr rfl⟩
    | some c => exact .inl ⟨_, rfl, rfl⟩

theorem coef_agrees (I : Verif.Inst.Env K) (E : Env K) (hS : Same I E) (k : Coef) (hk : k = .xi ∨ k = .zeta) (i j : Nat) :
    Agrees (I.call (coefName k) [(i : K), (j : K)]) (([], entry E k i j) : List (Ev K) × Option K) := by
  have h := call_coef I _ _ _ _ (hS.integral i).1 (hS.integral i).2 (hS.integral j).1 (hS.integral j).2
  cases i with
  | zero =>
    right
    rw [Nat.cast_zero (R := Int), channel_zero] at h
    refine ⟨⟨.channel, ?_⟩, .inr (by rcases hk with rfl | rfl <;> rfl)⟩
    rcases hk with rfl | rfl
    · exact h.1
    · exact h.2
  | succ i =>
    have hx : I.call "coefxi".toList [((i + 1 : Nat) : K), (j : K)] = (match I.channels[i]? with
        | some c => (match c.2.1[j]? with | some v => .ok v | none => .error .index) | none => .error .channel) := by
      rw [h.1, channel_eq]
      cases I.channels[i]? with
      | none => rfl
      | some c => exact coefficient_eq _ _
    have hz : I.call "coefzeta".toList [((i + 1 : Nat) : K), (j : K)] = (match I.channels[i]? with
        | some c => (match c.2.2[j]? with | some v => .ok v | none => .error .index) | none => .error .channel) := by
      rw [h.2, channel_eq]
      cases I.channels[i]? with
      | none => rfl
      | some c => exact coefficient_eq _ _
    rcases hk with rfl | rfl
    · have he : entry E .xi (i + 1) j = (E.xi[i]?).bind (·[j]?) := rfl
      rw [coefName, hx, he, hS.xi, List.getElem?_map]
      cases I.channels[i]? with
      | none => exact .inr ⟨⟨_, rfl⟩, .inr rfl⟩
      | some c =>
        dsimp only [Option.map_some, Option.bind_some]
        cases c.2.1[j]? with
        | none => exact .inr ⟨⟨_, rfl⟩, .inr rfl⟩
        | some v => exact .inl ⟨_, rfl, rfl⟩
    · have he : entry E .zeta (i + 1) j = (E.zeta[i]?).bind (·[j]?) := rfl
      rw [show coefName .zeta = "coefzeta".toList from rfl, hz, he, hS.zeta, List.getElem?_map]
      cases I.channels[i]? with
      | none => exact .inr ⟨⟨_, rfl⟩, .inr rfl⟩
      | some c =>
        dsimp only [Option.map_some, Option.bind_some]
        cases c.2.2[j]? with
        | none => exact .inr ⟨⟨_, rfl⟩, .inr rfl⟩
        | some v => exact .inl ⟨_, rfl, rfl⟩

theorem expr_agrees {I : Verif.Inst.Env K} {E : Env K} (hS : Same I E) (vars : Str → K) :
    ∀ e : Spec.Ex, e.common I vars → Agrees ((trans E e).eval I) (e.eval E vars) := by
  intro e
  induction e with
  | num d => intro _; exact .inl ⟨_, rfl, rfl⟩
  | int n => intro _; exact .inl ⟨_, rfl, rfl⟩
  | var s =>
    intro h
    refine .inl ⟨vars s, ?_, rfl⟩
    rw [trans, Verif.Inst.Ex.eval, if_neg h.2]
    exact h.1
  | call s sq e ih =>
    intro h
    rw [trans, Verif.Inst.Ex.eval, Ex.eval]
    rcases ih h.2 with ⟨x, h1, h2⟩ | ⟨⟨err, h1⟩, h2⟩
    · rw [h2, andThen_ok]
      simp only [Verif.Inst.Ex.evalList, h1]
      exact call_fn I E hS s h.1 x
    · simp only [Verif.Inst.Ex.evalList, h1]
      exact .inr ⟨⟨err, rfl⟩, Agrees.bad h2⟩
  | gamma i => intro _; simp only [trans, Verif.Inst.Ex.eval, Verif.Inst.Ex.evalList, Ex.eval]; exact gamma_agrees I E hS i
  | coef k i j => intro h; simp only [trans, Verif.Inst.Ex.eval, Verif.Inst.Ex.evalList, Ex.eval]; exact coef_agrees I E hS k h i j
  | neg e ih =>
    intro h
    rw [trans, Verif.Inst.Ex.eval, Ex.eval]
    rcases ih h with ⟨x, h1, h2⟩ | ⟨⟨err, h1⟩, h2⟩
    · rw [h2, andThen_ok, h1]
      exact .inl ⟨_, rfl, rfl⟩
    · rw [h1]
      exact .inr ⟨⟨err, rfl⟩, Agrees.bad h2⟩
  | par e ih => intro h; exact ih h
  | bin o a b iha ihb =>
    intro h
    rw [Ex.eval]
    rcases iha h.1 with ⟨x, h1, h2⟩ | ⟨⟨err, h1⟩, h2⟩
    · rw [h2, andThen_ok]
      rcases ihb h.2 with ⟨y, h3, h4⟩ | ⟨⟨err, h3⟩, h4⟩
      · rw [h4, andThen_ok]
        cases o <;> simp only [trans, Verif.Inst.Ex.eval, h1, h3, Op.apply]
        · exact .inl ⟨_, rfl, rfl⟩
        · exact .inl ⟨_, rfl, rfl⟩
        · exact .inl ⟨_, rfl, rfl⟩
        · split
          · exact .inr ⟨⟨_, rfl⟩, .inl (by simp)⟩
          · exact .inl ⟨_, rfl, rfl⟩
      · cases o <;> simp only [trans, Verif.Inst.Ex.eval, h1, h3] <;> exact .inr ⟨⟨err, rfl⟩, Agrees.bad h4⟩
    · cases o <;> simp only [trans, Verif.Inst.Ex.eval, h1] <;> exact .inr ⟨⟨err, rfl⟩, Agrees.bad h2⟩

theorem list_agrees {I : Verif.Inst.Env K} {E : Env K} (hS : Same I E) (vars : Str → K) :
    ∀ l : List Spec.Ex, (∀ e ∈ l, e.common I vars) → Agrees (Verif.Inst.Ex.evalList I (l.map (trans E))) (evalList E vars l)
  | [], _ => .inl ⟨[], rfl, rfl⟩
  | e :: l, h => by
    rw [List.map_cons, Verif.Inst.Ex.evalList, evalList]
    rcases expr_agrees hS vars e (h e (by simp)) with ⟨x, h1, h2⟩ | ⟨⟨err, h1⟩, h2⟩
    · rw [h1, h2, andThen_ok]
      rcases list_agrees hS vars l (fun e he => h e (by simp [he])) with ⟨y, h3, h4⟩ | ⟨⟨err, h3⟩, h4⟩
      · rw [h3, h4, andThen_ok]
        exact .inl ⟨_, rfl, rfl⟩
      · rw [h3]
        exact .inr ⟨⟨err, rfl⟩, Agrees.bad h4⟩
    · rw [h1]
      exact .inr ⟨⟨err, rfl⟩, Agrees.bad h2⟩

/-- A row as a value. -/
def rowValue (l : List K) : Verif.Inst.Value K := .list (l.map .scalar)

theorem vlist_error {I : Verif.Inst.Env K} {err : Verif.Inst.Err} : ∀ {l : List (Verif.Inst.Ex K)}, Verif.Inst.Ex.evalList I l = .error err →
    Verif.Inst.VEx.evalList I (l.map .scalar) = .error err
  | [], h => by simp [Verif.Inst.Ex.evalList] at h
  | e :: l, h => by
    simp only [Verif.Inst.Ex.evalList] at h
    simp only [List.map_cons, Verif.Inst.VEx.evalList, Verif.Inst.VEx.eval]
    cases he : e.eval I with
    | error x =>
      rw [he] at h
      cases h
      rfl
    | ok v =>
      rw [he] at h
      dsimp only at h ⊢
      cases hl : Verif.Inst.Ex.evalList I l with
      | error x =>
        rw [hl] at h
        rw [vlist_error hl]
        cases h
        rfl
      | ok vs => rw [hl] at h; cases h

theorem row_agrees {I : Verif.Inst.Env K} {E : Env K} (hS : Same I E) (vars : Str → K) (l : List Spec.Ex) (h : ∀ e ∈ l, e.common I vars) :
    (∃ v, Verif.Inst.VEx.evalList I (l.map fun e => .scalar (trans E e)) = .ok (v.map .scalar) ∧ evalList E vars l = ([], some v)) ∨
    ((∃ err, Verif.Inst.VEx.evalList I (l.map fun e => .scalar (trans E e)) = .error err) ∧ ((evalList E vars l).1 ≠ [] ∨ (evalList E vars l).2 = none)) := by
  have e : (l.map fun e => Verif.Inst.VEx.scalar (trans E e)) = (l.map (trans E)).map .scalar := by rw [List.map_map]; rfl
  rw [e]
  rcases list_agrees hS vars l h with ⟨v, h1, h2⟩ | ⟨⟨err, h1⟩, h2⟩
  · exact .inl ⟨v, (Verif.Inst.evalList_ok h1).1, h2⟩
  · exact .inr ⟨⟨err, vlist_error h1⟩, h2⟩

theorem rows_agrees {I : Verif.Inst.Env K} {E : Env K} (hS : Same I E) (vars : Str → K) : ∀ (m : List (List Spec.Ex)), (∀ l ∈ m, ∀ e ∈ l, e.common I vars) →
    (∃ M, Verif.Inst.VEx.evalList I (m.map fun l => .list (l.map fun e => .scalar (trans E e))) = .ok (M.map rowValue) ∧ evalRows E vars m = ([], some M)) ∨
    ((∃ err, Verif.Inst.VEx.evalList I (m.map fun l => .list (l.map fun e => .scalar (trans E e))) = .error err) ∧ ((evalRows E vars m).1 ≠ [] ∨ (evalRows E vars m).2 = none))
  | [], _ => .inl ⟨[], rfl, rfl⟩
  | l :: m, h => by
    simp only [List.map_cons, Verif.Inst.VEx.evalList, Verif.Inst.VEx.eval, evalRows]
    rcases row_agrees hS vars l (h l (by simp)) with ⟨v, h1, h2⟩ | ⟨⟨err, h1⟩, h2⟩
    · rw [h1, h2, andThen_ok]
      rcases rows_agrees hS vars m (fun l hl => h l (by simp [hl])) with ⟨M, h3, h4⟩ | ⟨⟨err, h3⟩, h4⟩
      · rw [h3, h4, andThen_ok]
        exact .inl ⟨v :: M, rfl, rfl⟩
      · rw [h3]
        exact .inr ⟨⟨err, rfl⟩, Agrees.bad h4⟩
    · rw [h1]
      exact .inr ⟨⟨err, rfl⟩, Agrees.bad h2⟩

theorem numbers_eval (I : Verif.Inst.Env K) : ∀ l : List K, Verif.Inst.Ex.evalList I (l.map .num) = .ok l
  | [] => rfl
  | x :: l => by simp only [List.map_cons, Verif.Inst.Ex.evalList, Verif.Inst.Ex.eval, numbers_eval I l]

theorem vector_matrix (I : Verif.Inst.Env K) (v : List K) (hv : v ≠ []) : Verif.Inst.toMatrix (rowValue v) = .ok ⟨1, v.length, [v]⟩ := by
  have h := Verif.Inst.row_form I (v.map .num) v (by simpa using hv) (numbers_eval I v)
  simp only [Verif.Inst.VEx.eval, (Verif.Inst.evalList_ok (numbers_eval I v)).1] at h
  rw [List.length_map] at h
  exact h

theorem table_matrix (I : Verif.Inst.Env K) (M : List (List K)) (hM : M ≠ []) (c : Nat) (hc : ∀ r ∈ M, r.length = c) :
    Verif.Inst.toMatrix (.list (M.map rowValue)) = .ok ⟨M.length, c, M⟩ := by
  have hF : ∀ L : List (List K), List.Forall₂ (fun r v => Verif.Inst.Ex.evalList I r = .ok v) (L.map fun l => l.map .num) L := by
    intro L
    induction L with
    | nil => exact .nil
    | cons v L ih => exact .cons (numbers_eval I v) ih
  have h := Verif.Inst.matrix_form I (M.map fun l => l.map .num) M c (by simpa using hM) (hF M)
    (by intro r hr; obtain ⟨l, hl, rfl⟩ := List.mem_map.mp hr; rw [List.length_map]; exact hc l hl)
  have h1 : ∀ L : List (List K), Verif.Inst.VEx.evalList I ((L.map fun l => l.map Verif.Inst.Ex.num).map fun r => .list (r.map .scalar)) = .ok (L.map rowValue) := by
    intro L
    induction L with
    | nil => rfl
    | cons v L ih =>
      simp only [List.map_cons, Verif.Inst.VEx.evalList, Verif.Inst.VEx.eval, (Verif.Inst.evalList_ok (numbers_eval I v)).1, ih]
      rfl
  simp only [Verif.Inst.VEx.eval, h1] at h
  rw [List.length_map] at h
  exact h

theorem rowValue_inj : ∀ {a b : List K}, rowValue a = rowValue b → a = b := by
  intro a b h
  have h' : a.map Verif.Inst.Value.scalar = b.map .scalar := by
    simpa [rowValue] using h
  exact List.map_injective_iff.mpr (fun x y hxy => by simpa using hxy) h'

theorem table_shape (M : List (List K)) (hM : M ≠ []) (m : Verif.Inst.Matrix K) (h : Verif.Inst.toMatrix (.list (M.map rowValue)) = .ok m) :
    Shows (.mat M) m := by
  obtain ⟨h1, h2, h3⟩ := Verif.Inst.accepted_is_rectangle _ _ h
  obtain ⟨v, L, rfl⟩ : ∃ v L, M = v :: L := by
    cases M with
    | nil => exact absurd rfl hM
    | cons v L => exact ⟨v, L, rfl⟩
  rcases h3 with ⟨x, hx, _⟩ | ⟨hx, _⟩ | ⟨r, hr, hx, _⟩ | ⟨hne, hx⟩
  · cases hx
  · simp at hx
  · cases r with
    | nil => exact absurd rfl hr
    | cons y r => simp [rowValue] at hx
  · have e : (v :: L).map rowValue = m.entries.map rowValue := by injection hx
    have e' : v :: L = m.entries := List.map_injective_iff.mpr (fun a b hab => rowValue_inj hab) e
    have := Shows.mat (v :: L) m.cols hM (by rw [e']; exact h2)
    rw [e', h1] at this
    rw [e']
    exact this

end Verif.Calc
