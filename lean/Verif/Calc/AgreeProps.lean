import Verif.Calc.Agree
import Verif.Calc.Bad
import Mathlib.Algebra.Order.Floor.Defs
import Mathlib.Data.Rat.Floor
import Mathlib.Tactic.NormNum
/-!
# The evaluator of `instantiate` and the calculator agree
-/

namespace Verif.Calc
open Verif.Text (Str isDigit natStr natValue)
open Verif.DataFile (Dec Lit)
open Spec

variable {K : Type} [Field K] [DecidableEq K]

theorem bad_exec {α : Type} {q : List (Ev K) × Option α} (h : q.1 ≠ [] ∨ q.2 = none) (f : α → Ev K) (vars : Str → K) (ev : Ev K) (v : Str → K) :
    andThen q (fun x => ([f x], some vars)) ≠ ([ev], some v) := by
  intro he
  unfold andThen at he
  cases hq : q.2 with
  | none => rw [hq] at he; exact absurd (congrArg Prod.snd he) (by simp)
  | some x =>
    rw [hq] at he
    rcases h with h | h
    · have h1 := congrArg (fun z => z.1.length) he
      simp only [List.length_append, List.length_cons, List.length_nil] at h1
      exact h (List.length_eq_zero_iff.mp (by omega))
    · rw [hq] at h; cases h

/-- The two on one statement. -/
theorem st_agrees {I : Verif.Inst.Env K} {E : Env K} (hS : Same I E) (vars : Str → K) (x : St) (hx : x.common I vars) (M : Verif.Inst.Matrix K) :
    ((transSt E x).eval I >>= Verif.Inst.toMatrix) = .ok M ↔ ∃ ev v, x.exec E vars = ([ev], some v) ∧ Shows ev M := by
  cases x with
  | assign s e => exact absurd hx (by simp [St.common])
  | empty => exact absurd hx (by simp [St.common])
  | expr e =>
    simp only [transSt, Verif.Inst.VEx.eval, St.exec]
    rcases expr_agrees hS vars e hx with ⟨y, h1, h2⟩ | ⟨⟨err, h1⟩, h2⟩
    · rw [h1, h2, andThen_ok]
      change Verif.Inst.toMatrix (.scalar y) = .ok M ↔ _
      rw [Verif.Inst.toMatrix]
      constructor
      · intro h
        cases h
        exact ⟨_, _, rfl, .num y⟩
      · rintro ⟨ev, v, h, hs⟩
        cases h
        cases hs
        rfl
    · rw [h1]
      constructor
      · intro h; cases h
      · rintro ⟨ev, v, h, _⟩; exact absurd h (bad_exec h2 _ _ _ _)
  | vec l =>
    simp only [transSt, Verif.Inst.VEx.eval, St.exec]
    rcases row_agrees hS vars l hx with ⟨y, h1, h2⟩ | ⟨⟨err, h1⟩, h2⟩
    · rw [h1, h2, andThen_ok]
      change Verif.Inst.toMatrix (rowValue y) = .ok M ↔ _
      by_cases hy : y = []
      · subst hy
        constructor
        · intro h
          cases h
          exact ⟨_, _, rfl, .none⟩
        · rintro ⟨ev, v, h, hs⟩
          cases h
          cases hs with
          | none => rfl
          | vec _ h => exact absurd rfl h
      · rw [vector_matrix I y hy]
        constructor
        · intro h
          cases h
          exact ⟨_, _, rfl, .vec y hy⟩
        · rintro ⟨ev, v, h, hs⟩
          cases h
          cases hs with
          | none => exact absurd rfl hy
          | vec _ h => rfl
    · rw [h1]
      constructor
      · intro h; cases h
      · rintro ⟨ev, v, h, _⟩; exact absurd h (bad_exec h2 _ _ _ _)
  | mat m =>
    obtain ⟨hne, hall⟩ := hx
    simp only [transSt, Verif.Inst.VEx.eval, St.exec]
    rcases rows_agrees hS vars m hall with ⟨y, h1, h2⟩ | ⟨⟨err, h1⟩, h2⟩
    · rw [h1, h2, andThen_ok]
      change Verif.Inst.toMatrix (.list (y.map rowValue)) = .ok M ↔ _
      have hy : y ≠ [] := by
        rintro rfl
        cases m with
        | nil => exact hne rfl
        | cons l m =>
          simp only [List.map_cons, Verif.Inst.VEx.evalList, List.map_nil] at h1
          split at h1
          · cases h1
          · split at h1
            · cases h1
            · cases h1
      constructor
      · intro h
        exact ⟨_, _, rfl, table_shape y hy M h⟩
      · rintro ⟨ev, v, h, hs⟩
        cases h
        cases hs with
        | mat _ c h hc => exact table_matrix I y hy c hc
    · rw [h1]
      constructor
      · intro h; cases h
      · rintro ⟨ev, v, h, _⟩; exact absurd h (bad_exec h2 _ _ _ _)

theorem execPr_append (E : Env K) : ∀ (p q : List St) (vars : Str → K), execPr E vars (p ++ q) = andThen (execPr E vars p) fun v => execPr E v q
  | [], q, vars => by rw [List.nil_append, execPr, andThen_ok]
  | s :: p, q, vars => by
    rw [List.cons_append, execPr, execPr]
    simp only [andThen]
    cases h : (s.exec E vars).2 with
    | none => rfl
    | some v =>
      dsimp only
      rw [execPr_append E p q v]
      simp only [andThen]
      cases (execPr E v p).2 with
      | none => rfl
      | some w => simp

theorem noLines_pr {x : St} (hx : ∀ t ∈ x.pr, t ≠ .ch '\n') : noLines (prPr [x]) = x.pr := by
  have hp : prPr [x] = x.pr ++ [.ch '\n'] := by simp [prPr]
  rw [hp, noLines, List.filter_append, List.filter_eq_self.mpr (by intro t ht; simpa using hx t ht)]
  simp

theorem expr_noLines : ∀ (e : Spec.Ex) (p : Nat), ∀ t ∈ e.pr p, t ≠ .ch '\n' := by
  intro e
  induction e with
  | num d => intro p t ht; simp only [Ex.pr, List.mem_singleton] at ht; rw [ht]; simp
  | int d => intro p t ht; simp only [Ex.pr, List.mem_singleton] at ht; rw [ht]; simp
  | var d => intro p t ht; simp only [Ex.pr, List.mem_singleton] at ht; rw [ht]; simp
  | gamma n =>
    intro p t ht
    simp only [Ex.pr, List.mem_cons, List.not_mem_nil, or_false] at ht
    rcases ht with rfl | rfl | rfl | rfl <;> simp
  | coef k a b =>
    intro p t ht
    simp only [Ex.pr, List.mem_cons, List.not_mem_nil, or_false] at ht
    rcases ht with rfl | rfl | rfl | rfl | rfl | rfl
    · cases k <;> simp [Coef.tok]
    all_goals simp
  | call s sq e ih =>
    intro p t ht
    simp only [Ex.pr, List.mem_append, List.mem_cons, List.not_mem_nil, or_false] at ht
    rcases ht with ((rfl | rfl) | h) | rfl
    · simp
    · cases sq <;> simp
    · exact ih 1 t h
    · cases sq <;> simp
  | neg e ih =>
    intro p t ht
    simp only [Ex.pr, List.mem_cons] at ht
    rcases ht with rfl | h
    · simp
    · exact ih 3 t h
  | par e ih =>
    intro p t ht
    simp only [Ex.pr, paren, if_true, List.mem_cons, List.mem_append, List.not_mem_nil, or_false] at ht
    rcases ht with rfl | h | rfl
    · simp
    · exact ih 1 t h
    · simp
  | bin o a b iha ihb =>
    intro p t ht
    have key : ∀ t ∈ a.pr o.prec ++ o.tok :: b.pr (o.prec + 1), t ≠ .ch '\n' := by
      intro t ht
      rcases List.mem_append.mp ht with h | h
      · exact iha _ t h
      · rcases List.mem_cons.mp h with rfl | h
        · cases o <;> simp [Op.tok]
        · exact ihb _ t h
    rw [Ex.pr, paren] at ht
    split at ht
    · rcases List.mem_cons.mp ht with rfl | ht
      · simp
      · rcases List.mem_append.mp ht with h | h
        · exact key t h
        · rw [List.mem_singleton.mp h]; simp
    · exact key t ht

theorem commas_noLines : ∀ (l : List (List Tok)), (∀ a ∈ l, ∀ t ∈ a, t ≠ .ch '\n') → ∀ t ∈ commas l, t ≠ .ch '\n'
  | [], _, t, ht => by simp [commas] at ht
  | [a], h, t, ht => h a (by simp) t ht
  | a :: b :: l, h, t, ht => by
    change t ∈ a ++ .ch ',' :: commas (b :: l) at ht
    rcases List.mem_append.mp ht with h' | h'
    · exact h a (by simp) t h'
    · rcases List.mem_cons.mp h' with rfl | h'
      · simp
      · exact commas_noLines (b :: l) (fun a ha => h a (List.mem_cons_of_mem _ ha)) t h'

theorem braces_noLines (l : List (List Tok)) (h : ∀ a ∈ l, ∀ t ∈ a, t ≠ .ch '\n') : ∀ t ∈ braces l, t ≠ .ch '\n' := by
  intro t ht
  simp only [braces, List.mem_cons, List.mem_append, List.not_mem_nil, or_false] at ht
  rcases ht with rfl | h' | rfl
  · simp
  · exact commas_noLines l h t h'
  · simp

theorem st_noLines (x : St) : ∀ t ∈ x.pr, t ≠ .ch '\n' := by
  have hrow : ∀ l : List Spec.Ex, ∀ t ∈ braces (l.map (·.pr 1)), t ≠ .ch '\n' := by
    intro l
    refine braces_noLines _ ?_
    intro a ha
    obtain ⟨e, _, rfl⟩ := List.mem_map.mp ha
    exact expr_noLines e 1
  cases x with
  | assign s e =>
    intro t ht
    simp only [St.pr, List.mem_cons] at ht
    rcases ht with rfl | rfl | h
    · simp
    · simp
    · exact expr_noLines e 1 t h
  | expr e => exact expr_noLines e 1
  | vec l => exact hrow l
  | mat m =>
    cases m with
    | nil => intro t ht; simp only [St.pr, List.mem_cons, List.not_mem_nil, or_false] at ht; rcases ht with rfl | rfl | rfl | rfl <;> simp
    | cons a m =>
      refine braces_noLines _ ?_
      intro b hb
      obtain ⟨l, _, rfl⟩ := List.mem_map.mp hb
      exact hrow l
  | empty => intro t ht; simp [St.pr] at ht

/-- **C120.** A number, vector or matrix that both tools can evaluate: `instantiate` takes the text of the file `text` for the matrix `M` exactly if the calculator, after
lines `before` that set the variables, prints this matrix and nothing else, no messages and with rows of the same length. -/
theorem same_matrix {I : Verif.Inst.Env K} {E : Env K} (hS : Same I E) (hP : Verif.Inst.Progress I) (vars : Str → K) (p : List St) (x : St) (before text : Str)
    (hx : x.common I vars) (hp : execPr E (fun _ => 0) p = ([], some vars)) (hok : ∀ y ∈ p ++ [x], y.ok ∧ y.need ≤ 9997) (hn : nameCount (prPr (p ++ [x])) ≤ 196)
    (h1 : Written true 0 (prPr (p ++ [x])) (before ++ text)) (h2 : Written true 0 (prPr [x]) text) (hd : '$' ∉ text) (he : '!' ∉ text) (M : Verif.Inst.Matrix K) :
    Verif.Inst.evaluateMatrix I text = .ok M ↔ ∃ ev, calculator E (before ++ text) = .parser .accept [ev] ∧ Shows ev M := by
  have hI : Verif.Inst.evaluateMatrix I text = ((transSt E x).eval I >>= Verif.Inst.toMatrix) := by
    obtain ⟨w, j, hw, hj, rfl⟩ := (written_covers h2 hd).1
    rw [noLines_pr (st_noLines x)] at hw
    exact Verif.Inst.evaluates I hP (st_text hS vars x hx w hw) (.inl hj) ((Verif.Inst.escapes I _).2 he)
  rw [hI, st_agrees hS vars x hx M, calculator_evaluates E _ (by simp) hok _ h1 hn]
  have hex : execPr E (fun _ => 0) (p ++ [x]) = x.exec E vars := by
    rw [execPr_append, hp, andThen_ok, execPr]
    simp only [andThen, execPr]
    cases hxe : x.exec E vars with
    | mk a b => cases b <;> simp
  unfold result
  rw [hex]
  constructor
  · rintro ⟨ev, v, h, hs⟩
    refine ⟨ev, ?_, hs⟩
    rw [h]
  · rintro ⟨ev, h, hs⟩
    cases hxe : x.exec E vars with
    | mk a b =>
      rw [hxe] at h
      cases b with
      | none => simp at h
      | some v => simp at h; exact ⟨ev, v, by rw [h], hs⟩

/-! ### Decimal numbers -/

/-- A decimal number is read by `strtod` up to its end. -/
theorem decimal_lit (l : Lit) (hl : l.OK) (hn : l.neg = false) (rest : Str) (hr : Verif.Inst.Delimited rest) :
    Verif.Inst.decimal (K := ℚ) (l.text ++ rest) = some ((l.val.m : ℚ) * 10 ^ l.val.e, rest) := by
  obtain ⟨neg, ip, fp, ex⟩ := l
  obtain ⟨h1, h2, h3, h4⟩ := hl
  dsimp only at hn h1 h3 h4
  subst hn
  have hex : Verif.Inst.exponent (Verif.DataFile.exText ex ++ rest) = (Verif.DataFile.exVal ex, rest) := by
    cases ex with
    | none => exact Verif.Inst.exponent_none hr
    | some x =>
      obtain ⟨h5, h6⟩ := h4 x rfl
      have hc : (if x.upper then 'E' else 'e') = 'e' ∨ (if x.upper then 'E' else 'e') = 'E' := by cases x.upper <;> simp
      obtain ⟨up, sign, ds⟩ := x
      rcases sign with _ | (_ | _)
      · have := Verif.Inst.exponent_digits (sg := ([], 1)) (by simp [Verif.Inst.expSigns]) hc h5 h6 hr
        simpa [Verif.DataFile.exText, Verif.DataFile.signText, Verif.DataFile.exVal] using this
      · have := Verif.Inst.exponent_digits (sg := (['+'], 1)) (by simp [Verif.Inst.expSigns]) hc h5 h6 hr
        simpa [Verif.DataFile.exText, Verif.DataFile.signText, Verif.DataFile.exVal] using this
      · have := Verif.Inst.exponent_digits (sg := (['-'], -1)) (by simp [Verif.Inst.expSigns]) hc h5 h6 hr
        simpa [Verif.DataFile.exText, Verif.DataFile.signText, Verif.DataFile.exVal] using this
  have hstart : Verif.DataFile.exText ex ++ rest = [] ∨ ∃ c t, Verif.DataFile.exText ex ++ rest = c :: t ∧ isDigit c = false ∧ c ≠ '.' := by
    cases ex with
    | none =>
      rcases Verif.Inst.delimited_char hr with rfl | ⟨c, t, rfl, h, h', _⟩
      · exact .inl rfl
      · exact .inr ⟨c, t, rfl, h, h'⟩
    | some x => exact .inr ⟨if x.upper then 'E' else 'e', _, rfl, by cases x.upper <;> decide, by cases x.upper <;> decide⟩
  have hstart' : Verif.DataFile.exText ex ++ rest = [] ∨ ∃ c t, Verif.DataFile.exText ex ++ rest = c :: t ∧ isDigit c = false := by
    rcases hstart with h | ⟨c, t, h, h', _⟩
    · exact .inl h
    · exact .inr ⟨c, t, h, h'⟩
  have hpow : ∀ (n : ℕ) (k : ℤ) (m : ℕ), ((m : ℚ) / 10 ^ n) * 10 ^ k = ((m : ℤ) : ℚ) * 10 ^ (k - (n : ℤ)) := by
    intro n k m
    rw [zpow_sub₀ (by norm_num), zpow_natCast, Int.cast_natCast, div_mul_eq_mul_div, mul_div_assoc]
  cases fp with
  | none =>
    have hfr : (⟨false, ip, none, ex⟩ : Lit).frac = [] := rfl
    rw [hfr] at h2 h3
    have e : (⟨false, ip, none, ex⟩ : Lit).text ++ rest = ip ++ (Verif.DataFile.exText ex ++ rest) := by simp [Lit.text]
    obtain ⟨d1, d2⟩ := Verif.Inst.digits_then h1 hstart'
    have hf : Verif.Inst.fraction (Verif.DataFile.exText ex ++ rest) = ([], Verif.DataFile.exText ex ++ rest) := by
      rcases hstart with h | ⟨c, t, h, _, h'⟩
      · rw [h]; rfl
      · rw [h]
        unfold Verif.Inst.fraction
        split
        · rename_i u hu; exact absurd (List.cons.inj hu).1 h'
        · rfl
    have hip : ip ≠ [] := by rcases h3 with h | h; exact h; exact absurd rfl h
    unfold Verif.Inst.decimal
    dsimp only
    rw [e, d1, d2, hf]
    dsimp only
    rw [if_neg (fun h => hip h.1), hex]
    dsimp only
    have := hpow 0 (Verif.DataFile.exVal ex) (natValue (ip ++ []))
    simp only [Lit.val, hfr, List.length_nil]
    simpa using this
  | some f =>
    have hfr : (⟨false, ip, some f, ex⟩ : Lit).frac = f := rfl
    rw [hfr] at h2 h3
    have e : (⟨false, ip, some f, ex⟩ : Lit).text ++ rest = ip ++ '.' :: (f ++ (Verif.DataFile.exText ex ++ rest)) := by simp [Lit.text]
    obtain ⟨d1, d2⟩ := Verif.Inst.digits_then h1 (rest := '.' :: (f ++ (Verif.DataFile.exText ex ++ rest))) (.inr ⟨'.', _, rfl, by decide⟩)
    obtain ⟨d3, d4⟩ := Verif.Inst.digits_then h2 hstart'
    have hf : Verif.Inst.fraction ('.' :: (f ++ (Verif.DataFile.exText ex ++ rest))) = (f, Verif.DataFile.exText ex ++ rest) := by
      simp only [Verif.Inst.fraction, d3, d4]
    unfold Verif.Inst.decimal
    dsimp only
    rw [e, d1, d2, hf]
    dsimp only
    rw [if_neg (fun h => by rcases h3 with h' | h'; exact h' h.1; exact h' h.2), hex]
    dsimp only
    have := hpow f.length (Verif.DataFile.exVal ex) (natValue (ip ++ f))
    simp only [Lit.val, hfr]
    simpa using this

/-- The calculator with the data of the example of the evaluator. -/
def calcSample : Env ℚ := ⟨fun d => (d.m : ℚ) * 10 ^ d.e, 22 / 7, id, id, id, [1], [[2, 5]], [[7]], [], [], []⟩

/-- Both have the same data. -/
theorem sample_same : Same Verif.Inst.sampleEnv calcSample where
  pi := rfl
  sqrt := rfl
  exp := rfl
  log := rfl
  theta := rfl
  xi := rfl
  zeta := rfl
  num := by
    intro l hl hn
    refine ⟨?_, fun rest hr => decimal_lit l hl hn rest hr⟩
    obtain ⟨neg, ip, fp, ex⟩ := l
    dsimp only at hn
    subst hn
    cases ip with
    | cons c u => exact ⟨c, _, rfl, .inl (hl.1 c (by simp))⟩
    | nil =>
      cases fp with
      | none => rcases hl.2.2.1 with h | h <;> exact absurd rfl h
      | some f => exact ⟨'.', _, rfl, .inr rfl⟩
  int := by
    intro n
    have := (Verif.Inst.decimal_ok Verif.Inst.sampleEnv rfl).2.1 (natStr n) (Verif.Text.natStr_ne_nil n) (Verif.Text.natStr_isDigit n)
    rw [Verif.Text.natStr_value] at this
    exact this
  integral := by
    intro n
    have h : ((n : ℚ)).floor = (n : ℤ) := by
      rw [Rat.floor_intCast (n : ℤ) |> fun h => (by simpa using h : ((n : ℚ)).floor = (n : ℤ))]
    constructor
    · change decide ((n : ℚ) ≠ (((n : ℚ)).floor : ℤ)) = false
      rw [h]
      simp
    · exact h

end Verif.Calc
