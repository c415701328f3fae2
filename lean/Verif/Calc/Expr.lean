import Verif.Calc.Lemmas
/-!
# The automaton evaluates expressions
-/

namespace Verif.Calc
open Verif.Text (Str)
open Verif.DataFile (Dec)
open Spec

variable {K : Type} [Field K] [DecidableEq K]

/-- The tokens are read as an expression of level `q` with the result `r`, in every state in which such an expression may begin and before everything that may follow. -/
def ExprRun (E : Env K) (vars : Str → K) (toks : List Tok) (q need : Nat) (r : List (Ev K) × Option K) : Prop :=
  ∀ (s : Nat) (w : Val K) (st : List (Nat × Val K)) (rest : List Tok) (out : List (Ev K)), s ∈ starts → lev s ≤ q → Follow q (look rest) →
    st.length + 1 + need ≤ 9999 →
    Reach E ⟨(s, w) :: st, toks ++ rest, vars, out⟩ r (fun x => ⟨(aft s, .num x) :: (s, w) :: st, rest, vars, []⟩)

theorem reduce_ok (E : Env K) {s n : Nat} {v : Val K} {st : List (Nat × Val K)} {inp : List Tok} {vars : Str → K} {out : List (Ev K)}
    (hl : st.length + 1 < 10000) (hs : s ≠ 37) (ha : act s (look inp) = .reduce n) {top : List (Nat × Val K)} {p : Nat} {w : Val K} {below : List (Nat × Val K)}
    (hst : (s, v) :: st = top ++ (p, w) :: below) (htop : top.length = yyr2.getD n 0) (h1 : 10 ≤ n) (h2 : n ≤ 26) {x : K} {evs : List (Ev K)}
    (hact : action E vars n (top.map Prod.snd) = .ok (.num x, vars, evs)) :
    step E ⟨(s, v) :: st, inp, vars, out⟩ = .ok ⟨(aft p, .num x) :: (p, w) :: below, inp, vars, out ++ evs⟩ := by
  rw [step_reduce E hl hs ha hst htop, hact]
  dsimp only
  rw [goto_expr _ _ h1 h2]

theorem reduce_assert (E : Env K) {s n : Nat} {v : Val K} {st : List (Nat × Val K)} {inp : List Tok} {vars : Str → K} {out : List (Ev K)}
    (hl : st.length + 1 < 10000) (hs : s ≠ 37) (ha : act s (look inp) = .reduce n) {top : List (Nat × Val K)} {p : Nat} {w : Val K} {below : List (Nat × Val K)}
    (hst : (s, v) :: st = top ++ (p, w) :: below) (htop : top.length = yyr2.getD n 0)
    (hact : action E vars n (top.map Prod.snd) = .error .assert_) :
    step E ⟨(s, v) :: st, inp, vars, out⟩ = .error .assert_ := by
  rw [step_reduce E hl hs ha hst htop, hact]

theorem expr_num (E : Env K) (vars : Str → K) (d : Dec) (q : Nat) : ExprRun E vars [.num d] q 1 ([], some (E.val d)) := by
  intro s w st rest out hs _ _ hl
  obtain ⟨h37, h5, _⟩ := start_facts s hs
  refine .pure _ (.head (step_shift E (by omega) h37 (q := 2) h5) (.one ?_))
  have := reduce_ok E (s := 2) (n := 16) (v := Tok.value E (.num d)) (st := (s, w) :: st) (inp := rest) (vars := vars) (out := out) (by simp only [List.length_cons]; omega)
    (by decide) rfl (top := [(2, Tok.value E (.num d))]) rfl rfl (by decide) (by decide) (x := E.val d) (evs := []) rfl
  simpa using this

theorem expr_int (E : Env K) (vars : Str → K) (d q : Nat) : ExprRun E vars [.int d] q 1 ([], some (d : K)) := by
  intro s w st rest out hs _ _ hl
  obtain ⟨h37, _, h5, _⟩ := start_facts s hs
  refine .pure _ (.head (step_shift E (by omega) h37 (q := 3) h5) (.one ?_))
  have := reduce_ok E (s := 3) (n := 17) (v := Tok.value E (.int d)) (st := (s, w) :: st) (inp := rest) (vars := vars) (out := out) (by simp only [List.length_cons]; omega)
    (by decide) rfl (top := [(3, Tok.value E (.int d))]) rfl rfl (by decide) (by decide) (x := (d : K)) (evs := []) rfl
  simpa using this

theorem nm_cases (s : Nat) : nm s = 1 ∨ nm s = 22 := by unfold nm; split <;> simp

theorem expr_var (E : Env K) (vars : Str → K) (n : Str) (q : Nat) : ExprRun E vars [.name n] q 1 ([], some (vars n)) := by
  intro s w st rest out hs _ hf hl
  obtain ⟨h37, _, _, _, _, h5, _⟩ := start_facts s hs
  refine .pure _ (.head (step_shift E (by omega) h37 (q := nm s) h5) (.one ?_))
  have hn := name_facts (look rest) hf.1 hf.2.1 hf.2.2.1 hf.2.2.2.1
  have := reduce_ok E (s := nm s) (n := 18) (v := Tok.value E (.name n)) (st := (s, w) :: st) (inp := rest) (vars := vars) (out := out)
    (by simp only [List.length_cons]; omega)
    (by rcases nm_cases s with h | h <;> rw [h] <;> decide) (by rcases nm_cases s with h | h <;> rw [h]; exacts [hn.1, hn.2])
    (top := [(nm s, Tok.value E (.name n))]) rfl rfl (by decide) (by decide) (x := vars n) (evs := []) rfl
  simpa using this

theorem expr_gamma (E : Env K) (vars : Str → K) (i q : Nat) : ExprRun E vars [.gamma, .ch '[', .int i, .ch ']'] q 4 ([], hybrid E i) := by
  intro s w st rest out hs _ _ hl
  obtain ⟨h37, _, _, _, _, _, h5, _⟩ := start_facts s hs
  have hS : Steps E ⟨(s, w) :: st, [Tok.gamma, .ch '[', .int i, .ch ']'] ++ rest, vars, out⟩
      ⟨[(66, .none), (47, .int i), (24, .none), (6, .none)] ++ (s, w) :: st, rest, vars, out⟩ :=
    .head (step_shift E (by omega) h37 (q := 6) h5) <|
    .head (step_shift E (q := 24) (by simp only [List.length_cons]; omega) (by decide) (by decide)) <|
    .head (step_shift E (q := 47) (by simp only [List.length_cons]; omega) (by decide) (show act 24 6 = _ by decide)) <|
    .one (step_shift E (q := 66) (by simp only [List.length_cons]; omega) (by decide) (by decide))
  have hg : E.gamma i = hybrid E i := by
    cases i with
    | zero => rfl
    | succ i => simp [Env.gamma, hybrid]
  have ha : action E vars 21 [.none, .int i, .none, .none] = ofCoef vars (hybrid E i) := by rw [← hg]; rfl
  cases hh : hybrid E i with
  | none =>
    rw [hh] at ha
    refine ⟨fun x hx => by simp at hx, fun _ => ⟨_, hS, ?_, by simp⟩⟩
    exact reduce_assert E (s := 66) (n := 21) (v := .none) (st := (47, .int i) :: (24, .none) :: (6, .none) :: (s, w) :: st)
      (by simp only [List.length_cons]; omega) (by decide) rfl (top := [(66, .none), (47, .int i), (24, .none), (6, .none)]) rfl rfl ha
  | some x =>
    rw [hh] at ha
    refine .pure _ (hS.trans (.one ?_))
    have := reduce_ok E (s := 66) (n := 21) (v := .none) (st := (47, .int i) :: (24, .none) :: (6, .none) :: (s, w) :: st) (inp := rest) (vars := vars) (out := out)
      (by simp only [List.length_cons]; omega) (by decide) rfl (top := [(66, .none), (47, .int i), (24, .none), (6, .none)]) rfl rfl (by decide) (by decide) (x := x) (evs := []) ha
    simpa using this

/-- Position of a table among the states and rules of the automaton. -/
def cidx : Coef → Nat
  | .zeta => 0
  | .xi => 1
  | .delta => 2
  | .kappa => 3
  | .v => 4

/-- The rule of a table. -/
def crule : Coef → Nat
  | .zeta => 23
  | .xi => 22
  | .delta => 24
  | .kappa => 25
  | .v => 26

theorem coef_action (E : Env K) (vars : Str → K) (k : Coef) (i j : Nat) :
    action E vars (crule k) [.none, .int j, .none, .int i, .none, .none] = ofCoef vars (entry E k i j) := by
  cases k <;> cases i <;> first | rfl | skip
  all_goals first
    | (cases j <;> rfl)
    | (simp only [crule, action, coef]; rw [if_pos (by omega)]; rfl)

theorem expr_coef (E : Env K) (vars : Str → K) (k : Coef) (i j q : Nat) :
    ExprRun E vars [k.tok, .ch '[', .int i, .ch ',', .int j, .ch ']'] q 6 ([], entry E k i j) := by
  intro s w st rest out hs _ _ hl
  obtain ⟨h37, _, _, _, _, _, _, h7, h8, h9, h10, h11⟩ := start_facts s hs
  have h5 : act s k.tok.sym = .shift (7 + cidx k) := by cases k <;> assumption
  have hv : k.tok.value E = .none := by cases k <;> rfl
  have hS : Steps E ⟨(s, w) :: st, [k.tok, .ch '[', .int i, .ch ',', .int j, .ch ']'] ++ rest, vars, out⟩
      ⟨[(81 + cidx k, .none), (76 + cidx k, .int j), (67 + cidx k, .none), (48 + cidx k, .int i), (25 + cidx k, .none), (7 + cidx k, .none)] ++ (s, w) :: st,
        rest, vars, out⟩ := by
    refine .head (step_shift E (by omega) h37 (q := 7 + cidx k) h5) ?_
    rw [hv]
    exact
      .head (step_shift E (q := 25 + cidx k) (by simp only [List.length_cons]; omega) (by cases k <;> decide) (show act (7 + cidx k) 25 = _ by cases k <;> decide)) <|
      .head (step_shift E (q := 48 + cidx k) (by simp only [List.length_cons]; omega) (by cases k <;> decide) (show act (25 + cidx k) 6 = _ by cases k <;> decide)) <|
      .head (step_shift E (q := 67 + cidx k) (by simp only [List.length_cons]; omega) (by cases k <;> decide) (show act (48 + cidx k) 11 = _ by cases k <;> decide)) <|
      .head (step_shift E (q := 76 + cidx k) (by simp only [List.length_cons]; omega) (by cases k <;> decide) (show act (67 + cidx k) 6 = _ by cases k <;> decide)) <|
      .one (step_shift E (q := 81 + cidx k) (by simp only [List.length_cons]; omega) (by cases k <;> decide) (show act (76 + cidx k) 26 = _ by cases k <;> decide))
  have ha := coef_action E vars k i j
  have hr : act (81 + cidx k) (look rest) = .reduce (crule k) := by cases k <;> rfl
  cases hh : entry E k i j with
  | none =>
    rw [hh] at ha
    refine ⟨fun x hx => by simp at hx, fun _ => ⟨_, hS, ?_, by simp⟩⟩
    exact reduce_assert E (n := crule k)
      (st := (76 + cidx k, .int j) :: (67 + cidx k, .none) :: (48 + cidx k, .int i) :: (25 + cidx k, .none) :: (7 + cidx k, .none) :: (s, w) :: st)
      (by simp only [List.length_cons]; omega) (by cases k <;> decide) hr
      (top := [(81 + cidx k, .none), (76 + cidx k, .int j), (67 + cidx k, .none), (48 + cidx k, .int i), (25 + cidx k, .none), (7 + cidx k, .none)]) rfl
      (by cases k <;> rfl) ha
  | some x =>
    rw [hh] at ha
    refine .pure _ (hS.trans (.one ?_))
    have := reduce_ok E (n := crule k) (v := .none)
      (st := (76 + cidx k, .int j) :: (67 + cidx k, .none) :: (48 + cidx k, .int i) :: (25 + cidx k, .none) :: (7 + cidx k, .none) :: (s, w) :: st)
      (inp := rest) (vars := vars) (out := out) (by simp only [List.length_cons]; omega) (by cases k <;> decide) hr
      (top := [(81 + cidx k, .none), (76 + cidx k, .int j), (67 + cidx k, .none), (48 + cidx k, .int i), (25 + cidx k, .none), (7 + cidx k, .none)]) rfl
      (by cases k <;> rfl) (by cases k <;> decide) (by cases k <;> decide) (x := x) (evs := []) ha
    simpa using this

theorem follow_ch {p : Nat} {c : Char} {rest : List Tok} (h : charSym c = 24 ∨ charSym c = 26 ∨ charSym c = 11 ∨ charSym c = 28 ∨ charSym c = 21) :
    Follow p (look (.ch c :: rest)) := by
  have e : look (.ch c :: rest) = charSym c := rfl
  rw [e]
  rcases h with h | h | h | h | h <;> rw [h] <;> exact ⟨by decide, by decide, by decide, by decide, fun _ => by decide⟩

theorem expr_neg {E : Env K} {vars : Str → K} {toks : List Tok} {need : Nat} {r : List (Ev K) × Option K} (h : ExprRun E vars toks 3 need r) (hn : 1 ≤ need)
    {q : Nat} :
    ExprRun E vars (.ch '-' :: toks) q (1 + need) (andThen r fun x => ([], some (-x))) := by
  intro s w st rest out hs _ hf hl
  obtain ⟨h37, _, _, h7, _⟩ := start_facts s hs
  have hf3 : Follow 3 (look rest) := ⟨hf.1, hf.2.1, hf.2.2.1, hf.2.2.2.1, fun h => by omega⟩
  refine .before (.one (step_shift E (q := 4) (by omega) h37 h7)) rfl ?_
  refine (h 4 _ ((s, w) :: st) rest out (by decide) (by decide) hf3 (by simp only [List.length_cons]; omega)).bind fun x _ => .pure _ (.one ?_)
  have h23 : aft 4 = 23 := by decide
  dsimp only
  rw [h23]
  have := reduce_ok E (s := 23) (n := 14) (v := .num x) (st := (4, Tok.value E (.ch '-')) :: (s, w) :: st) (inp := rest) (vars := vars) (out := out ++ r.1)
    (by simp only [List.length_cons]; omega) (by decide) rfl (top := [(23, .num x), (4, Tok.value E (.ch '-'))]) rfl rfl (by decide) (by decide) (x := -x) (evs := []) rfl
  simpa using this

theorem expr_paren {E : Env K} {vars : Str → K} {toks : List Tok} {q need : Nat} {r : List (Ev K) × Option K} (h : ExprRun E vars toks q need r) (hq : 1 ≤ q) {p : Nat} :
    ExprRun E vars (paren true toks) p (1 + max need 2) r := by
  intro s w st rest out hs _ _ hl
  obtain ⟨h37, _, _, _, h23, _⟩ := start_facts s hs
  have e : paren true toks ++ rest = .ch '(' :: (toks ++ .ch ')' :: rest) := by simp [paren]
  rw [e]
  refine .before (.one (step_shift E (q := 12) (by omega) h37 h23)) rfl ?_
  have h30 : aft 12 = 30 := by decide
  refine (h 12 _ ((s, w) :: st) (.ch ')' :: rest) out (by decide) (by rw [show lev 12 = 1 by decide]; exact hq)
    (follow_ch (by decide)) (by simp only [List.length_cons]; omega)).after fun x o => ?_
  dsimp only
  rw [h30]
  refine .head (step_shift E (q := 53) (by simp only [List.length_cons]; omega) (by decide) (by decide)) (.one ?_)
  have := reduce_ok E (s := 53) (n := 15) (v := Tok.value E (.ch ')')) (st := (30, .num x) :: (12, Tok.value E (.ch '(')) :: (s, w) :: st) (inp := rest) (vars := vars) (out := o)
    (by simp only [List.length_cons]; omega) (by decide) rfl (top := [(53, Tok.value E (.ch ')')), (30, .num x), (12, Tok.value E (.ch '('))]) rfl rfl (by decide) (by decide)
    (x := x) (evs := []) rfl
  simpa using this

theorem fn_eq (E : Env K) (s : Str) : E.fn s = (fns E).lookup s := by
  unfold Env.fn fns
  by_cases h1 : s = "Sqrt".toList
  · subst h1; rfl
  · by_cases h2 : s = "sqrt".toList
    · subst h2; rfl
    · by_cases h3 : s = "exp".toList
      · subst h3; rfl
      · by_cases h4 : s = "log".toList
        · subst h4; rfl
        · rw [if_neg (by simp only [not_or]; exact ⟨h1, h2⟩), if_neg h3, if_neg h4]
          simp only [List.lookup, beq_eq_false_iff_ne.2 h1, beq_eq_false_iff_ne.2 h2, beq_eq_false_iff_ne.2 h3, beq_eq_false_iff_ne.2 h4]

theorem apply_eq (E : Env K) (vars : Str → K) (s : Str) (x : K) :
    ∃ y, (applyFn E s x).2 = some y ∧ apply E vars s x = .ok (.num y, vars, (applyFn E s x).1) := by
  unfold apply applyFn
  rw [fn_eq]
  cases (fns E).lookup s with
  | none => exact ⟨0, rfl, rfl⟩
  | some f => exact ⟨f x, rfl, rfl⟩

theorem expr_call {E : Env K} {vars : Str → K} {toks : List Tok} {need : Nat} {r : List (Ev K) × Option K} (h : ExprRun E vars toks 1 need r) (f : Str) (sq : Bool) {p : Nat} :
    ExprRun E vars ([.name f, .ch (if sq then '[' else '(')] ++ toks ++ [.ch (if sq then ']' else ')')]) p (2 + max need 2) (andThen r (applyFn E f)) := by
  intro s w st rest out hs _ _ hl
  obtain ⟨h37, _, _, _, _, h4, _⟩ := start_facts s hs
  have e : ([Tok.name f, .ch (if sq then '[' else '(')] ++ toks ++ [.ch (if sq then ']' else ')')]) ++ rest =
      .name f :: .ch (if sq then '[' else '(') :: (toks ++ .ch (if sq then ']' else ')') :: rest) := by simp
  rw [e]
  have hopen : act (nm s) (Tok.sym (.ch (if sq then '[' else '('))) = .shift (if sq then 21 else 20) := by
    rcases nm_cases s with h | h <;> rw [h] <;> cases sq <;> decide
  refine .before (.head (step_shift E (q := nm s) (by omega) h37 h4) (.one (step_shift E (by simp only [List.length_cons]; omega) (by rcases nm_cases s with h | h <;> rw [h] <;> decide) hopen))) rfl ?_
  refine (h (if sq then 21 else 20) _ _ (.ch (if sq then ']' else ')') :: rest) out (by cases sq <;> decide) (by cases sq <;> decide)
    (follow_ch (by cases sq <;> decide)) (by simp only [List.length_cons]; omega)).bind fun x _ => ?_
  obtain ⟨y, hy, ha⟩ := apply_eq E vars f x
  have er : applyFn E f x = ((applyFn E f x).1, some y) := by rw [← hy]
  rw [er]
  refine .write _ _ ?_
  have h45 : aft (if sq then 21 else 20) = if sq then 46 else 45 := by cases sq <;> decide
  dsimp only
  rw [h45]
  refine .head (step_shift E (q := if sq then 65 else 64) (by simp only [List.length_cons]; omega) (by cases sq <;> decide) (by cases sq <;> decide)) (.one ?_)
  have hst : ∀ b : Bool, (Tok.ch (if sq then ']' else ')')).value E = (.none : Val K) := fun _ => rfl
  have := reduce_ok E (s := if sq then 65 else 64) (n := if sq then 20 else 19) (v := .none)
    (st := (if sq then 46 else 45, .num x) :: (if sq then 21 else 20, .none) :: (nm s, .sym f) :: (s, w) :: st) (inp := rest) (vars := vars) (out := out ++ r.1)
    (by simp only [List.length_cons]; omega) (by cases sq <;> decide) (by cases sq <;> rfl)
    (top := [(if sq then 65 else 64, .none), (if sq then 46 else 45, .num x), (if sq then 21 else 20, .none), (nm s, .sym f)]) rfl (by cases sq <;> rfl)
    (by cases sq <;> decide) (by cases sq <;> decide) (x := y) (evs := (applyFn E f x).1) (by cases sq <;> exact ha)
  exact this

/-- The states and the rule of an operation. -/
def opState : Op → Nat × Nat × Nat
  | .sub => (40, 60, 11)
  | .add => (41, 61, 10)
  | .mul => (42, 62, 12)
  | .div => (43, 63, 13)

theorem op_action (E : Env K) (vars : Str → K) (o : Op) (x y : K) (u : Val K) :
    ∃ z, (o.apply x y).2 = some z ∧ action E vars (opState o).2.2 [.num y, u, .num x] = .ok (.num z, vars, (o.apply x y).1) := by
  cases o with
  | add => exact ⟨_, rfl, rfl⟩
  | sub => exact ⟨_, rfl, rfl⟩
  | mul => exact ⟨_, rfl, rfl⟩
  | div =>
    by_cases hy : y = 0
    · exact ⟨x, by simp [Op.apply, hy], by
        show (if y = 0 then Except.ok (Val.num x, vars, [Ev.divZero]) else Except.ok (Val.num (x / y), vars, [])) = _
        rw [if_pos hy, Op.apply, if_pos hy]⟩
    · exact ⟨x / y, by simp [Op.apply, hy], by
        show (if y = 0 then Except.ok (Val.num x, vars, [Ev.divZero]) else Except.ok (Val.num (x / y), vars, [])) = _
        rw [if_neg hy, Op.apply, if_neg hy]⟩

theorem expr_bin {E : Env K} {vars : Str → K} {ta tb : List Tok} {na nb : Nat} {ra rb : List (Ev K) × Option K} (o : Op) (ha : ExprRun E vars ta o.prec na ra)
    (hb : ExprRun E vars tb (o.prec + 1) nb rb) (hn : 1 ≤ nb) :
    ExprRun E vars (ta ++ o.tok :: tb) o.prec (max na (2 + nb)) (andThen ra fun x => andThen rb fun y => o.apply x y) := by
  intro s w st rest out hs hlev hf hl
  have e : (ta ++ o.tok :: tb) ++ rest = ta ++ (o.tok :: (tb ++ rest)) := by simp
  rw [e]
  obtain ⟨ha37, hsum, hmul⟩ := aft_facts s hs
  have hsh : act (aft s) o.tok.sym = .shift (opState o).1 := by
    cases o
    · exact (hsum hlev).1
    · exact (hsum hlev).2
    · exact (hmul hlev).1
    · exact (hmul hlev).2
  have hfo : Follow o.prec o.tok.sym := by
    cases o <;> exact ⟨by decide, by decide, by decide, by decide, fun h => by revert h; decide⟩
  refine (ha s w st (o.tok :: (tb ++ rest)) out hs hlev hfo (by omega)).bind fun x _ => ?_
  dsimp only
  refine .before (.one (step_shift E (q := (opState o).1) (by simp only [List.length_cons]; omega) ha37 hsh)) rfl ?_
  refine (hb (opState o).1 _ _ rest _ (by cases o <;> decide) (by cases o <;> decide) (hf.mono (by omega)) (by simp only [List.length_cons]; omega)).bind fun y _ => ?_
  have ea : aft (opState o).1 = (opState o).2.1 := by cases o <;> decide
  have hv : o.tok.value E = .none := by cases o <;> rfl
  obtain ⟨z, hz, hact⟩ := op_action E vars o x y .none
  have er : o.apply x y = ((o.apply x y).1, some z) := by rw [← hz]
  rw [er]
  refine .write _ _ (.one ?_)
  dsimp only
  rw [ea, hv]
  have hred : act (opState o).2.1 (look rest) = .reduce (opState o).2.2 := by
    cases o
    · exact (sum_facts _ hf.1 (hf.2.2.2.2 (le_refl _)).1 (hf.2.2.2.2 (le_refl _)).2).2
    · exact (sum_facts _ hf.1 (hf.2.2.2.2 (le_refl _)).1 (hf.2.2.2.2 (le_refl _)).2).1
    · rfl
    · rfl
  exact reduce_ok E (n := (opState o).2.2) (st := ((opState o).1, .none) :: (aft s, .num x) :: (s, w) :: st) (by simp only [List.length_cons]; omega) (by cases o <;> decide) hred
    (top := [((opState o).2.1, .num y), ((opState o).1, .none), (aft s, .num x)]) rfl (by cases o <;> rfl) (by cases o <;> decide) (by cases o <;> decide) hact

theorem ExprRun.level {E : Env K} {vars : Str → K} {toks : List Tok} {p q need : Nat} {r : List (Ev K) × Option K} (h : ExprRun E vars toks q need r) (hpq : p ≤ q) :
    ExprRun E vars toks p need r :=
  fun s w st rest out hs hlev hf hl => h s w st rest out hs (by omega) (hf.mono hpq) hl

theorem need_pos (e : Ex) (p : Nat) : 1 ≤ e.need p := by
  cases e <;> simp only [Ex.need] <;> try omega
  split <;> omega

/-- Every expression is evaluated. -/
theorem expr_run (E : Env K) (vars : Str → K) (e : Ex) : ∀ p, 1 ≤ p → p ≤ 3 → ExprRun E vars (e.pr p) p (e.need p) (e.eval E vars) := by
  induction e with
  | num d => intro p _ _; exact expr_num E vars d p
  | int n => intro p _ _; exact expr_int E vars n p
  | var s => intro p _ _; exact expr_var E vars s p
  | call f sq e ih => intro p _ _; exact expr_call (ih 1 (by omega) (by omega)) f sq
  | gamma i => intro p _ _; exact expr_gamma E vars i p
  | coef k i j => intro p _ _; exact expr_coef E vars k i j p
  | neg e ih => intro p _ _; exact expr_neg (ih 3 (by omega) (by omega)) (need_pos e 3)
  | par e ih => intro p _ _; exact expr_paren (ih 1 (by omega) (by omega)) (by omega)
  | bin o a b iha ihb =>
    intro p hp hp3
    have ho : 1 ≤ o.prec ∧ o.prec ≤ 2 := by cases o <;> decide
    have hbin := expr_bin o (iha o.prec (by omega) (by omega)) (ihb (o.prec + 1) (by omega) (by omega)) (need_pos b _)
    simp only [Ex.pr, Ex.need, Ex.eval]
    by_cases h : o.prec < p
    · rw [if_pos h, decide_eq_true h]
      exact expr_paren hbin ho.1
    · rw [if_neg h, decide_eq_false h]
      exact hbin.level (by omega)

end Verif.Calc
