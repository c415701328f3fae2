import Verif.Calc.Expr
/-!
# The automaton reads vectors, matrices, statements and programs
-/

namespace Verif.Calc
open Verif.Text (Str)
open Verif.DataFile (Dec)
open Spec

variable {K : Type} [Field K] [DecidableEq K]

theorem reduce_gen (E : Env K) {s n : Nat} {v : Val K} {st : List (Nat × Val K)} {inp : List Tok} {vars vars' : Str → K} {out : List (Ev K)}
    (hl : st.length + 1 < 10000) (hs : s ≠ 37) (ha : act s (look inp) = .reduce n) {top : List (Nat × Val K)} {p g : Nat} {w u : Val K} {below : List (Nat × Val K)}
    (hst : (s, v) :: st = top ++ (p, w) :: below) (htop : top.length = yyr2.getD n 0) {evs : List (Ev K)}
    (hact : action E vars n (top.map Prod.snd) = .ok (u, vars', evs)) (hg : goto_ p n = g) :
    step E ⟨(s, v) :: st, inp, vars, out⟩ = .ok ⟨(g, u) :: (p, w) :: below, inp, vars', out ++ evs⟩ := by
  rw [step_reduce E hl hs ha hst htop, hact]
  dsimp only
  rw [hg]

/-- The state after a list of expressions. -/
def lst (s : Nat) : Nat := if s = 55 then 73 else 34

theorem look_ch (c : Char) (r : List Tok) : look (.ch c :: r) = charSym c := rfl

theorem commas_cons_cons (x y : List Tok) (l : List (List Tok)) : commas (x :: y :: l) = x ++ .ch ',' :: commas (y :: l) := rfl

theorem list_states : ∀ s ∈ ([13, 31, 55, 74] : List Nat), s ∈ starts ∧ lev s = 1 ∧ aft s = 33 ∧ goto_ s 27 = lst s ∧ goto_ s 28 = lst s := by decide

/-- A list of expressions before a closing brace. -/
theorem list_run (E : Env K) (vars : Str → K) : ∀ (l : List Ex), l ≠ [] → ∀ (s : Nat) (w : Val K) (st : List (Nat × Val K)) (rest : List Tok) (out : List (Ev K)),
    s ∈ ([13, 31, 55, 74] : List Nat) → st.length + 1 + needList (l.map (·.need 1)) ≤ 9999 →
    Reach E ⟨(s, w) :: st, commas (l.map (·.pr 1)) ++ .ch '}' :: rest, vars, out⟩ (evalList E vars l)
      (fun xs => ⟨(lst s, .vec xs) :: (s, w) :: st, .ch '}' :: rest, vars, []⟩)
  | [], h => absurd rfl h
  | [e], _ => by
    intro s w st rest out hs hl
    obtain ⟨h1, h2, h3, h4, _⟩ := list_states s hs
    have hn := need_pos e 1
    simp only [List.map, needList] at hl
    refine (expr_run E vars e 1 (by omega) (by omega) s w st (.ch '}' :: rest) out h1 (by omega) (follow_ch (by decide)) (by omega)).bind fun x _ => ?_
    simp only [evalList, andThen, List.nil_append]
    refine .pure _ (.one ?_)
    dsimp only
    rw [h3]
    have := reduce_gen E (s := 33) (n := 27) (v := .num x) (st := (s, w) :: st) (inp := .ch '}' :: rest) (vars := vars) (vars' := vars) (out := out ++ (e.eval E vars).1)
      (by simp only [List.length_cons]; omega) (by decide) (show act 33 28 = _ by decide) (top := [(33, .num x)]) rfl rfl (evs := []) rfl h4
    rw [List.append_nil] at this
    exact this
  | e :: f :: l, _ => by
    intro s w st rest out hs hl
    obtain ⟨h1, h2, h3, _, h4⟩ := list_states s hs
    have hn := need_pos e 1
    simp only [List.map_cons, needList] at hl
    simp only [List.map_cons, commas_cons_cons, List.append_assoc, List.cons_append]
    refine (expr_run E vars e 1 (by omega) (by omega) s w st (.ch ',' :: (commas ((f :: l).map (·.pr 1)) ++ .ch '}' :: rest)) out h1 (by omega) (follow_ch (by decide))
      (by omega)).bind fun x _ => ?_
    dsimp only
    rw [h3]
    refine .before (.one (step_shift E (q := 55) (by simp only [List.length_cons]; omega) (by decide) (show act 33 11 = _ by decide))) rfl ?_
    refine (list_run E vars (f :: l) (by simp) 55 _ _ rest _ (by decide) (by simp only [List.length_cons, List.map_cons, needList]; omega)).bind fun xs _ => ?_
    refine .pure _ (.one ?_)
    dsimp only
    have := reduce_gen E (s := lst 55) (n := 28) (v := .vec xs) (st := (55, Tok.value E (.ch ',')) :: (33, .num x) :: (s, w) :: st) (inp := .ch '}' :: rest) (vars := vars) (vars' := vars)
      (out := out ++ (e.eval E vars).1 ++ (evalList E vars (f :: l)).1)
      (by simp only [List.length_cons]; omega) (by decide) rfl (top := [(lst 55, .vec xs), (55, Tok.value E (.ch ',')), (33, .num x)]) rfl rfl (evs := []) rfl h4
    rw [List.append_nil] at this
    exact this

/-- The state after an opening brace. -/
def opn (s : Nat) : Nat := if s = 13 then 31 else if s = 57 then 74 else 13

/-- The state after a vector. -/
def vst (s : Nat) : Nat := if s = 13 ∨ s = 57 then 35 else 17

theorem vec_states : ∀ s ∈ ([0, 14, 13, 57] : List Nat), s ≠ 37 ∧ act s 27 = .shift (opn s) ∧ opn s ∈ ([13, 31, 55, 74] : List Nat) ∧ opn s ≠ 37 ∧ goto_ s 29 = vst s ∧
    goto_ s 30 = vst s ∧ lst (opn s) = 34 ∧ act (opn s) 28 = .shift (if s = 13 then 54 else 32) := by decide

/-- A vector. -/
theorem vec_run (E : Env K) (vars : Str → K) (l : List Ex) (s : Nat) (w : Val K) (st : List (Nat × Val K)) (rest : List Tok) (out : List (Ev K))
    (hs : s ∈ ([0, 14, 13, 57] : List Nat)) (h13 : s = 13 → l = [] → look rest = 11) (hl : st.length + 1 + (1 + max (needList (l.map (·.need 1))) 2) ≤ 9999) :
    Reach E ⟨(s, w) :: st, braces (l.map (·.pr 1)) ++ rest, vars, out⟩ (evalList E vars l) (fun xs => ⟨(vst s, .vec xs) :: (s, w) :: st, rest, vars, []⟩) := by
  obtain ⟨h37, ho, hmem, ho37, hg29, hg30, hlst, hcl⟩ := vec_states s hs
  have he : braces (l.map (·.pr 1)) ++ rest = .ch '{' :: (commas (l.map (·.pr 1)) ++ .ch '}' :: rest) := by simp [braces]
  rw [he]
  refine .before (.one (step_shift E (q := opn s) (by omega) h37 ho)) rfl ?_
  cases l with
  | nil =>
    refine .pure _ (.head (step_shift E (q := if s = 13 then 54 else 32) (by simp only [List.length_cons]; omega) ho37 hcl) (.one ?_))
    have hr : act (if s = 13 then 54 else 32) (look rest) = .reduce 29 := by
      by_cases h : s = 13
      · rw [if_pos h, h13 h rfl]; decide
      · rw [if_neg h]; rfl
    have := reduce_gen E (s := if s = 13 then 54 else 32) (n := 29) (v := Tok.value E (.ch '}')) (st := (opn s, Tok.value E (.ch '{')) :: (s, w) :: st) (inp := rest) (vars := vars)
      (vars' := vars) (out := out) (by simp only [List.length_cons]; omega) (by split <;> decide) hr
      (top := [(if s = 13 then 54 else 32, Tok.value E (.ch '}')), (opn s, Tok.value E (.ch '{'))]) rfl rfl (evs := []) rfl hg29
    rw [List.append_nil] at this
    exact this
  | cons e l =>
    refine (list_run E vars (e :: l) (by simp) (opn s) _ _ rest out hmem (by simp only [List.length_cons]; omega)).after fun xs o => ?_
    dsimp only
    rw [hlst]
    refine .head (step_shift E (q := 56) (by simp only [List.length_cons]; omega) (by decide) (show act 34 28 = _ by decide)) (.one ?_)
    have := reduce_gen E (s := 56) (n := 30) (v := Tok.value E (.ch '}')) (st := (34, .vec xs) :: (opn s, Tok.value E (.ch '{')) :: (s, w) :: st) (inp := rest) (vars := vars)
      (vars' := vars) (out := o) (by simp only [List.length_cons]; omega) (by decide) rfl
      (top := [(56, Tok.value E (.ch '}')), (34, .vec xs), (opn s, Tok.value E (.ch '{'))]) rfl rfl (evs := []) rfl hg30
    rw [List.append_nil] at this
    exact this

/-- How the rows of a matrix are written. -/
abbrev rowToks (l : List Ex) : List Tok := braces (l.map (·.pr 1))

/-- Depth of the stack for a row. -/
abbrev rowNeed (l : List Ex) : Nat := 1 + max (needList (l.map (·.need 1))) 2

/-- The state after a list of vectors. -/
def mst (s : Nat) : Nat := if s = 13 then 36 else 75

theorem rows_states : ∀ s ∈ ([13, 57] : List Nat), s ∈ ([0, 14, 13, 57] : List Nat) ∧ vst s = 35 ∧ goto_ s 31 = mst s ∧ goto_ s 32 = mst s := by decide

/-- The rows of a matrix before a closing brace. -/
theorem rows_run (E : Env K) (vars : Str → K) : ∀ (m : List (List Ex)), m ≠ [] → ∀ (s : Nat) (w : Val K) (st : List (Nat × Val K)) (rest : List Tok) (out : List (Ev K)),
    s ∈ ([13, 57] : List Nat) → (s = 13 → m ≠ [[]]) → st.length + 1 + needList (m.map rowNeed) ≤ 9999 →
    Reach E ⟨(s, w) :: st, commas (m.map rowToks) ++ .ch '}' :: rest, vars, out⟩ (evalRows E vars m)
      (fun xs => ⟨(mst s, .mat xs) :: (s, w) :: st, .ch '}' :: rest, vars, []⟩)
  | [], h => absurd rfl h
  | [e], _ => by
    intro s w st rest out hs hne hl
    obtain ⟨h1, h3, h4, _⟩ := rows_states s hs
    simp only [List.map, needList, rowNeed] at hl
    refine (vec_run E vars e s w st (.ch '}' :: rest) out h1 (fun h h' => absurd (by rw [h']) (hne h)) (by omega)).bind fun x _ => ?_
    simp only [evalRows, andThen, List.nil_append]
    refine .pure _ (.one ?_)
    dsimp only
    rw [h3]
    have := reduce_gen E (s := 35) (n := 31) (v := .vec x) (st := (s, w) :: st) (inp := .ch '}' :: rest) (vars := vars) (vars' := vars) (out := out ++ (evalList E vars e).1)
      (by simp only [List.length_cons]; omega) (by decide) (show act 35 28 = _ by decide) (top := [(35, .vec x)]) rfl rfl (evs := []) rfl h4
    rw [List.append_nil] at this
    exact this
  | e :: f :: l, _ => by
    intro s w st rest out hs hne hl
    obtain ⟨h1, h3, _, h4⟩ := rows_states s hs
    simp only [List.map_cons, needList, rowNeed] at hl
    simp only [List.map_cons, commas_cons_cons, List.append_assoc, List.cons_append]
    refine (vec_run E vars e s w st (.ch ',' :: (commas ((f :: l).map rowToks) ++ .ch '}' :: rest)) out h1 (fun _ _ => by rw [look_ch]; decide) (by omega)).bind fun x _ => ?_
    dsimp only
    rw [h3]
    refine .before (.one (step_shift E (q := 57) (by simp only [List.length_cons]; omega) (by decide) (show act 35 11 = _ by decide))) rfl ?_
    refine (rows_run E vars (f :: l) (by simp) 57 _ _ rest _ (by decide) (fun h => absurd h (by decide))
      (by simp only [List.length_cons, List.map_cons, needList, rowNeed]; omega)).bind fun xs _ => ?_
    refine .pure _ (.one ?_)
    dsimp only
    have := reduce_gen E (s := mst 57) (n := 32) (v := .mat xs) (st := (57, Tok.value E (.ch ',')) :: (35, .vec x) :: (s, w) :: st) (inp := .ch '}' :: rest) (vars := vars) (vars' := vars)
      (out := out ++ (evalList E vars e).1 ++ (evalRows E vars (f :: l)).1)
      (by simp only [List.length_cons]; omega) (by decide) rfl (top := [(mst 57, .mat xs), (57, Tok.value E (.ch ',')), (35, .vec x)]) rfl rfl (evs := []) rfl h4
    rw [List.append_nil] at this
    exact this

/-- The state after a statement. -/
def sst (s : Nat) : Nat := if s = 0 then 15 else 38

theorem st_states : ∀ s ∈ ([0, 14] : List Nat), s ∈ ([0, 14, 13, 57] : List Nat) ∧ s ∈ starts ∧ s ≠ 37 ∧ lev s = 1 ∧ aft s = 16 ∧ vst s = 17 ∧ opn s = 13 ∧ act s 27 = .shift 13 ∧
    act s 4 = .shift 1 ∧ act s 21 = .reduce 9 ∧ goto_ s 33 = 18 ∧ goto_ s 34 = 18 ∧ (∀ n < 10, 4 ≤ n → goto_ s n = sst s) := by decide

theorem Reach.final {E : Env K} {α β : Type} {c : Cfg K} {r : List (Ev K) × Option α} {k : α → Cfg K} {g : α → β} {f : α → List (Ev K)} {k' : β → Cfg K}
    (h : Reach E c r k) (h' : ∀ x o, step E { k x with out := o } = .ok { k' (g x) with out := o ++ f x }) :
    Reach E c (andThen r fun x => (f x, some (g x))) k' :=
  h.bind fun x _ => .write _ _ (.one (h' x _))

/-- A matrix. -/
theorem mat_run (E : Env K) (vars : Str → K) (m : List (List Ex)) (hok : m ≠ [[]]) (s : Nat) (w : Val K) (st : List (Nat × Val K)) (rest : List Tok) (out : List (Ev K))
    (hs : s ∈ ([0, 14] : List Nat)) (hl : st.length + 1 + (1 + max (needList (m.map rowNeed)) 4) ≤ 9999) :
    Reach E ⟨(s, w) :: st, (St.mat m).pr ++ rest, vars, out⟩ (evalRows E vars m) (fun xs => ⟨(18, .mat xs) :: (s, w) :: st, rest, vars, []⟩) := by
  obtain ⟨_, _, h37, _, _, _, _, ho, _, _, hg33, hg34, _⟩ := st_states s hs
  cases m with
  | nil =>
    refine .pure _ ?_
    refine .head (step_shift E (q := 13) (by omega) h37 ho) <|
      .head (step_shift E (q := 31) (by simp only [List.length_cons]; omega) (by decide) (by decide)) <|
      .head (step_shift E (q := 54) (by simp only [List.length_cons]; omega) (by decide) (by decide)) <|
      .head (step_shift E (q := 72) (by simp only [List.length_cons]; omega) (by decide) (by decide)) <| .one ?_
    have := reduce_gen E (s := 72) (n := 33) (v := (.none : Val K)) (st := (54, .none) :: (31, .none) :: (13, .none) :: (s, w) :: st) (inp := rest) (vars := vars) (vars' := vars) (out := out)
      (by simp only [List.length_cons]; omega) (by decide) rfl (top := [(72, .none), (54, .none), (31, .none), (13, .none)]) rfl rfl (evs := []) rfl hg33
    rw [List.append_nil] at this
    exact this
  | cons r m =>
    have e : (St.mat (r :: m)).pr ++ rest = .ch '{' :: (commas ((r :: m).map rowToks) ++ .ch '}' :: rest) := by
      simp only [St.pr, braces, List.cons_append, List.append_assoc, List.nil_append]
      rfl
    rw [e]
    refine .before (.one (step_shift E (q := 13) (by omega) h37 ho)) rfl ?_
    refine (rows_run E vars (r :: m) (by simp) 13 _ _ rest out (by decide) (fun _ => hok) (by simp only [List.length_cons]; omega)).after fun xs o => ?_
    dsimp only
    refine .head (step_shift E (q := 58) (by simp only [List.length_cons]; omega) (by decide) (show act 36 28 = _ by decide)) (.one ?_)
    have := reduce_gen E (s := 58) (n := 34) (v := (.none : Val K)) (st := (mst 13, .mat xs) :: (13, .none) :: (s, w) :: st) (inp := rest) (vars := vars) (vars' := vars) (out := o)
      (by simp only [List.length_cons]; omega) (by decide) rfl (top := [(58, .none), (mst 13, .mat xs), (13, .none)]) rfl rfl (evs := []) rfl hg34
    rw [List.append_nil] at this
    exact this

/-- A statement before the end of the line. -/
theorem st_run (E : Env K) (vars : Str → K) (x : St) (hok : x.ok) (s : Nat) (w : Val K) (st : List (Nat × Val K)) (rest : List Tok) (out : List (Ev K))
    (hs : s ∈ ([0, 14] : List Nat)) (hl : st.length + 1 + x.need ≤ 9999) :
    Reach E ⟨(s, w) :: st, x.pr ++ .ch '\n' :: rest, vars, out⟩ (x.exec E vars) (fun v => ⟨(sst s, .none) :: (s, w) :: st, .ch '\n' :: rest, v, []⟩) := by
  obtain ⟨hv, hst, h37, hlev, haft, hvst, _, _, h4, h21, _, _, hg⟩ := st_states s hs
  cases x with
  | assign n e =>
    simp only [St.need] at hl
    have hn := need_pos e 1
    refine .before (.head (step_shift E (q := 1) (by omega) h37 h4) (.one (step_shift E (q := 19) (by simp only [List.length_cons]; omega) (by decide) (by decide)))) rfl ?_
    refine .final (f := fun _ => []) (g := fun y => Function.update vars n y) (expr_run E vars e 1 (by omega) (by omega) 19 _ _ (.ch '\n' :: rest) out (by decide) (by decide)
      (follow_ch (by decide)) (by simp only [List.length_cons]; omega)) fun y o => ?_
    exact reduce_gen E (s := 44) (n := 4) (inp := .ch '\n' :: rest) (st := (19, .none) :: (1, .sym n) :: (s, w) :: st) (by simp only [List.length_cons]; omega) (by decide)
      (show act 44 21 = _ by decide) (top := [(44, .num y), (19, .none), (1, .sym n)]) rfl rfl (evs := [])
      (by
        have : (fun t => if t = n then y else vars t) = Function.update vars n y := by
          funext t; simp [Function.update]
        rw [← this]; rfl) (hg 4 (by decide) (by decide))
  | expr e =>
    simp only [St.need] at hl
    have hn := need_pos e 1
    refine .final (f := fun y => [.num y]) (g := fun _ => vars) (expr_run E vars e 1 (by omega) (by omega) s w st (.ch '\n' :: rest) out hst (by omega) (follow_ch (by decide)) (by omega)) fun y o => ?_
    dsimp only
    rw [haft]
    exact reduce_gen E (s := 16) (n := 5) (inp := .ch '\n' :: rest) (st := (s, w) :: st) (by simp only [List.length_cons]; omega) (by decide)
      (show act 16 21 = _ by decide) (top := [(16, .num y)]) rfl rfl (evs := [.num y]) rfl (hg 5 (by decide) (by decide))
  | vec l =>
    simp only [St.need] at hl
    refine .final (f := fun y => [.vec y]) (g := fun _ => vars) (vec_run E vars l s w st (.ch '\n' :: rest) out hv (fun h => by rw [h] at hs; exact absurd hs (by decide)) hl) fun y o => ?_
    dsimp only
    rw [hvst]
    exact reduce_gen E (s := 17) (n := 6) (inp := .ch '\n' :: rest) (st := (s, w) :: st) (by simp only [List.length_cons]; omega) (by decide)
      rfl (top := [(17, .vec y)]) rfl rfl (evs := [.vec y]) rfl (hg 6 (by decide) (by decide))
  | mat m =>
    simp only [St.need] at hl
    refine .final (f := fun y => [.mat y]) (g := fun _ => vars) (mat_run E vars m hok s w st (.ch '\n' :: rest) out hs hl) fun y o => ?_
    exact reduce_gen E (s := 18) (n := 7) (inp := .ch '\n' :: rest) (st := (s, w) :: st) (by simp only [List.length_cons]; omega) (by decide)
      rfl (top := [(18, .mat y)]) rfl rfl (evs := [.mat y]) rfl (hg 7 (by decide) (by decide))
  | empty =>
    simp only [St.need] at hl
    refine .pure _ (.one ?_)
    have := reduce_gen E (s := s) (n := 9) (v := w) (st := st) (inp := .ch '\n' :: rest) (vars := vars) (vars' := vars) (out := out) (by omega) h37 h21 (top := []) rfl rfl (evs := []) rfl
      (hg 9 (by decide) (by decide))
    rw [List.append_nil] at this
    exact this

/-- A line. -/
theorem line_run (E : Env K) (vars : Str → K) (x : St) (hok : x.ok) (s : Nat) (w : Val K) (rest : List Tok) (out : List (Ev K))
    (hs : s = 0 ∨ s = 14) (hl : x.need ≤ 9997) :
    Reach E ⟨if s = 0 then [(0, w)] else [(14, .none), (0, w)], (x.pr ++ [.ch '\n']) ++ rest, vars, out⟩ (x.exec E vars)
      (fun v => ⟨[(14, .none), (0, w)], rest, v, []⟩) := by
  have e : (x.pr ++ [.ch '\n']) ++ rest = x.pr ++ .ch '\n' :: rest := by simp
  rw [e]
  rcases hs with rfl | rfl
  · rw [if_pos rfl]
    refine (st_run E vars x hok 0 w [] rest out (by decide) (by simp only [List.length_nil]; omega)).after fun v o => ?_
    refine .head (step_shift E (q := 39) (by simp) (by decide) (show act 15 21 = _ by decide)) (.one ?_)
    have := reduce_gen E (s := 39) (n := 2) (v := (.none : Val K)) (st := [(15, .none), (0, w)]) (inp := rest) (vars := v) (vars' := v) (out := o) (by simp) (by decide) rfl
      (top := [(39, .none), (15, .none)]) (g := 14) rfl rfl (evs := []) rfl (by decide)
    rw [List.append_nil] at this
    exact this
  · rw [if_neg (by decide)]
    refine (st_run E vars x hok 14 .none [(0, w)] rest out (by decide) (by simp only [List.length_cons, List.length_nil]; omega)).after fun v o => ?_
    refine .head (step_shift E (q := 59) (by simp) (by decide) (show act 38 21 = _ by decide)) (.one ?_)
    have := reduce_gen E (s := 59) (n := 3) (v := (.none : Val K)) (st := [(38, .none), (14, .none), (0, w)]) (inp := rest) (vars := v) (vars' := v) (out := o) (by simp) (by decide) rfl
      (top := [(59, .none), (38, .none), (14, .none)]) (g := 14) rfl rfl (evs := []) rfl (by decide)
    rw [List.append_nil] at this
    exact this

/-- Several lines after the first. -/
theorem lines_run (E : Env K) (w : Val K) (rest : List Tok) : ∀ (p : List St) (vars : Str → K) (out : List (Ev K)), (∀ x ∈ p, x.ok ∧ x.need ≤ 9997) →
    Reach E ⟨[(14, .none), (0, w)], prPr p ++ rest, vars, out⟩ (execPr E vars p) (fun v => ⟨[(14, .none), (0, w)], rest, v, []⟩)
  | [], vars, out, _ => .pure _ (.refl _)
  | x :: p, vars, out, h => by
    have e : prPr (x :: p) ++ rest = (x.pr ++ [.ch '\n']) ++ (prPr p ++ rest) := by simp [prPr]
    rw [e]
    have hx := h x (by simp)
    exact (line_run E vars x hx.1 14 w (prPr p ++ rest) out (.inr rfl) hx.2).bind fun v _ => lines_run E w rest p v _ fun y hy => h y (by simp [hy])

/-- A program of at least one line, from the start of the automaton. -/
theorem prog_run (E : Env K) (p : List St) (hne : p ≠ []) (rest : List Tok) (h : ∀ x ∈ p, x.ok ∧ x.need ≤ 9997) :
    Reach E (Cfg.init (prPr p ++ rest)) (execPr E (fun _ => 0) p) (fun v => ⟨[(14, .none), (0, .none)], rest, v, []⟩) := by
  cases p with
  | nil => exact absurd rfl hne
  | cons x p =>
    have e : prPr (x :: p) ++ rest = (x.pr ++ [.ch '\n']) ++ (prPr p ++ rest) := by simp [prPr]
    rw [e]
    have hx := h x (by simp)
    exact (line_run E (fun _ => 0) x hx.1 0 .none (prPr p ++ rest) [] (.inl rfl) hx.2).bind fun v _ => lines_run E .none rest p v _ fun y hy => h y (by simp [hy])

end Verif.Calc
