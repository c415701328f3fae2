import Verif.Calc.Spec
/-!
# The stacks of the automaton are always well formed, and it always ends

Facts about all pairs of states and symbols are checked over the whole tables; what holds for every input follows by induction over the rounds.
-/

namespace Verif.Calc
open Verif.Text (Str)
open Verif.DataFile (Dec)
open Spec

variable {K : Type} [Field K] [DecidableEq K]

/-- Predecessors of each state. -/
def preds : List (List Nat) := [
  [], [0, 14], [0, 4, 12, 13, 14, 19, 20, 21, 31, 40, 41, 42, 43, 55, 74], [0, 4, 12, 13, 14, 19, 20, 21, 31, 40, 41, 42, 43, 55, 74], [0, 4, 12, 13,
  14, 19, 20, 21, 31, 40, 41, 42, 43, 55, 74], [0, 14], [0, 4, 12, 13, 14, 19, 20, 21, 31, 40, 41, 42, 43, 55, 74], [0, 4, 12, 13, 14, 19, 20, 21, 31,
  40, 41, 42, 43, 55, 74], [0, 4, 12, 13, 14, 19, 20, 21, 31, 40, 41, 42, 43, 55, 74], [0, 4, 12, 13, 14, 19, 20, 21, 31, 40, 41, 42, 43, 55, 74], [0,
  4, 12, 13, 14, 19, 20, 21, 31, 40, 41, 42, 43, 55, 74], [0, 4, 12, 13, 14, 19, 20, 21, 31, 40, 41, 42, 43, 55, 74], [0, 4, 12, 13, 14, 19, 20, 21,
  31, 40, 41, 42, 43, 55, 74], [0, 14], [0], [0], [0, 14], [0, 14], [0, 14], [1], [1, 22], [1, 22], [4, 12, 13, 19, 20, 21, 31, 40, 41, 42, 43, 55,
  74], [4], [6], [7], [8], [9], [10], [11], [12], [13], [13, 74], [13, 31, 55, 74], [13, 31, 74], [13, 57], [13], [14], [14], [15], [16, 30, 33, 44,
  45, 46], [16, 30, 33, 44, 45, 46], [16, 30, 33, 44, 45, 46, 60, 61], [16, 30, 33, 44, 45, 46, 60, 61], [19], [20], [21], [24], [25], [26], [27],
  [28], [29], [30], [31], [33], [34], [35], [36], [38], [40], [41], [42], [43], [45], [46], [47], [48], [49], [50], [51], [52], [54], [55], [57],
  [57], [67], [68], [69], [70], [71], [76], [77], [78], [79], [80]]

/-- The right sides of the rules, the last symbol first. -/
def rhs : Nat → List Nat
  | 2 => [21, 31]
  | 3 => [21, 31, 30]
  | 4 => [32, 22, 4]
  | 5 => [32]
  | 6 => [34]
  | 7 => [36]
  | 8 => [14]
  | 9 => []
  | 10 => [32, 8, 32]
  | 11 => [32, 7, 32]
  | 12 => [32, 9, 32]
  | 13 => [32, 10, 32]
  | 14 => [32, 7]
  | 15 => [24, 32, 23]
  | 16 => [5]
  | 17 => [6]
  | 18 => [4]
  | 19 => [24, 32, 23, 4]
  | 20 => [26, 32, 25, 4]
  | 21 => [26, 6, 25, 15]
  | 22 => [26, 6, 11, 6, 25, 17]
  | 23 => [26, 6, 11, 6, 25, 16]
  | 24 => [26, 6, 11, 6, 25, 18]
  | 25 => [26, 6, 11, 6, 25, 19]
  | 26 => [26, 6, 11, 6, 25, 20]
  | 27 => [32]
  | 28 => [33, 11, 32]
  | 29 => [28, 27]
  | 30 => [28, 33, 27]
  | 31 => [34]
  | 32 => [35, 11, 34]
  | 33 => [28, 28, 27, 27]
  | 34 => [28, 35, 27]
  | _ => []

/-- The symbol of a state. -/
abbrev stos (q : Nat) : Nat := yystos.getD q 0

/-- Walking back over the right side of a rule one meets its symbols, and there is a successor for the nonterminal. -/
def okBack : List Nat → Nat → Nat → Bool
  | [], p, n => goto_ p n < 86 && goto_ p n ≠ 37 && (preds.getD (goto_ p n) []).contains p && stos (goto_ p n) == yyr1.getD n 0 &&
      (n ≠ 9 || p == 0 || p == 14) && ((goto_ p n == 14) == (n == 2 || n == 3)) && goto_ p n ≠ 0
  | x :: xs, q, n => stos q == x && q ≠ 0 && (preds.getD q []).all fun p => okBack xs p n

theorem shift_ok : ∀ p < 86, ∀ t < 29, ∀ q, act p t = .shift q → q < 86 ∧ p ∈ preds.getD q [] ∧ stos q = t ∧ q ≠ 14 ∧ q ≠ 0 ∧ (t = 0 → p = 14 ∧ q = 37) ∧ t ≠ 2 := by
  have h : ∀ p < 86, ∀ t < 29, (match act p t with | .shift q => decide (q < 86 ∧ p ∈ preds.getD q [] ∧ stos q = t ∧ q ≠ 14 ∧ q ≠ 0 ∧ (t = 0 → p = 14 ∧ q = 37) ∧ t ≠ 2) | _ => true) = true := by
    decide +kernel
  intro p hp t ht q hq
  have := h p hp t ht
  rw [hq] at this
  exact of_decide_eq_true this

theorem reduce_ok' : ∀ q < 86, q ≠ 37 → ∀ t < 29, ∀ n, act q t = .reduce n → 2 ≤ n ∧ n ≤ 34 ∧ okBack (rhs n) q n = true := by
  have h : ∀ q < 86, q ≠ 37 → ∀ t < 29, (match act q t with | .reduce n => decide (2 ≤ n ∧ n ≤ 34) && okBack (rhs n) q n | _ => true) = true := by
    decide +kernel
  intro q hq h37 t ht n hn
  have := h q hq h37 t ht
  rw [hn] at this
  simp only [Bool.and_eq_true, decide_eq_true_eq] at this
  exact ⟨this.1.1, this.1.2, this.2⟩

theorem rhs_len : ∀ n, 2 ≤ n → n ≤ 34 → (rhs n).length = yyr2.getD n 0 := by
  have : ∀ n ≤ 34, 2 ≤ n → (rhs n).length = yyr2.getD n 0 := by decide
  exact fun n h h' => this n h' h

/-- The token with a given symbol, if there is just one. -/
def symTok : Nat → Tok
  | 7 => .ch '-'
  | 8 => .ch '+'
  | 9 => .ch '*'
  | 10 => .ch '/'
  | 11 => .ch ','
  | 15 => .gamma
  | 16 => .zeta
  | 17 => .xi
  | 18 => .delta
  | 19 => .kappa
  | 20 => .v
  | 21 => .ch '\n'
  | 22 => .ch '='
  | 23 => .ch '('
  | 24 => .ch ')'
  | 25 => .ch '['
  | 26 => .ch ']'
  | 27 => .ch '{'
  | _ => .ch '}'

theorem charSym_spec (c : Char) : charSym c = 2 ∨ (.ch c = symTok (charSym c) ∧ charSym c < 29 ∧ charSym c ∈ [7, 8, 9, 10, 11, 21, 22, 23, 24, 25, 26, 27, 28]) := by
  by_cases h0 : c = '\n'
  · rw [h0]; exact .inr ⟨rfl, by decide, by decide⟩
  by_cases h1 : c = '('
  · rw [h1]; exact .inr ⟨rfl, by decide, by decide⟩
  by_cases h2 : c = ')'
  · rw [h2]; exact .inr ⟨rfl, by decide, by decide⟩
  by_cases h3 : c = '*'
  · rw [h3]; exact .inr ⟨rfl, by decide, by decide⟩
  by_cases h4 : c = '+'
  · rw [h4]; exact .inr ⟨rfl, by decide, by decide⟩
  by_cases h5 : c = ','
  · rw [h5]; exact .inr ⟨rfl, by decide, by decide⟩
  by_cases h6 : c = '-'
  · rw [h6]; exact .inr ⟨rfl, by decide, by decide⟩
  by_cases h7 : c = '/'
  · rw [h7]; exact .inr ⟨rfl, by decide, by decide⟩
  by_cases h8 : c = '='
  · rw [h8]; exact .inr ⟨rfl, by decide, by decide⟩
  by_cases h9 : c = '['
  · rw [h9]; exact .inr ⟨rfl, by decide, by decide⟩
  by_cases h10 : c = ']'
  · rw [h10]; exact .inr ⟨rfl, by decide, by decide⟩
  by_cases h11 : c = '{'
  · rw [h11]; exact .inr ⟨rfl, by decide, by decide⟩
  by_cases h12 : c = '}'
  · rw [h12]; exact .inr ⟨rfl, by decide, by decide⟩
  refine .inl ?_
  unfold charSym
  rw [if_neg h0, if_neg h1, if_neg h2, if_neg h3, if_neg h4, if_neg h5, if_neg h6, if_neg h7, if_neg h8, if_neg h9, if_neg h10, if_neg h11, if_neg h12]

/-- The value and the text belong to a symbol. -/
def Good : Nat → Val K → List Tok → Prop
  | 0, _, z => z = []
  | 4, v, z => ∃ s, v = .sym s ∧ z = [.name s]
  | 5, v, z => ∃ x d, v = .num x ∧ z = [.num d]
  | 6, v, z => ∃ n, v = .int n ∧ z = [.int n]
  | 14, _, _ => False
  | 30, _, z => IsProg z
  | 31, _, z => IsStmt z
  | 32, v, z => ∃ x, v = .num x ∧ IsExpr z
  | 33, v, z => ∃ x, v = .vec x ∧ IsList z
  | 34, v, z => ∃ x, v = .vec x ∧ IsVec z
  | 35, v, z => ∃ x, v = .mat x ∧ IsRows z
  | 36, v, z => ∃ x, v = .mat x ∧ IsMat z
  | t, _, z => z = [symTok t]

theorem sym_lt (x : Tok) : x.sym < 29 ∧ x.sym ≠ 0 := by
  cases x with
  | ch c =>
    show charSym c < 29 ∧ charSym c ≠ 0
    rcases charSym_spec c with h | ⟨_, h, h'⟩
    · rw [h]; decide
    · refine ⟨h, fun h0 => ?_⟩
      rw [h0] at h'
      exact absurd h' (by decide)
  | _ => simp [Tok.sym]

theorem look_lt (l : List Tok) : look l < 29 := by
  cases l with
  | nil => decide
  | cons x l => exact (sym_lt x).1

theorem good_tok (E : Env K) (x : Tok) (h : x.sym ≠ 2) : Good x.sym (x.value E) [x] := by
  cases x with
  | ch c =>
    rcases charSym_spec c with h' | ⟨h', _, h''⟩
    · exact absurd h' h
    · show Good (charSym c) _ [Tok.ch c]
      rw [h']
      generalize charSym c = t at h''
      simp only [List.mem_cons, List.not_mem_nil, or_false] at h''
      rcases h'' with h | h | h | h | h | h | h | h | h | h | h | h | h <;> subst h <;> rfl
  | name s => exact ⟨s, rfl, rfl⟩
  | num d => exact ⟨_, d, rfl, rfl⟩
  | int n => exact ⟨n, rfl, rfl⟩
  | _ => rfl

/-- The stack, the top first, is a path of the automaton with the right values, and its text is what has been read. -/
inductive Inv : List (Nat × Val K) → List Tok → Prop
  | base (v : Val K) : Inv [(0, v)] []
  | push {q p : Nat} {v w : Val K} {st : List (Nat × Val K)} {y z : List Tok} : Inv ((p, w) :: st) y → q < 86 → p ∈ preds.getD q [] → Good (stos q) v z →
      Inv ((q, v) :: (p, w) :: st) (y ++ z)

theorem Inv.top_lt {q : Nat} {v : Val K} {st : List (Nat × Val K)} {y : List Tok} (h : Inv ((q, v) :: st) y) : q < 86 := by
  cases h with
  | base => decide
  | push _ h _ _ => exact h

/-- Walking back. -/
theorem Inv.back {n : Nat} : ∀ (rs : List Nat) {st : List (Nat × Val K)} {q : Nat} {v : Val K} {y : List Tok}, Inv ((q, v) :: st) y → okBack rs q n = true →
    ∃ (es : List (Nat × Val K × List Tok)) (p : Nat) (w : Val K) (below : List (Nat × Val K)) (y' : List Tok),
      (q, v) :: st = es.map (fun e => (e.1, e.2.1)) ++ (p, w) :: below ∧ List.Forall₂ (fun r e => stos e.1 = r ∧ Good r e.2.1 e.2.2) rs es ∧
      Inv ((p, w) :: below) y' ∧ y = y' ++ (es.reverse.flatMap fun e => e.2.2) ∧ okBack [] p n = true
  | [], st, q, v, y, h, hb => ⟨[], q, v, st, y, rfl, .nil, h, by simp, hb⟩
  | r :: rs, st, q, v, y, h, hb => by
    simp only [okBack, Bool.and_eq_true, beq_iff_eq, decide_eq_true_eq, List.all_eq_true] at hb
    cases h with
    | base => exact absurd rfl hb.1.2
    | @push _ p _ w st y z hi _ hp hg =>
      obtain ⟨es, p', w', below, y', h1, h2, h3, h4, h5⟩ := Inv.back rs hi (hb.2 p hp)
      refine ⟨(q, v, z) :: es, p', w', below, y', by rw [h1]; rfl, .cons ⟨hb.1.1, hb.1.1 ▸ hg⟩ h2, h3, ?_, h5⟩
      rw [h4]
      simp

/-- Result of an action for the left side `r`. -/
def Fine (r : Nat) (z : List Tok) (d : Done K) : Prop :=
  d = .error .assert_ ∨ ∃ v vars evs, d = .ok (v, vars, evs) ∧ Good r v z

theorem fine_coef {vars : Str → K} {o : Option K} {z : List Tok} (h : IsExpr z) : Fine 32 z (ofCoef vars o) := by
  cases o with
  | none => exact .inl rfl
  | some x => exact .inr ⟨_, _, _, rfl, x, rfl, h⟩

theorem fine_apply {E : Env K} {vars : Str → K} {s : Str} {x : K} {z : List Tok} (h : IsExpr z) : Fine 32 z (apply E vars s x) := by
  unfold apply
  cases E.fn s with
  | none => exact .inr ⟨_, _, _, rfl, 0, rfl, h⟩
  | some f => exact .inr ⟨_, _, _, rfl, f x, rfl, h⟩

theorem inv_cons {r : Nat} {rs : List Nat} {es : List (Nat × Val K × List Tok)} (h : List.Forall₂ (fun r e => stos e.1 = r ∧ Good r e.2.1 e.2.2) (r :: rs) es) :
    ∃ q v z es', es = (q, v, z) :: es' ∧ Good r v z ∧ List.Forall₂ (fun r e => stos e.1 = r ∧ Good r e.2.1 e.2.2) rs es' := by
  cases h with
  | @cons _ e _ es' g h => exact ⟨e.1, e.2.1, e.2.2, es', rfl, g.2, h⟩

theorem inv_nil {es : List (Nat × Val K × List Tok)} (h : List.Forall₂ (fun r e => stos e.1 = r ∧ Good r e.2.1 e.2.2) [] es) : es = [] := by
  cases h; rfl

theorem action_2 (E : Env K) (vars : Str → K) {es : List (Nat × Val K × List Tok)} (h : List.Forall₂ (fun r e => stos e.1 = r ∧ Good r e.2.1 e.2.2) [21, 31] es) :
    Fine (yyr1.getD 2 0) (es.reverse.flatMap fun e => e.2.2) (action E vars 2 (es.map fun e => e.2.1)) := by
  obtain ⟨q1, v1, z1, es1, rfl, g1, h1⟩ := inv_cons h
  obtain rfl : z1 = [symTok 21] := g1
  obtain ⟨q2, v2, z2, es2, rfl, g2, h2⟩ := inv_cons h1
  obtain rfl := inv_nil h2
  refine .inr ⟨_, _, _, rfl, ?_⟩
  show IsProg _
  simpa [symTok, Op.tok, Coef.tok] using IsProg.one g2

theorem action_3 (E : Env K) (vars : Str → K) {es : List (Nat × Val K × List Tok)} (h : List.Forall₂ (fun r e => stos e.1 = r ∧ Good r e.2.1 e.2.2) [21, 31, 30] es) :
    Fine (yyr1.getD 3 0) (es.reverse.flatMap fun e => e.2.2) (action E vars 3 (es.map fun e => e.2.1)) := by
  obtain ⟨q1, v1, z1, es1, rfl, g1, h1⟩ := inv_cons h
  obtain rfl : z1 = [symTok 21] := g1
  obtain ⟨q2, v2, z2, es2, rfl, g2, h2⟩ := inv_cons h1
  obtain ⟨q3, v3, z3, es3, rfl, g3, h3⟩ := inv_cons h2
  obtain rfl := inv_nil h3
  refine .inr ⟨_, _, _, rfl, ?_⟩
  show IsProg _
  simpa [symTok, Op.tok, Coef.tok] using IsProg.snoc g3 g2

theorem action_4 (E : Env K) (vars : Str → K) {es : List (Nat × Val K × List Tok)} (h : List.Forall₂ (fun r e => stos e.1 = r ∧ Good r e.2.1 e.2.2) [32, 22, 4] es) :
    Fine (yyr1.getD 4 0) (es.reverse.flatMap fun e => e.2.2) (action E vars 4 (es.map fun e => e.2.1)) := by
  obtain ⟨q1, v1, z1, es1, rfl, g1, h1⟩ := inv_cons h
  obtain ⟨x1, rfl, i1⟩ := g1
  obtain ⟨q2, v2, z2, es2, rfl, g2, h2⟩ := inv_cons h1
  obtain rfl : z2 = [symTok 22] := g2
  obtain ⟨q3, v3, z3, es3, rfl, g3, h3⟩ := inv_cons h2
  obtain ⟨s3, rfl, rfl⟩ := g3
  obtain rfl := inv_nil h3
  refine .inr ⟨_, _, _, rfl, ?_⟩
  show IsStmt _
  simpa [symTok, Op.tok, Coef.tok] using IsStmt.assign s3 i1

theorem action_5 (E : Env K) (vars : Str → K) {es : List (Nat × Val K × List Tok)} (h : List.Forall₂ (fun r e => stos e.1 = r ∧ Good r e.2.1 e.2.2) [32] es) :
    Fine (yyr1.getD 5 0) (es.reverse.flatMap fun e => e.2.2) (action E vars 5 (es.map fun e => e.2.1)) := by
  obtain ⟨q1, v1, z1, es1, rfl, g1, h1⟩ := inv_cons h
  obtain ⟨x1, rfl, i1⟩ := g1
  obtain rfl := inv_nil h1
  refine .inr ⟨_, _, _, rfl, ?_⟩
  show IsStmt _
  simpa [symTok, Op.tok, Coef.tok] using IsStmt.expr i1

theorem action_6 (E : Env K) (vars : Str → K) {es : List (Nat × Val K × List Tok)} (h : List.Forall₂ (fun r e => stos e.1 = r ∧ Good r e.2.1 e.2.2) [34] es) :
    Fine (yyr1.getD 6 0) (es.reverse.flatMap fun e => e.2.2) (action E vars 6 (es.map fun e => e.2.1)) := by
  obtain ⟨q1, v1, z1, es1, rfl, g1, h1⟩ := inv_cons h
  obtain ⟨x1, rfl, i1⟩ := g1
  obtain rfl := inv_nil h1
  refine .inr ⟨_, _, _, rfl, ?_⟩
  show IsStmt _
  simpa [symTok, Op.tok, Coef.tok] using IsStmt.vec i1

theorem action_7 (E : Env K) (vars : Str → K) {es : List (Nat × Val K × List Tok)} (h : List.Forall₂ (fun r e => stos e.1 = r ∧ Good r e.2.1 e.2.2) [36] es) :
    Fine (yyr1.getD 7 0) (es.reverse.flatMap fun e => e.2.2) (action E vars 7 (es.map fun e => e.2.1)) := by
  obtain ⟨q1, v1, z1, es1, rfl, g1, h1⟩ := inv_cons h
  obtain ⟨x1, rfl, i1⟩ := g1
  obtain rfl := inv_nil h1
  refine .inr ⟨_, _, _, rfl, ?_⟩
  show IsStmt _
  simpa [symTok, Op.tok, Coef.tok] using IsStmt.mat i1

theorem action_8 (E : Env K) (vars : Str → K) {es : List (Nat × Val K × List Tok)} (h : List.Forall₂ (fun r e => stos e.1 = r ∧ Good r e.2.1 e.2.2) [14] es) :
    Fine (yyr1.getD 8 0) (es.reverse.flatMap fun e => e.2.2) (action E vars 8 (es.map fun e => e.2.1)) := by
  obtain ⟨q1, v1, z1, es1, rfl, g1, h1⟩ := inv_cons h
  exact absurd g1 id

theorem action_9 (E : Env K) (vars : Str → K) {es : List (Nat × Val K × List Tok)} (h : List.Forall₂ (fun r e => stos e.1 = r ∧ Good r e.2.1 e.2.2) [] es) :
    Fine (yyr1.getD 9 0) (es.reverse.flatMap fun e => e.2.2) (action E vars 9 (es.map fun e => e.2.1)) := by
  obtain rfl := inv_nil h
  refine .inr ⟨_, _, _, rfl, ?_⟩
  show IsStmt _
  simpa [symTok, Op.tok, Coef.tok] using IsStmt.empty

theorem action_10 (E : Env K) (vars : Str → K) {es : List (Nat × Val K × List Tok)} (h : List.Forall₂ (fun r e => stos e.1 = r ∧ Good r e.2.1 e.2.2) [32, 8, 32] es) :
    Fine (yyr1.getD 10 0) (es.reverse.flatMap fun e => e.2.2) (action E vars 10 (es.map fun e => e.2.1)) := by
  obtain ⟨q1, v1, z1, es1, rfl, g1, h1⟩ := inv_cons h
  obtain ⟨x1, rfl, i1⟩ := g1
  obtain ⟨q2, v2, z2, es2, rfl, g2, h2⟩ := inv_cons h1
  obtain rfl : z2 = [symTok 8] := g2
  obtain ⟨q3, v3, z3, es3, rfl, g3, h3⟩ := inv_cons h2
  obtain ⟨x3, rfl, i3⟩ := g3
  obtain rfl := inv_nil h3
  refine .inr ⟨_, _, _, rfl, _, rfl, ?_⟩
  simpa [symTok, Op.tok, Coef.tok] using IsExpr.bin .add i3 i1

theorem action_11 (E : Env K) (vars : Str → K) {es : List (Nat × Val K × List Tok)} (h : List.Forall₂ (fun r e => stos e.1 = r ∧ Good r e.2.1 e.2.2) [32, 7, 32] es) :
    Fine (yyr1.getD 11 0) (es.reverse.flatMap fun e => e.2.2) (action E vars 11 (es.map fun e => e.2.1)) := by
  obtain ⟨q1, v1, z1, es1, rfl, g1, h1⟩ := inv_cons h
  obtain ⟨x1, rfl, i1⟩ := g1
  obtain ⟨q2, v2, z2, es2, rfl, g2, h2⟩ := inv_cons h1
  obtain rfl : z2 = [symTok 7] := g2
  obtain ⟨q3, v3, z3, es3, rfl, g3, h3⟩ := inv_cons h2
  obtain ⟨x3, rfl, i3⟩ := g3
  obtain rfl := inv_nil h3
  refine .inr ⟨_, _, _, rfl, _, rfl, ?_⟩
  simpa [symTok, Op.tok, Coef.tok] using IsExpr.bin .sub i3 i1

theorem action_12 (E : Env K) (vars : Str → K) {es : List (Nat × Val K × List Tok)} (h : List.Forall₂ (fun r e => stos e.1 = r ∧ Good r e.2.1 e.2.2) [32, 9, 32] es) :
    Fine (yyr1.getD 12 0) (es.reverse.flatMap fun e => e.2.2) (action E vars 12 (es.map fun e => e.2.1)) := by
  obtain ⟨q1, v1, z1, es1, rfl, g1, h1⟩ := inv_cons h
  obtain ⟨x1, rfl, i1⟩ := g1
  obtain ⟨q2, v2, z2, es2, rfl, g2, h2⟩ := inv_cons h1
  obtain rfl : z2 = [symTok 9] := g2
  obtain ⟨q3, v3, z3, es3, rfl, g3, h3⟩ := inv_cons h2
  obtain ⟨x3, rfl, i3⟩ := g3
  obtain rfl := inv_nil h3
  refine .inr ⟨_, _, _, rfl, _, rfl, ?_⟩
  simpa [symTok, Op.tok, Coef.tok] using IsExpr.bin .mul i3 i1

theorem action_13 (E : Env K) (vars : Str → K) {es : List (Nat × Val K × List Tok)} (h : List.Forall₂ (fun r e => stos e.1 = r ∧ Good r e.2.1 e.2.2) [32, 10, 32] es) :
    Fine (yyr1.getD 13 0) (es.reverse.flatMap fun e => e.2.2) (action E vars 13 (es.map fun e => e.2.1)) := by
  obtain ⟨q1, v1, z1, es1, rfl, g1, h1⟩ := inv_cons h
  obtain ⟨x1, rfl, i1⟩ := g1
  obtain ⟨q2, v2, z2, es2, rfl, g2, h2⟩ := inv_cons h1
  obtain rfl : z2 = [symTok 10] := g2
  obtain ⟨q3, v3, z3, es3, rfl, g3, h3⟩ := inv_cons h2
  obtain ⟨x3, rfl, i3⟩ := g3
  obtain rfl := inv_nil h3
  have hz : IsExpr (List.flatMap (fun e => e.2.2) [(q1, Val.num x1, z1), (q2, v2, [symTok 10]), (q3, Val.num x3, z3)].reverse) := by
    simpa [symTok, Op.tok, Coef.tok] using IsExpr.bin .div i3 i1
  by_cases hx : x1 = 0
  · exact .inr ⟨.num x3, vars, [.divZero], by show (if x1 = 0 then _ else _) = _; rw [if_pos hx], x3, rfl, hz⟩
  · exact .inr ⟨.num (x3 / x1), vars, [], by show (if x1 = 0 then _ else _) = _; rw [if_neg hx], _, rfl, hz⟩

theorem action_14 (E : Env K) (vars : Str → K) {es : List (Nat × Val K × List Tok)} (h : List.Forall₂ (fun r e => stos e.1 = r ∧ Good r e.2.1 e.2.2) [32, 7] es) :
    Fine (yyr1.getD 14 0) (es.reverse.flatMap fun e => e.2.2) (action E vars 14 (es.map fun e => e.2.1)) := by
  obtain ⟨q1, v1, z1, es1, rfl, g1, h1⟩ := inv_cons h
  obtain ⟨x1, rfl, i1⟩ := g1
  obtain ⟨q2, v2, z2, es2, rfl, g2, h2⟩ := inv_cons h1
  obtain rfl : z2 = [symTok 7] := g2
  obtain rfl := inv_nil h2
  refine .inr ⟨_, _, _, rfl, _, rfl, ?_⟩
  simpa [symTok, Op.tok, Coef.tok] using IsExpr.neg i1

theorem action_15 (E : Env K) (vars : Str → K) {es : List (Nat × Val K × List Tok)} (h : List.Forall₂ (fun r e => stos e.1 = r ∧ Good r e.2.1 e.2.2) [24, 32, 23] es) :
    Fine (yyr1.getD 15 0) (es.reverse.flatMap fun e => e.2.2) (action E vars 15 (es.map fun e => e.2.1)) := by
  obtain ⟨q1, v1, z1, es1, rfl, g1, h1⟩ := inv_cons h
  obtain rfl : z1 = [symTok 24] := g1
  obtain ⟨q2, v2, z2, es2, rfl, g2, h2⟩ := inv_cons h1
  obtain ⟨x2, rfl, i2⟩ := g2
  obtain ⟨q3, v3, z3, es3, rfl, g3, h3⟩ := inv_cons h2
  obtain rfl : z3 = [symTok 23] := g3
  obtain rfl := inv_nil h3
  refine .inr ⟨_, _, _, rfl, _, rfl, ?_⟩
  simpa [symTok, Op.tok, Coef.tok] using IsExpr.par i2

theorem action_16 (E : Env K) (vars : Str → K) {es : List (Nat × Val K × List Tok)} (h : List.Forall₂ (fun r e => stos e.1 = r ∧ Good r e.2.1 e.2.2) [5] es) :
    Fine (yyr1.getD 16 0) (es.reverse.flatMap fun e => e.2.2) (action E vars 16 (es.map fun e => e.2.1)) := by
  obtain ⟨q1, v1, z1, es1, rfl, g1, h1⟩ := inv_cons h
  obtain ⟨x1, d1, rfl, rfl⟩ := g1
  obtain rfl := inv_nil h1
  refine .inr ⟨_, _, _, rfl, _, rfl, ?_⟩
  simpa [symTok, Op.tok, Coef.tok] using IsExpr.num d1

theorem action_17 (E : Env K) (vars : Str → K) {es : List (Nat × Val K × List Tok)} (h : List.Forall₂ (fun r e => stos e.1 = r ∧ Good r e.2.1 e.2.2) [6] es) :
    Fine (yyr1.getD 17 0) (es.reverse.flatMap fun e => e.2.2) (action E vars 17 (es.map fun e => e.2.1)) := by
  obtain ⟨q1, v1, z1, es1, rfl, g1, h1⟩ := inv_cons h
  obtain ⟨k1, rfl, rfl⟩ := g1
  obtain rfl := inv_nil h1
  refine .inr ⟨_, _, _, rfl, _, rfl, ?_⟩
  simpa [symTok, Op.tok, Coef.tok] using IsExpr.int k1

theorem action_18 (E : Env K) (vars : Str → K) {es : List (Nat × Val K × List Tok)} (h : List.Forall₂ (fun r e => stos e.1 = r ∧ Good r e.2.1 e.2.2) [4] es) :
    Fine (yyr1.getD 18 0) (es.reverse.flatMap fun e => e.2.2) (action E vars 18 (es.map fun e => e.2.1)) := by
  obtain ⟨q1, v1, z1, es1, rfl, g1, h1⟩ := inv_cons h
  obtain ⟨s1, rfl, rfl⟩ := g1
  obtain rfl := inv_nil h1
  refine .inr ⟨_, _, _, rfl, _, rfl, ?_⟩
  simpa [symTok, Op.tok, Coef.tok] using IsExpr.var s1

theorem action_19 (E : Env K) (vars : Str → K) {es : List (Nat × Val K × List Tok)} (h : List.Forall₂ (fun r e => stos e.1 = r ∧ Good r e.2.1 e.2.2) [24, 32, 23, 4] es) :
    Fine (yyr1.getD 19 0) (es.reverse.flatMap fun e => e.2.2) (action E vars 19 (es.map fun e => e.2.1)) := by
  obtain ⟨q1, v1, z1, es1, rfl, g1, h1⟩ := inv_cons h
  obtain rfl : z1 = [symTok 24] := g1
  obtain ⟨q2, v2, z2, es2, rfl, g2, h2⟩ := inv_cons h1
  obtain ⟨x2, rfl, i2⟩ := g2
  obtain ⟨q3, v3, z3, es3, rfl, g3, h3⟩ := inv_cons h2
  obtain rfl : z3 = [symTok 23] := g3
  obtain ⟨q4, v4, z4, es4, rfl, g4, h4⟩ := inv_cons h3
  obtain ⟨s4, rfl, rfl⟩ := g4
  obtain rfl := inv_nil h4
  refine fine_apply ?_
  simpa [symTok, Op.tok, Coef.tok] using IsExpr.call s4 false i2

theorem action_20 (E : Env K) (vars : Str → K) {es : List (Nat × Val K × List Tok)} (h : List.Forall₂ (fun r e => stos e.1 = r ∧ Good r e.2.1 e.2.2) [26, 32, 25, 4] es) :
    Fine (yyr1.getD 20 0) (es.reverse.flatMap fun e => e.2.2) (action E vars 20 (es.map fun e => e.2.1)) := by
  obtain ⟨q1, v1, z1, es1, rfl, g1, h1⟩ := inv_cons h
  obtain rfl : z1 = [symTok 26] := g1
  obtain ⟨q2, v2, z2, es2, rfl, g2, h2⟩ := inv_cons h1
  obtain ⟨x2, rfl, i2⟩ := g2
  obtain ⟨q3, v3, z3, es3, rfl, g3, h3⟩ := inv_cons h2
  obtain rfl : z3 = [symTok 25] := g3
  obtain ⟨q4, v4, z4, es4, rfl, g4, h4⟩ := inv_cons h3
  obtain ⟨s4, rfl, rfl⟩ := g4
  obtain rfl := inv_nil h4
  refine fine_apply ?_
  simpa [symTok, Op.tok, Coef.tok] using IsExpr.call s4 true i2

theorem action_21 (E : Env K) (vars : Str → K) {es : List (Nat × Val K × List Tok)} (h : List.Forall₂ (fun r e => stos e.1 = r ∧ Good r e.2.1 e.2.2) [26, 6, 25, 15] es) :
    Fine (yyr1.getD 21 0) (es.reverse.flatMap fun e => e.2.2) (action E vars 21 (es.map fun e => e.2.1)) := by
  obtain ⟨q1, v1, z1, es1, rfl, g1, h1⟩ := inv_cons h
  obtain rfl : z1 = [symTok 26] := g1
  obtain ⟨q2, v2, z2, es2, rfl, g2, h2⟩ := inv_cons h1
  obtain ⟨k2, rfl, rfl⟩ := g2
  obtain ⟨q3, v3, z3, es3, rfl, g3, h3⟩ := inv_cons h2
  obtain rfl : z3 = [symTok 25] := g3
  obtain ⟨q4, v4, z4, es4, rfl, g4, h4⟩ := inv_cons h3
  obtain rfl : z4 = [symTok 15] := g4
  obtain rfl := inv_nil h4
  refine fine_coef ?_
  simpa [symTok, Op.tok, Coef.tok] using IsExpr.gamma k2

theorem action_22 (E : Env K) (vars : Str → K) {es : List (Nat × Val K × List Tok)} (h : List.Forall₂ (fun r e => stos e.1 = r ∧ Good r e.2.1 e.2.2) [26, 6, 11, 6, 25, 17] es) :
    Fine (yyr1.getD 22 0) (es.reverse.flatMap fun e => e.2.2) (action E vars 22 (es.map fun e => e.2.1)) := by
  obtain ⟨q1, v1, z1, es1, rfl, g1, h1⟩ := inv_cons h
  obtain rfl : z1 = [symTok 26] := g1
  obtain ⟨q2, v2, z2, es2, rfl, g2, h2⟩ := inv_cons h1
  obtain ⟨k2, rfl, rfl⟩ := g2
  obtain ⟨q3, v3, z3, es3, rfl, g3, h3⟩ := inv_cons h2
  obtain rfl : z3 = [symTok 11] := g3
  obtain ⟨q4, v4, z4, es4, rfl, g4, h4⟩ := inv_cons h3
  obtain ⟨k4, rfl, rfl⟩ := g4
  obtain ⟨q5, v5, z5, es5, rfl, g5, h5⟩ := inv_cons h4
  obtain rfl : z5 = [symTok 25] := g5
  obtain ⟨q6, v6, z6, es6, rfl, g6, h6⟩ := inv_cons h5
  obtain rfl : z6 = [symTok 17] := g6
  obtain rfl := inv_nil h6
  refine fine_coef ?_
  simpa [symTok, Op.tok, Coef.tok] using IsExpr.coef .xi k4 k2

theorem action_23 (E : Env K) (vars : Str → K) {es : List (Nat × Val K × List Tok)} (h : List.Forall₂ (fun r e => stos e.1 = r ∧ Good r e.2.1 e.2.2) [26, 6, 11, 6, 25, 16] es) :
    Fine (yyr1.getD 23 0) (es.reverse.flatMap fun e => e.2.2) (action E vars 23 (es.map fun e => e.2.1)) := by
  obtain ⟨q1, v1, z1, es1, rfl, g1, h1⟩ := inv_cons h
  obtain rfl : z1 = [symTok 26] := g1
  obtain ⟨q2, v2, z2, es2, rfl, g2, h2⟩ := inv_cons h1
  obtain ⟨k2, rfl, rfl⟩ := g2
  obtain ⟨q3, v3, z3, es3, rfl, g3, h3⟩ := inv_cons h2
  obtain rfl : z3 = [symTok 11] := g3
  obtain ⟨q4, v4, z4, es4, rfl, g4, h4⟩ := inv_cons h3
  obtain ⟨k4, rfl, rfl⟩ := g4
  obtain ⟨q5, v5, z5, es5, rfl, g5, h5⟩ := inv_cons h4
  obtain rfl : z5 = [symTok 25] := g5
  obtain ⟨q6, v6, z6, es6, rfl, g6, h6⟩ := inv_cons h5
  obtain rfl : z6 = [symTok 16] := g6
  obtain rfl := inv_nil h6
  refine fine_coef ?_
  simpa [symTok, Op.tok, Coef.tok] using IsExpr.coef .zeta k4 k2

theorem action_24 (E : Env K) (vars : Str → K) {es : List (Nat × Val K × List Tok)} (h : List.Forall₂ (fun r e => stos e.1 = r ∧ Good r e.2.1 e.2.2) [26, 6, 11, 6, 25, 18] es) :
    Fine (yyr1.getD 24 0) (es.reverse.flatMap fun e => e.2.2) (action E vars 24 (es.map fun e => e.2.1)) := by
  obtain ⟨q1, v1, z1, es1, rfl, g1, h1⟩ := inv_cons h
  obtain rfl : z1 = [symTok 26] := g1
  obtain ⟨q2, v2, z2, es2, rfl, g2, h2⟩ := inv_cons h1
  obtain ⟨k2, rfl, rfl⟩ := g2
  obtain ⟨q3, v3, z3, es3, rfl, g3, h3⟩ := inv_cons h2
  obtain rfl : z3 = [symTok 11] := g3
  obtain ⟨q4, v4, z4, es4, rfl, g4, h4⟩ := inv_cons h3
  obtain ⟨k4, rfl, rfl⟩ := g4
  obtain ⟨q5, v5, z5, es5, rfl, g5, h5⟩ := inv_cons h4
  obtain rfl : z5 = [symTok 25] := g5
  obtain ⟨q6, v6, z6, es6, rfl, g6, h6⟩ := inv_cons h5
  obtain rfl : z6 = [symTok 18] := g6
  obtain rfl := inv_nil h6
  refine fine_coef ?_
  simpa [symTok, Op.tok, Coef.tok] using IsExpr.coef .delta k4 k2

theorem action_25 (E : Env K) (vars : Str → K) {es : List (Nat × Val K × List Tok)} (h : List.Forall₂ (fun r e => stos e.1 = r ∧ Good r e.2.1 e.2.2) [26, 6, 11, 6, 25, 19] es) :
    Fine (yyr1.getD 25 0) (es.reverse.flatMap fun e => e.2.2) (action E vars 25 (es.map fun e => e.2.1)) := by
  obtain ⟨q1, v1, z1, es1, rfl, g1, h1⟩ := inv_cons h
  obtain rfl : z1 = [symTok 26] := g1
  obtain ⟨q2, v2, z2, es2, rfl, g2, h2⟩ := inv_cons h1
  obtain ⟨k2, rfl, rfl⟩ := g2
  obtain ⟨q3, v3, z3, es3, rfl, g3, h3⟩ := inv_cons h2
  obtain rfl : z3 = [symTok 11] := g3
  obtain ⟨q4, v4, z4, es4, rfl, g4, h4⟩ := inv_cons h3
  obtain ⟨k4, rfl, rfl⟩ := g4
  obtain ⟨q5, v5, z5, es5, rfl, g5, h5⟩ := inv_cons h4
  obtain rfl : z5 = [symTok 25] := g5
  obtain ⟨q6, v6, z6, es6, rfl, g6, h6⟩ := inv_cons h5
  obtain rfl : z6 = [symTok 19] := g6
  obtain rfl := inv_nil h6
  refine fine_coef ?_
  simpa [symTok, Op.tok, Coef.tok] using IsExpr.coef .kappa k4 k2

theorem action_26 (E : Env K) (vars : Str → K) {es : List (Nat × Val K × List Tok)} (h : List.Forall₂ (fun r e => stos e.1 = r ∧ Good r e.2.1 e.2.2) [26, 6, 11, 6, 25, 20] es) :
    Fine (yyr1.getD 26 0) (es.reverse.flatMap fun e => e.2.2) (action E vars 26 (es.map fun e => e.2.1)) := by
  obtain ⟨q1, v1, z1, es1, rfl, g1, h1⟩ := inv_cons h
  obtain rfl : z1 = [symTok 26] := g1
  obtain ⟨q2, v2, z2, es2, rfl, g2, h2⟩ := inv_cons h1
  obtain ⟨k2, rfl, rfl⟩ := g2
  obtain ⟨q3, v3, z3, es3, rfl, g3, h3⟩ := inv_cons h2
  obtain rfl : z3 = [symTok 11] := g3
  obtain ⟨q4, v4, z4, es4, rfl, g4, h4⟩ := inv_cons h3
  obtain ⟨k4, rfl, rfl⟩ := g4
  obtain ⟨q5, v5, z5, es5, rfl, g5, h5⟩ := inv_cons h4
  obtain rfl : z5 = [symTok 25] := g5
  obtain ⟨q6, v6, z6, es6, rfl, g6, h6⟩ := inv_cons h5
  obtain rfl : z6 = [symTok 20] := g6
  obtain rfl := inv_nil h6
  refine fine_coef ?_
  simpa [symTok, Op.tok, Coef.tok] using IsExpr.coef .v k4 k2

theorem action_27 (E : Env K) (vars : Str → K) {es : List (Nat × Val K × List Tok)} (h : List.Forall₂ (fun r e => stos e.1 = r ∧ Good r e.2.1 e.2.2) [32] es) :
    Fine (yyr1.getD 27 0) (es.reverse.flatMap fun e => e.2.2) (action E vars 27 (es.map fun e => e.2.1)) := by
  obtain ⟨q1, v1, z1, es1, rfl, g1, h1⟩ := inv_cons h
  obtain ⟨x1, rfl, i1⟩ := g1
  obtain rfl := inv_nil h1
  refine .inr ⟨_, _, _, rfl, _, rfl, ?_⟩
  simpa [symTok, Op.tok, Coef.tok] using IsList.one i1

theorem action_28 (E : Env K) (vars : Str → K) {es : List (Nat × Val K × List Tok)} (h : List.Forall₂ (fun r e => stos e.1 = r ∧ Good r e.2.1 e.2.2) [33, 11, 32] es) :
    Fine (yyr1.getD 28 0) (es.reverse.flatMap fun e => e.2.2) (action E vars 28 (es.map fun e => e.2.1)) := by
  obtain ⟨q1, v1, z1, es1, rfl, g1, h1⟩ := inv_cons h
  obtain ⟨x1, rfl, i1⟩ := g1
  obtain ⟨q2, v2, z2, es2, rfl, g2, h2⟩ := inv_cons h1
  obtain rfl : z2 = [symTok 11] := g2
  obtain ⟨q3, v3, z3, es3, rfl, g3, h3⟩ := inv_cons h2
  obtain ⟨x3, rfl, i3⟩ := g3
  obtain rfl := inv_nil h3
  refine .inr ⟨_, _, _, rfl, _, rfl, ?_⟩
  simpa [symTok, Op.tok, Coef.tok] using IsList.cons i3 i1

theorem action_29 (E : Env K) (vars : Str → K) {es : List (Nat × Val K × List Tok)} (h : List.Forall₂ (fun r e => stos e.1 = r ∧ Good r e.2.1 e.2.2) [28, 27] es) :
    Fine (yyr1.getD 29 0) (es.reverse.flatMap fun e => e.2.2) (action E vars 29 (es.map fun e => e.2.1)) := by
  obtain ⟨q1, v1, z1, es1, rfl, g1, h1⟩ := inv_cons h
  obtain rfl : z1 = [symTok 28] := g1
  obtain ⟨q2, v2, z2, es2, rfl, g2, h2⟩ := inv_cons h1
  obtain rfl : z2 = [symTok 27] := g2
  obtain rfl := inv_nil h2
  refine .inr ⟨_, _, _, rfl, _, rfl, ?_⟩
  simpa [symTok, Op.tok, Coef.tok] using IsVec.nil

theorem action_30 (E : Env K) (vars : Str → K) {es : List (Nat × Val K × List Tok)} (h : List.Forall₂ (fun r e => stos e.1 = r ∧ Good r e.2.1 e.2.2) [28, 33, 27] es) :
    Fine (yyr1.getD 30 0) (es.reverse.flatMap fun e => e.2.2) (action E vars 30 (es.map fun e => e.2.1)) := by
  obtain ⟨q1, v1, z1, es1, rfl, g1, h1⟩ := inv_cons h
  obtain rfl : z1 = [symTok 28] := g1
  obtain ⟨q2, v2, z2, es2, rfl, g2, h2⟩ := inv_cons h1
  obtain ⟨x2, rfl, i2⟩ := g2
  obtain ⟨q3, v3, z3, es3, rfl, g3, h3⟩ := inv_cons h2
  obtain rfl : z3 = [symTok 27] := g3
  obtain rfl := inv_nil h3
  refine .inr ⟨_, _, _, rfl, _, rfl, ?_⟩
  simpa [symTok, Op.tok, Coef.tok] using IsVec.list i2

theorem action_31 (E : Env K) (vars : Str → K) {es : List (Nat × Val K × List Tok)} (h : List.Forall₂ (fun r e => stos e.1 = r ∧ Good r e.2.1 e.2.2) [34] es) :
    Fine (yyr1.getD 31 0) (es.reverse.flatMap fun e => e.2.2) (action E vars 31 (es.map fun e => e.2.1)) := by
  obtain ⟨q1, v1, z1, es1, rfl, g1, h1⟩ := inv_cons h
  obtain ⟨x1, rfl, i1⟩ := g1
  obtain rfl := inv_nil h1
  refine .inr ⟨_, _, _, rfl, _, rfl, ?_⟩
  simpa [symTok, Op.tok, Coef.tok] using IsRows.one i1

theorem action_32 (E : Env K) (vars : Str → K) {es : List (Nat × Val K × List Tok)} (h : List.Forall₂ (fun r e => stos e.1 = r ∧ Good r e.2.1 e.2.2) [35, 11, 34] es) :
    Fine (yyr1.getD 32 0) (es.reverse.flatMap fun e => e.2.2) (action E vars 32 (es.map fun e => e.2.1)) := by
  obtain ⟨q1, v1, z1, es1, rfl, g1, h1⟩ := inv_cons h
  obtain ⟨x1, rfl, i1⟩ := g1
  obtain ⟨q2, v2, z2, es2, rfl, g2, h2⟩ := inv_cons h1
  obtain rfl : z2 = [symTok 11] := g2
  obtain ⟨q3, v3, z3, es3, rfl, g3, h3⟩ := inv_cons h2
  obtain ⟨x3, rfl, i3⟩ := g3
  obtain rfl := inv_nil h3
  refine .inr ⟨_, _, _, rfl, _, rfl, ?_⟩
  simpa [symTok, Op.tok, Coef.tok] using IsRows.cons i3 i1

theorem action_33 (E : Env K) (vars : Str → K) {es : List (Nat × Val K × List Tok)} (h : List.Forall₂ (fun r e => stos e.1 = r ∧ Good r e.2.1 e.2.2) [28, 28, 27, 27] es) :
    Fine (yyr1.getD 33 0) (es.reverse.flatMap fun e => e.2.2) (action E vars 33 (es.map fun e => e.2.1)) := by
  obtain ⟨q1, v1, z1, es1, rfl, g1, h1⟩ := inv_cons h
  obtain rfl : z1 = [symTok 28] := g1
  obtain ⟨q2, v2, z2, es2, rfl, g2, h2⟩ := inv_cons h1
  obtain rfl : z2 = [symTok 28] := g2
  obtain ⟨q3, v3, z3, es3, rfl, g3, h3⟩ := inv_cons h2
  obtain rfl : z3 = [symTok 27] := g3
  obtain ⟨q4, v4, z4, es4, rfl, g4, h4⟩ := inv_cons h3
  obtain rfl : z4 = [symTok 27] := g4
  obtain rfl := inv_nil h4
  refine .inr ⟨_, _, _, rfl, _, rfl, ?_⟩
  simpa [symTok, Op.tok, Coef.tok] using IsMat.nil

theorem action_34 (E : Env K) (vars : Str → K) {es : List (Nat × Val K × List Tok)} (h : List.Forall₂ (fun r e => stos e.1 = r ∧ Good r e.2.1 e.2.2) [28, 35, 27] es) :
    Fine (yyr1.getD 34 0) (es.reverse.flatMap fun e => e.2.2) (action E vars 34 (es.map fun e => e.2.1)) := by
  obtain ⟨q1, v1, z1, es1, rfl, g1, h1⟩ := inv_cons h
  obtain rfl : z1 = [symTok 28] := g1
  obtain ⟨q2, v2, z2, es2, rfl, g2, h2⟩ := inv_cons h1
  obtain ⟨x2, rfl, i2⟩ := g2
  obtain ⟨q3, v3, z3, es3, rfl, g3, h3⟩ := inv_cons h2
  obtain rfl : z3 = [symTok 27] := g3
  obtain rfl := inv_nil h3
  refine .inr ⟨_, _, _, rfl, _, rfl, ?_⟩
  simpa [symTok, Op.tok, Coef.tok] using IsMat.rows i2

/-- Every action gets values of the right kind. -/
theorem action_fine (E : Env K) (vars : Str → K) (n : Nat) (h2 : 2 ≤ n) (h34 : n ≤ 34) (es : List (Nat × Val K × List Tok))
    (h : List.Forall₂ (fun r e => stos e.1 = r ∧ Good r e.2.1 e.2.2) (rhs n) es) :
    Fine (yyr1.getD n 0) (es.reverse.flatMap fun e => e.2.2) (action E vars n (es.map fun e => e.2.1)) := by
  match n, h2, h34, h with
  | 2, _, _, h => exact action_2 E vars h
  | 3, _, _, h => exact action_3 E vars h
  | 4, _, _, h => exact action_4 E vars h
  | 5, _, _, h => exact action_5 E vars h
  | 6, _, _, h => exact action_6 E vars h
  | 7, _, _, h => exact action_7 E vars h
  | 8, _, _, h => exact action_8 E vars h
  | 9, _, _, h => exact action_9 E vars h
  | 10, _, _, h => exact action_10 E vars h
  | 11, _, _, h => exact action_11 E vars h
  | 12, _, _, h => exact action_12 E vars h
  | 13, _, _, h => exact action_13 E vars h
  | 14, _, _, h => exact action_14 E vars h
  | 15, _, _, h => exact action_15 E vars h
  | 16, _, _, h => exact action_16 E vars h
  | 17, _, _, h => exact action_17 E vars h
  | 18, _, _, h => exact action_18 E vars h
  | 19, _, _, h => exact action_19 E vars h
  | 20, _, _, h => exact action_20 E vars h
  | 21, _, _, h => exact action_21 E vars h
  | 22, _, _, h => exact action_22 E vars h
  | 23, _, _, h => exact action_23 E vars h
  | 24, _, _, h => exact action_24 E vars h
  | 25, _, _, h => exact action_25 E vars h
  | 26, _, _, h => exact action_26 E vars h
  | 27, _, _, h => exact action_27 E vars h
  | 28, _, _, h => exact action_28 E vars h
  | 29, _, _, h => exact action_29 E vars h
  | 30, _, _, h => exact action_30 E vars h
  | 31, _, _, h => exact action_31 E vars h
  | 32, _, _, h => exact action_32 E vars h
  | 33, _, _, h => exact action_33 E vars h
  | 34, _, _, h => exact action_34 E vars h
  | n + 35, _, h34, _ => omega

/-- Weights of symbols: what remains to be done with them. -/
def wt (t : Nat) : Nat :=
  if t = 0 then 0 else if t < 29 then 4 else if t = 32 ∨ t = 34 then 3 else if t = 33 ∨ t = 35 ∨ t = 36 then 2 else if t = 30 then 1 else 0

/-- In these states a statement may begin, also an empty one. -/
def flag : List (Nat × Val K) → Nat
  | (q, _) :: _ => if q = 0 ∨ q = 14 then 1 else 0
  | [] => 0

/-- What remains to be done. -/
def pot (c : Cfg K) : Nat := (c.stack.map fun e => wt (stos e.1)).sum + 10 * c.input.length + flag c.stack

theorem weights : ∀ n ≤ 34, 2 ≤ n → n ≠ 9 → wt (yyr1.getD n 0) + (if n = 2 ∨ n = 3 then 1 else 0) < ((rhs n).map wt).sum := by decide

theorem forall₂_weights {rs : List Nat} {es : List (Nat × Val K × List Tok)} (h : List.Forall₂ (fun r e => stos e.1 = r ∧ Good r e.2.1 e.2.2) rs es) :
    (es.map fun e => wt (stos e.1)).sum = (rs.map wt).sum := by
  induction h with
  | nil => rfl
  | cons h _ ih => simp only [List.map_cons, List.sum_cons, ih, h.1]

/-- The state of the parser belongs to the input `ts`. -/
def Ok (ts : List Tok) (c : Cfg K) : Prop :=
  ∃ y, Inv c.stack y ∧ y ++ c.input = ts ∧ ∀ v st, c.stack = (37, v) :: st → c.input = []

theorem ok_init (ts : List Tok) : Ok (K := K) ts (Cfg.init ts) :=
  ⟨[], .base _, rfl, fun v st h => by simp [Cfg.init] at h⟩

/-- One round keeps the state in order and gets nearer to the end, or ends in one of the four ways. -/
theorem step_ok (E : Env K) (ts : List Tok) (c : Cfg K) (h : Ok ts c) :
    (∃ c', step E c = .ok c' ∧ Ok ts c' ∧ pot c' < pot c) ∨
    (∃ f, step E c = .error f ∧ (f = .syntax_ ∨ (f = .exhausted ∧ 10000 ≤ c.stack.length) ∨ f = .assert_ ∨ (f = .accept ∧ IsProg ts))) := by
  obtain ⟨y, hi, hy, h37⟩ := h
  obtain ⟨stack, input, vars, out⟩ := c
  dsimp only at hi hy h37
  cases stack with
  | nil => cases hi
  | cons top st =>
    obtain ⟨q, v⟩ := top
    have hq := hi.top_lt
    unfold step
    dsimp only
    by_cases hl : 10000 ≤ ((q, v) :: st).length
    · rw [if_pos hl]; exact .inr ⟨_, rfl, .inr (.inl ⟨rfl, hl⟩)⟩
    rw [if_neg hl]
    by_cases hq37 : q = 37
    · rw [if_pos hq37]
      refine .inr ⟨_, rfl, .inr (.inr (.inr ⟨rfl, ?_⟩))⟩
      subst hq37
      have hinp := h37 v st rfl
      cases hi with
      | @push _ p _ w st y z hi _ hp hg =>
        have hp' : p = 14 := by
          have : preds.getD 37 [] = [14] := rfl
          rw [this] at hp
          simpa using hp
        subst hp'
        have hz : z = [] := hg
        cases hi with
        | @push _ p _ w' st y z' hi _ hp hg =>
          have hp' : p = 0 := by
            have : preds.getD 14 [] = [0] := rfl
            rw [this] at hp
            simpa using hp
          subst hp'
          have hz' : IsProg z' := hg
          have hy0 : y = [] := by
            cases hi with
            | base => rfl
            | push _ _ hp _ =>
              have e0 : preds.getD 0 [] = [] := rfl
              rw [e0] at hp
              exact absurd hp (List.not_mem_nil)
          rw [← hy, hz, hinp, hy0]
          simpa using hz'
    · rw [if_neg hq37]
      cases ha : act q (look input) with
      | error => exact .inr ⟨_, rfl, .inl rfl⟩
      | shift t =>
        dsimp only
        obtain ⟨ht, hp, hs, h14, h0, hend, h2⟩ := shift_ok q hq (look input) (look_lt input) t ha
        left
        cases input with
        | nil =>
          obtain ⟨hq14, ht37⟩ := hend rfl
          refine ⟨_, rfl, ⟨y ++ [], .push hi ht hp (by rw [hs]; rfl), by simpa using hy, fun _ _ _ => rfl⟩, ?_⟩
          subst hq14 ht37
          have e : wt (stos 37) = 0 := by decide
          simp only [pot, flag, List.map_cons, List.sum_cons, e]
          simp
        | cons x r =>
          have hs' : stos t = x.sym := hs
          refine ⟨_, rfl, ⟨y ++ [x], .push hi ht hp (by rw [hs']; exact good_tok E x h2), by simpa using hy, fun v' st' he => ?_⟩, ?_⟩
          · simp only [List.cons.injEq, Prod.mk.injEq] at he
            have : stos 37 = x.sym := by rw [← he.1.1]; exact hs'
            exact absurd this.symm (sym_lt x).2
          · have hw : wt (stos t) ≤ 4 := by
              rw [hs']
              have := sym_lt x
              simp only [wt, this.2, this.1, if_true, if_false]
              exact le_refl _
            simp only [pot, flag, List.map_cons, List.sum_cons, List.length_cons]
            rw [if_neg (show ¬ (t = 0 ∨ t = 14) from fun h => h.elim h0 h14)]
            omega
      | reduce n =>
        dsimp only
        obtain ⟨hn2, hn34, hb⟩ := reduce_ok' q hq hq37 (look input) (look_lt input) n ha
        obtain ⟨es, p, w, below, y', h1, hf, hi', hyy, hb'⟩ := Inv.back (rhs n) hi hb
        have hlen : (es.map fun e => (e.1, e.2.1)).length = yyr2.getD n 0 := by
          rw [List.length_map, ← hf.length_eq, rhs_len n hn2 hn34]
        rw [h1, ← hlen, List.drop_left, List.take_left]
        dsimp only
        have hm : (es.map fun e => (e.1, e.2.1)).map Prod.snd = es.map fun e => e.2.1 := by rw [List.map_map]; rfl
        rw [hm]
        simp only [okBack, Bool.and_eq_true, decide_eq_true_eq, List.contains_eq_mem, beq_iff_eq, Bool.or_eq_true] at hb'
        obtain ⟨⟨⟨⟨⟨⟨b1, b2⟩, b3⟩, b4⟩, b5⟩, b6⟩, b7⟩ := hb'
        rcases action_fine E vars n hn2 hn34 es hf with he | ⟨u, vars', evs, he, hg⟩
        · rw [he]; exact .inr ⟨_, rfl, .inr (.inr (.inl rfl))⟩
        · rw [he]
          refine .inl ⟨_, rfl, ⟨y' ++ _, .push hi' b1 b3 (by rw [b4]; exact hg), by rw [← hyy]; exact hy, fun v' st' hh => ?_⟩, ?_⟩
          · simp only [List.cons.injEq, Prod.mk.injEq] at hh
            exact absurd hh.1.1 b2
          · have hsum := forall₂_weights hf
            simp only [pot, flag, List.map_cons, List.sum_cons]
            rw [b4]
            simp only [List.map_append, List.sum_append, List.map_map, List.map_cons, List.sum_cons]
            have hcomp : ((fun e : Nat × Val K => wt (stos e.1)) ∘ fun e : Nat × Val K × List Tok => (e.1, e.2.1)) = fun e => wt (stos e.1) := rfl
            rw [hcomp, hsum]
            by_cases h9 : n = 9
            · subst h9
              have hes : es = [] := inv_nil hf
              subst hes
              simp only [List.map_nil, List.nil_append, List.cons.injEq, Prod.mk.injEq] at h1
              have hp : p = 0 ∨ p = 14 := by simpa using b5
              have hg14 : goto_ p 9 ≠ 14 := by
                intro hh
                rw [hh] at b6
                exact absurd b6 (by decide)
              have e31 : wt (yyr1.getD 9 0) = 0 := by decide
              have erhs : ((rhs 9).map wt).sum = 0 := rfl
              rw [if_neg (fun hh => hh.elim b7 hg14), e31, erhs]
              simp only [List.map_nil, List.nil_append, if_pos hp]
              omega
            · have := weights n hn34 hn2 h9
              have hfl : (if goto_ p n = 0 ∨ goto_ p n = 14 then 1 else 0) ≤ (if n = 2 ∨ n = 3 then 1 else 0) := by
                by_cases hh : goto_ p n = 14
                · rw [hh] at b6
                  have : n = 2 ∨ n = 3 := by
                    by_contra hc
                    rw [not_or] at hc
                    have e1 : (n == 2) = false := beq_eq_false_iff_ne.2 hc.1
                    have e2 : (n == 3) = false := beq_eq_false_iff_ne.2 hc.2
                    rw [e1, e2] at b6
                    exact absurd b6 (by decide)
                  rw [if_pos this]; split <;> omega
                · rw [if_neg (fun h => h.elim b7 hh)]; omega
              omega

/-- The parser ends, in one of the four ways. -/
theorem run_ends (E : Env K) (ts : List Tok) : ∀ (n : Nat) (c : Cfg K), Ok ts c → pot c < n →
    ∃ f out, run E n c = some (f, out) ∧ (f = .syntax_ ∨ f = .exhausted ∨ f = .assert_ ∨ (f = .accept ∧ IsProg ts))
  | 0, _, _, h => by omega
  | n + 1, c, hok, h => by
    rcases step_ok E ts c hok with ⟨c', h1, h2, h3⟩ | ⟨f, h1, h2⟩
    · obtain ⟨f, out, h4, h5⟩ := run_ends E ts n c' h2 (by omega)
      exact ⟨f, out, by simp only [run]; rw [h1]; exact h4, h5⟩
    · exact ⟨f, c.out, by simp only [run]; rw [h1], by
        rcases h2 with h | h | h | h
        · exact .inl h
        · exact .inr (.inl h.1)
        · exact .inr (.inr (.inl h))
        · exact .inr (.inr (.inr h))⟩

theorem pot_init (ts : List Tok) : pot (K := K) (Cfg.init ts) = 10 * ts.length + 1 := by
  show wt (stos 0) + 0 + 10 * ts.length + 1 = _
  have : wt (stos 0) = 0 := by decide
  rw [this]; omega

end Verif.Calc
