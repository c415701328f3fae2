import Verif.Calc.Stmt
import Verif.Calc.Safe
/-!
# Everything the grammar allows is a program of trees

The grammar in `parser.yy` is ambiguous; the declarations of precedence choose one of the trees. Here: every text of the grammar is the text of some tree written with the
usual rules, so that the grammar with the declarations accepts the same texts as the ambiguous one.
-/

namespace Verif.Calc
open Verif.Text (Str)
open Spec

/-- The tree for `a * b`, both written without parentheses at level two. -/
def joinM (o : Op) (a : Ex) : Ex → Ex
  | .bin o' b1 b2 => if o'.prec = 2 then .bin o' (joinM o a b1) b2 else .bin o a (.bin o' b1 b2)
  | b => .bin o a b

/-- The tree for `a + b` or `a * b` where `b` is written without parentheses at level one and `a` has no sum at its top for products. -/
def joinR (mk : Ex → Ex) : Ex → Ex
  | .bin o' b1 b2 => if o'.prec = 1 then .bin o' (joinR mk b1) b2 else mk (.bin o' b1 b2)
  | b => mk b

/-- The tree for `- e`. -/
def negL : Nat → Ex → Ex
  | p, .bin o a b => if o.prec < p then .neg (.bin o a b) else .bin o (negL o.prec a) b
  | _, e => .neg e

theorem prec_cases (o : Op) : o.prec = 1 ∨ o.prec = 2 := by cases o <;> simp [Op.prec]

/-- Not a sum at the top. -/
def NotSum (e : Ex) : Prop := e.pr 1 = e.pr 2

theorem joinM_pr (o : Op) (ho : o.prec = 2) (a b : Ex) : (joinM o a b).pr 2 = a.pr 2 ++ o.tok :: b.pr 2 ∧ (joinM o a b).pr 1 = (joinM o a b).pr 2 := by
  induction b with
  | bin o' b1 b2 ih _ =>
    rcases prec_cases o' with h | h
    · have : joinM o a (.bin o' b1 b2) = .bin o a (.bin o' b1 b2) := by simp [joinM, h]
      rw [this]
      simp [Ex.pr, ho, h, paren]
    · have : joinM o a (.bin o' b1 b2) = .bin o' (joinM o a b1) b2 := by simp [joinM, h]
      rw [this]
      simp [Ex.pr, h, paren, ih.1]
  | _ => simp [joinM, Ex.pr, ho, paren]

theorem joinR_pr (mk : Ex → Ex) (t : List Tok) (h : ∀ b, NotSum b → (mk b).pr 1 = t ++ b.pr 1) (b : Ex) : (joinR mk b).pr 1 = t ++ b.pr 1 := by
  induction b with
  | bin o' b1 b2 ih _ =>
    rcases prec_cases o' with h' | h'
    · have : joinR mk (.bin o' b1 b2) = .bin o' (joinR mk b1) b2 := by simp [joinR, h']
      rw [this]
      simp [Ex.pr, h', paren, ih]
    · have : joinR mk (.bin o' b1 b2) = mk (.bin o' b1 b2) := by simp [joinR, h']
      rw [this]
      exact h _ (by simp [NotSum, Ex.pr, h', paren])
  | _ => exact h _ (by simp [NotSum, Ex.pr])

/-- The tree for an operation. -/
def join (o : Op) (a b : Ex) : Ex :=
  if o.prec = 1 then joinR (.bin o a) b
  else
    match a with
    | .bin o' a1 a2 => if o'.prec = 1 then joinR (fun b => .bin o' a1 (joinM o a2 b)) b else joinR (joinM o a) b
    | _ => joinR (joinM o a) b

theorem join_pr (o : Op) (a b : Ex) : (join o a b).pr 1 = a.pr 1 ++ o.tok :: b.pr 1 := by
  have key : ∀ (mk : Ex → Ex), (∀ b, NotSum b → (mk b).pr 1 = (a.pr 1 ++ [o.tok]) ++ b.pr 1) → (joinR mk b).pr 1 = a.pr 1 ++ o.tok :: b.pr 1 := by
    intro mk h
    have := joinR_pr mk (a.pr 1 ++ [o.tok]) h b
    simpa using this
  rcases prec_cases o with ho | ho
  · unfold join
    rw [if_pos ho]
    refine key _ fun b hb => ?_
    simp [Ex.pr, ho, paren, ← hb.symm]
  · have hM : ∀ (hna : NotSum a) b, NotSum b → (joinM o a b).pr 1 = (a.pr 1 ++ [o.tok]) ++ b.pr 1 := by
      intro hna b hb
      have := joinM_pr o ho a b
      rw [this.2, this.1, hna, hb]
      simp
    unfold join
    rw [if_neg (by omega)]
    cases a with
    | bin o' a1 a2 =>
      dsimp only
      rcases prec_cases o' with h' | h'
      · rw [if_pos h']
        refine key _ fun b hb => ?_
        have := joinM_pr o ho a2 b
        simp [Ex.pr, h', paren, this.1]
        rw [hb]
      · rw [if_neg (by omega)]
        exact key _ (hM (by simp [NotSum, Ex.pr, h', paren]))
    | _ => exact key _ (hM (by simp [NotSum, Ex.pr]))

theorem negL_pr (e : Ex) : ∀ p, p ≤ 3 → (negL p e).pr p = .ch '-' :: e.pr p := by
  induction e with
  | bin o a b ih _ =>
    intro p hp
    by_cases h : o.prec < p
    · have : negL p (.bin o a b) = .neg (.bin o a b) := by simp [negL, h]
      rw [this]
      have h3 : o.prec < 3 := by rcases prec_cases o with h | h <;> omega
      simp [Ex.pr, h, h3]
    · have : negL p (.bin o a b) = .bin o (negL o.prec a) b := by simp [negL, h]
      rw [this]
      have := ih o.prec (by rcases prec_cases o with h | h <;> omega)
      simp [Ex.pr, h, paren, this]
  | _ => intro p _; simp [negL, Ex.pr]

/-- Every expression of the grammar is written for some tree. -/
theorem expr_tree {l : List Tok} (h : IsExpr l) : ∃ e : Ex, e.pr 1 = l := by
  induction h with
  | num d => exact ⟨.num d, rfl⟩
  | int n => exact ⟨.int n, rfl⟩
  | var s => exact ⟨.var s, rfl⟩
  | bin o _ _ iha ihb =>
    obtain ⟨a, rfl⟩ := iha
    obtain ⟨b, rfl⟩ := ihb
    exact ⟨join o a b, join_pr o a b⟩
  | neg _ ih =>
    obtain ⟨a, rfl⟩ := ih
    exact ⟨negL 1 a, negL_pr a 1 (by omega)⟩
  | par _ ih =>
    obtain ⟨a, rfl⟩ := ih
    exact ⟨.par a, rfl⟩
  | call s sq _ ih =>
    obtain ⟨a, rfl⟩ := ih
    exact ⟨.call s sq a, by simp [Ex.pr]⟩
  | gamma i => exact ⟨.gamma i, rfl⟩
  | coef k i j => exact ⟨.coef k i j, rfl⟩

theorem list_tree {l : List Tok} (h : IsList l) : ∃ es : List Ex, es ≠ [] ∧ commas (es.map (·.pr 1)) = l := by
  induction h with
  | one h => obtain ⟨e, rfl⟩ := expr_tree h; exact ⟨[e], by simp, rfl⟩
  | cons h _ ih =>
    obtain ⟨e, rfl⟩ := expr_tree h
    obtain ⟨es, hne, rfl⟩ := ih
    obtain ⟨f, es, rfl⟩ := List.exists_cons_of_ne_nil hne
    exact ⟨e :: f :: es, by simp, rfl⟩

theorem vec_tree {l : List Tok} (h : IsVec l) : ∃ es : List Ex, braces (es.map (·.pr 1)) = l := by
  cases h with
  | nil => exact ⟨[], rfl⟩
  | list h => obtain ⟨es, _, rfl⟩ := list_tree h; exact ⟨es, rfl⟩

theorem rows_tree {l : List Tok} (h : IsRows l) : ∃ m : List (List Ex), m ≠ [] ∧ commas (m.map rowToks) = l := by
  induction h with
  | one h => obtain ⟨e, rfl⟩ := vec_tree h; exact ⟨[e], by simp, rfl⟩
  | cons h _ ih =>
    obtain ⟨e, rfl⟩ := vec_tree h
    obtain ⟨es, hne, rfl⟩ := ih
    obtain ⟨f, es, rfl⟩ := List.exists_cons_of_ne_nil hne
    exact ⟨e :: f :: es, by simp, rfl⟩

theorem stmt_tree {l : List Tok} (h : IsStmt l) : ∃ x : St, x.ok ∧ x.pr = l := by
  cases h with
  | assign s h => obtain ⟨e, rfl⟩ := expr_tree h; exact ⟨.assign s e, trivial, rfl⟩
  | expr h => obtain ⟨e, rfl⟩ := expr_tree h; exact ⟨.expr e, trivial, rfl⟩
  | vec h => obtain ⟨es, rfl⟩ := vec_tree h; exact ⟨.vec es, trivial, rfl⟩
  | mat h =>
    cases h with
    | nil => exact ⟨.mat [], by simp [St.ok], rfl⟩
    | rows h =>
      obtain ⟨m, hne, rfl⟩ := rows_tree h
      by_cases h1 : m = [[]]
      · subst h1
        exact ⟨.mat [], by simp [St.ok], rfl⟩
      · obtain ⟨r, m, rfl⟩ := List.exists_cons_of_ne_nil hne
        exact ⟨.mat (r :: m), h1, rfl⟩
  | empty => exact ⟨.empty, trivial, rfl⟩

theorem prog_tree {l : List Tok} (h : IsProg l) : ∃ p : List St, p ≠ [] ∧ (∀ x ∈ p, x.ok) ∧ prPr p = l := by
  induction h with
  | one h => obtain ⟨x, hx, rfl⟩ := stmt_tree h; exact ⟨[x], by simp, by simpa using hx, by simp [prPr]⟩
  | snoc _ h ih =>
    obtain ⟨p, hne, hok, rfl⟩ := ih
    obtain ⟨x, hx, rfl⟩ := stmt_tree h
    refine ⟨p ++ [x], by simp, fun y hy => ?_, by simp [prPr]⟩
    rcases List.mem_append.1 hy with h | h
    · exact hok y h
    · rw [List.mem_singleton.1 h]; exact hx

/-! ### What the trees write belongs to the grammar -/

theorem tree_expr (e : Ex) : ∀ p, IsExpr (e.pr p) := by
  induction e with
  | num d => intro p; exact .num d
  | int n => intro p; exact .int n
  | var s => intro p; exact .var s
  | call s sq e ih => intro p; have := IsExpr.call s sq (ih 1); simpa [Ex.pr] using this
  | gamma i => intro p; exact .gamma i
  | coef k i j => intro p; exact .coef k i j
  | neg e ih => intro p; exact .neg (ih 3)
  | par e ih => intro p; exact .par (ih 1)
  | bin o a b iha ihb =>
    intro p
    simp only [Ex.pr, paren]
    split
    · exact .par (.bin o (iha _) (ihb _))
    · exact .bin o (iha _) (ihb _)

theorem tree_list : ∀ (l : List Ex), l ≠ [] → IsList (commas (l.map (·.pr 1)))
  | [], h => absurd rfl h
  | [e], _ => .one (tree_expr e 1)
  | e :: f :: l, _ => .cons (tree_expr e 1) (tree_list (f :: l) (by simp))

theorem tree_vec (l : List Ex) : IsVec (braces (l.map (·.pr 1))) := by
  cases l with
  | nil => exact .nil
  | cons e l => exact .list (tree_list (e :: l) (by simp))

theorem tree_rows : ∀ (m : List (List Ex)), m ≠ [] → IsRows (commas (m.map rowToks))
  | [], h => absurd rfl h
  | [r], _ => .one (tree_vec r)
  | r :: q :: m, _ => .cons (tree_vec r) (tree_rows (q :: m) (by simp))

theorem tree_stmt (x : St) : IsStmt x.pr := by
  cases x with
  | assign s e => exact .assign s (tree_expr e 1)
  | expr e => exact .expr (tree_expr e 1)
  | vec l => exact .vec (tree_vec l)
  | mat m =>
    cases m with
    | nil => exact .mat .nil
    | cons r m => exact .mat (.rows (tree_rows (r :: m) (by simp)))
  | empty => exact .empty

theorem prog_append {a : List Tok} (h : IsProg a) : ∀ p : List St, IsProg (a ++ prPr p)
  | [] => by simpa [prPr] using h
  | x :: p => by
    have := prog_append (IsProg.snoc h (tree_stmt x)) p
    simpa [prPr] using this

theorem tree_prog (p : List St) (hne : p ≠ []) : IsProg (prPr p) := by
  cases p with
  | nil => exact absurd rfl hne
  | cons x p =>
    have := prog_append (IsProg.one (tree_stmt x)) p
    simpa [prPr] using this

/-! ### The depth of the stack is bounded by the number of tokens -/

theorem expr_len (e : Ex) : ∀ p, e.need p ≤ (e.pr p).length := by
  induction e with
  | num d => intro p; simp [Ex.need, Ex.pr]
  | int n => intro p; simp [Ex.need, Ex.pr]
  | var s => intro p; simp [Ex.need, Ex.pr]
  | call s sq e ih => intro p; have := ih 1; have := need_pos e 1; simp [Ex.need, Ex.pr]; omega
  | gamma i => intro p; simp [Ex.need, Ex.pr]
  | coef k i j => intro p; simp [Ex.need, Ex.pr]
  | neg e ih => intro p; have := ih 3; simp [Ex.need, Ex.pr]; omega
  | par e ih => intro p; have := ih 1; have := need_pos e 1; simp [Ex.need, Ex.pr, paren]; omega
  | bin o a b iha ihb =>
    intro p
    have h1 := iha o.prec
    have h2 := ihb (o.prec + 1)
    have h3 := need_pos a o.prec
    have h4 := need_pos b (o.prec + 1)
    by_cases h : o.prec < p
    · simp [Ex.need, Ex.pr, paren, h]; omega
    · simp [Ex.need, Ex.pr, paren, h]; omega

theorem expr_len_pos (e : Ex) (p : Nat) : 1 ≤ (e.pr p).length := le_trans (need_pos e p) (expr_len e p)

theorem list_len : ∀ (l : List Ex), needList (l.map (·.need 1)) ≤ (commas (l.map (·.pr 1))).length + 1
  | [] => by simp [needList]
  | [e] => by have := expr_len e 1; have := expr_len_pos e 1; simp [needList, commas]; omega
  | e :: f :: l => by
    have h1 := expr_len e 1
    have h2 := expr_len_pos e 1
    have h3 := list_len (f :: l)
    simp only [List.map_cons, commas_cons_cons, List.length_append, List.length_cons] at h3 ⊢
    rw [needList]
    omega

theorem row_len (l : List Ex) : rowNeed l ≤ (rowToks l).length + 1 := by
  have := list_len l
  simp only [rowToks, rowNeed, braces, List.length_cons, List.length_append, List.length_nil]
  omega

theorem rows_len : ∀ (m : List (List Ex)), needList (m.map rowNeed) ≤ (commas (m.map rowToks)).length + 1
  | [] => by simp [needList]
  | [r] => by
    have := row_len r
    have h2 : 2 ≤ (rowToks r).length := by simp [rowToks, braces]
    simp only [List.map_cons, List.map_nil, needList, commas]; omega
  | r :: q :: m => by
    have h1 := row_len r
    have h2 : 2 ≤ (rowToks r).length := by simp [rowToks, braces]
    have h3 := rows_len (q :: m)
    simp only [List.map_cons, commas_cons_cons, List.length_append, List.length_cons] at h3 ⊢
    rw [needList]
    omega

theorem stmt_len (x : St) : x.need ≤ x.pr.length + 3 := by
  cases x with
  | assign s e => have := expr_len e 1; simp [St.need, St.pr]; omega
  | expr e => have := expr_len e 1; simp only [St.need, St.pr]; omega
  | vec l => have := list_len l; simp only [St.need, St.pr, braces, List.length_cons, List.length_append, List.length_nil]; omega
  | mat m =>
    cases m with
    | nil => simp [St.need, St.pr, needList]
    | cons r m =>
      have h := rows_len (r :: m)
      have h2 : 2 ≤ (commas ((r :: m).map rowToks)).length := by
        cases m <;> simp [commas, rowToks, braces]
        omega
      have e : (St.mat (r :: m)).pr.length = (commas ((r :: m).map rowToks)).length + 2 := by
        show (braces ((r :: m).map rowToks)).length = _
        simp only [braces, List.length_cons, List.length_append, List.length_nil]
      rw [e]
      show 1 + max (needList ((r :: m).map rowNeed)) 4 ≤ _
      omega
  | empty => simp [St.need]

theorem prog_len (p : List St) (x : St) (hx : x ∈ p) : x.pr.length + 1 ≤ (prPr p).length := by
  induction p with
  | nil => simp at hx
  | cons y p ih =>
    have e : (prPr (y :: p)).length = y.pr.length + 1 + (prPr p).length := by simp [prPr]; omega
    rcases List.mem_cons.1 hx with rfl | h
    · omega
    · have := ih h; omega

end Verif.Calc
