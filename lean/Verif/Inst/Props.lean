import Verif.Inst.Parse
import Verif.Inst.Decimal
import Mathlib.Tactic.NormNum
/-!
# C48: matrix templates evaluate with ordinary precedence
-/

namespace Verif.Inst
open Verif.Text

variable {K : Type} [Field K] [DecidableEq K]

/-- What may follow a value: after an expression, a delimiter and no operator. -/
def Ends : VEx K → Str → Prop
  | .scalar _, rest => Delimited rest ∧ NotNext allOps rest
  | .list _, _ => True

/-- The outcome of parsing a value followed by `rest`. -/
def VOutcome (E : Env K) : VCat K → Str → Prop
  | .value v, s => ∀ rest, Ends v rest → ConvU (fun n => pValue E n (s ++ rest)) (v.eval E) rest
  | .items l, s => ∀ j rest acc, Ign j →
      Conv (fun n => pItems E n acc (s ++ (j ++ '}' :: rest)))
        (match VEx.evalList E l with
         | .error x => .error x
         | .ok vs => .ok (.list (acc ++ vs), rest))

theorem vtext_consume {E : Env K} {cat : VCat K} {s : Str} (h : VText E cat s) (rest : Str) : consume '}' (s ++ rest) = none := by
  have key : ∀ {s : Str}, VText E cat s → ∀ rest, consume '}' (s ++ rest) = none := by
    clear h
    intro s h
    induction h with
    | scalar h => intro rest; exact (text_consume h rest).1 '}' (by decide)
    | empty hi hj =>
      intro rest
      rw [List.append_assoc, List.cons_append]
      exact consume_other hi _ (by decide) (by decide) (by decide)
    | list hi h hj ih =>
      intro rest
      rw [List.append_assoc, List.cons_append]
      exact consume_other hi _ (by decide) (by decide) (by decide)
    | one h ih => exact ih
    | more h hj h' ih ih' => intro rest; rw [List.append_assoc]; exact ih _
  exact key h rest

theorem ends_here {j : Str} (hj : Ign j) (v : VEx K) (c : Char) (t : Str) (hc : c = '}' ∨ c = ',') : Ends v (j ++ c :: t) := by
  cases v with
  | list l => trivial
  | scalar e =>
    constructor
    · exact delimited_here hj t (by rcases hc with rfl | rfl <;> decide)
    · rcases hc with rfl | rfl <;> exact after_here hj t (by decide) (by decide) (by decide)

theorem vtext_outcome {E : Env K} {cat : VCat K} {s : Str} (h : VText E cat s) : VOutcome E cat s := by
  induction h with
  | @scalar e s h =>
    intro rest ⟨hd, ha⟩
    have h0 := expr_closed (text_outcome h) hd ha
    have hno := (text_consume h rest).2
    have step : ∀ n, pValue E (n + 1) (s ++ rest) =
        (match pExpr E n (s ++ rest) with
         | .error e => .error e
         | .ok (v, s) => .ok (.scalar v, s)) := by
      intro n; rw [pValue, hno]; rfl
    simp only [VEx.eval]
    cases he : e.eval E with
    | error x =>
      rw [he] at h0
      exact conv_succ_of h0 fun n hn => by rw [step, hn]
    | ok v =>
      rw [he] at h0
      exact ⟨skip rest, skip_skip _, conv_succ_of h0 fun n hn => by rw [step, hn]⟩
  | @empty i j hi hj =>
    intro rest _
    have e1 : i ++ '{' :: (j ++ ['}']) ++ rest = i ++ '{' :: (j ++ '}' :: rest) := by simp
    rw [e1]
    simp only [VEx.eval, VEx.evalList]
    refine ⟨rest, rfl, conv_const fun n => ?_⟩
    rw [pValue, consume_here hi _ (by decide) (by decide)]
    dsimp only
    rw [consume_here hj _ (by decide) (by decide)]
  | @list i l s j hi h hj ih =>
    intro rest _
    have e1 : i ++ '{' :: (s ++ (j ++ ['}'])) ++ rest = i ++ '{' :: (s ++ (j ++ '}' :: rest)) := by simp
    rw [e1]
    have h0 := ih j rest [] hj
    have hno := vtext_consume h (j ++ '}' :: rest)
    have step : ∀ n, pValue E (n + 1) (i ++ '{' :: (s ++ (j ++ '}' :: rest))) = pItems E n [] (s ++ (j ++ '}' :: rest)) := by
      intro n
      rw [pValue, consume_here hi _ (by decide) (by decide)]
      dsimp only
      rw [hno]
    simp only [VEx.eval]
    cases he : VEx.evalList E l with
    | error x =>
      rw [he] at h0
      exact conv_succ_of h0 fun n hn => by rw [step, hn]
    | ok vs =>
      rw [he] at h0
      exact ⟨rest, rfl, conv_succ_of h0 fun n hn => by rw [step, hn]; rfl⟩
  | @one v s h ih =>
    intro j rest acc hj
    have h0 := ih (j ++ '}' :: rest) (ends_here hj v '}' rest (Or.inl rfl))
    simp only [VEx.evalList]
    cases he : v.eval E with
    | error x =>
      rw [he] at h0
      exact conv_succ_of h0 fun n hn => by rw [pItems, hn]
    | ok w =>
      rw [he] at h0
      obtain ⟨rest', hr, h0⟩ := h0
      refine conv_succ_of h0 fun n hn => ?_
      rw [pItems, hn]
      dsimp only
      rw [consume_congr _ hr, consume_here hj _ (by decide) (by decide)]
  | @more v s j' l t h hj' h' ih ih' =>
    intro j rest acc hj
    have e1 : s ++ (j' ++ ',' :: t) ++ (j ++ '}' :: rest) = s ++ (j' ++ ',' :: (t ++ (j ++ '}' :: rest))) := by simp
    rw [e1]
    have h0 := ih (j' ++ ',' :: (t ++ (j ++ '}' :: rest))) (ends_here hj' v ',' _ (Or.inr rfl))
    simp only [VEx.evalList]
    cases he : v.eval E with
    | error x =>
      rw [he] at h0
      exact conv_succ_of h0 fun n hn => by rw [pItems, hn]
    | ok w =>
      rw [he] at h0
      obtain ⟨rest', hr, h0⟩ := h0
      have h1 := ih' j rest (acc ++ [w]) hj
      refine conv_of_succ2 h0 (h := fun n => pItems E n (acc ++ [w]) (t ++ (j ++ '}' :: rest))) ?_ (fun n hn hn' => ?_)
      · convert h1 using 1
        cases VEx.evalList E l with
        | error x => rfl
        | ok vs => simp
      · dsimp only at hn hn' ⊢
        rw [pItems, hn]
        dsimp only
        rw [consume_congr _ hr, consume_other hj' _ (by decide) (by decide) (by decide), consume_congr _ hr,
          consume_here hj' _ (by decide) (by decide)]
        exact hn'

/-! ### The properties -/

/-- The evaluator never runs out of fuel: it terminates on every text. -/
theorem never_out_of_fuel (E : Env K) (hE : Progress E) (text : Str) : evaluateMatrix E text ≠ .error .fuel := by
  have hsc : ∀ v : Value K, v.toScalar ≠ .error .fuel := by intro v; cases v <;> simp [Value.toScalar]
  have hmap : ∀ {α β : Type} (f : α → Except Err β) (l : List α), (∀ a, f a ≠ .error .fuel) → l.mapM f ≠ .error .fuel := by
    intro α β f l hf
    induction l with
    | nil => simp [pure, Except.pure]
    | cons a l ih =>
      rw [List.mapM_cons]
      exact bind_ne_fuel (hf a) fun _ => bind_ne_fuel ih fun _ => by simp [pure, Except.pure]
  have hrow : ∀ c (v : Value K), rowOf c v ≠ .error .fuel := by
    intro c v
    unfold rowOf
    split
    · simp
    · split
      · simp
      · exact hmap _ _ hsc
  unfold evaluateMatrix
  split
  · simp
  · have h := (enough_value E hE (fuelFor text)).1 text (by unfold fuelFor; omega)
    split
    · rename_i x e
      rw [e] at h
      exact fun hh => h (by cases hh; rfl)
    · split
      · rename_i v rest e hs
        unfold toMatrix
        split
        · simp
        · simp
        · split
          · exact bind_ne_fuel (hmap _ _ hsc) fun _ => by simp [pure, Except.pure]
          · exact bind_ne_fuel (hmap _ _ (hrow _)) fun _ => by simp [pure, Except.pure]
      · simp

theorem value_at_fuel {E : Env K} (hE : Progress E) {text : Str} {r : Res (Value K)} (h : Conv (fun n => pValue E n text) r) :
    pValue E (fuelFor text) text = r := by
  obtain ⟨N, hN⟩ := h
  have h1 := (enough_value E hE (fuelFor text)).1 text (by unfold fuelFor; omega)
  have h2 := value_le E text _ (fuelFor text + N) h1 (by omega)
  rw [← h2]
  exact hN _ (by omega)

/-- Every text of a value, with any white space, comments and redundant parentheses, evaluates
to the matrix of the value of the tree it denotes, and errors in the tree (division by zero,
unknown names and functions, indices out of range) are reported, the leftmost first. -/
theorem evaluates (E : Env K) (hE : Progress E) {v : VEx K} {s t : Str} (h : VText E (.value v) s) (ht : IgnEnd t)
    (hesc : hasEscape (s ++ t) = false) :
    evaluateMatrix E (s ++ t) = (v.eval E >>= toMatrix) := by
  have hst : skip t = [] := skip_ignEnd ht
  have hnn : NotNext allOps t := by
    intro c _
    unfold consume
    rw [hst]
  have hends : Ends v t := by
    cases v with
    | list l => trivial
    | scalar e => exact ⟨delimited_ignEnd ht, hnn⟩
  have h0 := vtext_outcome h t hends
  unfold evaluateMatrix
  rw [hesc]
  cases he : v.eval E with
  | error x =>
    rw [he] at h0
    rw [value_at_fuel hE h0]
    rfl
  | ok w =>
    rw [he] at h0
    obtain ⟨rest', hr, h0⟩ := h0
    rw [value_at_fuel hE h0]
    simp only [Bool.false_eq_true, if_false, hr, hst, if_true]
    rfl

/-- Text left over after a value is an error. -/
theorem trailing_rejected (E : Env K) (hE : Progress E) {v : VEx K} {w : Value K} {s t : Str} (h : VText E (.value v) s)
    (hv : v.eval E = .ok w) (hends : Ends v t) (ht : skip t ≠ []) (hesc : hasEscape (s ++ t) = false) :
    evaluateMatrix E (s ++ t) = .error .trailing := by
  have h0 := vtext_outcome h t hends
  rw [hv] at h0
  obtain ⟨rest', hr, h0⟩ := h0
  unfold evaluateMatrix
  rw [hesc, value_at_fuel hE h0]
  simp only [Bool.false_eq_true, if_false, hr, ht]

/-- A template with a line that begins with an exclamation mark is refused, whatever else it
contains; without exclamation marks nothing is refused on this ground. -/
theorem escapes (E : Env K) (text : Str) :
    (hasEscape text = true → evaluateMatrix E text = .error .shell) ∧ ('!' ∉ text → hasEscape text = false) := by
  constructor
  · intro h; unfold evaluateMatrix; rw [h]; rfl
  · intro h
    unfold hasEscape
    rw [List.any_eq_false]
    intro line hl
    simp only [beq_iff_eq]
    intro hh
    apply h
    have h1 : '!' ∈ line := by
      have : '!' ∈ line.dropWhile isBlank := List.mem_of_mem_head? hh
      exact (List.dropWhile_suffix _).subset this
    have key : ∀ (l : Str) (line : Str), line ∈ l.splitOn '\n' → ∀ c ∈ line, c ∈ l := by
      intro l line hl c hc
      have := (List.intercalate_splitOn '\n' : ['\n'].intercalate (l.splitOn '\n') = l)
      rw [← this]
      unfold List.intercalate
      rw [List.mem_flatten]
      refine ⟨line, ?_, hc⟩
      have aux : ∀ (L : List Str) (sep : Str), line ∈ L → line ∈ L.intersperse sep := by
        intro L sep h
        induction L with
        | nil => simp at h
        | cons a L ih =>
          cases L with
          | nil => simpa using h
          | cons b L =>
            rw [List.intersperse_cons₂]
            rcases List.mem_cons.mp h with rfl | h
            · simp
            · simp [ih h]
      exact aux _ _ hl
    exact key text line hl _ h1

/-! ### Shapes -/

/-- The value of a table of expressions. -/
def tableValues (E : Env K) (rows : List (List (Ex K))) : Except Err (List (List K)) := rows.mapM (Ex.evalList E)

theorem evalList_ok {E : Env K} {l : List (Ex K)} {vs : List K} : Ex.evalList E l = .ok vs →
    VEx.evalList E (l.map .scalar) = .ok (vs.map .scalar) ∧ vs.length = l.length := by
  induction l generalizing vs with
  | nil => intro h; simp only [Ex.evalList, Except.ok.injEq] at h; subst h; simp [VEx.evalList]
  | cons e l ih =>
    intro h
    simp only [Ex.evalList] at h
    cases he : e.eval E with
    | error x => rw [he] at h; simp at h
    | ok v =>
      rw [he] at h
      dsimp only at h
      cases hl : Ex.evalList E l with
      | error x => rw [hl] at h; simp at h
      | ok ws =>
        rw [hl] at h
        simp only [Except.ok.injEq] at h
        subst h
        obtain ⟨h1, h2⟩ := ih hl
        simp [VEx.evalList, VEx.eval, he, h1, h2]

theorem scalars_mapM (vs : List K) : (vs.map Value.scalar).mapM Value.toScalar = .ok vs := by
  induction vs with
  | nil => rfl
  | cons v vs ih => rw [List.map_cons, List.mapM_cons, ih]; rfl

/-- A rectangular list of lists is the matrix with those entries. -/
theorem matrix_form (E : Env K) (rows : List (List (Ex K))) (vals : List (List K)) (c : ℕ) (hne : rows ≠ [])
    (hv : List.Forall₂ (fun r v => Ex.evalList E r = .ok v) rows vals) (hc : ∀ r ∈ rows, r.length = c) :
    ((VEx.list (rows.map fun r => .list (r.map .scalar))).eval E >>= toMatrix) = .ok ⟨rows.length, c, vals⟩ := by
  have h1 : VEx.evalList E (rows.map fun r => .list (r.map .scalar)) = .ok (vals.map fun v => .list (v.map .scalar)) ∧
      ∀ v ∈ vals, v.length = c := by
    clear hne
    induction hv with
    | nil => simp [VEx.evalList]
    | @cons r v rows vals hr _ ih =>
      obtain ⟨a1, a2⟩ := evalList_ok hr
      obtain ⟨b1, b2⟩ := ih (fun r hr => hc r (by simp [hr]))
      constructor
      · simp [VEx.evalList, VEx.eval, a1, b1]
      · intro w hw
        rcases List.mem_cons.mp hw with rfl | hw
        · rw [a2]; exact hc r (by simp)
        · exact b2 w hw
  obtain ⟨h1, h2⟩ := h1
  have hlen := hv.length_eq
  have hvne : vals ≠ [] := by rintro rfl; exact hne (List.length_eq_zero_iff.mp (by simpa using hlen))
  have hrow : ∀ L : List (List K), (∀ v ∈ L, v.length = c) → (L.map fun v => Value.list (v.map .scalar)).mapM (rowOf c) = .ok L := by
    intro L hL
    induction L with
    | nil => rfl
    | cons v L ih =>
      rw [List.map_cons, List.mapM_cons, ih (fun w hw => hL w (by simp [hw]))]
      have : rowOf c (Value.list (v.map .scalar)) = .ok v := by
        have hlv : ¬ (Value.list (v.map Value.scalar)).items.length ≠ c := by simp [Value.items, hL v (by simp)]
        unfold rowOf
        rw [if_neg (by simp [Value.isScalar]), if_neg hlv]
        exact scalars_mapM v
      rw [this]
      rfl
  simp only [VEx.eval, h1]
  change toMatrix (.list (vals.map fun v => .list (v.map .scalar))) = _
  obtain ⟨v, L, rfl⟩ : ∃ v L, vals = v :: L := by
    cases vals with
    | nil => exact absurd rfl hvne
    | cons v L => exact ⟨v, L, rfl⟩
  have hl : (Value.list (v.map Value.scalar)).items.length = c := by simp [Value.items, h2 v (by simp)]
  have hm := hrow _ h2
  rw [List.map_cons] at hm
  rw [List.map_cons, toMatrix, if_neg (by simp [Value.isScalar]), hl, hm, hlen]
  simp [bind, Except.bind, pure, Except.pure]

/-- A list of expressions is a row, a single expression a 1×1 matrix, the empty list the
empty matrix. -/
theorem row_form (E : Env K) (r : List (Ex K)) (v : List K) (hne : r ≠ []) (hv : Ex.evalList E r = .ok v) :
    ((VEx.list (r.map .scalar)).eval E >>= toMatrix) = .ok ⟨1, r.length, [v]⟩ := by
  obtain ⟨a1, a2⟩ := evalList_ok hv
  simp only [VEx.eval, a1]
  change toMatrix (.list (v.map .scalar)) = _
  obtain ⟨x, L, rfl⟩ : ∃ x L, v = x :: L := by
    cases v with
    | nil => exact absurd (List.length_eq_zero_iff.mp (by simpa using a2.symm)) hne
    | cons x L => exact ⟨x, L, rfl⟩
  rw [List.map_cons, toMatrix, if_pos (by simp [Value.isScalar]), ← List.map_cons (f := Value.scalar), scalars_mapM, ← a2]
  simp [bind, Except.bind, pure, Except.pure]

theorem scalar_form (E : Env K) (e : Ex K) (v : K) (hv : e.eval E = .ok v) :
    ((VEx.scalar e).eval E >>= toMatrix) = .ok ⟨1, 1, [[v]]⟩ ∧ ((VEx.list ([] : List (VEx K))).eval E >>= toMatrix) = .ok ⟨0, 0, []⟩ := by
  constructor
  · simp only [VEx.eval, hv]; rfl
  · simp only [VEx.eval, VEx.evalList]; rfl

/-- Whatever is accepted is a full rectangle: ragged lists, lists that mix numbers and rows,
and deeper nesting are errors. -/
theorem accepted_is_rectangle (v : Value K) (m : Matrix K) (h : toMatrix v = .ok m) :
    m.entries.length = m.rows ∧ (∀ r ∈ m.entries, r.length = m.cols) ∧
    ((∃ x, v = .scalar x ∧ m.entries = [[x]]) ∨ (v = .list [] ∧ m.entries = []) ∨
     (∃ r, r ≠ [] ∧ v = .list (r.map .scalar) ∧ m.entries = [r]) ∨
     (m.entries ≠ [] ∧ v = .list (m.entries.map fun r => .list (r.map .scalar)))) := by
  have hsc : ∀ (l : List (Value K)) (w : List K), l.mapM Value.toScalar = .ok w → l = w.map .scalar := by
    intro l
    induction l with
    | nil => intro w hw; simp [pure, Except.pure] at hw; subst hw; rfl
    | cons x l ih =>
      intro w hw
      rw [List.mapM_cons] at hw
      cases x with
      | list y => simp [Value.toScalar, bind, Except.bind] at hw
      | scalar y =>
        cases hl : l.mapM Value.toScalar with
        | error e => rw [hl] at hw; simp [Value.toScalar, bind, Except.bind] at hw
        | ok u =>
          rw [hl] at hw
          simp only [Value.toScalar, bind, Except.bind, pure, Except.pure, Except.ok.injEq] at hw
          subst hw
          rw [ih u hl]; rfl
  have hrow : ∀ (c : ℕ) (x : Value K) (w : List K), rowOf c x = .ok w → x = .list (w.map .scalar) ∧ w.length = c := by
    intro c x w hw
    unfold rowOf at hw
    split at hw
    · simp at hw
    · split at hw
      · simp at hw
      · rename_i h1 h2
        cases x with
        | scalar y => simp [Value.isScalar] at h1
        | list l =>
          have := hsc _ _ hw
          simp only [Value.items] at this h2
          refine ⟨by rw [this], ?_⟩
          rw [this, List.length_map] at h2
          omega
  have hrows : ∀ (c : ℕ) (l : List (Value K)) (w : List (List K)), l.mapM (rowOf c) = .ok w →
      l = w.map (fun r => .list (r.map .scalar)) ∧ ∀ r ∈ w, r.length = c := by
    intro c l
    induction l with
    | nil => intro w hw; simp [pure, Except.pure] at hw; subst hw; simp
    | cons x l ih =>
      intro w hw
      rw [List.mapM_cons] at hw
      cases hx : rowOf c x with
      | error e => rw [hx] at hw; simp [bind, Except.bind] at hw
      | ok y =>
        cases hl : l.mapM (rowOf c) with
        | error e => rw [hx, hl] at hw; simp [bind, Except.bind] at hw
        | ok u =>
          rw [hx, hl] at hw
          simp only [bind, Except.bind, pure, Except.pure, Except.ok.injEq] at hw
          subst hw
          obtain ⟨a1, a2⟩ := hrow c x y hx
          obtain ⟨b1, b2⟩ := ih u hl
          refine ⟨by rw [List.map_cons, ← b1, ← a1], ?_⟩
          intro r hr
          rcases List.mem_cons.mp hr with rfl | hr
          exacts [a2, b2 r hr]
  unfold toMatrix at h
  split at h
  · rename_i x
    simp only [Except.ok.injEq] at h
    subst h
    exact ⟨rfl, by simp, Or.inl ⟨x, rfl, rfl⟩⟩
  · simp only [Except.ok.injEq] at h
    subst h
    exact ⟨rfl, by simp, Or.inr (Or.inl ⟨rfl, rfl⟩)⟩
  · rename_i x l
    split at h
    · cases hw : (x :: l).mapM Value.toScalar with
      | error e => rw [hw] at h; simp [bind, Except.bind] at h
      | ok w =>
        rw [hw] at h
        simp only [bind, Except.bind, pure, Except.pure, Except.ok.injEq] at h
        subst h
        have h1 := hsc _ _ hw
        have h2 : w.length = (x :: l).length := by rw [h1, List.length_map]
        refine ⟨rfl, by simpa using h2, Or.inr (Or.inr (Or.inl ⟨w, ?_, by rw [h1], rfl⟩))⟩
        rintro rfl; simp at h2
    · cases hw : (x :: l).mapM (rowOf x.items.length) with
      | error e => rw [hw] at h; simp [bind, Except.bind] at h
      | ok w =>
        rw [hw] at h
        simp only [bind, Except.bind, pure, Except.pure, Except.ok.injEq] at h
        subst h
        obtain ⟨h1, h2⟩ := hrows _ _ _ hw
        have h3 : w.length = (x :: l).length := by rw [h1, List.length_map]
        refine ⟨h3, h2, Or.inr (Or.inr (Or.inr ⟨?_, by rw [← h1]⟩))⟩
        rintro rfl; simp at h3

/-! ### Every tree has a text -/

/-- The numbers of the tree have a notation and its names are names. -/
inductive Printable (E : Env K) : Ex K → Prop
  | num {v t} (h : Lit E t v) : Printable E (.num v)
  | var {nm} (h : IsName nm) : Printable E (.var nm)
  | neg {e} (h : Printable E e) : Printable E (.neg e)
  | pos {e} (h : Printable E e) : Printable E (.pos e)
  | add {a b} (h : Printable E a) (h' : Printable E b) : Printable E (.add a b)
  | sub {a b} (h : Printable E a) (h' : Printable E b) : Printable E (.sub a b)
  | mul {a b} (h : Printable E a) (h' : Printable E b) : Printable E (.mul a b)
  | div {a b} (h : Printable E a) (h' : Printable E b) : Printable E (.div a b)
  | call {nm es} (h : IsName nm) (h' : ∀ e ∈ es, Printable E e) : Printable E (.call nm es)

theorem printable_text {E : Env K} {e : Ex K} (h : Printable E e) : ∃ s, Text E (.primary e) s := by
  have up : ∀ {e : Ex K} {s}, Text E (.primary e) s → Text E (.expr e) s := fun h => .ofProduct (.ofUnary (.ofPrimary h))
  induction h with
  | num h => exact ⟨_, .num .nil h⟩
  | var h => exact ⟨_, .var .nil h⟩
  | neg h ih => obtain ⟨s, hs⟩ := ih; exact ⟨_, .paren .nil (.ofProduct (.ofUnary (.neg .nil (.ofPrimary hs)))) .nil⟩
  | pos h ih => obtain ⟨s, hs⟩ := ih; exact ⟨_, .paren .nil (.ofProduct (.ofUnary (.pos .nil (.ofPrimary hs)))) .nil⟩
  | add h h' ih ih' =>
    obtain ⟨s, hs⟩ := ih
    obtain ⟨t, ht⟩ := ih'
    exact ⟨_, .paren .nil (.add (up hs) .nil (.ofUnary (.ofPrimary ht))) .nil⟩
  | sub h h' ih ih' =>
    obtain ⟨s, hs⟩ := ih
    obtain ⟨t, ht⟩ := ih'
    exact ⟨_, .paren .nil (.sub (up hs) .nil (.ofUnary (.ofPrimary ht))) .nil⟩
  | mul h h' ih ih' =>
    obtain ⟨s, hs⟩ := ih
    obtain ⟨t, ht⟩ := ih'
    exact ⟨_, .paren .nil (.ofProduct (.mul (.ofUnary (.ofPrimary hs)) .nil (.ofPrimary ht))) .nil⟩
  | div h h' ih ih' =>
    obtain ⟨s, hs⟩ := ih
    obtain ⟨t, ht⟩ := ih'
    exact ⟨_, .paren .nil (.ofProduct (.div (.ofUnary (.ofPrimary hs)) .nil (.ofPrimary ht))) .nil⟩
  | @call nm es h h' ih =>
    have key : ∀ es : List (Ex K), es ≠ [] → (∀ e ∈ es, ∃ s, Text E (.primary e) s) → ∃ s, Text E (.args es) s := by
      intro es
      induction es with
      | nil => intro h; exact absurd rfl h
      | cons e es ih2 =>
        intro _ hall
        obtain ⟨s, hs⟩ := hall e (by simp)
        by_cases hes : es = []
        · subst hes; exact ⟨s, .argOne (up hs)⟩
        · obtain ⟨t, ht⟩ := ih2 hes (fun e he => hall e (by simp [he]))
          exact ⟨_, .argMore (up hs) .nil ht⟩
    by_cases hes : es = []
    · subst hes; exact ⟨_, .call0 .nil h .nil (Or.inl ⟨rfl, rfl⟩) .nil⟩
    · obtain ⟨s, hs⟩ := key es hes ih
      exact ⟨_, .call .nil h .nil (Or.inl ⟨rfl, rfl⟩) hs .nil⟩

/-! ### Decimal notation -/

/-- With decimal notation every phrase makes progress, and the digits of a number, with or
without a point, denote it. -/
theorem decimal_ok (E : Env K) (h : E.strtod = decimal) :
    Progress E ∧
    (∀ ds : Str, ds ≠ [] → (∀ c ∈ ds, isDigit c = true) → Lit E ds (natValue ds : K)) ∧
    (∀ ip fp : Str, ip ≠ [] → (∀ c ∈ ip, isDigit c = true) → (∀ c ∈ fp, isDigit c = true) →
      Lit E (ip ++ '.' :: fp) ((natValue (ip ++ fp) : K) / 10 ^ fp.length)) := by
  refine ⟨fun s v t hs => decimal_progress (by rw [← h]; exact hs), fun ds hne hd => ?_, fun ip fp hne hi hf => ?_⟩
  · constructor
    · cases ds with
      | nil => exact absurd rfl hne
      | cons c u => exact ⟨c, u, rfl, Or.inl (hd c (by simp))⟩
    · intro rest hr
      rw [h]; exact decimal_integer hne hd hr
  · constructor
    · cases ip with
      | nil => exact absurd rfl hne
      | cons c u => exact ⟨c, _, rfl, Or.inl (hi c (by simp))⟩
    · intro rest hr
      rw [h]
      exact decimal_point (by cases ip <;> simp_all) hi hf hr

/-- A decimal number with an exponent is scaled by that power of ten. -/
theorem decimal_exponent (E : Env K) (h : E.strtod = decimal) (ip fp : Str) (hne : ip ≠ []) (hi : ∀ c ∈ ip, isDigit c = true)
    (hf : ∀ c ∈ fp, isDigit c = true) (c : Char) (hc : c = 'e' ∨ c = 'E') (es : Str) (hes : es ≠ []) (he : ∀ x ∈ es, isDigit x = true) :
    Lit E (ip ++ '.' :: (fp ++ c :: es)) ((natValue (ip ++ fp) : K) / 10 ^ fp.length * 10 ^ natValue es) ∧
    Lit E (ip ++ '.' :: (fp ++ c :: '+' :: es)) ((natValue (ip ++ fp) : K) / 10 ^ fp.length * 10 ^ natValue es) ∧
    Lit E (ip ++ '.' :: (fp ++ c :: '-' :: es)) ((natValue (ip ++ fp) : K) / 10 ^ fp.length / 10 ^ natValue es) := by
  have hstart : ∀ t : Str, ∃ d u, ip ++ t = d :: u ∧ (isDigit d = true ∨ d = '.') := by
    intro t
    cases ip with
    | nil => exact absurd rfl hne
    | cons d u => exact ⟨d, _, rfl, Or.inl (hi d (by simp))⟩
  have hne' : ip ++ fp ≠ [] := by cases ip <;> simp_all
  refine ⟨⟨hstart _, fun rest hr => ?_⟩, ⟨hstart _, fun rest hr => ?_⟩, ⟨hstart _, fun rest hr => ?_⟩⟩
  · rw [h]
    have := decimal_scaled (K := K) hne' hi hf (sg := ([], 1)) (by simp [expSigns]) hc hes he hr
    simpa using this
  · rw [h]
    have := decimal_scaled (K := K) hne' hi hf (sg := (['+'], 1)) (by simp [expSigns]) hc hes he hr
    simpa using this
  · rw [h]
    have := decimal_scaled (K := K) hne' hi hf (sg := (['-'], -1)) (by simp [expSigns]) hc hes he hr
    simpa [div_eq_mul_inv] using this

-- 2.5e-1 is a quarter
example : decimal (K := ℚ) "2.5e-1*".toList = some (1 / 4, ['*']) := by decide +kernel

/-- A concrete environment, over the rationals, with a variable `U` and one channel. -/
def sampleEnv : Env ℚ where
  vars := [("U".toList, 3)]
  channels := [(1, [2, 5], [7])]
  strtod := decimal
  pi := 22 / 7
  sqrt := id
  exp := id
  log := id
  round := fun q => q.floor
  notIntegral := fun q => q ≠ q.floor

-- `-2*U + 8/4/2 - (1 - 2)` with a comment: -6 + 1 - -1 = -4
example : (∃ e s, Text sampleEnv (.expr e) s ∧ s = "-2*U + 8/4/2 # x\n - (1 - 2)".toList ∧ e.eval sampleEnv = .ok (-4)) ∧
    evaluateMatrix sampleEnv "-2*U + 8/4/2 # x\n - (1 - 2)".toList = .ok ⟨1, 1, [[-4]]⟩ := by
  obtain ⟨hp, hl, _⟩ := decimal_ok sampleEnv rfl
  have lit : ∀ (c : Char) (v : ℚ), isDigit c = true → ((c.toNat - 48 : ℕ) : ℚ) = v → Lit sampleEnv [c] v := by
    intro c v hc hv
    have := hl [c] (by simp) (by simpa using hc)
    rw [← hv]
    simpa [natValue] using this
  have sp : Ign [' '] := .space ' ' [] (by decide) .nil
  have cm : Ign " # x\n ".toList := .space ' ' _ (by decide) (.comment [' ', 'x'] [' '] (by decide) sp)
  have nU : IsName ['U'] := ⟨⟨'U', [], rfl, Or.inl (by decide)⟩, by decide⟩
  have t1 : Text sampleEnv (.product (.mul (.neg (.num 2)) (.var ['U']))) "-2*U".toList :=
    .mul (.ofUnary (.neg .nil (.ofPrimary (.num .nil (lit '2' 2 (by decide) (by decide +kernel)))))) .nil (.ofPrimary (.var .nil nU))
  have t2 : Text sampleEnv (.product (.div (.div (.num 8) (.num 4)) (.num 2))) " 8/4/2".toList :=
    .div (.div (.ofUnary (.ofPrimary (.num sp (lit '8' 8 (by decide) (by decide +kernel))))) .nil
      (.ofPrimary (.num .nil (lit '4' 4 (by decide) (by decide +kernel))))) .nil
      (.ofPrimary (.num .nil (lit '2' 2 (by decide) (by decide +kernel))))
  have t3 : Text sampleEnv (.primary (.sub (.num 1) (.num 2))) " (1 - 2)".toList :=
    .paren sp (.sub (.ofProduct (.ofUnary (.ofPrimary (.num .nil (lit '1' 1 (by decide) (by decide +kernel)))))) sp
      (.ofUnary (.ofPrimary (.num sp (lit '2' 2 (by decide) (by decide +kernel)))))) .nil
  have t4 : Text sampleEnv (.expr _) "-2*U + 8/4/2 # x\n - (1 - 2)".toList := .sub (.add (.ofProduct t1) sp t2) cm (.ofUnary (.ofPrimary t3))
  have hv : (Ex.sub (.add (.mul (.neg (.num 2)) (.var ['U'])) (.div (.div (.num 8) (.num 4)) (.num 2))) (.sub (.num 1) (.num 2))).eval sampleEnv
      = .ok (-4 : ℚ) := by decide +kernel
  refine ⟨⟨_, _, t4, rfl, hv⟩, ?_⟩
  have := evaluates sampleEnv hp (VText.scalar t4) (Or.inl .nil) (by decide +kernel)
  rw [List.append_nil, (scalar_form sampleEnv _ _ hv).1] at this
  exact this

/-- **C48.** What the functions of the Wilson chain give: channels are numbered from 1 and
coefficients from 0, and the right table is read. -/
theorem chain_functions (E : Env K) (x y : K) (ch i : ℕ) (θ : K) (ξ ζ : List K)
    (hx : E.notIntegral x = false) (hy : E.notIntegral y = false) (rx : E.round x = ch) (ry : E.round y = i)
    (hch : 1 ≤ ch) (hc : E.channels[ch - 1]? = some (θ, ξ, ζ)) :
    E.call "gammaPolCh".toList [x] = .ok (E.sqrt (θ / E.pi)) ∧
    E.call "coefxi".toList [x, y] = (match ξ[i]? with | some v => .ok v | none => .error .index) ∧
    E.call "coefzeta".toList [x, y] = (match ζ[i]? with | some v => .ok v | none => .error .index) := by
  have hl : ch ≤ E.channels.length := by
    obtain ⟨h, _⟩ := List.getElem?_eq_some_iff.1 hc
    omega
  have hC : E.channel (ch : Int) = .ok (θ, ξ, ζ) := by
    unfold Env.channel
    have e : ((ch : Int) - 1).toNat = ch - 1 := by omega
    rw [if_neg (by omega), e, hc]
  have hK : ∀ l : List K, coefficient l (i : Int) = (match l[i]? with | some v => .ok v | none => .error .index) := by
    intro l
    unfold coefficient
    rw [if_neg (by omega)]
    rfl
  refine ⟨?_, ?_, ?_⟩
  · unfold Env.call
    simp [Env.integral, hx, rx, hC, bind, Except.bind, pure, Except.pure]
  · unfold Env.call
    simp [Env.integral, hx, hy, rx, ry, hC, bind, Except.bind, hK]
  · unfold Env.call
    simp [Env.integral, hx, hy, rx, ry, hC, bind, Except.bind, hK]

/-- A channel outside the range is an error. -/
theorem channel_out_of_range (E : Env K) (x : K) (hx : E.notIntegral x = false)
    (h : E.round x < 1 ∨ (E.channels.length : Int) < E.round x) (y : K) (hy : E.notIntegral y = false) :
    E.call "gammaPolCh".toList [x] = .error .channel ∧ E.call "coefxi".toList [x, y] = .error .channel ∧
    E.call "coefzeta".toList [x, y] = .error .channel := by
  have hC : E.channel (E.round x) = .error .channel := by
    unfold Env.channel
    rw [if_pos h]
  refine ⟨?_, ?_, ?_⟩ <;>
  · unfold Env.call
    simp [Env.integral, hx, hy, hC, bind, Except.bind]

-- a matrix, a ragged one, a mixed one, trailing text, division by zero, an unknown name, a chain coefficient
example : evaluateMatrix sampleEnv "{{1,-U},{.5, coefxi(1,1)}}".toList = .ok ⟨2, 2, [[1, -3], [1 / 2, 5]]⟩ := by decide +kernel
example : evaluateMatrix sampleEnv "{{1,2},{3}}".toList = .error .ragged := by decide +kernel
example : evaluateMatrix sampleEnv "{{1},3}".toList = .error .mixed := by decide +kernel
example : evaluateMatrix sampleEnv "{1,{3}}".toList = .error .scalarExpected := by decide +kernel
example : evaluateMatrix sampleEnv "1 2".toList = .error .trailing := by decide +kernel
example : evaluateMatrix sampleEnv "1/(U-3)".toList = .error .divZero := by decide +kernel
example : evaluateMatrix sampleEnv "V".toList = .error .unknownVariable := by decide +kernel
example : evaluateMatrix sampleEnv "coefzeta[1,1]".toList = .error .index := by decide +kernel
example : evaluateMatrix sampleEnv "1\n !ls".toList = .error .shell := by decide +kernel

end Verif.Inst
