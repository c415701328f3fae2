import Verif.Inst.Lemmas
/-!
# The parser terminates: enough fuel, and independence of the fuel
-/

namespace Verif.Inst
open Verif.Text

variable {K : Type} [Field K] [DecidableEq K]

/-! ### Results do not depend on the fuel -/

/-- One more unit of fuel does not change a result. -/
structure Stable (E : Env K) (n : ℕ) : Prop where
  expr : ∀ s, pExpr E n s ≠ .error .fuel → pExpr E (n + 1) s = pExpr E n s
  exprLoop : ∀ v s, pExprLoop E n v s ≠ .error .fuel → pExprLoop E (n + 1) v s = pExprLoop E n v s
  product : ∀ s, pProduct E n s ≠ .error .fuel → pProduct E (n + 1) s = pProduct E n s
  productLoop : ∀ v s, pProductLoop E n v s ≠ .error .fuel → pProductLoop E (n + 1) v s = pProductLoop E n v s
  unary : ∀ s, pUnary E n s ≠ .error .fuel → pUnary E (n + 1) s = pUnary E n s
  primary : ∀ s, pPrimary E n s ≠ .error .fuel → pPrimary E (n + 1) s = pPrimary E n s
  args : ∀ c s, pArgs E n c s ≠ .error .fuel → pArgs E (n + 1) c s = pArgs E n c s
  argsLoop : ∀ c a s, pArgsLoop E n c a s ≠ .error .fuel → pArgsLoop E (n + 1) c a s = pArgsLoop E n c a s

theorem stable (E : Env K) (n : ℕ) : Stable E n := by
  induction n with
  | zero => constructor <;> intros <;> rename_i h <;> exact absurd rfl h
  | succ n ih =>
    constructor
    · intro s h
      rw [pExpr] at h ⊢
      rw [pExpr.eq_2]
      cases e : pProduct E n s with
      | error x =>
        rw [e] at h
        rw [ih.product s (by rw [e]; exact h), e]
      | ok r =>
        rw [ih.product s (by rw [e]; simp), e]
        rw [e] at h
        exact ih.exprLoop _ _ h
    · intro v s h
      rw [pExprLoop] at h ⊢
      rw [pExprLoop.eq_2]
      cases h1 : consume '+' s with
      | some t =>
        rw [h1] at h
        dsimp only at h ⊢
        cases e : pProduct E n t with
        | error x =>
          rw [e] at h
          rw [ih.product t (by rw [e]; exact h), e]
        | ok r =>
          rw [ih.product t (by rw [e]; simp), e]
          rw [e] at h
          exact ih.exprLoop _ _ h
      | none =>
        rw [h1] at h
        dsimp only at h ⊢
        cases h2 : consume '-' s with
        | some t =>
          rw [h2] at h
          dsimp only at h ⊢
          cases e : pProduct E n t with
          | error x =>
            rw [e] at h
            rw [ih.product t (by rw [e]; exact h), e]
          | ok r =>
            rw [ih.product t (by rw [e]; simp), e]
            rw [e] at h
            exact ih.exprLoop _ _ h
        | none => rfl
    · intro s h
      rw [pProduct] at h ⊢
      rw [pProduct.eq_2]
      cases e : pUnary E n s with
      | error x =>
        rw [e] at h
        rw [ih.unary s (by rw [e]; exact h), e]
      | ok r =>
        rw [ih.unary s (by rw [e]; simp), e]
        rw [e] at h
        exact ih.productLoop _ _ h
    · intro v s h
      rw [pProductLoop] at h ⊢
      rw [pProductLoop.eq_2]
      cases h1 : consume '*' s with
      | some t =>
        rw [h1] at h
        dsimp only at h ⊢
        cases e : pUnary E n t with
        | error x =>
          rw [e] at h
          rw [ih.unary t (by rw [e]; exact h), e]
        | ok r =>
          rw [ih.unary t (by rw [e]; simp), e]
          rw [e] at h
          exact ih.productLoop _ _ h
      | none =>
        rw [h1] at h
        dsimp only at h ⊢
        cases h2 : consume '/' s with
        | some t =>
          rw [h2] at h
          dsimp only at h ⊢
          cases e : pUnary E n t with
          | error x =>
            rw [e] at h
            rw [ih.unary t (by rw [e]; exact h), e]
          | ok r =>
            rw [ih.unary t (by rw [e]; simp), e]
            rw [e] at h
            dsimp only at h ⊢
            by_cases hz : r.1 = 0
            · rw [if_pos hz, if_pos hz]
            · rw [if_neg hz] at h ⊢
              rw [if_neg hz]
              exact ih.productLoop _ _ h
        | none => rfl
    · intro s h
      rw [pUnary] at h ⊢
      rw [pUnary.eq_2]
      cases h1 : consume '+' s with
      | some t =>
        rw [h1] at h
        exact ih.unary _ h
      | none =>
        rw [h1] at h
        dsimp only at h ⊢
        cases h2 : consume '-' s with
        | some t =>
          rw [h2] at h
          dsimp only at h ⊢
          cases e : pUnary E n t with
          | error x =>
            rw [e] at h
            rw [ih.unary t (by rw [e]; exact h), e]
          | ok r => rw [ih.unary t (by rw [e]; simp), e]
        | none =>
          rw [h2] at h
          exact ih.primary _ h
    · intro s h
      rw [pPrimary] at h ⊢
      rw [pPrimary.eq_2]
      cases h1 : consume '(' s with
      | some t =>
        rw [h1] at h
        dsimp only at h ⊢
        cases e : pExpr E n t with
        | error x =>
          rw [e] at h
          rw [ih.expr t (by rw [e]; exact h), e]
        | ok r => rw [ih.expr t (by rw [e]; simp), e]
      | none =>
        rw [h1] at h
        dsimp only at h ⊢
        by_cases hs : startsIdent (skip s) = true
        · rw [if_pos hs] at h ⊢
          rw [if_pos hs]
          cases h2 : consume '(' (identifier (skip s)).2 with
          | some t =>
            rw [h2] at h
            dsimp only at h ⊢
            cases e : pArgs E n ')' t with
            | error x =>
              rw [e] at h
              rw [ih.args _ t (by rw [e]; exact fun hh => h (by cases hh; rfl)), e]
            | ok r => rw [ih.args _ t (by rw [e]; simp), e]
          | none =>
            rw [h2] at h
            dsimp only at h ⊢
            cases h3 : consume '[' (identifier (skip s)).2 with
            | some t =>
              rw [h3] at h
              dsimp only at h ⊢
              cases e : pArgs E n ']' t with
              | error x =>
                rw [e] at h
                rw [ih.args _ t (by rw [e]; exact fun hh => h (by cases hh; rfl)), e]
              | ok r => rw [ih.args _ t (by rw [e]; simp), e]
            | none => rfl
        · rw [if_neg hs, if_neg hs]
    · intro c s h
      rw [pArgs] at h ⊢
      rw [pArgs.eq_2]
      cases h1 : consume c s with
      | some t => rfl
      | none =>
        rw [h1] at h
        exact ih.argsLoop _ _ _ h
    · intro c a s h
      rw [pArgsLoop] at h ⊢
      rw [pArgsLoop.eq_2]
      cases e : pExpr E n s with
      | error x =>
        rw [e] at h
        rw [ih.expr s (by rw [e]; exact fun hh => h (by cases hh; rfl)), e]
      | ok r =>
        rw [ih.expr s (by rw [e]; simp), e]
        rw [e] at h
        dsimp only at h ⊢
        cases h1 : consume c r.2 with
        | some t => rfl
        | none =>
          rw [h1] at h
          dsimp only at h ⊢
          cases h2 : consume ',' r.2 with
          | some t =>
            rw [h2] at h
            exact ih.argsLoop _ _ _ h
          | none => rfl

/-- The same for values and lists of values. -/
theorem stable_value (E : Env K) (n : ℕ) :
    (∀ s, pValue E n s ≠ .error .fuel → pValue E (n + 1) s = pValue E n s) ∧
    (∀ a s, pItems E n a s ≠ .error .fuel → pItems E (n + 1) a s = pItems E n a s) := by
  induction n with
  | zero => constructor <;> intros <;> rename_i h <;> exact absurd rfl h
  | succ n ih =>
    obtain ⟨ihv, ihi⟩ := ih
    constructor
    · intro s h
      rw [pValue] at h ⊢
      rw [pValue.eq_2]
      cases h1 : consume '{' s with
      | none =>
        rw [h1] at h
        dsimp only at h ⊢
        cases e : pExpr E n s with
        | error x =>
          rw [e] at h
          rw [(stable E n).expr s (by rw [e]; exact fun hh => h (by cases hh; rfl)), e]
        | ok r => rw [(stable E n).expr s (by rw [e]; simp), e]
      | some t =>
        rw [h1] at h
        dsimp only at h ⊢
        cases h2 : consume '}' t with
        | some u => rfl
        | none =>
          rw [h2] at h
          exact ihi _ _ h
    · intro a s h
      rw [pItems] at h ⊢
      rw [pItems.eq_2]
      cases e : pValue E n s with
      | error x =>
        rw [e] at h
        rw [ihv s (by rw [e]; exact h), e]
      | ok r =>
        rw [ihv s (by rw [e]; simp), e]
        rw [e] at h
        dsimp only at h ⊢
        cases h1 : consume '}' r.2 with
        | some t => rfl
        | none =>
          rw [h1] at h
          dsimp only at h ⊢
          cases h2 : consume ',' r.2 with
          | some t =>
            rw [h2] at h
            exact ihi _ _ h
          | none => rfl

theorem value_le (E : Env K) (s : Str) (n m : ℕ) (h : pValue E n s ≠ .error .fuel) (hm : n ≤ m) : pValue E m s = pValue E n s := by
  induction m, hm using Nat.le_induction with
  | base => rfl
  | succ m _ ih => rw [(stable_value E m).1 s (by rw [ih]; exact h), ih]

/-! ### Every phrase shortens the input -/

theorem identifier_length {s : Str} (h : startsIdent s = true) : (identifier s).2.length < s.length := by
  cases s with
  | nil => simp [startsIdent] at h
  | cons c t =>
    have hc : identChar c = true := by
      simp only [startsIdent, Bool.or_eq_true] at h
      simp only [identChar, Bool.or_eq_true]
      tauto
    simp only [identifier, List.dropWhile_cons, hc, if_true, List.length_cons]
    have := (List.dropWhile_suffix (p := identChar) (l := t)).length_le
    omega

structure Shorter (E : Env K) (n : ℕ) : Prop where
  expr : ∀ s v t, pExpr E n s = .ok (v, t) → t.length < s.length
  exprLoop : ∀ x s v t, pExprLoop E n x s = .ok (v, t) → t.length ≤ s.length
  product : ∀ s v t, pProduct E n s = .ok (v, t) → t.length < s.length
  productLoop : ∀ x s v t, pProductLoop E n x s = .ok (v, t) → t.length ≤ s.length
  unary : ∀ s v t, pUnary E n s = .ok (v, t) → t.length < s.length
  primary : ∀ s v t, pPrimary E n s = .ok (v, t) → t.length < s.length
  args : ∀ c s v t, pArgs E n c s = .ok (v, t) → t.length < s.length
  argsLoop : ∀ c a s v t, pArgsLoop E n c a s = .ok (v, t) → t.length < s.length

theorem shorter (E : Env K) (hE : Progress E) (n : ℕ) : Shorter E n := by
  induction n with
  | zero => constructor <;> intros <;> rename_i h <;> simp [pExpr, pExprLoop, pProduct, pProductLoop, pUnary, pPrimary, pArgs, pArgsLoop] at h
  | succ n ih =>
    constructor
    · intro s v t h
      rw [pExpr] at h
      split at h
      · simp at h
      · rename_i w u e
        have h1 := ih.product _ _ _ e
        have h2 := ih.exprLoop _ _ _ _ h
        omega
    · intro x s v t h
      rw [pExprLoop] at h
      split at h
      · rename_i u e0
        have h0 := consume_length e0
        split at h
        · simp at h
        · rename_i w u' e
          have h1 := ih.product _ _ _ e
          have h2 := ih.exprLoop _ _ _ _ h
          omega
      · split at h
        · rename_i u e0
          have h0 := consume_length e0
          split at h
          · simp at h
          · rename_i w u' e
            have h1 := ih.product _ _ _ e
            have h2 := ih.exprLoop _ _ _ _ h
            omega
        · simp only [Except.ok.injEq, Prod.mk.injEq] at h
          rw [← h.2]; exact skip_length' s
    · intro s v t h
      rw [pProduct] at h
      split at h
      · simp at h
      · rename_i w u e
        have h1 := ih.unary _ _ _ e
        have h2 := ih.productLoop _ _ _ _ h
        omega
    · intro x s v t h
      rw [pProductLoop] at h
      split at h
      · rename_i u e0
        have h0 := consume_length e0
        split at h
        · simp at h
        · rename_i w u' e
          have h1 := ih.unary _ _ _ e
          have h2 := ih.productLoop _ _ _ _ h
          omega
      · split at h
        · rename_i u e0
          have h0 := consume_length e0
          split at h
          · simp at h
          · rename_i w u' e
            have h1 := ih.unary _ _ _ e
            split at h
            · simp at h
            · have h2 := ih.productLoop _ _ _ _ h
              omega
        · simp only [Except.ok.injEq, Prod.mk.injEq] at h
          rw [← h.2]; exact skip_length' s
    · intro s v t h
      rw [pUnary] at h
      split at h
      · rename_i u e0
        have h0 := consume_length e0
        have h1 := ih.unary _ _ _ h
        omega
      · split at h
        · rename_i u e0
          have h0 := consume_length e0
          split at h
          · simp at h
          · rename_i w u' e
            have h1 := ih.unary _ _ _ e
            simp only [Except.ok.injEq, Prod.mk.injEq] at h
            rw [← h.2]
            omega
        · exact ih.primary _ _ _ h
    · intro s v t h
      rw [pPrimary] at h
      split at h
      · rename_i u e0
        have h0 := consume_length e0
        split at h
        · simp at h
        · rename_i w u' e
          have h1 := ih.expr _ _ _ e
          split at h
          · rename_i u'' e2
            have h2 := consume_length e2
            simp only [Except.ok.injEq, Prod.mk.injEq] at h
            rw [← h.2]
            omega
          · simp at h
      · have hsk := skip_length' s
        split at h
        · rename_i hid
          have hl := identifier_length hid
          split at h
          · rename_i u e0
            have h0 := consume_length e0
            split at h
            · simp at h
            · rename_i w u' e
              have h1 := ih.args _ _ _ _ e
              split at h
              · simp at h
              · simp only [Except.ok.injEq, Prod.mk.injEq] at h
                rw [← h.2]
                omega
          · split at h
            · rename_i u e0
              have h0 := consume_length e0
              split at h
              · simp at h
              · rename_i w u' e
                have h1 := ih.args _ _ _ _ e
                split at h
                · simp at h
                · simp only [Except.ok.injEq, Prod.mk.injEq] at h
                  rw [← h.2]
                  omega
            · split at h
              · simp at h
              · split at h
                · simp at h
                · simp only [Except.ok.injEq, Prod.mk.injEq] at h
                  rw [← h.2]
                  have := skip_length' (identifier (skip s)).2
                  omega
        · unfold Env.number at h
          split at h
          · rename_i r e
            simp only [Except.ok.injEq] at h
            subst h
            have := hE _ _ _ e
            omega
          · simp at h
    · intro c s v t h
      rw [pArgs] at h
      split at h
      · rename_i u e0
        have h0 := consume_length e0
        simp only [Except.ok.injEq, Prod.mk.injEq] at h
        rw [← h.2]
        omega
      · exact ih.argsLoop _ _ _ _ _ h
    · intro c a s v t h
      rw [pArgsLoop] at h
      split at h
      · simp at h
      · rename_i w u e
        have h1 := ih.expr _ _ _ e
        split at h
        · rename_i u' e2
          have h2 := consume_length e2
          simp only [Except.ok.injEq, Prod.mk.injEq] at h
          rw [← h.2]
          omega
        · split at h
          · rename_i u' e2
            have h2 := consume_length e2
            have h3 := ih.argsLoop _ _ _ _ _ h
            omega
          · simp at h

theorem shorter_value (E : Env K) (hE : Progress E) (n : ℕ) :
    (∀ s v t, pValue E n s = .ok (v, t) → t.length < s.length) ∧ (∀ a s v t, pItems E n a s = .ok (v, t) → t.length < s.length) := by
  induction n with
  | zero => constructor <;> intros <;> rename_i h <;> simp [pValue, pItems] at h
  | succ n ih =>
    obtain ⟨ihv, ihi⟩ := ih
    constructor
    · intro s v t h
      rw [pValue] at h
      split at h
      · split at h
        · simp at h
        · rename_i w u e
          have h1 := (shorter E hE n).expr _ _ _ e
          simp only [Except.ok.injEq, Prod.mk.injEq] at h
          rw [← h.2]
          omega
      · rename_i u e0
        have h0 := consume_length e0
        split at h
        · rename_i u' e2
          have h2 := consume_length e2
          simp only [Except.ok.injEq, Prod.mk.injEq] at h
          rw [← h.2]
          omega
        · have h1 := ihi _ _ _ _ h
          omega
    · intro a s v t h
      rw [pItems] at h
      split at h
      · simp at h
      · rename_i w u e
        have h1 := ihv _ _ _ e
        split at h
        · rename_i u' e2
          have h2 := consume_length e2
          simp only [Except.ok.injEq, Prod.mk.injEq] at h
          rw [← h.2]
          omega
        · split at h
          · rename_i u' e2
            have h2 := consume_length e2
            have h3 := ihi _ _ _ _ h
            omega
          · simp at h

/-! ### Enough fuel -/

theorem lookup_ne_fuel (E : Env K) (nm : Str) : E.lookup nm ≠ .error .fuel := by
  unfold Env.lookup
  split
  · simp
  · split <;> simp

theorem channel_ne_fuel (E : Env K) (c : Int) : E.channel c ≠ .error .fuel := by
  unfold Env.channel
  split
  · simp
  · split <;> simp

theorem integral_ne_fuel (E : Env K) (v : K) : E.integral v ≠ .error .fuel := by
  unfold Env.integral
  split <;> simp

theorem coefficient_ne_fuel (l : List K) (i : Int) : coefficient l i ≠ .error .fuel := by
  unfold coefficient
  split
  · simp
  · split <;> simp

theorem bind_ne_fuel {α β : Type} {x : Except Err α} {f : α → Except Err β} (hx : x ≠ .error .fuel) (hf : ∀ a, f a ≠ .error .fuel) :
    (x >>= f) ≠ .error .fuel := by
  cases x with
  | error e => intro h; exact hx (by cases h; rfl)
  | ok a => exact hf a

theorem call_ne_fuel (E : Env K) (nm : Str) (args : List K) : E.call nm args ≠ .error .fuel := by
  unfold Env.call
  split
  · simp
  split
  · simp
  split
  · simp
  split
  · simp
  split
  · exact bind_ne_fuel (integral_ne_fuel E _) fun _ => bind_ne_fuel (channel_ne_fuel E _) fun _ => by simp [pure, Except.pure]
  split
  · exact bind_ne_fuel (integral_ne_fuel E _) fun _ => bind_ne_fuel (integral_ne_fuel E _) fun _ =>
      bind_ne_fuel (channel_ne_fuel E _) fun _ => coefficient_ne_fuel _ _
  split
  · exact bind_ne_fuel (integral_ne_fuel E _) fun _ => bind_ne_fuel (integral_ne_fuel E _) fun _ =>
      bind_ne_fuel (channel_ne_fuel E _) fun _ => coefficient_ne_fuel _ _
  · simp

structure Enough (E : Env K) (n : ℕ) : Prop where
  expr : ∀ s, 8 * s.length + 4 ≤ n → pExpr E n s ≠ .error .fuel
  exprLoop : ∀ x s, 8 * s.length + 1 ≤ n → pExprLoop E n x s ≠ .error .fuel
  product : ∀ s, 8 * s.length + 3 ≤ n → pProduct E n s ≠ .error .fuel
  productLoop : ∀ x s, 8 * s.length + 1 ≤ n → pProductLoop E n x s ≠ .error .fuel
  unary : ∀ s, 8 * s.length + 2 ≤ n → pUnary E n s ≠ .error .fuel
  primary : ∀ s, 8 * s.length + 1 ≤ n → pPrimary E n s ≠ .error .fuel
  args : ∀ c s, 8 * s.length + 6 ≤ n → pArgs E n c s ≠ .error .fuel
  argsLoop : ∀ c a s, 8 * s.length + 5 ≤ n → pArgsLoop E n c a s ≠ .error .fuel

theorem enough (E : Env K) (hE : Progress E) (n : ℕ) : Enough E n := by
  induction n with
  | zero => constructor <;> intros <;> omega
  | succ n ih =>
    have sh := shorter E hE n
    constructor
    · intro s hn h
      rw [pExpr] at h
      split at h
      · rename_i x e
        simp only [Except.error.injEq] at h
        subst h
        exact ih.product s (by omega) e
      · rename_i w u e
        have h1 := sh.product _ _ _ e
        exact ih.exprLoop _ _ (by omega) h
    · intro x s hn h
      rw [pExprLoop] at h
      split at h
      · rename_i u e0
        have h0 := consume_length e0
        split at h
        · rename_i x e
          simp only [Except.error.injEq] at h
          subst h
          exact ih.product _ (by omega) e
        · rename_i w u' e
          have h1 := sh.product _ _ _ e
          exact ih.exprLoop _ _ (by omega) h
      · split at h
        · rename_i u e0
          have h0 := consume_length e0
          split at h
          · rename_i x e
            simp only [Except.error.injEq] at h
            subst h
            exact ih.product _ (by omega) e
          · rename_i w u' e
            have h1 := sh.product _ _ _ e
            exact ih.exprLoop _ _ (by omega) h
        · simp at h
    · intro s hn h
      rw [pProduct] at h
      split at h
      · rename_i x e
        simp only [Except.error.injEq] at h
        subst h
        exact ih.unary s (by omega) e
      · rename_i w u e
        have h1 := sh.unary _ _ _ e
        exact ih.productLoop _ _ (by omega) h
    · intro x s hn h
      rw [pProductLoop] at h
      split at h
      · rename_i u e0
        have h0 := consume_length e0
        split at h
        · rename_i x e
          simp only [Except.error.injEq] at h
          subst h
          exact ih.unary _ (by omega) e
        · rename_i w u' e
          have h1 := sh.unary _ _ _ e
          exact ih.productLoop _ _ (by omega) h
      · split at h
        · rename_i u e0
          have h0 := consume_length e0
          split at h
          · rename_i x e
            simp only [Except.error.injEq] at h
            subst h
            exact ih.unary _ (by omega) e
          · rename_i w u' e
            have h1 := sh.unary _ _ _ e
            split at h
            · simp at h
            · exact ih.productLoop _ _ (by omega) h
        · simp at h
    · intro s hn h
      rw [pUnary] at h
      split at h
      · rename_i u e0
        have h0 := consume_length e0
        exact ih.unary _ (by omega) h
      · split at h
        · rename_i u e0
          have h0 := consume_length e0
          split at h
          · rename_i x e
            simp only [Except.error.injEq] at h
            subst h
            exact ih.unary _ (by omega) e
          · simp at h
        · exact ih.primary _ (by omega) h
    · intro s hn h
      rw [pPrimary] at h
      split at h
      · rename_i u e0
        have h0 := consume_length e0
        split at h
        · rename_i x e
          simp only [Except.error.injEq] at h
          subst h
          exact ih.expr _ (by omega) e
        · split at h <;> simp at h
      · have hsk := skip_length' s
        split at h
        · rename_i hid
          have hl := identifier_length hid
          split at h
          · rename_i u e0
            have h0 := consume_length e0
            split at h
            · rename_i x e
              simp only [Except.error.injEq] at h
              subst h
              exact ih.args _ _ (by omega) e
            · split at h
              · rename_i x e
                simp only [Except.error.injEq] at h
                subst h
                exact call_ne_fuel E _ _ e
              · simp at h
          · split at h
            · rename_i u e0
              have h0 := consume_length e0
              split at h
              · rename_i x e
                simp only [Except.error.injEq] at h
                subst h
                exact ih.args _ _ (by omega) e
              · split at h
                · rename_i x e
                  simp only [Except.error.injEq] at h
                  subst h
                  exact call_ne_fuel E _ _ e
                · simp at h
            · split at h
              · simp at h
              · split at h
                · rename_i x e
                  simp only [Except.error.injEq] at h
                  subst h
                  exact lookup_ne_fuel E _ e
                · simp at h
        · unfold Env.number at h
          split at h <;> simp at h
    · intro c s hn h
      rw [pArgs] at h
      split at h
      · simp at h
      · exact ih.argsLoop _ _ _ (by omega) h
    · intro c a s hn h
      rw [pArgsLoop] at h
      split at h
      · rename_i x e
        simp only [Except.error.injEq] at h
        subst h
        exact ih.expr _ (by omega) e
      · rename_i w u e
        have h1 := sh.expr _ _ _ e
        split at h
        · simp at h
        · split at h
          · rename_i u' e2
            have h2 := consume_length e2
            exact ih.argsLoop _ _ _ (by omega) h
          · simp at h

theorem enough_value (E : Env K) (hE : Progress E) (n : ℕ) :
    (∀ s, 8 * s.length + 6 ≤ n → pValue E n s ≠ .error .fuel) ∧ (∀ a s, 8 * s.length + 7 ≤ n → pItems E n a s ≠ .error .fuel) := by
  induction n with
  | zero => constructor <;> intros <;> omega
  | succ n ih =>
    obtain ⟨ihv, ihi⟩ := ih
    have sh := (shorter_value E hE n).1
    constructor
    · intro s hn h
      rw [pValue] at h
      split at h
      · split at h
        · rename_i x e
          simp only [Except.error.injEq] at h
          subst h
          exact (enough E hE n).expr _ (by omega) e
        · simp at h
      · rename_i u e0
        have h0 := consume_length e0
        split at h
        · simp at h
        · exact ihi _ _ (by omega) h
    · intro a s hn h
      rw [pItems] at h
      split at h
      · rename_i x e
        simp only [Except.error.injEq] at h
        subst h
        exact ihv _ (by omega) e
      · rename_i w u e
        have h1 := sh _ _ _ e
        split at h
        · simp at h
        · split at h
          · rename_i u' e2
            have h2 := consume_length e2
            exact ihi _ _ (by omega) h
          · simp at h

end Verif.Inst
