import Verif.Adapt.Model
import Verif.Adapt.Cmd
import Verif.Tools.LinIntProps
/-!
# C91: the search for the mesh, the preparation of the table, and the command line
-/

namespace Verif.Adapt
open Verif.Tools Verif.Text

/-! ## The secant method -/

section Secant
variable {K : Type} [Field K] [LinearOrder K] [IsStrictOrderedRing K] {V : Type}

omit [IsStrictOrderedRing K] in
theorem secant_found {shoot : K → Option (K × V)} {eps : K} : ∀ (n : Nat) (x0 x1 y0 y1 A : K) (v : V),
    secant shoot eps n x0 x1 y0 y1 = .found A v → ∃ r, shoot A = some (r, v) ∧ |r - 1| < eps := by
  intro n
  induction n with
  | zero =>
    intro x0 x1 y0 y1 A v h
    unfold secant at h
    split at h
    · exact absurd h (by simp)
    · dsimp only at h
      cases hs : shoot (x1 - (x1 - x0) / (y1 - y0) * y1) with
      | none => rw [hs] at h; simp at h
      | some p =>
        rw [hs] at h
        obtain ⟨r, w⟩ := p
        dsimp only at h
        split at h
        · rename_i hr
          cases h
          exact ⟨r, hs, hr⟩
        · simp at h
  | succ n ih =>
    intro x0 x1 y0 y1 A v h
    unfold secant at h
    split at h
    · exact absurd h (by simp)
    · dsimp only at h
      cases hs : shoot (x1 - (x1 - x0) / (y1 - y0) * y1) with
      | none => rw [hs] at h; simp at h
      | some p =>
        rw [hs] at h
        obtain ⟨r, w⟩ := p
        dsimp only at h
        split at h
        · rename_i hr
          cases h
          exact ⟨r, hs, hr⟩
        · exact ih _ _ _ _ _ _ h

omit [IsStrictOrderedRing K] in
/-- **C91.** The mesh that the search returns is the one computed with the value of `A` at which the search stops, and its end is at the expected
value up to the requested accuracy. -/
theorem mesh_found {shoot : K → Option (K × V)} {eps factor0 intA : K} {maxIter : Int} {A : K} {v : V}
    (h : calcG shoot eps factor0 maxIter intA = .found A v) : ∃ r, shoot A = some (r, v) ∧ |r - 1| < eps := by
  unfold calcG at h
  cases h1 : shoot intA with
  | none => rw [h1] at h; simp at h
  | some p =>
    obtain ⟨r1, v1⟩ := p
    rw [h1] at h
    dsimp only at h
    split at h
    · rename_i hr
      cases h
      exact ⟨r1, h1, hr⟩
    · generalize hA2 : (if 1 < r1 then intA * factor0 else intA / factor0) = A2 at h
      cases h2 : shoot A2 with
      | none => rw [h2] at h; simp at h
      | some p =>
        obtain ⟨r2, v2⟩ := p
        rw [h2] at h
        dsimp only at h
        split at h
        · rename_i hr
          cases h
          exact ⟨r2, h2, hr⟩
        · exact secant_found _ _ _ _ _ _ _ h

/-- **C91.** If the end value is a linear function of `A`, three integrations suffice, and the third one is exact. -/
theorem secant_exact {shoot : K → Option (K × V)} {mk : K → V} {A0 c : K} (hc : c ≠ 0)
    (hs : ∀ A, shoot A = some (1 + c * (A - A0), mk A)) {eps factor0 intA : K} (heps : 0 < eps) (hI : intA ≠ 0) (hf : 1 < factor0)
    (maxIter : Int) :
    ∃ A, calcG shoot eps factor0 maxIter intA = .found A (mk A) ∧
      (A = intA ∨ A = intA * factor0 ∨ A = intA / factor0 ∨ A = A0) := by
  have hf0 : factor0 ≠ 0 := by
    intro h
    rw [h] at hf
    exact absurd hf (not_lt.mpr zero_le_one)
  unfold calcG
  rw [hs]
  dsimp only
  split
  · exact ⟨intA, rfl, Or.inl rfl⟩
  · generalize hA2 : (if 1 < 1 + c * (intA - A0) then intA * factor0 else intA / factor0) = A2
    have hA2' : A2 = intA * factor0 ∨ A2 = intA / factor0 := by
      rw [← hA2]
      split
      · exact Or.inl rfl
      · exact Or.inr rfl
    have hne : A2 - intA ≠ 0 := by
      rcases hA2' with e | e
      · rw [e]
        have : intA * factor0 - intA = intA * (factor0 - 1) := by ring
        rw [this]
        exact mul_ne_zero hI (sub_ne_zero.mpr hf.ne')
      · rw [e]
        have : intA / factor0 - intA = intA * (1 - factor0) / factor0 := by field_simp
        rw [this]
        exact div_ne_zero (mul_ne_zero hI (sub_ne_zero.mpr hf.ne)) hf0
    rw [hs]
    dsimp only
    split
    · exact ⟨A2, rfl, by rcases hA2' with e | e <;> simp [e]⟩
    · have hy : 1 + c * (A2 - A0) - 1 - (1 + c * (intA - A0) - 1) = c * (A2 - intA) := by ring
      have hyne : 1 + c * (A2 - A0) - 1 - (1 + c * (intA - A0) - 1) ≠ 0 := by
        rw [hy]
        exact mul_ne_zero hc hne
      have hx : A2 - (A2 - intA) / (1 + c * (A2 - A0) - 1 - (1 + c * (intA - A0) - 1)) * (1 + c * (A2 - A0) - 1) = A0 := by
        rw [hy]
        field_simp
        ring
      refine ⟨A0, ?_, Or.inr (Or.inr (Or.inr rfl))⟩
      unfold secant
      rw [if_neg hyne, hx]
      dsimp only
      rw [hs]
      dsimp only
      rw [if_pos (by rw [show 1 + c * (A0 - A0) - 1 = (0 : K) by ring, abs_zero]; exact heps)]

omit [IsStrictOrderedRing K] in
/-- **C91, finding.** With `secant_factor=0` (accepted) the second integration repeats the first one, and the search divides by zero. -/
theorem no_shift_divides_by_zero {shoot : K → Option (K × V)} {eps intA r : K} {v : V} {maxIter : Int} (h : shoot intA = some (r, v))
    (hr : ¬ |r - 1| < eps) : calcG shoot eps 1 maxIter intA = .divZero := by
  unfold calcG
  rw [h]
  dsimp only
  rw [if_neg hr, mul_one, div_one, ite_self, h]
  dsimp only
  rw [if_neg hr]
  unfold secant
  rw [if_pos (sub_self _)]

end Secant

/-- The search on a linear example: the second try is not accurate, the third one is exact. -/
example : calcG (fun A : ℚ => some (1 + 3 * (A - 2), A)) (1 / 10000) 2 10 1 = .found 2 2 := by
  decide +kernel

/-! ## The table of the hybridisation function -/

section Table
variable {K : Type} [Field K] [LinearOrder K] [IsStrictOrderedRing K]

omit [LinearOrder K] [IsStrictOrderedRing K] in
theorem rescale_loop (b : K) (hb : b ≠ 0) : ∀ (t : Tab K) (p : K × K) (sum : K),
    (trapezLoop (p.1 * (1 / b), p.2 * b) sum (rescaleXY (1 / b) b t)).2 = (trapezLoop p sum t).2
  | [], _, _ => rfl
  | q :: t, p, sum => by
    have := rescale_loop b hb t q (sum + (q.1 - p.1) * ((q.2 + p.2) / 2))
    simp only [rescaleXY, List.map_cons, trapezLoop] at this ⊢
    rw [← this]
    congr 2
    field_simp

omit [IsStrictOrderedRing K] in
/-- **C91.** Rescaling the band keeps the total weight. -/
theorem rescale_total {b : K} (hb : b ≠ 0) {t ti : Tab K} {total : K} (h : trapez t = some (ti, total)) :
    ∃ ti', trapez (rescaleXY (1 / b) b t) = some (ti', total) := by
  match t, h with
  | p :: q :: rest, h =>
    simp only [trapez, Option.some.injEq, Prod.mk.injEq] at h
    have := rescale_loop b hb (q :: rest) p 0
    rw [h.2] at this
    refine ⟨(p.1 * (1 / b), 0) :: (trapezLoop (p.1 * (1 / b), p.2 * b) 0 (rescaleXY (1 / b) b (q :: rest))).1, ?_⟩
    simp only [rescaleXY, List.map_cons, trapez] at this ⊢
    rw [this]

omit [LinearOrder K] [IsStrictOrderedRing K] in
theorem rescale_len (fx fy : K) (t : Tab K) : (rescaleXY fx fy t).length = t.length := by simp [rescaleXY]

omit [LinearOrder K] [IsStrictOrderedRing K] in
theorem rescale_x (fx fy : K) (t : Tab K) (i : ℕ) : (rescaleXY fx fy t).x i = t.x i * fx := by
  unfold Tab.x rescaleXY
  rw [List.getD_eq_getElem?_getD, List.getD_eq_getElem?_getD, List.getElem?_map]
  cases t[i]? <;> simp

omit [LinearOrder K] [IsStrictOrderedRing K] in
theorem rescale_f (fx fy : K) (t : Tab K) (i : ℕ) : (rescaleXY fx fy t).f i = t.f i * fy := by
  unfold Tab.f rescaleXY
  rw [List.getD_eq_getElem?_getD, List.getD_eq_getElem?_getD, List.getElem?_map]
  cases t[i]? <;> simp

/-- **C91.** The rescaled table describes the function `b ρ(b x)`. -/
theorem rescale_interp {b : K} (hb : 0 < b) {t : Tab K} {x v : K} (h : IsInterp t x v) :
    IsInterp (rescaleXY (1 / b) b t) (x / b) (v * b) := by
  unfold IsInterp
  simp only [rescale_len, rescale_x, rescale_f, mul_one_div]
  rcases h with ⟨h1, h2⟩ | ⟨h1, h2⟩ | ⟨i, h1, h2, h3, h4⟩
  · exact Or.inl ⟨div_le_div_of_nonneg_right h1 hb.le, by rw [h2]⟩
  · exact Or.inr (Or.inl ⟨div_le_div_of_nonneg_right h1 hb.le, by rw [h2]⟩)
  · refine Or.inr (Or.inr ⟨i, h1, div_le_div_of_nonneg_right h2 hb.le, div_le_div_of_nonneg_right h3 hb.le, ?_⟩)
    have e1 : v * b * (t.x (i + 1) / b - t.x i / b) = v * (t.x (i + 1) - t.x i) := by field_simp
    have e2 : t.f i * b * (t.x (i + 1) / b - x / b) + t.f (i + 1) * b * (x / b - t.x i / b) =
        t.f i * (t.x (i + 1) - x) + t.f (i + 1) * (x - t.x i) := by field_simp
    rw [e1, e2, h4]

theorem rescale_good {b : K} (hb : 0 < b) {t : Tab K} (h : Good t) : Good (rescaleXY (1 / b) b t) := by
  refine ⟨by rw [rescale_len]; exact h.len, fun i hi => ?_⟩
  rw [rescale_len] at hi
  rw [rescale_x, rescale_x]
  exact mul_lt_mul_of_pos_right (h.inc i hi) (one_div_pos.mpr hb)

omit [IsStrictOrderedRing K] in
theorem addZero_good {small : K} {t : Tab K} (h : Good t) : Good (addZeroPoint small t) := by
  match t, h with
  | (x0, y0) :: rest, h =>
    unfold addZeroPoint
    dsimp only
    split
    · rename_i hlt
      refine ⟨by simp, fun i hi => ?_⟩
      cases i with
      | zero => simpa [Tab.x] using hlt
      | succ i =>
        have := h.inc i (by simpa using hi)
        simpa [Tab.x] using this
    · exact h

/-- **C91.** The point that is added near zero does not change the interpolated function. -/
theorem addZero_interp {small : K} {t : Tab K} (hg : Good t) {x v : K} (h : IsInterp t x v) : IsInterp (addZeroPoint small t) x v := by
  match t, hg, h with
  | (x0, y0) :: rest, hg, h =>
    unfold addZeroPoint
    dsimp only
    split
    · rename_i hlt
      have hx0 : Tab.x ((x0, y0) :: rest) 0 = x0 := rfl
      have hf0 : Tab.f ((x0, y0) :: rest) 0 = y0 := rfl
      have hsx : ∀ i, Tab.x ((small, y0) :: (x0, y0) :: rest) (i + 1) = Tab.x ((x0, y0) :: rest) i := fun i => by simp [Tab.x]
      have hsf : ∀ i, Tab.f ((small, y0) :: (x0, y0) :: rest) (i + 1) = Tab.f ((x0, y0) :: rest) i := fun i => by simp [Tab.f]
      have hlen := hg.len
      rcases h with ⟨h1, h2⟩ | ⟨h1, h2⟩ | ⟨i, h1, h2, h3, h4⟩
      · rw [hx0] at h1
        rw [hf0] at h2
        by_cases hxs : x ≤ small
        · exact Or.inl ⟨hxs, h2⟩
        · refine Or.inr (Or.inr ⟨0, by simp, (not_le.mp hxs).le, h1, ?_⟩)
          simp only [Tab.x, Tab.f, List.getD_cons_zero, zero_add, List.getD_cons_succ, h2]
          ring
      · refine Or.inr (Or.inl ?_)
        have e : ((small, y0) :: (x0, y0) :: rest).length - 1 = ((x0, y0) :: rest).length - 1 + 1 := by
          simp
        rw [e, hsx, hsf]
        exact ⟨h1, h2⟩
      · refine Or.inr (Or.inr ⟨i + 1, by simpa using h1, ?_⟩)
        rw [hsx, hsx, hsf, hsf]
        exact ⟨h2, h3, h4⟩
    · exact h

omit [LinearOrder K] [IsStrictOrderedRing K] in
theorem trapezLoop_sum : ∀ (t : Tab K) (p : K × K) (sum : K), (trapezLoop p sum t).2 = sum + (trapezLoop p 0 t).2
  | [], _, _ => by simp [trapezLoop]
  | q :: t, p, sum => by
    simp only [trapezLoop]
    rw [trapezLoop_sum t q (sum + _), trapezLoop_sum t q (0 + _)]
    ring

omit [IsStrictOrderedRing K] in
/-- **C91.** And it extends the table to (almost) zero: the integral gains the part below the first point, with the first value. -/
theorem addZero_total {small x0 y0 : K} {q : K × K} {rest ti : Tab K} {total : K} (hs : small < x0)
    (h : trapez ((x0, y0) :: q :: rest) = some (ti, total)) :
    ∃ ti', trapez (addZeroPoint small ((x0, y0) :: q :: rest)) = some (ti', (x0 - small) * ((y0 + y0) / 2) + total) := by
  simp only [trapez, Option.some.injEq, Prod.mk.injEq] at h
  unfold addZeroPoint
  dsimp only
  rw [if_pos hs]
  refine ⟨(small, 0) :: (trapezLoop (small, y0) 0 ((x0, y0) :: q :: rest)).1, ?_⟩
  simp only [trapez]
  congr 2
  rw [trapezLoop]
  dsimp only
  rw [trapezLoop_sum, h.2, zero_add]

end Table

/-- The table of a flat band, in units of twice the band width. -/
example : ∃ ti, initRho (1 / 100) 2 ([(1 / 10, 3), (2, 3)] : Tab ℚ) = some ([(1 / 200, 6), (1 / 20, 6), (1, 6)], ti) := by
  refine ⟨[(1 / 200, 0), (1 / 20, 27 / 100), (1, 597 / 100)], ?_⟩
  decide +kernel

/-! ## The command line -/

/-- What a command line says. -/
inductive Tok (K : Type)
  | flat (g : K)
  | sign (s : Sign)
  | file (f : Str)

/-- `w` is a word, every letter of which may be a capital or a small letter; `W` and `l` are the word in capitals and in small letters. -/
def AnyCase (w W l : Str) : Prop := w.length = W.length ∧ ∀ i : Nat, w[i]? = W[i]? ∨ w[i]? = l[i]?

/-- The words for the signs: in upper or lower case, or mixed. -/
def SignWord (w : Str) (s : Sign) : Prop :=
  (s = .pos ∧ (AnyCase w "P".toList "p".toList ∨ AnyCase w "POS".toList "pos".toList ∨ AnyCase w "POSITIVE".toList "positive".toList)) ∨
  (s = .neg ∧ (AnyCase w "N".toList "n".toList ∨ AnyCase w "NEG".toList "neg".toList ∨ AnyCase w "NEGATIVE".toList "negative".toList))

/-- The grammar: `--flat GG`, `--flat=GG`, a word for the sign, or a file name that is no option and no word for a sign. -/
inductive Says {K : Type} (num : Str → Option K) : List Str → List (Tok K) → Prop
  | nil : Says num [] []
  | flat {v rest g ts} : num v = some g → Says num rest ts → Says num ("--flat".toList :: v :: rest) (.flat g :: ts)
  | flatEq {v rest g ts} : num v = some g → Says num rest ts → Says num (("--flat=".toList ++ v) :: rest) (.flat g :: ts)
  | sign {w rest s ts} : SignWord w s → Says num rest ts → Says num (w :: rest) (.sign s :: ts)
  | file {w rest ts} : w.head? ≠ some '-' → (∀ s, ¬ SignWord w s) → Says num rest ts → Says num (w :: rest) (.file w :: ts)

def flats {K : Type} (ts : List (Tok K)) : List K := ts.filterMap fun t => match t with | .flat g => some g | _ => none
def signs {K : Type} (ts : List (Tok K)) : List Sign := ts.filterMap fun t => match t with | .sign s => some s | _ => none
def files {K : Type} (ts : List (Tok K)) : List Str := ts.filterMap fun t => match t with | .file f => some f | _ => none

theorem upper_iff (c C : Char) (h : 65 ≤ C.toNat ∧ C.toNat ≤ 90) : upper c = C ↔ c = C ∨ c = Char.ofNat (C.toNat + 32) := by
  have hv : ∀ n : Nat, n < 55296 → n.isValidChar := fun n hn => Or.inl hn
  have ht : ∀ n : Nat, n < 55296 → (Char.ofNat n).toNat = n := by
    intro n hn
    unfold Char.ofNat
    rw [dif_pos (hv n hn)]
    rfl
  unfold upper
  constructor
  · split
    · rename_i hc
      intro e
      right
      have := congrArg Char.toNat e
      rw [ht _ (by omega)] at this
      rw [← this, show c.toNat - 32 + 32 = c.toNat by omega, Char.ofNat_toNat]
    · exact Or.inl
  · rintro (e | e)
    · rw [e, if_neg (by omega)]
    · rw [e, ht _ (by omega), if_pos (by omega), Nat.add_sub_cancel, Char.ofNat_toNat]

theorem anyCase_iff (w W l : Str) (hW : ∀ C ∈ W, 65 ≤ C.toNat ∧ C.toNat ≤ 90) (hl : l = W.map fun C => Char.ofNat (C.toNat + 32)) :
    AnyCase w W l ↔ w.map upper = W := by
  subst hl
  constructor
  · rintro ⟨h1, h2⟩
    apply List.ext_getElem?
    intro i
    rw [List.getElem?_map]
    cases hi : W[i]? with
    | none =>
      have : w[i]? = none := by
        rw [List.getElem?_eq_none_iff] at hi ⊢
        omega
      rw [this]; rfl
    | some C =>
      have hc := hW C (List.mem_of_getElem? hi)
      have := h2 i
      rw [List.getElem?_map, hi] at this
      rcases this with e | e
      · rw [e]; exact congrArg some ((upper_iff C C hc).mpr (Or.inl rfl))
      · rw [e]; exact congrArg some ((upper_iff _ C hc).mpr (Or.inr rfl))
  · intro h
    refine ⟨by rw [← h, List.length_map], fun i => ?_⟩
    have hi : (w.map upper)[i]? = W[i]? := by rw [h]
    rw [List.getElem?_map] at hi ⊢
    cases hw : w[i]? with
    | none => rw [hw] at hi; left; exact hi
    | some c =>
      rw [hw] at hi
      have hC : upper c ∈ W := List.mem_of_getElem? hi.symm
      rw [← hi]
      rcases (upper_iff c (upper c) (hW _ hC)).mp rfl with e | e
      · left; exact congrArg some e
      · right; exact congrArg some e

theorem signWord_caps (w : Str) (s : Sign) : SignWord w s ↔
    (s = .pos ∧ (w.map upper = "P".toList ∨ w.map upper = "POS".toList ∨ w.map upper = "POSITIVE".toList)) ∨
    (s = .neg ∧ (w.map upper = "N".toList ∨ w.map upper = "NEG".toList ∨ w.map upper = "NEGATIVE".toList)) := by
  unfold SignWord
  rw [anyCase_iff w "P".toList "p".toList (by decide) (by decide), anyCase_iff w "POS".toList "pos".toList (by decide) (by decide),
    anyCase_iff w "POSITIVE".toList "positive".toList (by decide) (by decide), anyCase_iff w "N".toList "n".toList (by decide) (by decide),
    anyCase_iff w "NEG".toList "neg".toList (by decide) (by decide),
    anyCase_iff w "NEGATIVE".toList "negative".toList (by decide) (by decide)]

theorem signWord_iff (w : Str) (s : Sign) : SignWord w s ↔ parseSign w = some s := by
  have hd : (w.map upper = "P".toList ∨ w.map upper = "POS".toList ∨ w.map upper = "POSITIVE".toList) →
      ¬ (w.map upper = "N".toList ∨ w.map upper = "NEG".toList ∨ w.map upper = "NEGATIVE".toList) := by
    rintro (h | h | h) <;> rw [h] <;> decide
  rw [signWord_caps]
  unfold parseSign
  dsimp only
  by_cases ha : w.map upper = "P".toList ∨ w.map upper = "POS".toList ∨ w.map upper = "POSITIVE".toList
  · have hb := hd ha
    rw [if_pos ha]
    cases s
    · exact ⟨fun _ => rfl, fun _ => Or.inl ⟨rfl, ha⟩⟩
    · exact ⟨fun h => absurd (h.resolve_left (fun e => nomatch e.1)).2 hb, fun h => nomatch h⟩
  · rw [if_neg ha]
    by_cases hb : w.map upper = "N".toList ∨ w.map upper = "NEG".toList ∨ w.map upper = "NEGATIVE".toList
    · rw [if_pos hb]
      cases s
      · exact ⟨fun h => absurd (h.resolve_right (fun e => nomatch e.1)).2 ha, fun h => nomatch h⟩
      · exact ⟨fun _ => rfl, fun _ => Or.inr ⟨rfl, hb⟩⟩
    · rw [if_neg hb]
      exact ⟨fun h => (h.elim (fun e => ha e.2) (fun e => hb e.2)).elim, fun h => nomatch h⟩

theorem signWord_head {w : Str} {s : Sign} (h : SignWord w s) : w.head? ≠ some '-' := by
  intro hd
  cases w with
  | nil => simp at hd
  | cons c w =>
    simp only [List.head?_cons, Option.some.injEq] at hd
    have hu : (upper c :: w.map upper).head? = some '-' := by
      rw [hd]
      exact (by decide : some (upper '-') = some '-')
    rcases (signWord_caps _ _).mp h with ⟨_, h | h | h⟩ | ⟨_, h | h | h⟩ <;> rw [List.map_cons] at h <;> rw [h] at hu <;> exact absurd hu (by decide)

section CmdStep
variable {K : Type} (num : Str → Option K)

theorem step_flat (v : Str) (rest : List Str) (s : Seen K) : cmdLoop num ("--flat".toList :: v :: rest) s =
    if s.flat.isSome then .error else match num v with
      | none => .error
      | some g => cmdLoop num rest { s with flat := some g } := by
  rw [cmdLoop, if_neg (by decide), if_pos (show "--flat".toList = dashFlat from rfl)]
  rfl

theorem step_flatEq (v : Str) (rest : List Str) (s : Seen K) : cmdLoop num (("--flat=".toList ++ v) :: rest) s =
    if s.flat.isSome then .error else match num v with
      | none => .error
      | some g => cmdLoop num rest { s with flat := some g } := by
  have e : "--flat=".toList ++ v = '-' :: '-' :: 'f' :: 'l' :: 'a' :: 't' :: '=' :: v := rfl
  rw [e, cmdLoop.eq_def]
  dsimp only
  rw [if_neg (by simp [dashH, dashHelp]), if_neg (by simp [dashFlat]), if_pos (by simp [dashFlatEq])]
  rfl

theorem step_word (w : Str) (hw : w.head? ≠ some '-') (rest : List Str) (s : Seen K) : cmdLoop num (w :: rest) s =
    match parseSign w with
      | some sg => if s.sign.isSome then .error else cmdLoop num rest { s with sign := some sg }
      | none => if s.file.isSome then .error else cmdLoop num rest { s with file := some w } := by
  have h1 : ∀ u : Str, w ≠ '-' :: u := by
    intro u hu
    rw [hu] at hw
    exact hw rfl
  have h2 : dashFlatEq.isPrefixOf w = false := by
    cases w with
    | nil => rfl
    | cons c w =>
      have : c ≠ '-' := fun hc => hw (by rw [hc]; rfl)
      simp [dashFlatEq, List.isPrefixOf, this.symm]
  rw [cmdLoop.eq_def]
  dsimp only
  rw [if_neg (by rintro (h | h); exacts [h1 _ h, h1 _ h]), if_neg (show ¬ w = dashFlat from h1 _), h2, if_neg (by simp), if_neg hw]
  rfl

end CmdStep

theorem cmdLoop_accepts {K : Type} {num : Str → Option K} {args : List Str} {ts : List (Tok K)} (h : Says num args ts) :
    ∀ s : Seen K, s.flat.toList.length + (flats ts).length ≤ 1 → s.sign.toList.length + (signs ts).length ≤ 1 →
      s.file.toList.length + (files ts).length ≤ 1 →
      cmdLoop num args s = .ok ⟨(s.sign.toList ++ signs ts).headD .pos, (s.file.toList ++ files ts).headD "param".toList,
        (s.flat.toList ++ flats ts).head?⟩ := by
  induction h with
  | nil =>
    intro s _ _ _
    rcases s with ⟨_ | _, _ | _, _ | _⟩ <;> rfl
  | @flat v rest g ts hv _ ih =>
    intro s h1 h2 h3
    rcases s with ⟨sg, fl, _ | x⟩
    · rw [step_flat, hv]
      exact ih ⟨sg, fl, some g⟩ (by simpa [flats] using h1) h2 h3
    · simp [flats] at h1
  | @flatEq v rest g ts hv _ ih =>
    intro s h1 h2 h3
    rcases s with ⟨sg, fl, _ | x⟩
    · rw [step_flatEq, hv]
      exact ih ⟨sg, fl, some g⟩ (by simpa [flats] using h1) h2 h3
    · simp [flats] at h1
  | @sign w rest sg ts hw _ ih =>
    intro s h1 h2 h3
    rcases s with ⟨_ | x, fl, ft⟩
    · rw [step_word _ _ (signWord_head hw), (signWord_iff _ _).mp hw]
      exact ih ⟨some sg, fl, ft⟩ h1 (by simpa [signs] using h2) h3
    · simp [signs] at h2
  | @file w rest ts hd hw _ ih =>
    intro s h1 h2 h3
    have hp : parseSign w = none := by
      cases hc : parseSign w with
      | none => rfl
      | some sg => exact absurd ((signWord_iff _ _).mpr hc) (hw sg)
    rcases s with ⟨sg, _ | x, ft⟩
    · rw [step_word _ _ hd, hp]
      exact ih ⟨sg, some w, ft⟩ h1 h2 (by simpa [files] using h3)
    · simp [files] at h3

theorem cmdLoop_says {K : Type} {num : Str → Option K} {o : Options K} : ∀ (n : ℕ) (args : List Str), args.length ≤ n → ∀ s : Seen K,
    cmdLoop num args s = .ok o → ∃ ts, Says num args ts ∧ s.flat.toList.length + (flats ts).length ≤ 1 ∧
      s.sign.toList.length + (signs ts).length ≤ 1 ∧ s.file.toList.length + (files ts).length ≤ 1 := by
  intro n
  induction n with
  | zero =>
    intro args hl s h
    have : args = [] := List.length_eq_zero_iff.mp (by omega)
    subst this
    exact ⟨[], .nil, by rcases s with ⟨_ | _, _ | _, _ | _⟩ <;> simp [flats, signs, files]⟩
  | succ n ih =>
    intro args hl s h
    cases args with
    | nil => exact ⟨[], .nil, by rcases s with ⟨_ | _, _ | _, _ | _⟩ <;> simp [flats, signs, files]⟩
    | cons arg rest =>
      by_cases hd : arg.head? = some '-'
      · by_cases hf : arg = "--flat".toList
        · subst hf
          cases rest with
          | nil =>
            rw [cmdLoop, if_neg (by decide), if_pos (show "--flat".toList = dashFlat from rfl)] at h
            split at h <;> simp at h
          | cons v rest =>
            rw [step_flat] at h
            split at h
            · simp at h
            · rename_i hs
              cases hv : num v with
              | none => rw [hv] at h; simp at h
              | some g =>
                rw [hv] at h
                obtain ⟨ts, a, b, c, d⟩ := ih rest (by simp at hl; omega) _ h
                refine ⟨_, .flat hv a, ?_, c, d⟩
                have : s.flat = none := by simpa using hs
                simpa [this, flats] using b
        · by_cases hp : dashFlatEq.isPrefixOf arg = true
          · obtain ⟨v, hv⟩ := List.isPrefixOf_iff_prefix.mp hp
            rw [← hv, show dashFlatEq = "--flat=".toList from rfl] at h ⊢
            rw [step_flatEq] at h
            split at h
            · simp at h
            · rename_i hs
              cases hv : num v with
              | none => rw [hv] at h; simp at h
              | some g =>
                rw [hv] at h
                obtain ⟨ts, a, b, c, d⟩ := ih rest (by simp at hl; omega) _ h
                refine ⟨_, .flatEq hv a, ?_, c, d⟩
                have : s.flat = none := by simpa using hs
                simpa [this, flats] using b
          · rw [cmdLoop.eq_def] at h
            dsimp only at h
            split at h
            · simp at h
            · rw [if_neg (show ¬ arg = dashFlat from hf)] at h
              simp [hp, hd] at h
      · rw [step_word _ _ hd] at h
        cases hp : parseSign arg with
        | some sg =>
          rw [hp] at h
          dsimp only at h
          split at h
          · simp at h
          · rename_i hs
            obtain ⟨ts, a, b, c, d⟩ := ih rest (by simp at hl; omega) _ h
            refine ⟨_, .sign ((signWord_iff _ _).mpr hp) a, b, ?_, d⟩
            have : s.sign = none := by simpa using hs
            simpa [this, signs] using c
        | none =>
          rw [hp] at h
          dsimp only at h
          split at h
          · simp at h
          · rename_i hs
            obtain ⟨ts, a, b, c, d⟩ := ih rest (by simp at hl; omega) _ h
            refine ⟨_, .file hd (fun sg hsg => ?_) a, b, c, ?_⟩
            · rw [(signWord_iff _ _).mp hsg] at hp
              simp at hp
            · have : s.file = none := by simpa using hs
              simpa [this, files] using d

/-- **C91.** The command line is accepted exactly if it consists of at most one constant hybridisation, one sign and one file name, in any order; and
these are taken, with the positive sign and the file `param` as the defaults. -/
theorem command_line {K : Type} (num : Str → Option K) (args : List Str) (o : Options K) :
    cmdLine num args = .ok o ↔ ∃ ts, Says num args ts ∧ (flats ts).length ≤ 1 ∧ (signs ts).length ≤ 1 ∧ (files ts).length ≤ 1 ∧
      o = ⟨(signs ts).headD .pos, (files ts).headD "param".toList, (flats ts).head?⟩ := by
  constructor
  · intro h
    obtain ⟨ts, a, b, c, d⟩ := cmdLoop_says args.length args le_rfl {} h
    have h2 := cmdLoop_accepts a {} b c d
    refine ⟨ts, a, by simpa using b, by simpa using c, by simpa using d, ?_⟩
    unfold cmdLine at h
    rw [h] at h2
    simpa using h2
  · rintro ⟨ts, a, b, c, d, rfl⟩
    exact cmdLoop_accepts a {} (by simpa using b) (by simpa using c) (by simpa using d)

/-- **C91, finding.** A file whose name is a word for a sign cannot be given. -/
theorem file_not_sign {K : Type} {num : Str → Option K} {args : List Str} {o : Options K} (h : cmdLine num args = .ok o) (s : Sign) :
    ¬ SignWord o.paramFn s := by
  obtain ⟨ts, a, -, -, -, rfl⟩ := (command_line num args o).mp h
  have key : ∀ f ∈ files ts, ¬ SignWord f s := by
    clear h
    induction a with
    | nil => simp [files]
    | flat _ _ ih => simpa [files] using ih
    | flatEq _ _ ih => simpa [files] using ih
    | sign _ _ ih => simpa [files] using ih
    | @file w rest ts _ hw _ ih =>
      intro f hf
      have : f = w ∨ f ∈ files ts := by simpa [files] using hf
      rcases this with rfl | hf
      · exact hw s
      · exact ih f hf
  show ¬ SignWord ((files ts).headD "param".toList) s
  cases hfs : files ts with
  | nil =>
    rw [signWord_iff]
    cases s <;> decide
  | cons f fs => exact key f (by rw [hfs]; simp)

/-- The parameter file `n` selects the negative energies with the parameters of the file `param`. -/
example : cmdLine (K := ℚ) (fun _ => none) ["n".toList] = .ok ⟨.neg, "param".toList, none⟩ := by decide +kernel

example : cmdLine (K := ℚ) (fun v => if v = "0.5".toList then some (1 / 2) else none) ["my.param".toList, "--flat".toList, "0.5".toList, "Neg".toList] =
    .ok ⟨.neg, "my.param".toList, some (1 / 2)⟩ := by decide +kernel

end Verif.Adapt
