import Verif.Mx.Uni
/-!
# C106: `diag`, and `unitary` after `diag`
-/

namespace Verif.Mx
open Verif.Text
open Verif.DataFile
open Verif.Mat (Mat)
open Finset

section numbers
variable {K : Type}

theorem numbersLoop_toks (F : Fmt K) (l : List (Tok Lit)) (hl : ∀ t ∈ l, TokOK t) (rest : Str) (hr : Sep rest) (v : List K)
    (hv : l.mapM (fun t => F.num t.v.val) = some v) (n : Nat) :
    numbersLoop F (n + l.length) (l.flatMap numText ++ rest) = v ++ numbersLoop F n rest := by
  induction l generalizing v with
  | nil =>
    have : v = [] := by simpa [eq_comm] using hv
    subst this
    rfl
  | cons t l ih =>
    have h := hl t (by simp)
    have hl' : ∀ t ∈ l, TokOK t := fun t ht => hl t (by simp [ht])
    rw [List.mapM_cons] at hv
    cases hx : F.num t.v.val with
    | none => simp [hx] at hv
    | some x =>
      cases hy : l.mapM (fun t => F.num t.v.val) with
      | none => simp [hx, hy] at hv
      | some v' =>
        have e : v = x :: v' := by simpa [hx, hy, eq_comm] using hv
        subst e
        rw [List.flatMap_cons, numText, List.append_assoc, List.append_assoc, List.length_cons, ← Nat.add_assoc, numbersLoop,
          readOne_lit F (inLine_blank h.2.1) h.2.2 hx _ (sep_toks hl' hr)]
        dsimp only
        rw [ih hl' v' hy]
        rfl

theorem numbersLoop_row (F : Fmt K) {pre : Str} (hp : Blank pre) {x : Tok Lit} {l : List (Tok Lit)} {trail : Str}
    (h : (Line.row x l trail).OK) (rest : Str) (hr : Sep rest) (v : List K)
    (hv : (x :: l).mapM (fun t => F.num t.v.val) = some v) (n : Nat) :
    numbersLoop F (n + v.length) (pre ++ ((Line.row x l trail).text ++ rest)) = v ++ numbersLoop F n (trail ++ rest) := by
  obtain ⟨h1, h2, h3, h4⟩ := h
  have hlen := mapM_length hv
  rw [List.mapM_cons] at hv
  have hs : Sep (trail ++ rest) := sep_append (fun _ => sep_blank (inLine_blank h4)) hr
  have e2 : pre ++ ((Line.row x l trail).text ++ rest) = (pre ++ x.ws) ++ (x.v.text ++ (l.flatMap numText ++ (trail ++ rest))) := by
    simp [Line.text, numText]
  cases hx : F.num x.v.val with
  | none => simp [hx] at hv
  | some y =>
    cases hy : l.mapM (fun t => F.num t.v.val) with
    | none => simp [hx, hy] at hv
    | some v' =>
      have e : v = y :: v' := by simpa [hx, hy, eq_comm] using hv
      rw [hlen, e2, List.length_cons, ← Nat.add_assoc, numbersLoop,
        readOne_lit F (blank_append hp (inLine_blank h1)) h2 hx _ (sep_toks h3 hs)]
      dsimp only
      rw [numbersLoop_toks F l h3 _ hs v' hy, e]
      rfl

/-- The numbers in lines without comments, whatever follows. -/
theorem numbersLoop_lines (F : Fmt K) (ls : List Line) (h : ∀ l ∈ ls, l.OK ∧ l.NoComment) (m : List (List K)) (hm : contents F ls = some m)
    {pre : Str} (hp : Blank pre) (rest : Str) (hr : Sep rest) (n : Nat) :
    ∃ post, Blank post ∧ numbersLoop F (n + m.flatten.length) (pre ++ ((ls.flatMap fun l => '\n' :: l.text) ++ rest)) =
      m.flatten ++ numbersLoop F n (post ++ rest) := by
  induction ls generalizing pre m with
  | nil =>
    have : m = [] := by simpa [contents, eq_comm] using hm
    subst this
    exact ⟨pre, hp, rfl⟩
  | cons l ls ih =>
    obtain ⟨ho, hn⟩ := h l (by simp)
    have hi := ih fun l hl => h l (by simp [hl])
    have hsep : Sep ((ls.flatMap fun l => '\n' :: l.text) ++ rest) := by
      cases ls with
      | nil => exact hr
      | cons l ls => exact Verif.Table.sep_nl _
    cases l with
    | other s =>
      rw [contents, List.filterMap_cons_none (show Line.toks (.other s) = none from rfl)] at hm
      obtain ⟨post, p1, p2⟩ := hi m hm (pre := pre ++ '\n' :: s)
        (blank_append hp (blank_append blank_nl (inLine_blank hn)))
      refine ⟨post, p1, ?_⟩
      rw [← p2]
      congr 1
      simp [Line.text]
    | row x t trail =>
      rw [contents, List.filterMap_cons_some (show Line.toks (.row x t trail) = some (x :: t) from rfl), List.mapM_cons] at hm
      cases hx : (x :: t).mapM (fun t => F.num t.v.val) with
      | none => rw [hx] at hm; simp at hm
      | some v =>
        rw [hx] at hm
        cases hy : contents F ls with
        | none => rw [contents] at hy; simp [hy] at hm
        | some m' =>
          have hy' := hy
          rw [contents] at hy'
          have e : m = v :: m' := by simpa [hy', eq_comm] using hm
          subst e
          obtain ⟨post, p1, p2⟩ := hi m' hy (inLine_blank ho.2.2.2)
          refine ⟨post, p1, ?_⟩
          have e2 : pre ++ (((Line.row x t trail :: ls).flatMap fun l => '\n' :: l.text) ++ rest) =
              (pre ++ ['\n']) ++ ((Line.row x t trail).text ++ ((ls.flatMap fun l => '\n' :: l.text) ++ rest)) := by simp
          rw [e2, List.flatten_cons, List.length_append, Nat.add_comm v.length, ← Nat.add_assoc,
            numbersLoop_row F (blank_append hp blank_nl) ho _ hsep v hx, p2, List.append_assoc]

/-- The bound on the number of rounds does not matter. -/
theorem numbersLoop_enough (F : Fmt K) (n k : Nat) (s : Str) (h : s.length < n) : numbersLoop F (n + k) s = numbersLoop F n s := by
  have hdec : ∀ s d r, readDec s = some (d, r) → r.length < s.length := by
    intro s d r h
    unfold readDec at h
    dsimp only at h
    split at h
    · simp at h
    · rename_i hne
      cases hx : readExp (readFrac ((readSign (s.dropWhile isSpace)).2.dropWhile isDigit)).2 with
      | none => rw [hx] at h; simp at h
      | some p =>
        rw [hx] at h
        simp only [Option.some.injEq, Prod.mk.injEq] at h
        have l1 : (s.dropWhile isSpace).length ≤ s.length := (List.dropWhile_suffix _).length_le
        have ls : ∀ u : Str, (readSign u).2.length ≤ u.length := by
          intro u
          unfold readSign
          split
          · rw [List.length_cons]; exact Nat.le_succ _
          · rw [List.length_cons]; exact Nat.le_succ _
          · exact Nat.le_refl _
        have l2 := ls (s.dropWhile isSpace)
        have l4 : ∀ u e r, readExp u = some (e, r) → r.length ≤ u.length := by
          intro u e r hu
          unfold readExp at hu
          split at hu
          · split at hu
            · dsimp only at hu
              split at hu
              · simp at hu
              · rename_i c u' _ _
                simp only [Option.some.injEq, Prod.mk.injEq] at hu
                have a1 := ls u'
                have a2 : ((readSign u').2.dropWhile isDigit).length ≤ (readSign u').2.length := (List.dropWhile_suffix _).length_le
                rw [← hu.2, List.length_cons]
                omega
            · simp only [Option.some.injEq, Prod.mk.injEq] at hu
              rw [← hu.2]
          · simp only [Option.some.injEq, Prod.mk.injEq] at hu
            rw [← hu.2]
        have l5 := l4 _ p.1 p.2 hx
        generalize hw : (readSign (s.dropWhile isSpace)).2 = w at *
        have l6 : (w.takeWhile isDigit).length + (w.dropWhile isDigit).length = w.length := by
          rw [← List.length_append, List.takeWhile_append_dropWhile]
        have l7 : ∀ u : Str, (readFrac u).1.length + (readFrac u).2.length ≤ u.length := by
          intro u
          unfold readFrac
          split
          · rename_i u'
            have : (u'.takeWhile isDigit).length + (u'.dropWhile isDigit).length = u'.length := by
              rw [← List.length_append, List.takeWhile_append_dropWhile]
            change (u'.takeWhile isDigit).length + (u'.dropWhile isDigit).length ≤ ('.' :: u').length
            rw [List.length_cons]; omega
          · simp
        have l8 := l7 (w.dropWhile isDigit)
        have l9 : 0 < (w.takeWhile isDigit).length + (readFrac (w.dropWhile isDigit)).1.length := by
          by_contra hz
          exact hne ⟨List.length_eq_zero_iff.mp (Nat.le_zero.mp (by omega)), List.length_eq_zero_iff.mp (Nat.le_zero.mp (by omega))⟩
        rw [← h.2]
        omega
  induction n generalizing s with
  | zero => omega
  | succ n ih =>
    rw [Nat.add_right_comm, numbersLoop, numbersLoop]
    cases hx : readOne F s with
    | none => rfl
    | some p =>
      dsimp only
      rw [ih p.2]
      unfold readOne at hx
      cases hd : readDec s with
      | none => rw [hd] at hx; simp at hx
      | some q =>
        rw [hd] at hx
        dsimp only at hx
        cases hq : F.num q.1 with
        | none => rw [hq] at hx; simp at hx
        | some y =>
          rw [hq] at hx
          simp only [Option.map_some, Option.some.injEq] at hx
          have := hdec s q.1 q.2 hd
          rw [← hx]
          change List.length q.2 < n
          omega

theorem numbersLoop_le (F : Fmt K) (a b : Nat) (s : Str) (ha : s.length < a) (hb : s.length < b) : numbersLoop F a s = numbersLoop F b s := by
  have h1 := numbersLoop_enough F (s.length + 1) (a - (s.length + 1)) s (by omega)
  have h2 := numbersLoop_enough F (s.length + 1) (b - (s.length + 1)) s (by omega)
  rw [Nat.add_sub_cancel' (by omega)] at h1 h2
  rw [h1, h2]

theorem readOne_blank (F : Fmt K) {ws : Str} (h : Blank ws) (s : Str) : readOne F (ws ++ s) = readOne F s := by
  unfold readOne
  rw [Verif.Table.readDec_blank h]

/-- `diag` reads the numbers of all lines up to something that is not a number. -/
theorem numbers_lines (F : Fmt K) (ls : List Line) (h : ∀ l ∈ ls, l.OK ∧ l.NoComment) (m : List (List K)) (hm : contents F ls = some m)
    (rest : Str) (hr : Sep rest) (hj : readOne F rest = none) : numbers F (fileOf ls ++ rest) = m.flatten := by
  cases ls with
  | nil =>
    have : m = [] := by simpa [contents, eq_comm] using hm
    subst this
    rw [numbers, fileOf, List.nil_append, numbersLoop, hj]
    rfl
  | cons l ls =>
    have hd : ∀ s : Str, numbersLoop F (s.length + 1 + 1 + m.flatten.length) ('\n' :: s) = numbersLoop F (s.length + 1) s := by
      intro s
      have e : readOne F ('\n' :: s) = readOne F s := readOne_blank F blank_nl s
      rw [show s.length + 1 + 1 + m.flatten.length = (s.length + 1 + m.flatten.length) + 1 by omega, numbersLoop, e,
        show s.length + 1 = s.length + 1 from rfl]
      rw [numbersLoop_le F (s.length + 1) (s.length + 1 + m.flatten.length + 1) s (by omega) (by omega), numbersLoop]
    obtain ⟨post, p1, p2⟩ := numbersLoop_lines F (l :: ls) h m hm blank_nil rest hr ((fileOf (l :: ls) ++ rest).length + 1 + 1)
    have e : ([] : Str) ++ (((l :: ls).flatMap fun l => '\n' :: l.text) ++ rest) = '\n' :: (fileOf (l :: ls) ++ rest) := by
      simp [fileOf]
    rw [e, hd] at p2
    rw [numbers, p2, numbersLoop, readOne_blank F p1, hj]
    simp

theorem readOne_nil (F : Fmt K) : readOne F [] = none := rfl

end numbers

/-! ## The eigensolver -/

/-- The square matrix in a list of numbers, row by row. -/
def square (n : Nat) (d : List ℝ) : Mat ℝ := ⟨n, n, fun i j => d.getD (i * n + j) 0⟩

theorem lapack_square (n : Nat) (d : List ℝ) (i j : Nat) :
    Verif.Diag.lapackMatrix (𝕜 := ℝ) n (fun p => d.getD p 0) i j = Verif.Diag.hermitianOfUpper (square n d) i j := by
  unfold Verif.Diag.lapackMatrix Verif.Diag.hermitianOfUpper square
  simp only [star_trivial]
  have e : ∀ a b : Nat, a + n * b = b * n + a := fun a b => by rw [Nat.mul_comm, Nat.add_comm]
  rw [e, e]
  by_cases h1 : j ≤ i
  · by_cases h2 : i ≤ j
    · have : i = j := le_antisymm h2 h1
      subst this
      simp
    · rw [if_pos h1, if_neg h2]
  · rw [if_neg h1, if_pos (by omega)]

theorem cutRows_spec {K : Type} (n k : Nat) (l : List K) (h : l.length = k * n) :
    (cutRows n k l).length = k ∧ (∀ r ∈ cutRows n k l, r.length = n) ∧ (cutRows n k l).flatten = l := by
  induction k generalizing l with
  | zero =>
    have : l = [] := List.length_eq_zero_iff.mp (by omega)
    subst this
    simp [cutRows]
  | succ k ih =>
    rw [Nat.add_mul, Nat.one_mul] at h
    obtain ⟨h1, h2, h3⟩ := ih (l.drop n) (by rw [List.length_drop]; omega)
    refine ⟨by simp [cutRows, h1], ?_, by simp [cutRows, h3]⟩
    intro r hr
    rw [cutRows] at hr
    rcases List.mem_cons.mp hr with e | e
    · rw [e, List.length_take]; omega
    · exact h2 r e

/-- The entry of a matrix in the list of all its numbers. -/
theorem matOf_flat (n : Nat) (m : List (List ℝ)) (h : ∀ r ∈ m, r.length = n) (i j : Nat) (hi : i < m.length) (hj : j < n) :
    (matOf n m).e i j = m.flatten.getD (i * n + j) 0 := by
  rw [List.getD_eq_getElem?_getD, flatten_get n m h i j hi hj, ← List.getD_eq_getElem?_getD]
  rfl

/-- The rows of `U` are orthonormal eigenvectors of `H`, the eigenvalues `w` are in ascending order. -/
structure Eigen (n : Nat) (H : Nat → Nat → ℝ) (w : List ℝ) (U : List (List ℝ)) : Prop where
  values : w.length = n
  vectors : U.length = n
  square : ∀ r ∈ U, r.length = n
  ascending : w.Pairwise (· ≤ ·)
  eigen : ∀ r < n, ∀ i < n, ∑ j ∈ range n, H i j * (matOf n U).e r j = w.getD r 0 * (matOf n U).e r i
  ortho : ∀ r < n, ∀ s < n, ∑ i ∈ range n, (matOf n U).e r i * (matOf n U).e s i = if r = s then 1 else 0

/-- The files that `diag` leaves: only those named with `-o` and `-O` are written; the eigenvalues are scaled; of the two forms of
the file with eigenvectors the binary one remains. -/
def DiagFiles (F : Fmt ℝ) (o : DOpt ℝ) (n : Nat) (w : List ℝ) (U : List (List ℝ)) (fs fs' : Files) : Prop :=
  (∀ v, o.fnVal = some v → o.fnVec ≠ some v → fs' v = some (matText F (w.map fun x => [x * o.scale]))) ∧
  (∀ u, o.fnVec = some u → o.bin = true → fs' u = some (binText F n U)) ∧
  (∀ u, o.fnVec = some u → o.bin = false → o.text = true → fs' u = some (matText F U)) ∧
  (∀ f, o.fnVal ≠ some f → o.fnVec ≠ some f → fs' f = fs f)

/-- `diag` on a file with `n²` numbers, in any arrangement on lines: unless the eigensolver fails, the eigenvalues and eigenvectors of
the symmetric matrix with the upper triangle of the file are written. -/
theorem diag_spec (F : Fmt ℝ) (lim : Nat) (dsyev : Solver ℝ) (hd : Correct dsyev) (o : DOpt ℝ) (ls : List Line)
    (h : ∀ l ∈ ls, l.OK ∧ l.NoComment) (m : List (List ℝ)) (hm : contents F ls = some m) (n : Nat) (hn : 0 < n) (hl : n ≤ lim)
    (hsq : m.flatten.length = n * n) (fs : Files) :
    diag F lim dsyev o (fileOf ls) fs = .failed ∨
    ∃ w U fs', diag F lim dsyev o (fileOf ls) fs = .done fs' ∧
      Eigen n (Verif.Diag.hermitianOfUpper (square n m.flatten)) w U ∧ DiagFiles F o n w U fs fs' ∧ dsyev n m.flatten = some (w, U.flatten) := by
  have hnum := numbers_lines F ls h m hm [] sep_nil (readOne_nil F)
  rw [List.append_nil] at hnum
  unfold diag
  dsimp only
  rw [hnum, if_neg (by intro e; rw [e] at hsq; simp at hsq; omega), hsq, Nat.sqrt_eq, if_neg (by simp), diagonalize, if_neg (by omega)]
  cases hs : dsyev n m.flatten with
  | none => exact Or.inl rfl
  | some wz =>
    obtain ⟨w, z⟩ := wz
    obtain ⟨c1, c2, c3⟩ := hd n m.flatten w z hsq hs
    obtain ⟨u1, u2, u3⟩ := cutRows_spec n n z c2
    refine Or.inr ⟨w, cutRows n n z, _, rfl, ?_, ?_, by rw [u3]⟩
    · have hU : ∀ r < n, ∀ i < n, (matOf n (cutRows n n z)).e r i = z.getD (i + n * r) 0 := by
        intro r hr i hi
        rw [matOf_flat n _ u2 r i (by omega) hi, u3, Nat.add_comm i, Nat.mul_comm n]
      refine ⟨c1, u1, u2, ?_, ?_, ?_⟩
      · rw [List.pairwise_iff_getElem]
        intro i j hi hj hij
        have := c3.ascending i j (le_of_lt hij) (by omega)
        rwa [List.getD_eq_getElem _ _ hi, List.getD_eq_getElem _ _ hj] at this
      · intro r hr i hi
        have := c3.eigen r hr i hi
        simp only [lapack_square] at this
        rw [hU r hr i hi]
        refine Eq.trans ?_ this
        refine Finset.sum_congr rfl fun j hj => ?_
        rw [hU r hr j (Finset.mem_range.mp hj)]
      · intro r hr s hs
        have := c3.ortho r hr s hs
        rw [← this]
        refine Finset.sum_congr rfl fun i hi => ?_
        rw [hU r hr i (Finset.mem_range.mp hi), hU s hs i (Finset.mem_range.mp hi)]
        simp
    · have hv : ∀ w : List ℝ, (w.flatMap fun x => F.put (x * o.scale) ++ ['\n']) = matText F (w.map fun x => [x * o.scale]) := by
        intro w
        rw [matText, List.flatMap_map]
        rfl
      have hb : u32 n ++ (u32 n ++ (cutRows n n z).flatMap fun r => r.flatMap F.enc) = binText F n (cutRows n n z) := by
        rw [binText, u1]
      have hw : ∀ (fs : Files) (a b t : Str), write fs a t b = if b = a then some t else fs b := fun _ _ _ _ => rfl
      refine ⟨?_, ?_, ?_, ?_⟩
      · intro v e1 e2
        unfold saveBin saveText saveValues
        rw [e1]
        cases hf : o.fnVec with
        | none => simp only [hw, hv, if_true]
        | some u =>
          have hne : v ≠ u := fun e => e2 (by rw [hf, e])
          dsimp only
          split <;> split <;> simp [hw, hne, hv]
      · intro u e1 e2
        unfold saveBin
        rw [e1]
        simp [e2, hw, hb]
      · intro u e1 e2 e3
        unfold saveBin saveText
        rw [e1]
        simp [e2, e3, hw]
      · intro f e1 e2
        unfold saveBin saveText saveValues
        cases hf : o.fnVec with
        | none =>
          cases hg : o.fnVal with
          | none => rfl
          | some v =>
            have hne : f ≠ v := fun e => e1 (by rw [hg, e])
            simp [hw, hne]
        | some u =>
          have hne : f ≠ u := fun e => e2 (by rw [hf, e])
          cases hg : o.fnVal with
          | none => dsimp only; split <;> split <;> simp [hw, hne]
          | some v =>
            have hne2 : f ≠ v := fun e => e1 (by rw [hg, e])
            dsimp only; split <;> split <;> simp [hw, hne, hne2]

/-- A file without numbers, or whose count of numbers is not a square, is refused; nothing is written. -/
theorem diag_refuses (F : Fmt ℝ) (lim : Nat) (dsyev : Solver ℝ) (o : DOpt ℝ) (ls : List Line)
    (h : ∀ l ∈ ls, l.OK ∧ l.NoComment) (m : List (List ℝ)) (hm : contents F ls = some m) (hns : ∀ n, 0 < n → m.flatten.length ≠ n * n) (fs : Files) :
    diag F lim dsyev o (fileOf ls) fs = .empty ∨ diag F lim dsyev o (fileOf ls) fs = .notSquare := by
  have hnum := numbers_lines F ls h m hm [] sep_nil (readOne_nil F)
  rw [List.append_nil] at hnum
  unfold diag
  dsimp only
  rw [hnum]
  by_cases he : m.flatten = []
  · rw [if_pos he]; exact Or.inl rfl
  · rw [if_neg he]
    refine Or.inr ?_
    have hp : 0 < m.flatten.length := List.length_pos_iff.mpr he
    rw [if_pos (hns _ (Nat.sqrt_pos.mpr hp))]

/-! ## `unitary` after `diag` -/

/-- For a symmetric matrix, `diag -O U H` followed by `unitary -l -s scale -o out U H U` (with `-B` and `-t` for binary files) writes the
diagonal matrix of the eigenvalues times the scale. -/
theorem diag_unitary (F : Fmt ℝ) (dbg : Bool) (lim : Nat) (dsyev : Solver ℝ) (hd : Correct dsyev) (d : DOpt ℝ) (o : UOpt ℝ) (ls : List Line)
    (h : ∀ l ∈ ls, l.OK ∧ l.NoComment) (m : List (List ℝ)) (hm : contents F ls = some m) (hn : 0 < m.length) (hl : m.length ≤ lim)
    (hlim : lim < 2 ^ 32) (hsq : ∀ r ∈ m, r.length = m.length)
    (hsym : ∀ i < m.length, ∀ j < m.length, (matOf m.length m).e i j = (matOf m.length m).e j i)
    (fs fs' : Files) (H U out : Str) (hH : fs H = some (fileOf ls)) (hu : d.fnVec = some U) (hHU : H ≠ U) (hHv : d.fnVal ≠ some H)
    (hform : if o.bin then d.bin = true else d.bin = false ∧ d.text = true)
    (ho : o.first = false ∧ o.last = true ∧ o.out = some out)
    (hdone : diag F lim dsyev d (fileOf ls) fs = .done fs')
    (hrep : ∀ w z, dsyev m.length m.flatten = some (w, z) → ∀ x ∈ z, F.rep x) :
    ∃ w V fs'', Eigen m.length (matOf m.length m).e w V ∧ unitary F dbg lim o U H U fs' = .ok fs'' ∧ (∀ n, n ≠ out → fs'' n = fs' n) ∧
      fs'' out = some (matText F (rowsOf ⟨m.length, m.length, fun i j => cut F o.tol (o.scale * if i = j then w.getD i 0 else 0)⟩)) := by
  have hflat : m.flatten.length = m.length * m.length := by
    have : ∀ (k : Nat) (m : List (List ℝ)), (∀ r ∈ m, r.length = k) → m.flatten.length = m.length * k := by
      intro k m
      induction m with
      | nil => intro _; simp
      | cons r m ih => intro h; rw [List.flatten_cons, List.length_append, ih fun r hr => h r (by simp [hr]), h r (by simp), List.length_cons, Nat.add_mul]; omega
    exact this _ m hsq
  rcases diag_spec F lim dsyev hd d ls h m hm m.length hn hl hflat fs with hf | ⟨w, V, fs1, e1, hE, hF, hz⟩
  · rw [hdone] at hf; simp at hf
  rw [hdone] at e1
  have : fs' = fs1 := by simpa using e1
  subst this
  have hHs : ∀ i < m.length, ∀ j < m.length, Verif.Diag.hermitianOfUpper (square m.length m.flatten) i j = (matOf m.length m).e i j := by
    intro i hi j hj
    unfold Verif.Diag.hermitianOfUpper
    split
    · exact (matOf_flat _ m hsq i j hi hj).symm
    · rw [hsym i hi j hj]
      exact (star_trivial _).trans (matOf_flat _ m hsq j i hj hi).symm
  have hE2 : Eigen m.length (matOf m.length m).e w V := by
    refine ⟨hE.values, hE.vectors, hE.square, hE.ascending, ?_, hE.ortho⟩
    intro r hr i hi
    rw [← hE.eigen r hr i hi]
    refine Finset.sum_congr rfl fun j hj => ?_
    rw [hHs i hi j (Finset.mem_range.mp hj)]
  have hr : ∀ r ∈ V, ∀ x ∈ r, F.rep x := fun r h1 x h2 => hrep w _ hz x (List.mem_flatten.mpr ⟨r, h1, h2⟩)
  have hVne : V ≠ [] := fun e => by have := hE.vectors; rw [e] at this; simp at this; omega
  have hUm : IsMatrix F o.bin fs' U m.length V := by
    refine ⟨?_, hE.square⟩
    cases hb : o.bin with
    | true =>
      rw [hb] at hform
      have hfile := hF.2.1 U hu hform
      have := readBin_read F m.length V (by rw [hE.vectors]; omega) (by omega) (fun r hr' => ⟨hE.square r hr', hr r hr'⟩) []
      rw [List.append_nil] at this
      simp only [readMatrix, hfile, if_true]
      exact this
    | false =>
      rw [hb] at hform
      have hfile := hF.2.2.1 U hu hform.1 hform.2
      have := matText_read F m.length V hn (fun r hr' => ⟨hE.square r hr', hr r hr'⟩)
      rw [if_neg hVne] at this
      simp only [readMatrix, hfile]
      exact this
  have hHm : IsMatrix F false fs' H m.length m := by
    refine ⟨?_, hsq⟩
    have hfile : fs' H = some (fileOf ls) := by
      rw [hF.2.2.2 H hHv (by rw [hu]; intro e; exact hHU (by simpa using e.symm))]; exact hH
    simp only [readMatrix, hfile]
    exact readText_layout F ls (fun l hl => (h l hl).1) m.length m hm ⟨hsq, fun e => by rw [e]; rfl⟩
  have hV := hE.vectors
  obtain ⟨o1, o2, o3⟩ := ho
  have hspec := unitary_spec F dbg lim o U H U fs' m.length m.length m.length V m V hUm hHm hUm ⟨by omega, hl⟩ ⟨hl, hl⟩ ⟨by omega, hl⟩
    (by rw [o1]; rfl) (by rw [o2]; rfl)
  refine ⟨w, V, _, hE2, hspec, ?_, ?_⟩
  · intro n hn
    rw [o3]
    simp [write, hn]
  · rw [o3]
    simp only [write, if_true, Option.some.injEq]
    congr 1
    unfold rowsOf resultOf
    have r1 : (flip o.first (matOf m.length V)).r = m.length := by rw [o1]; exact hV
    have r2 : (flip o.last (matOf m.length V)).c = m.length := by rw [o2]; exact hV
    dsimp only
    rw [r1, r2]
    refine List.map_congr_left fun i hi => List.map_congr_left fun j hj => ?_
    have hi' := List.mem_range.mp hi
    have hj' := List.mem_range.mp hj
    congr 2
    rw [o1, o2]
    simp only [Verif.Mat.mul, flip, if_true, Bool.false_eq_true, if_false, matOf]
    have e2 : ∀ k ∈ range m.length, (V.getD i []).getD k 0 * (∑ l ∈ range m.length, (m.getD k []).getD l 0 * (V.getD j []).getD l 0) =
        w.getD j 0 * ((matOf m.length V).e i k * (matOf m.length V).e j k) := by
      intro k hk
      have := hE2.eigen j hj' k (Finset.mem_range.mp hk)
      simp only [matOf] at this ⊢
      rw [this]
      ring
    rw [Finset.sum_congr rfl e2, ← Finset.mul_sum, hE2.ortho i hi' j hj']
    split
    · rename_i e; rw [e, mul_one]
    · rw [mul_zero]

end Verif.Mx
