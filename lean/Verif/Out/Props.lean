import Verif.Out.Model
import Verif.Text.Lemmas
/-!
# C41, C42: output tables and the annotated level listing
-/

namespace Verif.Out
open Verif.Text Verif.Num

/-- The names of the columns. -/
def Fields.names (t : Fields) : List Str := t.list.map (·.desc)
/-- The values in the columns. -/
def Fields.values (t : Fields) : List Str := t.list.map (·.value)

theorem new_list (names : List Str) (w : ℕ) : (Fields.new names w).list = names.map fun d => ⟨d, []⟩ := by
  have : ∀ (l : List Column), names.foldl (fun l d => l ++ [⟨d, []⟩]) l = l ++ names.map fun d => ⟨d, []⟩ := by
    induction names with
    | nil => intro l; simp
    | cons d ds ih => intro l; rw [List.foldl_cons, ih]; simp
  simpa [Fields.new] using this []

/-- **C41.** Declaring more columns at a position inserts exactly these columns there, in
the given order; the other columns keep their order and values.  A position outside
the table is refused. -/
theorem addMany_spec (t : Fields) (more : List Str) (pos : ℤ) :
    (t.addMany more pos = none ↔ pos ≠ -1 ∧ ¬ (0 ≤ pos ∧ pos < t.list.length)) ∧
    ∀ t', t.addMany more pos = some t' → ∃ k ≤ t.list.length, (pos = -1 → k = t.list.length) ∧ (pos ≠ -1 → (k : ℤ) = pos) ∧
      t'.names = t.names.take k ++ more ++ t.names.drop k ∧
      t'.values = t.values.take k ++ more.map (fun _ => []) ++ t.values.drop k ∧ t'.width = t.width := by
  unfold Fields.addMany
  dsimp only
  by_cases h : pos = -1
  · subst h
    simp only [if_true, reduceCtorEq, false_iff, ne_eq, not_true_eq_false, false_and, not_false_eq_true,
      Option.some.injEq, true_and]
    rintro t' rfl
    refine ⟨t.list.length, le_refl _, fun _ => rfl, fun h => absurd h id, ?_, ?_, rfl⟩ <;>
      simp [Fields.names, Fields.values, new_list, Function.comp_def, List.take_of_length_le]
  · rw [if_neg h]
    by_cases h2 : 0 ≤ pos ∧ pos < t.list.length
    · rw [if_pos h2]
      refine ⟨⟨fun h3 => absurd h3 (by simp), fun h3 => absurd h2 h3.2⟩, ?_⟩
      rintro t' h3
      obtain rfl := Option.some.inj h3
      refine ⟨pos.toNat, by omega, fun hh => absurd hh h, fun _ => by omega, ?_, ?_, rfl⟩ <;>
        simp [Fields.names, Fields.values, new_list, Function.comp_def, List.map_take, List.map_drop]
    · rw [if_neg h2]
      simp [h, h2]

/-- **C41.** Setting a value is refused exactly for unknown columns; otherwise the value
goes to the (first) column of that name, and nothing else changes. -/
theorem set_spec (t : Fields) (d text : Str) :
    (t.set d text = none ↔ d ∉ t.names) ∧
    ∀ t', t.set d text = some t' → t'.names = t.names ∧ t'.width = t.width ∧
      ∃ k, t.names.idxOf d = k ∧ k < t.list.length ∧ t'.values = t.values.set k (setw t.width text) := by
  have key : ∀ l : List Column, (setList t.width d text l = none ↔ d ∉ l.map (·.desc)) ∧
      ∀ l', setList t.width d text l = some l' → l'.map (·.desc) = l.map (·.desc) ∧
        (l.map (·.desc)).idxOf d < l.length ∧
        l'.map (·.value) = (l.map (·.value)).set ((l.map (·.desc)).idxOf d) (setw t.width text) := by
    intro l
    induction l with
    | nil => simp [setList]
    | cons f fs ih =>
      unfold setList
      by_cases h : f.desc = d
      · rw [if_pos h]
        simp only [reduceCtorEq, List.map_cons, false_iff, Option.some.injEq, h, List.mem_cons, true_or, not_true_eq_false,
          not_false_eq_true, true_and]
        rintro l' rfl
        simp [h]
      · rw [if_neg h]
        constructor
        · simp only [Option.map_eq_none_iff, ih.1, List.map_cons, List.mem_cons, not_or]
          exact ⟨fun hh => ⟨fun e => h e.symm, hh⟩, fun hh => hh.2⟩
        · intro l' hl'
          obtain ⟨l2, h2, rfl⟩ := Option.map_eq_some_iff.mp hl'
          obtain ⟨h3, h4, h5⟩ := ih.2 l2 h2
          simp only [List.map_cons, h3, List.length_cons, h5]
          rw [List.idxOf_cons_ne _ h]
          exact ⟨trivial, by omega, rfl⟩
  unfold Fields.set
  constructor
  · rw [Option.map_eq_none_iff]; exact (key t.list).1
  · intro t' ht'
    obtain ⟨l, hl, rfl⟩ := Option.map_eq_some_iff.mp ht'
    obtain ⟨h1, h2, h3⟩ := (key t.list).2 l hl
    exact ⟨h1, rfl, _, rfl, h2, h3⟩

/-- After setting all columns once (in any order, repeatedly if one likes), every column
holds its own value. -/
theorem setAll_values (v : Str → Str) (ds : List Str) : ∀ (t : Fields), t.names.Nodup → (∀ d ∈ ds, d ∈ t.names) →
    ∃ t', setAll v ds t = some t' ∧ t'.names = t.names ∧ t'.width = t.width ∧
      t'.list = t.list.map fun f => if f.desc ∈ ds then { f with value := setw t.width (v f.desc) } else f := by
  induction ds with
  | nil => intro t _ _; exact ⟨t, rfl, rfl, rfl, by simp⟩
  | cons d ds ih =>
    intro t hn hd
    have h1 : t.set d (v d) ≠ none := by rw [Ne, (set_spec t d (v d)).1, not_not]; exact hd d (by simp)
    obtain ⟨t1, ht1⟩ := Option.ne_none_iff_exists'.mp h1
    -- the list after one assignment
    have hl1 : t1.list = t.list.map fun f => if f.desc = d then { f with value := setw t.width (v d) } else f := by
      unfold Fields.set at ht1
      obtain ⟨l, hl, rfl⟩ := Option.map_eq_some_iff.mp ht1
      dsimp only
      have : ∀ (l l' : List Column), (l.map (·.desc)).Nodup → setList t.width d (v d) l = some l' →
          l' = l.map fun f => if f.desc = d then { f with value := setw t.width (v d) } else f := by
        intro l
        induction l with
        | nil => intro l' _ h; simp [setList] at h
        | cons f fs ih2 =>
          intro l' hnd h
          rw [List.map_cons, List.nodup_cons] at hnd
          unfold setList at h
          by_cases hf : f.desc = d
          · rw [if_pos hf] at h
            obtain rfl := Option.some.inj h
            rw [List.map_cons, if_pos hf]
            congr 1
            symm
            rw [List.map_eq_iff]
            intro i
            cases hi : fs[i]? with
            | none => simp
            | some g =>
              have : g ∈ fs := List.mem_of_getElem? hi
              have hg : g.desc ≠ d := fun e => hnd.1 (hf ▸ e ▸ List.mem_map_of_mem this)
              simp [hg]
          · rw [if_neg hf] at h
            obtain ⟨l2, h2, rfl⟩ := Option.map_eq_some_iff.mp h
            rw [List.map_cons, if_neg hf, ih2 l2 hnd.2 h2]
      exact this t.list l hn hl
    obtain ⟨hnm, hw, _⟩ := (set_spec t d (v d)).2 t1 ht1
    obtain ⟨t', h2, h3, h4, h5⟩ := ih t1 (by rw [hnm]; exact hn) (fun x hx => by rw [hnm]; exact hd x (by simp [hx]))
    refine ⟨t', ?_, h3.trans hnm, h4.trans hw, ?_⟩
    · unfold setAll; rw [ht1]; exact h2
    · rw [h5, hl1, List.map_map, hw]
      refine List.map_congr_left fun f _ => ?_
      simp only [Function.comp_def, List.mem_cons]
      by_cases e : f.desc = d
      · by_cases e2 : d ∈ ds
        · simp [e, e2]
        · simp [e, e2]
      · by_cases e2 : f.desc ∈ ds
        · simp [e, e2]
        · simp [e, e2]

/-- The text of a table line with the given cells. -/
def lineText (first : Char) (w : ℕ) (cells : List Str) : Str := first :: cells.flatMap fun s => setw w s ++ [' ']

theorem setw_setw (w : ℕ) (s : Str) : setw w (setw w s) = setw w s := by
  have : (setw w s).length = max w s.length := by simp [setw]; omega
  change List.replicate (w - (setw w s).length) ' ' ++ setw w s = setw w s
  rw [show w - List.length (setw w s) = 0 by omega]
  rfl

/-- The columns of the table of a class, in order. -/
def columns (c : TdClass) : List Str := ["T".toList] ++ c.declared ++ tdBase.tail

/-- **C41.** The whole file.  In every symmetry class, for every number of steps and every
value, the table is written without error: first the header with the column names, then
one row per step in which each column holds the value set for it *in that step*.
Header and rows therefore have the same number of columns in the same order. -/
theorem td_file (c : TdClass) (hc : c ∈ tdClasses) (w : ℕ) (vs : List (Str → Str)) :
    ∃ t0 t, tdNew c w = some t0 ∧ tdRun c vs t0 = some t ∧
      (vs ≠ [] → t.out = some (lineText '#' w (columns c) :: vs.map fun v => lineText ' ' w ((columns c).map v))) := by
  have tab : ∀ c ∈ tdClasses, (columns c).Nodup ∧ (∀ d ∈ tdBase ++ c.assigned, d ∈ columns c) ∧
      (∀ d ∈ columns c, d ∈ tdBase ++ c.assigned) := by decide +kernel
  obtain ⟨nd, h1, h2⟩ := tab c hc
  have hnew : ∃ f, (Fields.new tdBase w).addMany c.declared 1 = some f := by
    rw [← Option.ne_none_iff_exists', Ne, (addMany_spec _ _ _).1, new_list]
    simp [tdBase]
  obtain ⟨f, hf⟩ := hnew
  obtain ⟨k, _, _, hk2, hn, _, hw⟩ := (addMany_spec _ _ _).2 f hf
  obtain rfl : k = 1 := by have := hk2 (by norm_num); omega
  have hnames : f.names = columns c := by
    rw [hn]; simp [Fields.names, new_list, columns, tdBase]
  have hfw : f.width = w := hw
  refine ⟨⟨f, none⟩, ?_⟩
  -- the table after any number of rows
  have key : ∀ (vs : List (Str → Str)) (t0 : Td), t0.fields.names = columns c → t0.fields.width = w →
      ∃ t, tdRun c vs t0 = some t ∧ (vs = [] → t = t0) ∧
        (vs ≠ [] → t.out = some ((t0.out.getD [lineText '#' w (columns c)]) ++ vs.map fun v => lineText ' ' w ((columns c).map v))) := by
    intro vs
    induction vs with
    | nil => intro t0 _ _; exact ⟨t0, rfl, fun _ => rfl, fun h => absurd rfl h⟩
    | cons v vs ih =>
      intro t0 hn0 hw0
      obtain ⟨t', h3, h4, h5, h6⟩ := setAll_values v (tdBase ++ c.assigned) t0.fields (by rw [hn0]; exact nd)
        (by rw [hn0]; exact h1)
      have hdr : t'.header = lineText '#' w (columns c) := by
        unfold Fields.header lineText
        rw [h5, hw0, ← hn0, ← h4, Fields.names, List.flatMap_map]
      have hrow : t'.row = lineText ' ' w ((columns c).map v) := by
        unfold Fields.row lineText
        rw [h5, hw0, ← hn0, Fields.names, h6, List.map_map, List.flatMap_map, List.flatMap_map]
        congr 1
        refine List.flatMap_congr fun g hg => ?_
        have : g.desc ∈ tdBase ++ c.assigned := h2 _ (by rw [← hn0]; exact List.mem_map_of_mem hg)
        simp only [this, if_true, hw0, setw_setw, Function.comp_def]
      obtain ⟨t, ht, he, ho⟩ := ih (Td.save { t0 with fields := t' }) (h4.trans hn0) (h5.trans hw0)
      have hout : (Td.save { t0 with fields := t' }).out =
          some ((t0.out.getD [lineText '#' w (columns c)]) ++ [lineText ' ' w ((columns c).map v)]) := by
        simp only [Td.save, hdr, hrow]
      refine ⟨t, ?_, fun h => absurd h (by simp), fun _ => ?_⟩
      · unfold tdRun tdStep; rw [h3]; exact ht
      · cases vs with
        | nil => rw [he rfl, hout]; rfl
        | cons v' vs' => rw [ho (by simp), hout]; simp
  obtain ⟨t, ht, _, ho⟩ := key vs ⟨f, none⟩ hnames hfw
  exact ⟨t, by simp [tdNew, hf], ht, fun h => by rw [ho h]; rfl⟩

/-- The same for the full-density-matrix table, written once. -/
theorem tdfdm_row (w : ℕ) (v : Str → Str) :
    ∃ t, setAll v tdFdmSets (Fields.new tdFdmBase w) = some t ∧ t.header = lineText '#' w tdFdmBase ∧
      t.row = lineText ' ' w (tdFdmBase.map v) := by
  have hn : (Fields.new tdFdmBase w).names = tdFdmBase := by simp [Fields.names, new_list, Function.comp_def]
  obtain ⟨t, h1, h2, h3, h4⟩ := setAll_values v tdFdmSets (Fields.new tdFdmBase w) (by rw [hn]; decide +kernel)
    (by rw [hn]; decide +kernel)
  have hw : t.width = w := h3
  have hsub : ∀ d ∈ tdFdmBase, d ∈ tdFdmSets := by decide +kernel
  refine ⟨t, h1, ?_, ?_⟩
  · unfold Fields.header lineText
    rw [hw]
    rw [show tdFdmBase.flatMap (fun s => setw w s ++ [' ']) = (t.names).flatMap (fun s => setw w s ++ [' ']) by rw [h2, hn]]
    rw [Fields.names, List.flatMap_map]
  · unfold Fields.row lineText
    rw [hw, h4, new_list, List.map_map, List.flatMap_map, List.flatMap_map]
    congr 1
    refine List.flatMap_congr fun d hd => ?_
    simp only [Function.comp_def, hsub d hd, if_true]
    rw [show (Fields.new tdFdmBase w).width = w from rfl, setw_setw]

/-- Splitting a line at white space, as every reader of the file does. -/
def words (s : Str) : List Str :=
  (s.foldr (fun c (acc : Str × List Str) =>
    if isSpace c then ([], if acc.1 = [] then acc.2 else acc.1 :: acc.2) else (c :: acc.1, acc.2)) ([], [])) |>
  fun acc => if acc.1 = [] then acc.2 else acc.1 :: acc.2

/-- The state of the splitting. -/
def wordsAux (s : Str) : Str × List Str :=
  s.foldr (fun c (acc : Str × List Str) =>
    if isSpace c then ([], if acc.1 = [] then acc.2 else acc.1 :: acc.2) else (c :: acc.1, acc.2)) ([], [])

theorem words_eq (s : Str) : words s = if (wordsAux s).1 = [] then (wordsAux s).2 else (wordsAux s).1 :: (wordsAux s).2 := rfl

theorem wordsAux_space (s : Str) : wordsAux (' ' :: s) = ([], words s) := by
  rw [words_eq]
  have h : isSpace ' ' = true := by decide
  unfold wordsAux
  rw [List.foldr_cons, if_pos h]

theorem wordsAux_word (u s : Str) (hu : ∀ c ∈ u, isSpace c = false) :
    wordsAux (u ++ s) = (u ++ (wordsAux s).1, (wordsAux s).2) := by
  induction u with
  | nil => rfl
  | cons c u ih =>
    have e : wordsAux (c :: (u ++ s)) = (c :: (wordsAux (u ++ s)).1, (wordsAux (u ++ s)).2) := by
      unfold wordsAux
      rw [List.foldr_cons, if_neg (by simp [hu c (by simp)])]
    rw [List.cons_append, e, ih fun d hd => hu d (by simp [hd])]
    rfl

theorem words_space (s : Str) : words (' ' :: s) = words s := by
  rw [words_eq (' ' :: s), wordsAux_space]; simp

theorem words_spaces (n : ℕ) (s : Str) : words (List.replicate n ' ' ++ s) = words s := by
  induction n with
  | zero => rfl
  | succ n ih => rw [List.replicate_succ, List.cons_append, words_space, ih]

theorem words_cell (u s : Str) (hu : ∀ c ∈ u, isSpace c = false) (h0 : u ≠ []) : words (u ++ ' ' :: s) = u :: words s := by
  rw [words_eq, wordsAux_word u _ hu, wordsAux_space]
  simp [h0]

/-- **C41.** Reading a row back by white space returns exactly the cells, provided no cell
is empty or contains white space (texts of numbers). -/
theorem row_words (w : ℕ) (cells : List Str) (h : ∀ s ∈ cells, s ≠ [] ∧ ∀ c ∈ s, isSpace c = false) :
    words (lineText ' ' w cells) = cells := by
  unfold lineText
  rw [words_space]
  induction cells with
  | nil => rfl
  | cons s ss ih =>
    have hs := h s (by simp)
    rw [List.flatMap_cons, setw, List.append_assoc, List.append_assoc, words_spaces, List.singleton_append,
      words_cell s _ hs.2 hs.1, ih fun x hx => h x (by simp [hx])]

/-- **C41.** Fixed columns: if all cells fit the width, column `k` starts at character
`1 + k (w + 1)` and is `w` characters long, in the header and in every row. -/
theorem cell_position (first : Char) (w : ℕ) (cells : List Str) (h : ∀ s ∈ cells, s.length ≤ w) (k : ℕ) (s : Str)
    (hk : cells[k]? = some s) :
    ((lineText first w cells).drop (1 + k * (w + 1))).take w = List.replicate (w - s.length) ' ' ++ s ∧
      (lineText first w cells).length = 1 + cells.length * (w + 1) := by
  unfold lineText
  have hl : ∀ s ∈ cells, (setw w s).length = w := fun s hs => by simp [setw]; have := h s hs; omega
  constructor
  · rw [show 1 + k * (w + 1) = (k * (w + 1)) + 1 by ring, List.drop_succ_cons]
    clear h
    induction cells generalizing k with
    | nil => simp at hk
    | cons x xs ih =>
      have hx := hl x (by simp)
      cases k with
      | zero =>
        obtain rfl : x = s := by simpa using hk
        rw [Nat.zero_mul, List.drop_zero, List.flatMap_cons, List.append_assoc, List.take_append_of_le_length (by omega),
          List.take_of_length_le (by omega)]
        rfl
      | succ k =>
        rw [List.flatMap_cons]
        have : (k + 1) * (w + 1) = (setw w x ++ [' ']).length + k * (w + 1) := by simp [hx]; ring
        rw [this, ← List.drop_drop, List.drop_left]
        exact ih k (by simpa using hk) (fun y hy => hl y (by simp [hy]))
  · rw [List.length_cons]
    have : (cells.flatMap fun s => setw w s ++ [' ']).length = cells.length * (w + 1) := by
      clear hk h
      induction cells with
      | nil => simp
      | cons x xs ih =>
        rw [List.flatMap_cons, List.length_append, ih fun y hy => hl y (by simp [hy]), List.length_append, hl x (by simp)]
        simp; ring
    omega

/-- Two steps of a `QS` run, checked on the text. -/
example : ∃ c ∈ tdClasses, c.name = "QS" ∧ columns c =
    ["T".toList, "<Sz^2>".toList, "<Q>".toList, "<Q^2>".toList, "<E>".toList, "<E^2>".toList, "C".toList, "F".toList, "S".toList] :=
  ⟨⟨"QS", ["<Sz^2>".toList, "<Q>".toList, "<Q^2>".toList], ["<Sz^2>".toList, "<Q>".toList, "<Q^2>".toList]⟩,
    by simp [tdClasses], rfl, rfl⟩

example : words (lineText ' ' 4 ["1.5".toList, "22.75".toList]) = ["1.5".toList, "22.75".toList] := by decide

/-! ### The annotated listing -/

section
variable {K : Type} [Field K] [LinearOrder K] [IsStrictOrderedRing K] {L : Type} [LinearOrder L]

theorem pairLe_total (a b : K × L) : pairLe a b ∨ pairLe b a := by
  unfold pairLe
  rcases lt_trichotomy a.1 b.1 with h | h | h
  · exact Or.inl (Or.inl h)
  · rcases le_total a.2 b.2 with h2 | h2
    · exact Or.inl (Or.inr ⟨h, h2⟩)
    · exact Or.inr (Or.inr ⟨h.symm, h2⟩)
  · exact Or.inr (Or.inl h)

theorem pairLe_trans (a b c : K × L) (h1 : pairLe a b) (h2 : pairLe b c) : pairLe a c := by
  unfold pairLe at *
  rcases h1 with h1 | ⟨h1, h1'⟩ <;> rcases h2 with h2 | ⟨h2, h2'⟩
  · exact Or.inl (h1.trans h2)
  · exact Or.inl (h2 ▸ h1)
  · exact Or.inl (h1 ▸ h2)
  · exact Or.inr ⟨h1.trans h2, h1'.trans h2'⟩

instance : IsTotal (K × L) pairLe := ⟨pairLe_total⟩
instance : IsTrans (K × L) pairLe := ⟨pairLe_trans⟩

/-- The sorted list holds every state of the spectrum exactly once, in order of energy. -/
theorem seznam_spec (spectrum : List (L × List K)) :
    (seznam spectrum).Perm (spectrum.flatMap fun p => p.2.map fun e => (e, p.1)) ∧
      (seznam spectrum).Pairwise fun a b => a.1 ≤ b.1 := by
  refine ⟨List.perm_insertionSort _ _, ?_⟩
  refine (List.pairwise_insertionSort pairLe _).imp fun {a b} h => ?_
  rcases h with h | h
  · exact h.le
  · exact h.1.le

theorem fcmp_zero_of_between {tol x y e : K} (he : 0 ≤ e) (h1 : e ≤ y) (h2 : y ≤ x) (h : fcmp3 x e tol = 0) :
    fcmp3 x y tol = 0 := by
  have hx : 0 ≤ x := by linarith
  have hy : 0 ≤ y := by linarith
  unfold fcmp3 at *
  rw [fcmp_eq_zero] at h ⊢
  rw [abs_of_nonneg hx, abs_of_nonneg he, abs_of_nonneg (by linarith : (0:K) ≤ x - e)] at h
  rw [abs_of_nonneg hx, abs_of_nonneg hy, abs_of_nonneg (by linarith : (0:K) ≤ x - y)]
  rcases h with h | h | h
  · left; linarith
  · right; left; exact ⟨h.1, by linarith⟩
  · have hpos : 0 < x + e := by
      by_contra hc
      have h0 : x + e = 0 := le_antisymm (not_lt.mp hc) (by linarith)
      rw [h0, mul_zero] at h
      linarith
    have htol : 0 ≤ tol := by
      by_contra hc
      have := mul_nonpos_of_nonpos_of_nonneg (not_le.mp hc).le hpos.le
      linarith
    right; right
    have : tol * (x + e) ≤ tol * (x + y) := mul_le_mul_of_nonneg_left (by linarith) htol
    linarith

/-- The cut. -/
theorem extend_spec (tol : K) (l : List (K × L)) (len : ℕ) (h0 : 0 < len) (hl : len ≤ l.length) :
    len ≤ extend tol l len ∧ extend tol l len ≤ l.length ∧
      (∀ i a b, len ≤ i → i < extend tol l len → l[i]? = some a → l[i - 1]? = some b → fcmp3 a.1 b.1 tol = 0) ∧
      (∀ a b, l[extend tol l len]? = some a → l[extend tol l len - 1]? = some b → fcmp3 a.1 b.1 tol ≠ 0) := by
  induction hn : l.length - len generalizing len with
  | zero =>
    have hnone : l[len]? = none := by rw [List.getElem?_eq_none_iff]; omega
    have he : extend tol l len = len := by unfold extend; split <;> simp_all
    rw [he]
    exact ⟨le_refl _, hl, fun i a b h1 h2 => by omega, fun a b ha => by rw [hnone] at ha; simp at ha⟩
  | succ n ih =>
    have hlt : len < l.length := by omega
    have h1 : l[len]? = some l[len] := List.getElem?_eq_getElem hlt
    have h2 : l[len - 1]? = some l[len - 1] := List.getElem?_eq_getElem (by omega)
    by_cases hc : fcmp3 l[len].1 l[len - 1].1 tol = 0
    · have he : extend tol l len = extend tol l (len + 1) := by
        rw [extend]
        split
        · rename_i a b ha hb
          rw [h1] at ha; rw [h2] at hb
          obtain rfl := Option.some.inj ha
          obtain rfl := Option.some.inj hb
          rw [if_pos hc]
        · rename_i h; exact absurd h2 (h _ _ h1)
      obtain ⟨i1, i2, i3, i4⟩ := ih (len + 1) (by omega) (by omega) (by omega)
      rw [he]
      refine ⟨by omega, i2, fun i a b hi hi2 ha hb => ?_, i4⟩
      rcases Nat.eq_or_lt_of_le hi with rfl | hi'
      · rw [h1] at ha; rw [h2] at hb
        obtain rfl := Option.some.inj ha
        obtain rfl := Option.some.inj hb
        exact hc
      · exact i3 i a b hi' hi2 ha hb
    · have he : extend tol l len = len := by
        rw [extend]
        split
        · rename_i a b ha hb
          rw [h1] at ha; rw [h2] at hb
          obtain rfl := Option.some.inj ha
          obtain rfl := Option.some.inj hb
          rw [if_neg hc]
        · rfl
      rw [he]
      refine ⟨le_refl _, hl, fun i a b h1 h2 => by omega, fun a b ha hb => ?_⟩
      rw [h1] at ha; rw [h2] at hb
      obtain rfl := Option.some.inj ha
      obtain rfl := Option.some.inj hb
      exact hc

/-- **C42.** The listed states: at least the requested number (or all), every listed state
is at most as high as every unlisted one, and no unlisted state is degenerate (in the
sense of the grouping) with any listed one. -/
theorem listed_spec (tol : K) (n : ℕ) (hn : 0 < n) (spectrum : List (L × List K)) (h0 : ∀ p ∈ spectrum, ∀ e ∈ p.2, 0 ≤ e) :
    let l := seznam spectrum
    let m := cut tol l n
    min l.length n ≤ m ∧ m ≤ l.length ∧
      (∀ a ∈ l.take m, ∀ b ∈ l.drop m, a.1 ≤ b.1 ∧ fcmp3 b.1 a.1 tol ≠ 0) ∧
      (∀ i a b, min l.length n ≤ i → i < m → l[i]? = some a → l[i - 1]? = some b → fcmp3 a.1 b.1 tol = 0) := by
  intro l m
  obtain ⟨hperm, hsort⟩ := seznam_spec spectrum
  by_cases hl0 : l.length = 0
  · have hl : l = [] := List.length_eq_zero_iff.mp hl0
    have hm : m = 0 := by
      change cut tol l n = 0
      rw [hl]; unfold cut extend; simp
    refine ⟨by omega, by omega, ?_, ?_⟩
    · rw [hl]; simp
    · intro i a b _ h; omega
  obtain ⟨e1, e2, e3, e4⟩ := extend_spec tol l (min l.length n) (by omega) (by omega)
  refine ⟨e1, e2, ?_, e3⟩
  intro a ha b hb
  have hab : a.1 ≤ b.1 := by
    have := hsort
    rw [← List.take_append_drop m (seznam spectrum), List.pairwise_append] at this
    exact this.2.2 a ha b hb
  refine ⟨hab, ?_⟩
  -- the states at the cut
  have hdrop : l.drop m ≠ [] := fun h => by rw [h] at hb; simp at hb
  have hmlt : m < l.length := by
    by_contra hc; exact hdrop (List.drop_eq_nil_of_le (not_lt.mp hc))
  have hx : l[m]? = some l[m] := List.getElem?_eq_getElem hmlt
  have hm0 : 0 < m := by have : 0 < min l.length n := by omega
                         exact lt_of_lt_of_le this e1
  have hy : l[m - 1]? = some l[m - 1] := List.getElem?_eq_getElem (by omega)
  have hne := e4 _ _ hx hy
  -- order around the cut
  have hidx : ∀ i j (hi : i < l.length) (hj : j < l.length), i ≤ j → l[i].1 ≤ l[j].1 := by
    intro i j hi hj hij
    rcases Nat.eq_or_lt_of_le hij with rfl | hlt
    · exact le_refl _
    · exact (List.pairwise_iff_getElem.mp hsort) i j hi hj hlt
  obtain ⟨i, hi, rfl⟩ := List.mem_iff_getElem.mp ha
  obtain ⟨j, hj, rfl⟩ := List.mem_iff_getElem.mp hb
  rw [List.length_take] at hi
  rw [List.length_drop] at hj
  rw [List.getElem_take] at hab ⊢
  rw [List.getElem_drop] at hab ⊢
  have hi' : i < l.length := by omega
  have hpos : ∀ k (hk : k < l.length), 0 ≤ l[k].1 := by
    intro k hk
    have : l[k] ∈ spectrum.flatMap fun p => p.2.map fun e => (e, p.1) := hperm.mem_iff.mp (List.getElem_mem hk)
    obtain ⟨p, hp, hm⟩ := List.mem_flatMap.mp this
    obtain ⟨e, he, heq⟩ := List.mem_map.mp hm
    rw [← heq]; exact h0 p hp e he
  intro hz
  apply hne
  -- x = l[m], y = l[m-1]; a ≤ y ≤ x ≤ b
  have hay := hidx i (m - 1) hi' (by omega) (by omega)
  have hyx := hidx (m - 1) m (by omega) hmlt (by omega)
  have hxb := hidx m (m + j) hmlt (by omega) (by omega)
  -- b ~ a gives b ~ y
  -- and x ~ y since y ≤ x ≤ b
  have hby : fcmp3 l[m + j].1 l[m - 1].1 tol = 0 := fcmp_zero_of_between (hpos i hi') hay (by linarith) hz
  have h1 := hpos (m - 1) (by omega)
  have h2 := hpos m hmlt
  have h3 := hpos (m + j) (by omega)
  unfold fcmp3 at *
  rw [fcmp_eq_zero] at hby ⊢
  rw [abs_of_nonneg h3, abs_of_nonneg h1, abs_of_nonneg (by linarith : (0:K) ≤ l[m + j].1 - l[m - 1].1)] at hby
  rw [abs_of_nonneg h2, abs_of_nonneg h1, abs_of_nonneg (by linarith : (0:K) ≤ l[m].1 - l[m - 1].1)]
  generalize l[m].1 = x at *
  generalize l[m - 1].1 = y at *
  generalize l[m + j].1 = b at *
  rcases hby with h | h | h
  · left; linarith
  · right; left; exact ⟨by linarith, h.2⟩
  · by_cases hxy : x = y
    · left; exact hxy
    · right; right
      have hxy' : y < x := lt_of_le_of_ne hyx (Ne.symm hxy)
      have hby : y < b := by linarith
      -- t ↦ (t - y)/(t + y) is increasing
      have hby0 : 0 < b + y := by linarith
      have hxy0 : 0 < x + y := by linarith
      have hr : b - y < tol * (b + y) := h
      have : (x - y) * (b + y) ≤ (b - y) * (x + y) := by nlinarith
      have h4 : (b - y) * (x + y) < tol * (b + y) * (x + y) := mul_lt_mul_of_pos_right hr hxy0
      have h5 : (x - y) * (b + y) < (tol * (x + y)) * (b + y) := by nlinarith
      exact lt_of_mul_lt_mul_right h5 hby0.le

theorem mem_takeWhile_pred {α : Type} (p : α → Bool) (l : List α) (y : α) (hy : y ∈ l.takeWhile p) : p y = true := by
  induction l with
  | nil => simp at hy
  | cons x xs ih =>
    by_cases h : p x = true
    · rw [List.takeWhile_cons_of_pos h] at hy
      rcases List.mem_cons.mp hy with rfl | hy
      · exact h
      · exact ih hy
    · rw [List.takeWhile_cons_of_neg h] at hy; simp at hy

theorem groups_cons (tol : K) (x : K × L) (xs : List (K × L)) :
    groups tol (x :: xs) = (x :: xs).takeWhile (sameGroup tol x.1) :: groups tol ((x :: xs).dropWhile (sameGroup tol x.1)) := by
  rw [groups]

/-- **C42.** The groups: together they are exactly the listed states in order, none is
empty, and all members of a group are degenerate with its first state. -/
theorem groups_spec (tol : K) (l : List (K × L)) :
    (groups tol l).flatten = l ∧ ∀ g ∈ groups tol l, ∃ x xs, g = x :: xs ∧ ∀ y ∈ g, fcmp3 y.1 x.1 tol = 0 := by
  induction hn : l.length using Nat.strong_induction_on generalizing l with
  | _ n ih =>
    cases l with
    | nil => simp [groups]
    | cons x xs =>
      have h : sameGroup tol x.1 x = true := by simp [sameGroup, fcmp3, fcmp_refl]
      have hlen : ((x :: xs).dropWhile (sameGroup tol x.1)).length < n := by
        rw [List.dropWhile_cons_of_pos h]
        have := (List.dropWhile_sublist (sameGroup tol x.1) (l := xs)).length_le
        simp only [List.length_cons] at hn; omega
      obtain ⟨h1, h2⟩ := ih _ hlen _ rfl
      rw [groups_cons]
      refine ⟨?_, ?_⟩
      · rw [List.flatten_cons, h1, List.takeWhile_append_dropWhile]
      · intro g hg
        rcases List.mem_cons.mp hg with rfl | hg
        · refine ⟨x, xs.takeWhile (sameGroup tol x.1), List.takeWhile_cons_of_pos h, fun y hy => ?_⟩
          have := mem_takeWhile_pred _ _ _ hy
          simpa [sameGroup] using this
        · exact h2 g hg

/-- The next group starts with a state that is not degenerate with the first state of the
group before it. -/
theorem groups_next (tol : K) (x : K × L) (xs : List (K × L)) (g : List (K × L)) (gs : List (List (K × L)))
    (hg : groups tol (x :: xs) = g :: gs) :
    ∀ g' ∈ gs.head?, ∃ y ys, g' = y :: ys ∧ fcmp3 y.1 x.1 tol ≠ 0 := by
  rw [groups_cons] at hg
  obtain ⟨rfl, rfl⟩ := List.cons.inj hg
  intro g' hg'
  cases hd : (x :: xs).dropWhile (sameGroup tol x.1) with
  | nil => rw [hd] at hg'; simp [groups] at hg'
  | cons y ys =>
    rw [hd, groups_cons] at hg'
    have h : sameGroup tol y.1 y = true := by simp [sameGroup, fcmp3, fcmp_refl]
    refine ⟨y, ys.takeWhile (sameGroup tol y.1), ?_, ?_⟩
    · rw [← List.takeWhile_cons_of_pos h]
      simpa using hg'.symm
    · have := List.head_dropWhile_not (l := x :: xs) (sameGroup tol x.1) (by rw [hd]; simp)
      simp only [hd, List.head_cons] at this
      simpa [sameGroup] using this

/-- **C42.** The lines written with grouping: one per group, with the energy of its first
state, the labels of its states, and a degeneracy; the degeneracies add up to the sum of
the multiplicities of all listed states.  Without grouping: one line per listed state. -/
theorem dump_spec (sc : K → K) (mult : L → ℕ) (leS : L → L → Bool) (tol : K) (n : ℕ) (hn : 0 < n)
    (spectrum : List (L × List K)) :
    let l := seznam spectrum
    let listed := l.take (cut tol l n)
    ((dump sc mult leS tol true n spectrum).map fun x => x.degeneracy.getD 0).sum = (listed.map fun x => mult x.2).sum ∧
    ((dump sc mult leS tol true n spectrum).flatMap fun x => x.labels).Perm (listed.map Prod.snd) ∧
    (dump sc mult leS tol false n spectrum).map (fun x => (x.energy, x.labels)) = listed.map fun x => (sc x.1, [x.2]) := by
  intro l listed
  have hn' : n ≠ 0 := by omega
  have hfl := (groups_spec tol listed).1
  have e : dump sc mult leS tol true n spectrum = (groups tol listed).map fun g =>
      ⟨sc ((g.head?.map Prod.fst).getD 0), (g.map Prod.snd).mergeSort leS, some ((g.map fun x => mult x.2).sum)⟩ := by
    simp [dump, hn', listed, l]
  refine ⟨?_, ?_, ?_⟩
  · rw [e, List.map_map]
    conv_rhs => rw [← hfl]
    rw [List.map_flatten, List.sum_flatten, List.map_map]
    rfl
  · rw [e, List.flatMap_map]
    conv_rhs => rw [← hfl]
    rw [List.map_flatten]
    generalize groups tol listed = gs
    induction gs with
    | nil => simp
    | cons g gs ih =>
      simp only [List.flatMap_cons, List.map_cons, List.flatten_cons]
      exact (List.mergeSort_perm _ _).append ih
  · simp [dump, hn', listed, l, Function.comp_def]

/-- Written energies keep the order of the states. -/
theorem scaledEnergy_mono (ds da : Bool) (scale total esc x y : K) (h1 : 0 < scale) (h2 : 0 < esc) (h : x ≤ y) :
    scaledEnergy ds da scale total esc x ≤ scaledEnergy ds da scale total esc y := by
  unfold scaledEnergy
  have hs : (0:K) ≤ if ds then 1 else scale := by cases ds <;> simp [h1.le]
  have := mul_le_mul_of_nonneg_right h hs
  exact div_le_div_of_nonneg_right (by linarith) h2.le
end

/-- A cluster of three states cut after the first: all three are listed. -/
example : cut (1/100 : ℚ) (seznam [(0, [(0:ℚ), 1]), (1, [(1:ℚ), 1, 2])]) 2 = 4 := by decide +kernel

example : groups (1/100 : ℚ) [((0:ℚ), 0), (1, 0), (1, 1), (2, 1)] = [[(0, 0)], [(1, 0), (1, 1)], [(2, 1)]] := by
  have t1 : [((0:ℚ), 0), (1, 0), (1, 1), (2, 1)].takeWhile (sameGroup (1/100 : ℚ) 0) = [(0, 0)] := by decide +kernel
  have d1 : [((0:ℚ), 0), (1, 0), (1, 1), (2, 1)].dropWhile (sameGroup (1/100 : ℚ) 0) = [(1, 0), (1, 1), (2, 1)] := by
    decide +kernel
  have t2 : [((1:ℚ), 0), (1, 1), (2, 1)].takeWhile (sameGroup (1/100 : ℚ) 1) = [(1, 0), (1, 1)] := by decide +kernel
  have d2 : [((1:ℚ), 0), (1, 1), (2, 1)].dropWhile (sameGroup (1/100 : ℚ) 1) = [(2, 1)] := by decide +kernel
  have t3 : [((2:ℚ), 1)].takeWhile (sameGroup (1/100 : ℚ) 2) = [(2, 1)] := by decide +kernel
  have d3 : [((2:ℚ), 1)].dropWhile (sameGroup (1/100 : ℚ) 2) = [] := by decide +kernel
  rw [groups_cons, t1, d1, groups_cons, t2, d2, groups_cons, t3, d3, groups]

end Verif.Out
