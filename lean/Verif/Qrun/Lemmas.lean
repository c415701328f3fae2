import Verif.Qrun.Spec
import Verif.Table.Props
import Verif.Text.Lemmas
/-!
# Reading the files
-/

namespace Verif.Qrun
open Verif.Text
open Verif.DataFile (Lit Blank)
open Verif.Table (Plain Dec.value fields atof fieldsAux plain_blank lit_chars lit_ne)
open Verif.Tools (TdRow TdBlock FileLine blocksOf)

theorem fields_cols (cs : List (Str × Lit)) (h : ∀ p ∈ cs, Plain p.1 ∧ p.1 ≠ [] ∧ p.2.OK) (tail : Str) (ht : Plain tail) (cur : Str) (hc : cur ≠ []) :
    fieldsAux cur ((cs.flatMap fun p => p.1 ++ p.2.text) ++ tail) = cur.reverse :: cs.map fun p => p.2.text := by
  induction cs generalizing cur with
  | nil => simpa using Table.fields_end hc (plain_blank ht)
  | cons p cs ih =>
    obtain ⟨h1, h2, h3⟩ := h p (by simp)
    obtain ⟨ws, x⟩ := p
    cases ws with
    | nil => exact absurd rfl h2
    | cons c w =>
      simp only [List.flatMap_cons, List.append_assoc, List.cons_append, List.map_cons]
      rw [fieldsAux, if_pos (plain_blank h1 c (by simp)), if_neg hc]
      rw [Table.fields_blank (ws := w) (fun d hd => plain_blank h1 d (by simp [hd])), Table.fields_word (fun c hc => (lit_chars h3 c hc).1), List.append_nil,
        ih (fun q hq => h q (by simp [hq])) _ (by simpa using lit_ne h3), List.reverse_reverse]

theorem fields_rowT {n : Nat} {r : RowT} (h : r.OK n) : fields r.text = r.T.text :: r.cols.map fun p => p.2.text := by
  obtain ⟨h1, h2, h3, h4, -⟩ := h
  rw [fields, RowT.text, Table.fields_blank (plain_blank h1), Table.fields_word (fun c hc => (lit_chars h2 c hc).1), List.append_nil,
    fields_cols _ h3 _ h4 _ (by simpa using lit_ne h2), List.reverse_reverse]

theorem plain_chars {ws : Str} (h : Plain ws) : ∀ c ∈ ws, c ≠ '#' ∧ c ≠ '\n' := by
  intro c hc
  rcases h c hc with rfl | rfl <;> exact ⟨by decide, by decide⟩

theorem row_chars {n : Nat} {r : RowT} (h : r.OK n) : ∀ c ∈ r.text, c ≠ '#' ∧ c ≠ '\n' := by
  obtain ⟨h1, h2, h3, h4, -⟩ := h
  intro c hc
  simp only [RowT.text, List.mem_append, List.mem_flatMap] at hc
  rcases hc with hc | hc | ⟨p, hp, hc | hc⟩ | hc
  · exact plain_chars h1 c hc
  · exact (lit_chars h2 c hc).2
  · exact plain_chars (h3 p hp).1 c hc
  · exact (lit_chars (h3 p hp).2.2 c hc).2
  · exact plain_chars h4 c hc

theorem row_head {n : Nat} {r : RowT} (h : r.OK n) : r.text.head? ≠ some '#' := by
  intro e
  cases ht : r.text with
  | nil => rw [ht] at e; cases e
  | cons c t =>
    rw [ht] at e
    simp only [List.head?_cons, Option.some.injEq] at e
    exact (row_chars h c (by rw [ht]; simp)).1 e

/-- The numbers of a line. -/
def nums (r : RowT) : List ℚ := r.value.1 :: r.value.2

theorem lineOf_row {n : Nat} {r : RowT} (h : r.OK n) : lineOf r.text = .data (nums r) := by
  rw [lineOf, if_neg (row_head h), fields_rowT h]
  obtain ⟨-, h2, h3, -, -⟩ := h
  simp only [List.map_cons, List.map_map, nums, RowT.value, Table.atof_lit h2]
  congr 2
  apply List.map_congr_left
  intro p hp
  simp only [Function.comp, Table.atof_lit (h3 p hp).2.2]

theorem split_cons {s : Str} (h : '\n' ∉ s) (rest : Str) : split '\n' (s ++ '\n' :: rest) = s :: split '\n' rest := by
  rw [split, splitAux_nodelim _ _ _ _ h, List.nil_append]
  rfl

/-- The lines of the parts of a file. -/
theorem split_comments (cs : List Str) (h : ∀ c ∈ cs, '\n' ∉ c) (rest : Str) :
    split '\n' (cs.flatMap commentText ++ rest) = (cs.map fun c => '#' :: c) ++ split '\n' rest := by
  induction cs with
  | nil => rfl
  | cons c cs ih =>
    have hc : '\n' ∉ '#' :: c := by
      rw [List.mem_cons]
      rintro (e | e)
      · exact absurd e (by decide)
      · exact h c (by simp) e
    simp only [List.flatMap_cons, commentText, List.append_assoc, List.cons_append, List.nil_append, List.map_cons]
    rw [← List.cons_append, split_cons hc, ih fun d hd => h d (by simp [hd])]

theorem split_rows {n : Nat} (rs : List RowT) (h : ∀ r ∈ rs, r.OK n) (rest : Str) :
    split '\n' ((rs.flatMap fun r => r.text ++ ['\n']) ++ rest) = rs.map RowT.text ++ split '\n' rest := by
  induction rs with
  | nil => rfl
  | cons r rs ih =>
    simp only [List.flatMap_cons, List.append_assoc, List.cons_append, List.nil_append, List.map_cons]
    rw [split_cons (fun e => (row_chars (h r (by simp)) _ e).2 rfl), ih fun d hd => h d (by simp [hd])]

theorem split_sets {n : Nat} (ss : List SetT) (h : ∀ s ∈ ss, (∀ r ∈ s.rows, r.OK n) ∧ ∀ c ∈ s.comments, '\n' ∉ c) (rest : Str) :
    split '\n' (ss.flatMap SetT.text ++ rest) = (ss.flatMap fun s => s.rows.map RowT.text ++ s.comments.map fun c => '#' :: c) ++ split '\n' rest := by
  induction ss with
  | nil => rfl
  | cons s ss ih =>
    simp only [List.flatMap_cons, SetT.text, List.append_assoc]
    rw [split_rows _ (h s (by simp)).1, split_comments _ (h s (by simp)).2]
    rw [ih fun d hd => h d (by simp [hd])]

theorem split_file {n : Nat} {f : FileT} (h : f.OK n) :
    split '\n' f.text = (f.head.map fun c => '#' :: c) ++ f.sets.flatMap fun s => s.rows.map RowT.text ++ s.comments.map fun c => '#' :: c := by
  have := split_sets f.sets h.2.1 []
  rw [List.append_nil] at this
  rw [FileT.text, split_comments _ h.1, this]
  simp [split, splitAux]

theorem lineOf_comment (c : Str) : lineOf ('#' :: c) = .comment := by simp [lineOf]

theorem lines_file {n : Nat} {f : FileT} (h : f.OK n) :
    lines f.text = (f.head.map fun _ => .comment) ++ f.sets.flatMap fun s => (s.rows.map fun r => .data (nums r)) ++ s.comments.map fun _ => .comment := by
  rw [lines, split_file h, List.map_append, List.map_map, List.map_flatMap]
  refine congrArg₂ (· ++ ·) ?_ ?_
  · apply List.map_congr_left
    intro c _
    exact lineOf_comment c
  · rw [List.flatMap_def, List.flatMap_def]
    refine congrArg List.flatten ?_
    apply List.map_congr_left
    intro s hs
    rw [List.map_append, List.map_map, List.map_map]
    refine congrArg₂ (· ++ ·) ?_ ?_
    · apply List.map_congr_left
      intro r hr
      exact lineOf_row ((h.2.1 s hs).1 r hr)
    · apply List.map_congr_left
      intro c _
      exact lineOf_comment c

theorem title_file {n : Nat} {f : FileT} (h : f.OK n) : title f.text = f.head.getLast?.map fun c => '#' :: c := by
  have hfirst : ∃ r t, (f.sets.flatMap fun s => s.rows.map RowT.text ++ s.comments.map fun c => '#' :: c) = RowT.text r :: t ∧ r.OK n := by
    cases hs : f.sets with
    | nil => simp [FileT.sets] at hs
    | cons s ss =>
      exact ⟨s.first, (s.more.map RowT.text ++ s.comments.map fun c => '#' :: c) ++
          ss.flatMap fun s => s.rows.map RowT.text ++ s.comments.map fun c => '#' :: c, rfl, (h.2.1 s (by rw [hs]; simp)).1 s.first (by simp [SetT.rows])⟩
  obtain ⟨r, t, ht, hr⟩ := hfirst
  rw [title, split_file h, ht, List.takeWhile_append_of_pos (by
    intro x hx
    obtain ⟨c, -, rfl⟩ := List.mem_map.1 hx
    simp)]
  rw [List.takeWhile_cons_of_neg (by simpa using row_head hr), List.append_nil, List.getLast?_map]

theorem data_mem {n : Nat} {f : FileT} (h : f.OK n) (v : List ℚ) (hv : FileLine.data v ∈ lines f.text) : v.length = n + 1 := by
  rw [lines_file h] at hv
  simp only [List.mem_append, List.mem_map, List.mem_flatMap, reduceCtorEq, and_false, exists_false, false_or, or_false] at hv
  obtain ⟨s, hs, r, hr, e⟩ := hv
  cases e
  simp [nums, RowT.value, ((h.2.1 s hs).1 r hr).2.2.2.2]

theorem data_ex {n : Nat} {f : FileT} (h : f.OK n) : ∃ v, FileLine.data v ∈ lines f.text := by
  refine ⟨nums f.last.first, ?_⟩
  rw [lines_file h]
  simp only [List.mem_append, List.mem_map, List.mem_flatMap]
  exact Or.inr ⟨f.last, by simp [FileT.sets], Or.inl ⟨f.last.first, by simp [SetT.rows], rfl⟩⟩

/-! ### The data sets -/

theorem blocks_comment (ls : List (FileLine ℚ)) : blocksOf (.comment :: ls) = blocksOf ls := by
  simp [blocksOf, List.splitOnP_cons, FileLine.isComment]

theorem blocks_comments (cs : List Str) (ls : List (FileLine ℚ)) : blocksOf ((cs.map fun _ => FileLine.comment) ++ ls) = blocksOf ls := by
  induction cs with
  | nil => rfl
  | cons c cs ih => rw [List.map_cons, List.cons_append, blocks_comment, ih]

/-- A stretch of data before a comment or the end. -/
theorem splitOn_rows (rs : List RowT) (ls : List (FileLine ℚ)) :
    ((rs.map fun r => FileLine.data (nums r)) ++ ls).splitOnP FileLine.isComment =
      (ls.splitOnP FileLine.isComment).modifyHead ((rs.map fun r => FileLine.data (nums r)) ++ ·) := by
  induction rs with
  | nil => cases h : ls.splitOnP FileLine.isComment <;> simp [h]
  | cons r rs ih =>
    rw [List.map_cons, List.cons_append, List.splitOnP_cons, ih]
    simp only [FileLine.isComment, Bool.false_eq_true, if_false]
    cases ls.splitOnP FileLine.isComment <;> rfl

theorem row_nums (r : RowT) : FileLine.row (FileLine.data (nums r)) = r.value := rfl

theorem rows_map (rs : List RowT) : (rs.map fun r => FileLine.data (nums r)).map FileLine.row = rs.map RowT.value := by
  rw [List.map_map]
  rfl

theorem blocks_set (s : SetT) (ls : List (FileLine ℚ)) :
    blocksOf ((s.rows.map fun r => FileLine.data (nums r)) ++ .comment :: ls) = s.value :: blocksOf ls := by
  unfold blocksOf
  rw [splitOn_rows, List.splitOnP_cons]
  simp only [FileLine.isComment, if_true, List.modifyHead_cons, List.append_nil, List.map_cons, rows_map]
  rw [List.filter_cons_of_pos (by simp [SetT.rows])]
  rfl

theorem blocks_last (s : SetT) (cs : List Str) :
    blocksOf ((s.rows.map fun r => FileLine.data (nums r)) ++ cs.map fun _ => FileLine.comment) = [s.value] := by
  cases cs with
  | nil =>
    unfold blocksOf
    rw [splitOn_rows]
    simp only [List.map_nil, List.splitOnP_nil, List.modifyHead_cons, List.append_nil, List.map_cons, rows_map]
    rw [List.filter_cons_of_pos (by simp [SetT.rows])]
    rfl
  | cons c cs =>
    rw [List.map_cons, blocks_set]
    have := blocks_comments cs []
    rw [List.append_nil] at this
    rw [this]
    rfl

theorem blocks_sets (ss : List SetT) (hs : ∀ s ∈ ss, s.comments ≠ []) (last : SetT) :
    blocksOf ((ss ++ [last]).flatMap fun s => (s.rows.map fun r => FileLine.data (nums r)) ++ s.comments.map fun _ => FileLine.comment) =
      (ss ++ [last]).map SetT.value := by
  induction ss with
  | nil => simpa using blocks_last last last.comments
  | cons s ss ih =>
    have hc := hs s (by simp)
    rw [List.cons_append, List.flatMap_cons, List.map_cons, ← ih fun t ht => hs t (by simp [ht])]
    cases hcs : s.comments with
    | nil => exact absurd hcs hc
    | cons c cs =>
      rw [List.map_cons, List.append_assoc, List.cons_append, blocks_set, blocks_comments]

theorem blocks_file {n : Nat} {f : FileT} (h : f.OK n) : blocksOf (lines f.text) = f.value := by
  rw [lines_file h, blocks_comments, FileT.sets, blocks_sets _ h.2.2]
  rfl

theorem good_file {n : Nat} {f : FileT} (h : f.OK n) (hd : f.distinct) : ∀ b ∈ f.value, Tools.GoodBlock n b := by
  intro b hb
  refine ⟨?_, ?_, ?_⟩
  · obtain ⟨s, -, rfl⟩ := List.mem_map.1 hb
    simp [SetT.value, SetT.rows]
  · have := hd b hb
    rw [List.nodup_iff_pairwise_ne, List.pairwise_map] at this
    exact this
  · obtain ⟨s, hs, rfl⟩ := List.mem_map.1 hb
    intro r hr
    obtain ⟨r', hr', rfl⟩ := List.mem_map.1 hr
    simpa [RowT.value] using ((h.2.1 s hs).1 r' hr').2.2.2.2

end Verif.Qrun
