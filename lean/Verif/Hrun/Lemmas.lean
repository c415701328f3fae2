import Verif.Hrun.Spec
import Verif.Table.Props
import Verif.Tools.HilbProps
/-!
# Lemmas on the program `hilb`
-/

namespace Verif.Hrun
open Verif.Text
open Verif.DataFile
open Verif.Table (Dec.value pairLE readDec_blank)
open Verif.Cmd
open Verif.Tools.Hilb
open MeasureTheory

/-! ## Reading -/

/-- Where reading stops: nothing, or something that is no number after white space. -/
def Stops (l : List Item) (r : Str) : Prop := readDec r = none ∧ (r ≠ [] → ∀ p ∈ l, p.2 ≠ [])

theorem Stops.tail {p : Item} {l : List Item} {r : Str} (h : Stops (p :: l) r) : Stops l r := ⟨h.1, fun hr q hq => h.2 hr q (by simp [hq])⟩

theorem stops_nil (l : List Item) : Stops l [] := ⟨by simp [readDec, readFrac, readSign], by simp⟩

def itemsText (l : List Item) : Str := l.flatMap fun p => p.1.text ++ p.2

theorem read_item {x : Lit} {w : Str} {l : List Item} {r pre : Str} (hp : Blank pre) (h : Items ((x, w) :: l)) (hs : Stops ((x, w) :: l) r) :
    readDec (pre ++ (itemsText ((x, w) :: l) ++ r)) = some (x.val, w ++ (itemsText l ++ r)) := by
  obtain ⟨h1, h2, h3, h4⟩ := h
  rw [readDec_blank hp]
  have e : itemsText ((x, w) :: l) ++ r = x.text ++ (w ++ (itemsText l ++ r)) := by simp [itemsText]
  rw [e]
  refine reads_lit x h1 _ ?_
  by_cases hw : w = []
  · have hl := h3 hw
    have hr : r = [] := by
      by_contra hr
      exact hs.2 hr (x, w) (by simp) hw
    subst hw; subst hl; subst hr
    exact sep_nil
  · exact sep_ws h2 hw

theorem read_end {pre r : Str} (hp : Blank pre) (hr : readDec r = none) : readDec (pre ++ (itemsText [] ++ r)) = none := by
  rw [readDec_blank hp]
  simpa [itemsText] using hr

theorem read2_items {a b : Lit} {v w : Str} {l : List Item} {r pre : Str} (hp : Blank pre) (h : Items ((a, v) :: (b, w) :: l)) (hs : Stops ((a, v) :: (b, w) :: l) r) :
    read2 (pre ++ (itemsText ((a, v) :: (b, w) :: l) ++ r)) = some (Dec.value a.val, Dec.value b.val, w ++ (itemsText l ++ r)) := by
  unfold read2
  rw [read_item hp h hs]
  simp only
  rw [read_item h.2.1 h.2.2.2 hs.tail]

theorem read2_short {l : List Item} {r pre : Str} (hl : l.length < 2) (hp : Blank pre) (h : Items l) (hs : Stops l r) :
    read2 (pre ++ (itemsText l ++ r)) = none := by
  unfold read2
  match l, hl with
  | [], _ => rw [read_end hp hs.1]
  | [(a, v)], _ =>
    rw [read_item hp h hs]
    simp only
    rw [read_end h.2.1 hs.1]

theorem short_or {l : List Item} : l.length < 2 ∨ ∃ a v b w t, l = (a, v) :: (b, w) :: t := by
  match l with
  | [] => simp
  | [_] => simp
  | (a, v) :: (b, w) :: t => exact .inr ⟨a, v, b, w, t, rfl⟩

theorem rows2_short {l : List Item} (h : l.length < 2) : rows2 (nums l) = [] := by
  match l, h with
  | [], _ => rfl
  | [_], _ => rfl

theorem dosLoop_items (n : Nat) {l : List Item} {r pre : Str} (hn : l.length < 2 * n) (hp : Blank pre) (h : Items l) (hs : Stops l r) :
    dosLoop n (pre ++ (itemsText l ++ r)) = rows2 (nums l) := by
  induction n generalizing l pre with
  | zero => omega
  | succ n ih =>
    rw [dosLoop]
    rcases short_or (l := l) with hl | ⟨a, v, b, w, t, rfl⟩
    · rw [read2_short hl hp h hs, rows2_short hl]
    · rw [read2_items hp h hs]
      simp only
      rw [ih (by simp at hn; omega) h.2.2.2.2.1 h.2.2.2.2.2.2 hs.tail.tail]
      rfl

theorem lit_pos {x : Lit} (h : x.OK) : 1 ≤ x.text.length := by
  have := Table.lit_ne h
  cases hx : x.text with
  | nil => exact absurd hx this
  | cons c t => simp

theorem length_items {l : List Item} (h : Items l) : l.length ≤ (itemsText l).length := by
  induction l with
  | nil => simp
  | cons p l ih =>
    obtain ⟨x, w⟩ := p
    have := ih h.2.2.2
    have := lit_pos h.1
    simp [itemsText] at *
    omega

theorem rows3_short {p : Item} {l : List Item} (h : l.length < 2) : rows3 (nums (p :: l)) = [] := by
  match l, h with
  | [], _ => rfl
  | [_], _ => rfl

theorem streamLoop_items {α : Type} (f : ℚ → ℚ → α) (n : Nat) {l : List Item} {r pre : Str} (hn : l.length < 3 * n) (hp : Blank pre) (h : Items l) (hs : Stops l r) :
    streamLoop f n (pre ++ (itemsText l ++ r)) = (rows3 (nums l)).map fun q => (q.1, f q.2.1 q.2.2) := by
  induction n generalizing l pre with
  | zero => omega
  | succ n ih =>
    unfold streamLoop
    cases l with
    | nil => simp only [read_end hp hs.1, nums, List.map_nil, rows3]
    | cons p l =>
      obtain ⟨x, u⟩ := p
      have h' := h.2.2.2
      have e1 := read_item hp h hs
      rcases short_or (l := l) with hl | ⟨a, v, b, w, t, rfl⟩
      · have e2 := read2_short hl h.2.1 h' hs.tail
        simp only [e1, e2, rows3_short hl, List.map_nil]
      · have e2 := read2_items h.2.1 h' hs.tail
        have e3 := ih (l := t) (pre := w) (by simp at hn; omega) h'.2.2.2.2.1 h'.2.2.2.2.2.2 hs.tail.tail.tail
        simp only [e1, e2, e3]
        simp only [nums, List.map_cons, rows3]

theorem hilbLoop_failed (n : Nat) (a : Str) : hilbLoop n a none = ([], false) := by
  induction n generalizing a with
  | zero => rfl
  | succ n ih =>
    rw [hilbLoop]
    split
    · rfl
    · simp [ih]

/-- Rows up to the first one whose labels differ. -/
theorem hilbLoop_items (n : Nat) {l m : List Item} {r s pre pre' : Str} (hn : l.length < 2 * n) (hp : Blank pre) (h : Items l) (hs : Stops l r)
    (hp' : Blank pre') (h' : Items m) (hs' : Stops m s) : hilbLoop n (pre ++ (itemsText l ++ r)) (some (pre' ++ (itemsText m ++ s))) =
      ((sideBySide (rows2 (nums l)) (rows2 (nums m))).takeWhile fun q => decide (|q.1 - q.2.1| ≤ 1 / 1000000),
        !(sideBySide (rows2 (nums l)) (rows2 (nums m))).all fun q => decide (|q.1 - q.2.1| ≤ 1 / 1000000)) := by
  induction n generalizing l m pre pre' with
  | zero => omega
  | succ n ih =>
    rw [hilbLoop]
    rcases short_or (l := l) with hl | ⟨a, v, b, w, t, rfl⟩
    · rw [read2_short hl hp h hs, rows2_short hl]
      simp [sideBySide]
    · rw [read2_items hp h hs]
      simp only [Option.bind_some]
      rcases short_or (l := m) with hm | ⟨a', v', b', w', t', rfl⟩
      · rw [read2_short hm hp' h' hs', rows2_short hm]
        simp [sideBySide, hilbLoop_failed]
      · rw [read2_items hp' h' hs']
        simp only
        have e := ih (l := t) (m := t') (pre := w) (pre' := w') (by simp at hn; omega) h.2.2.2.2.1 h.2.2.2.2.2.2 hs.tail.tail h'.2.2.2.2.1 h'.2.2.2.2.2.2 hs'.tail.tail
        rw [e]
        have hc : sideBySide (rows2 (nums ((a, v) :: (b, w) :: t))) (rows2 (nums ((a', v') :: (b', w') :: t'))) =
          (Dec.value a.val, Dec.value a'.val, Dec.value b.val, Dec.value b'.val) :: sideBySide (rows2 (nums t)) (rows2 (nums t')) := rfl
        rw [hc]
        by_cases hd : |Dec.value a.val - Dec.value a'.val| ≤ 1 / 1000000
        · rw [if_neg (not_lt.2 hd)]
          rw [List.takeWhile_cons, List.all_cons]
          simp only [decide_eq_true hd, if_true, Bool.true_and]
        · rw [if_pos (not_le.1 hd)]
          rw [List.takeWhile_cons, List.all_cons]
          simp only [decide_eq_false hd, Bool.false_and]
          rfl

/-! ## Tables -/

instance : Std.Total pairLE := ⟨fun a b => by
  unfold pairLE
  rcases lt_trichotomy a.1 b.1 with h | h | h
  · exact .inl (.inl h)
  · rcases le_total a.2 b.2 with k | k
    · exact .inl (.inr ⟨h, k⟩)
    · exact .inr (.inr ⟨h.symm, k⟩)
  · exact .inr (.inl h)⟩

instance : IsTrans _ pairLE := ⟨fun a b c h k => by
  unfold pairLE at *
  rcases h with h | ⟨h, h'⟩ <;> rcases k with k | ⟨k, k'⟩
  · exact .inl (h.trans k)
  · exact .inl (k ▸ h)
  · exact .inl (h ▸ k)
  · exact .inr ⟨h.trans k, h'.trans k'⟩⟩

theorem increasing_iff (l : List (ℚ × ℚ)) : increasing l = true ↔ l.Pairwise fun a b => a.1 < b.1 := by
  induction l with
  | nil => simp [increasing]
  | cons a l ih =>
    cases l with
    | nil => simp [increasing]
    | cons b l =>
      rw [increasing, Bool.and_eq_true, ih]
      simp only [decide_eq_true_eq]
      constructor
      · rintro ⟨h1, h2⟩
        refine List.pairwise_cons.2 ⟨fun c hc => ?_, h2⟩
        rcases List.mem_cons.1 hc with rfl | hc
        · exact h1
        · exact h1.trans ((List.pairwise_cons.1 h2).1 c hc)
      · intro h
        have := List.pairwise_cons.1 h
        exact ⟨this.1 b (by simp), this.2⟩

/-- There is only one order. -/
theorem ordered_unique {pts l : List (ℚ × ℚ)} (h : Ordered pts l) : pts.insertionSort pairLE = l := by
  refine List.Perm.eq_of_pairwise (le := pairLE) ?_ (List.pairwise_insertionSort pairLE pts) ?_ ((List.perm_insertionSort pairLE pts).trans h.1.symm)
  · intro a b _ _ hab hba
    unfold pairLE at hab hba
    rcases hab with h1 | ⟨h1, h1'⟩ <;> rcases hba with h2 | ⟨h2, h2'⟩
    · exact absurd (h1.trans h2) (lt_irrefl _)
    · exact absurd (h2 ▸ h1) (lt_irrefl _)
    · exact absurd (h1 ▸ h2) (lt_irrefl _)
    · exact Prod.ext h1 (le_antisymm h1' h2')
  · exact h.2.imp fun h => .inl h

theorem first_lt_last {a : ℚ × ℚ} {l : List (ℚ × ℚ)} (h : (a :: l).Pairwise fun a b => a.1 < b.1) (hl : 2 ≤ (a :: l).length) :
    a.1 < ((a :: l).getLast (by simp)).1 := by
  cases l with
  | nil => simp at hl
  | cons b l =>
    rw [List.getLast_cons (by simp)]
    exact (List.pairwise_cons.1 h).1 _ (List.getLast_mem _)

theorem sorted_of {pts : List (ℚ × ℚ)} (h : (pts.map Prod.fst).Nodup) : Ordered pts (pts.insertionSort pairLE) := by
  have hp := List.perm_insertionSort pairLE pts
  refine ⟨hp, ?_⟩
  have hn : ((pts.insertionSort pairLE).map Prod.fst).Nodup := (hp.map _).nodup_iff.2 h
  have hs := List.pairwise_insertionSort pairLE pts
  rw [List.Nodup, List.pairwise_map] at hn
  refine (hs.and hn).imp ?_
  rintro a b ⟨h1 | h1, h2⟩
  · exact h1
  · exact absurd h1.1 h2

end Verif.Hrun
