import Verif.Tools.Avg
import Verif.Tools.LinIntProps
import Mathlib.Tactic.Linarith
import Mathlib.Tactic.FieldSimp
import Mathlib.Tactic.Ring
import Mathlib.Data.List.GetD
/-!
# Properties of the averaging tools: C58
-/

namespace Verif.Tools

variable {K : Type} [Field K] [LinearOrder K] [IsStrictOrderedRing K]

/-! ### Reading the blocks -/

/-- Comment lines separate blocks. -/
def FileLine.isComment : FileLine K → Bool
  | .comment => true
  | .data _ => false

/-- The row of a data line. -/
def FileLine.row : FileLine K → TdRow K
  | .comment => (0, [])
  | .data v => (v.headD 0, v.tail)

/-- The data lines between comments, the empty stretches left out. -/
def blocksOf (ls : List (FileLine K)) : List (TdBlock K) :=
  ((ls.splitOnP FileLine.isComment).map fun b => b.map FileLine.row).filter fun b => !b.isEmpty

theorem loadLoop_spec (n : ℕ) (hn : n ≠ 0) (ls : List (FileLine K))
    (h : ∀ v, FileLine.data v ∈ ls → v.length = n + 1) (acc : List (TdBlock K)) (cur : List (FileLine K))
    (hcur : ∀ l ∈ cur, l.isComment = false) (cols : ℕ) (hc : cols = n ∨ cols = 0) :
    ∃ c, (c = n ∨ (c = cols ∧ ∀ v, FileLine.data v ∉ ls)) ∧
      loadLoop cols acc (cur.map FileLine.row) ls =
        some (c, acc ++ (((ls.splitOnP FileLine.isComment).modifyHead (cur ++ ·)).map fun b => b.map FileLine.row).filter
          fun b => !b.isEmpty) := by
  have hid : ∀ l : List (List (FileLine K)), l.modifyHead (fun x => x) = l := fun l => by cases l <;> rfl
  induction ls generalizing acc cur cols with
  | nil =>
    refine ⟨cols, Or.inr ⟨rfl, by simp⟩, ?_⟩
    cases cur <;> simp [loadLoop]
  | cons l ls ih =>
    cases l with
    | comment =>
      obtain ⟨c, hc1, hc2⟩ := ih (fun v hv => h v (by simp [hv]))
        (if (cur.map FileLine.row).length = 0 then acc else acc ++ [cur.map FileLine.row]) [] (by simp) cols hc
      refine ⟨c, ?_, ?_⟩
      · rcases hc1 with h1 | ⟨h1, h2⟩
        · exact Or.inl h1
        · exact Or.inr ⟨h1, fun v => by simpa using h2 v⟩
      · simp only [loadLoop]
        rw [show ([] : TdBlock K) = List.map FileLine.row [] from rfl, hc2]
        cases cur with
        | nil => simp [List.splitOnP_cons, FileLine.isComment, hid]
        | cons x xs => simp [List.splitOnP_cons, FileLine.isComment, hid]
    | data v =>
      have hv := h v (by simp)
      obtain ⟨T, vals, rfl⟩ : ∃ T vals, v = T :: vals := by
        cases v with
        | nil => simp at hv
        | cons T vals => exact ⟨T, vals, rfl⟩
      have hlen : vals.length = n := by simpa using hv
      have step : loadLoop cols acc (cur.map FileLine.row) (FileLine.data (T :: vals) :: ls)
          = loadLoop n acc ((cur ++ [FileLine.data (T :: vals)]).map FileLine.row) ls := by
        simp only [loadLoop, hlen, List.map_append, List.map_cons, List.map_nil, FileLine.row, List.headD_cons,
          List.tail_cons]
        rcases hc with rfl | rfl
        · rw [if_neg hn]; simp
        · simp
      obtain ⟨c, hc1, hc2⟩ := ih (fun v hv => h v (by simp [hv])) acc (cur ++ [.data (T :: vals)])
        (by
          intro l hl
          rcases List.mem_append.1 hl with h | h
          · exact hcur l h
          · rw [List.mem_singleton.1 h]; rfl) n (Or.inl rfl)
      refine ⟨c, Or.inl (by rcases hc1 with h | h <;> [exact h; exact h.1]), ?_⟩
      rw [step, hc2, List.splitOnP_cons]
      simp only [FileLine.isComment, Bool.false_eq_true, if_false]
      cases hsp : ls.splitOnP FileLine.isComment with
      | nil => exact absurd hsp (List.splitOnP_ne_nil _ _)
      | cons b bs => simp

/-- **C58, reading.** If all data lines of a file have the same number `n + 1 ≥ 2` of
columns, the data blocks are the stretches of data lines between comment lines, in
order; nothing is lost and the number of columns is `n`. -/
theorem tdLoad_spec (n : ℕ) (hn : n ≠ 0) (ls : List (FileLine K))
    (h : ∀ v, FileLine.data v ∈ ls → v.length = n + 1) (hne : ∃ v, FileLine.data v ∈ ls) :
    tdLoad 0 ls = some (n, blocksOf ls) := by
  obtain ⟨c, hc1, hc2⟩ := loadLoop_spec n hn ls h [] [] (by simp) 0 (Or.inr rfl)
  have : c = n := by
    rcases hc1 with h1 | ⟨-, h2⟩
    · exact h1
    · obtain ⟨v, hv⟩ := hne; exact absurd hv (h2 v)
  subst this
  unfold tdLoad
  rw [show ([] : TdBlock K) = List.map FileLine.row [] from rfl, hc2]
  cases hsp : ls.splitOnP FileLine.isComment with
  | nil => exact absurd hsp (List.splitOnP_ne_nil _ _)
  | cons b bs => simp [blocksOf, hsp]

example : tdLoad 0 ([.comment, .data [1, 5], .data [2, 6], .comment, .comment, .data [1, 7]] : List (FileLine ℚ))
    = some (1, [[(1, [5]), (2, [6])], [(1, [7])]]) := by decide +kernel

/-- A line with a different number of columns is rejected once the number of columns is known. -/
theorem tdLoad_rejects (n : ℕ) (hn : n ≠ 0) (v : List K) (hv : v.length ≠ n + 1) (ls : List (FileLine K)) :
    tdLoad n (.data v :: ls) = none := by
  cases v with
  | nil => rfl
  | cons T vals =>
    have : vals.length ≠ n := by simpa using hv
    simp [tdLoad, loadLoop, hn, this]

/-- **Violation.** A line with a temperature only leaves the number of columns unset;
later lines with more columns are accepted, and the averaging reads outside the short row. -/
theorem tdLoad_ragged : tdLoad 0 ([.data [1], .data [2, 5]] : List (FileLine ℚ)) = some (1, [[(1, []), (2, [5])]]) ∧
    tdavg 1 ([[(1, []), (2, [5])]] : List (TdBlock ℚ)) none = none := by
  constructor <;> decide +kernel

/-! ### The merged mesh -/

theorem eqApprox_iff {a b : K} (hab : a ≤ b) : eqApprox a b = true ↔ a ≠ 0 ∧ b - a < |a| / 1000000 := by
  unfold eqApprox
  by_cases h : a = 0
  · simp [h]
  · have hp : 0 < |a| := abs_pos.2 h
    rw [if_neg h, decide_eq_true_eq, abs_div, div_lt_iff₀ hp, abs_sub_comm, abs_of_nonneg (sub_nonneg.2 hab), eps]
    constructor
    · intro h'; exact ⟨h, by linarith [show 1 / 1000000 * |a| = |a| / 1000000 by ring]⟩
    · rintro ⟨-, h'⟩; linarith [show 1 / 1000000 * |a| = |a| / 1000000 by ring]

theorem uniqueLoop_mem (p : K → K → Bool) (x : K) (l : List K) {y : K} (h : y ∈ uniqueLoop p x l) : y ∈ l := by
  induction l generalizing x with
  | nil => simp [uniqueLoop] at h
  | cons z l ih =>
    unfold uniqueLoop at h
    split at h
    · exact List.mem_cons_of_mem _ (ih x h)
    · rcases List.mem_cons.1 h with rfl | h
      · simp
      · exact List.mem_cons_of_mem _ (ih z h)

/-- Every element is close to a kept one below it. -/
theorem uniqueLoop_cover (l : List K) (x : K) (hl : (x :: l).Pairwise (· ≤ ·)) (y : K) (hy : y ∈ x :: l) :
    ∃ m ∈ x :: uniqueLoop eqApprox x l, m ≤ y ∧ (m = y ∨ y - m < |m| / 1000000) := by
  induction l generalizing x with
  | nil =>
    rw [List.mem_singleton] at hy
    exact ⟨x, by simp, hy ▸ le_refl _, Or.inl hy.symm⟩
  | cons z l ih =>
    have hxz : x ≤ z := (List.pairwise_cons.1 hl).1 z (by simp)
    have htail := (List.pairwise_cons.1 hl).2
    have hxl : (x :: l).Pairwise (· ≤ ·) := List.pairwise_cons.2
      ⟨fun w hw => (List.pairwise_cons.1 hl).1 w (by simp [hw]), (List.pairwise_cons.1 htail).2⟩
    unfold uniqueLoop
    by_cases he : eqApprox x z = true
    · rw [if_pos he]
      rcases List.mem_cons.1 hy with rfl | hy
      · exact ⟨y, by simp, le_refl _, Or.inl rfl⟩
      · rcases List.mem_cons.1 hy with rfl | hy
        · exact ⟨x, by simp, hxz, Or.inr ((eqApprox_iff hxz).1 he).2⟩
        · exact ih x hxl (by simp [hy])
    · rw [if_neg he]
      rcases List.mem_cons.1 hy with rfl | hy
      · exact ⟨y, by simp, le_refl _, Or.inl rfl⟩
      · obtain ⟨m, hm, h⟩ := ih z htail hy
        exact ⟨m, List.mem_cons_of_mem _ hm, h⟩

/-- Kept elements are apart: the distance to any later one is at least the tolerance. -/
theorem uniqueLoop_apart (l : List K) (x : K) (hl : (x :: l).Pairwise (· ≤ ·)) :
    (x :: uniqueLoop eqApprox x l).Pairwise fun a b => a ≤ b ∧ (a ≠ 0 → |a| / 1000000 ≤ b - a) := by
  induction l generalizing x with
  | nil => simp [uniqueLoop]
  | cons z l ih =>
    have hxz : x ≤ z := (List.pairwise_cons.1 hl).1 z (by simp)
    have htail := (List.pairwise_cons.1 hl).2
    have hxl : (x :: l).Pairwise (· ≤ ·) := List.pairwise_cons.2
      ⟨fun w hw => (List.pairwise_cons.1 hl).1 w (by simp [hw]), (List.pairwise_cons.1 htail).2⟩
    unfold uniqueLoop
    by_cases he : eqApprox x z = true
    · rw [if_pos he]; exact ih x hxl
    · rw [if_neg he]
      have h2 := ih z htail
      refine List.pairwise_cons.2 ⟨fun w hw => ?_, h2⟩
      have hzw : z ≤ w := by
        rcases List.mem_cons.1 hw with rfl | hw
        · exact le_refl _
        · exact (List.pairwise_cons.1 htail).1 w (uniqueLoop_mem _ _ _ hw)
      refine ⟨hxz.trans hzw, fun hx => ?_⟩
      have : ¬ (z - x < |x| / 1000000) := fun h => he ((eqApprox_iff hxz).2 ⟨hx, h⟩)
      linarith

theorem sorted_mesh (xs : List (List K)) : (xs.flatten.insertionSort (· ≤ ·)).Pairwise (· ≤ ·) := by
  exact List.pairwise_insertionSort (· ≤ ·) xs.flatten

/-- **C58, mesh.** The mesh consists of temperatures of the data sets; every temperature of
every data set is represented by a mesh point not above it, equal to it or within a relative
distance of `10⁻⁶`; different mesh points are further apart than that. -/
theorem mesh_spec (xs : List (List K)) :
    (∀ m ∈ mergeMeshes xs, ∃ l ∈ xs, m ∈ l) ∧
    (∀ l ∈ xs, ∀ x ∈ l, ∃ m ∈ mergeMeshes xs, m ≤ x ∧ (m = x ∨ x - m < |m| / 1000000)) ∧
    (mergeMeshes xs).Pairwise fun a b => a ≤ b ∧ (a ≠ 0 → |a| / 1000000 ≤ b - a) := by
  have hs := sorted_mesh xs
  have hp : (xs.flatten.insertionSort (· ≤ ·)).Perm xs.flatten := List.perm_insertionSort _ _
  have hm : ∀ x, x ∈ (xs.flatten.insertionSort (· ≤ ·)) ↔ ∃ l ∈ xs, x ∈ l := by
    intro x; rw [hp.mem_iff, List.mem_flatten]
  unfold mergeMeshes
  generalize (xs.flatten.insertionSort (· ≤ ·)) = s at *
  cases s with
  | nil =>
    refine ⟨by simp [unique], fun l hl x hx => ?_, by simp [unique]⟩
    exact absurd ((hm x).2 ⟨l, hl, hx⟩) (by simp)
  | cons y ys =>
    refine ⟨fun m h => (hm m).1 ?_, fun l hl x hx => ?_, uniqueLoop_apart ys y hs⟩
    · rcases List.mem_cons.1 h with rfl | h
      · simp
      · exact List.mem_cons_of_mem _ (uniqueLoop_mem _ _ _ h)
    · exact uniqueLoop_cover ys y hs x ((hm x).2 ⟨l, hl, hx⟩)

/-- **C58, mesh without near coincidences.** If the temperatures are not zero and different
temperatures differ by more than the tolerance, the mesh contains every temperature
exactly once, in strictly increasing order. -/
theorem mesh_exact (xs : List (List K)) (h0 : ∀ l ∈ xs, (0 : K) ∉ l)
    (hd : ∀ l ∈ xs, ∀ l' ∈ xs, ∀ x ∈ l, ∀ y ∈ l', x < y → |x| / 1000000 ≤ y - x) :
    (mergeMeshes xs).Pairwise (· < ·) ∧ ∀ x, x ∈ mergeMeshes xs ↔ ∃ l ∈ xs, x ∈ l := by
  obtain ⟨h1, h2, h3⟩ := mesh_spec xs
  constructor
  · refine h3.imp_of_mem ?_
    intro a b ha hb ⟨hab, hq⟩
    obtain ⟨l, hl, hal⟩ := h1 a ha
    have ha0 : a ≠ 0 := fun h => h0 l hl (h ▸ hal)
    have := hq ha0
    have hp : 0 < |a| / 1000000 := div_pos (abs_pos.2 ha0) (by norm_num)
    linarith
  · intro x
    refine ⟨h1 x, ?_⟩
    rintro ⟨l, hl, hx⟩
    obtain ⟨m, hm, hmx, he⟩ := h2 l hl x hx
    rcases he with rfl | he
    · exact hm
    · rcases hmx.eq_or_lt with rfl | hlt
      · exact hm
      · obtain ⟨l', hl', hml'⟩ := h1 m hm
        exact absurd he (not_lt.2 (hd l' hl' l hl m hml' x hx hlt))

example : mergeMeshes ([[3, 1], [2, 1, 4]] : List (List ℚ)) = [1, 2, 3, 4] := by decide +kernel

/-- **Violation.** The value zero is repeated as often as it occurs (relevant for `intavg`,
whose first column may be a frequency). -/
theorem mesh_zero_repeated : mergeMeshes ([[-1, 0, 1], [-1, 0, 1]] : List (List ℚ)) = [-1, 0, 0, 1] := by
  decide +kernel

/-! ### Interpolation of the columns -/

theorem pairLe_trans (a b c : K × K) (h1 : pairLe a b) (h2 : pairLe b c) : pairLe a c := by
  rcases h1 with h1 | ⟨h1, h1'⟩ <;> rcases h2 with h2 | ⟨h2, h2'⟩
  · exact Or.inl (h1.trans h2)
  · exact Or.inl (h2 ▸ h1)
  · exact Or.inl (h1 ▸ h2)
  · exact Or.inr ⟨h1.trans h2, h1'.trans h2'⟩

theorem pairLe_total (a b : K × K) : pairLe a b ∨ pairLe b a := by
  rcases lt_trichotomy a.1 b.1 with h | h | h
  · exact Or.inl (Or.inl h)
  · rcases le_total a.2 b.2 with h' | h'
    · exact Or.inl (Or.inr ⟨h, h'⟩)
    · exact Or.inr (Or.inr ⟨h.symm, h'⟩)
  · exact Or.inr (Or.inl h)

instance : IsTrans (K × K) pairLe := ⟨pairLe_trans⟩
instance : Std.Total (pairLe (K := K)) := ⟨pairLe_total⟩

/-- A table that `LinInt` can use: not empty, first column strictly increasing. -/
structure Usable (t : Tab K) : Prop where
  ne : t ≠ []
  inc : t.Pairwise fun p q => p.1 < q.1

/-- A block of data: not empty, no temperature twice, every row complete. -/
structure GoodBlock (cols : ℕ) (b : TdBlock K) : Prop where
  ne : b ≠ []
  distinct : b.Pairwise fun p q => p.1 ≠ q.1
  complete : ∀ r ∈ b, r.2.length = cols

/-- `t` tabulates column `k` of the block `b`: its points, ordered by temperature. -/
def Tabulates (b : TdBlock K) (k : ℕ) (t : Tab K) : Prop :=
  Usable t ∧ ∀ x y, (x, y) ∈ t ↔ ∃ r ∈ b, r.1 = x ∧ r.2[k]? = some y

theorem colTab_spec {cols : ℕ} {b : TdBlock K} (hb : GoodBlock cols b) {k : ℕ} (hk : k < cols) :
    ∃ t, colTab b k = some t ∧ Tabulates b k t := by
  have hmap : ∀ r ∈ b, ((r.2[k]?).map fun y => (r.1, y)) = some (r.1, r.2.getD k 0) := by
    intro r hr
    have : k < r.2.length := by rw [hb.complete r hr]; exact hk
    simp [List.getElem?_eq_getElem this, List.getD_eq_getElem _ _ this]
  have hm : b.mapM (fun r => (r.2[k]?).map fun y => (r.1, y)) = some (b.map fun r => (r.1, r.2.getD k 0)) := by
    clear hb
    induction b with
    | nil => rfl
    | cons r b ih =>
      rw [List.mapM_cons, hmap r (by simp), ih fun r' hr' => hmap r' (by simp [hr'])]
      rfl
  refine ⟨_, by unfold colTab; rw [hm]; rfl, ⟨?_, ?_⟩, ?_⟩
  · intro h
    have := congrArg List.length h
    simp only [List.length_insertionSort, List.length_map, List.length_nil] at this
    exact hb.ne (List.length_eq_zero_iff.1 this)
  · have h1 := List.pairwise_insertionSort pairLe (b.map fun r => (r.1, r.2.getD k 0))
    have h2 : ((b.map fun r => (r.1, r.2.getD k 0)).insertionSort pairLe).Pairwise fun p q => p.1 ≠ q.1 := by
      have hp := List.perm_insertionSort pairLe (b.map fun r => (r.1, r.2.getD k 0))
      rw [hp.pairwise_iff (fun {a b} h => Ne.symm h), List.pairwise_map]
      exact hb.distinct
    refine (h1.and h2).imp ?_
    intro a b ⟨h, hne⟩
    rcases h with h | ⟨h, -⟩
    · exact h
    · exact absurd h hne
  · intro x y
    rw [(List.perm_insertionSort _ _).mem_iff, List.mem_map]
    constructor
    · rintro ⟨r, hr, he⟩
      obtain ⟨rfl, rfl⟩ := Prod.mk.inj he
      have := hmap r hr
      refine ⟨r, hr, rfl, ?_⟩
      obtain ⟨y, hy, he⟩ := Option.map_eq_some_iff.1 this
      rw [hy, (Prod.mk.inj he).2]
    · rintro ⟨r, hr, rfl, hy⟩
      exact ⟨r, hr, by simp [List.getD, hy]⟩

theorem Usable.x_lt {t : Tab K} (h : Usable t) (i : ℕ) (hi : i + 1 < t.length) : t.x i < t.x (i + 1) := by
  have := List.pairwise_iff_getElem.1 h.inc i (i + 1) (by omega) hi (by omega)
  simpa [Tab.x, List.getD_eq_getElem, show i < t.length by omega, hi] using this

/-- The interpolation of a usable table, whatever was evaluated before. -/
theorem eval_spec {t : Tab K} (h : Usable t) {s : LinState K} (hs : Inv t s) (x : K) :
    ∃ v s', linEval t s x = some (v, s') ∧ IsInterp t x v ∧ Inv t s' := by
  by_cases hl : 2 ≤ t.length
  · exact linEval_spec ⟨hl, h.x_lt⟩ hs x
  · have h1 : t.length = 1 := by
      have := List.length_pos_iff.2 h.ne
      omega
    unfold linEval
    by_cases hx : x ≤ t.x 0
    · rw [if_pos hx]; exact ⟨_, _, rfl, Or.inl ⟨hx, rfl⟩, hs⟩
    · have : t.x (t.length - 1) ≤ x := by rw [h1]; exact (not_le.1 hx).le
      rw [if_neg hx, if_pos this]
      exact ⟨_, _, rfl, Or.inr (Or.inl ⟨this, rfl⟩), hs⟩

theorem interp_unique {t : Tab K} (h : Usable t) {x v w : K} (hv : IsInterp t x v) (hw : IsInterp t x w) : v = w := by
  by_cases hl : 2 ≤ t.length
  · exact hv.unique ⟨hl, h.x_lt⟩ hw
  · have h1 : t.length = 1 := by
      have := List.length_pos_iff.2 h.ne
      omega
    have : ∀ v, IsInterp t x v → v = t.f 0 := by
      rintro v (⟨-, h⟩ | ⟨-, h⟩ | ⟨i, hi, -⟩)
      · exact h
      · rw [h, h1]
      · omega
    rw [this v hv, this w hw]

/-- An interpolation object in a reachable state, and the function it evaluates. -/
def Holds (f : Interp K) (g : K → K) : Prop :=
  Usable f.tab ∧ Inv f.tab f.st ∧ ∀ x, IsInterp f.tab x (g x)

theorem Holds.eval {f : Interp K} {g : K → K} (h : Holds f g) (x : K) :
    ∃ f', f.eval x = some (g x, f') ∧ Holds f' g := by
  obtain ⟨h1, h2, h3⟩ := h
  obtain ⟨v, s', he, hv, hs⟩ := eval_spec h1 h2 x
  refine ⟨{ f with st := s' }, ?_, h1, hs, h3⟩
  simp only [Interp.eval, he, Option.bind_eq_bind, Option.bind_some, Option.pure_def,
    interp_unique h1 hv (h3 x)]

theorem holds_new {t : Tab K} (h : Usable t) {g : K → K} (hg : ∀ x, IsInterp t x (g x)) : Holds (Interp.new t) g :=
  ⟨h, fun i hi => by simp [Interp.new] at hi, hg⟩

/-- The interpolant of a tabulated column exists. -/
theorem interpolant_exists {t : Tab K} (h : Usable t) : ∃ g : K → K, ∀ x, IsInterp t x (g x) := by
  have : ∀ x, ∃ v, IsInterp t x v := fun x => by
    obtain ⟨v, _, _, h2, _⟩ := eval_spec h (s := ⟨none, 0, 0, 0, 0, 0, false⟩) (fun i hi => by simp at hi) x
    exact ⟨v, h2⟩
  exact ⟨fun x => (this x).choose, fun x => (this x).choose_spec⟩

/-! ### The averages -/

/-- The interpolation objects of one column and the functions they evaluate, data set by data
set, with and without reference. -/
def Holds2 (f : Interp K × Option (Interp K)) (g : (K → K) × Option (K → K)) : Prop :=
  Holds f.1 g.1 ∧ ((f.2 = none ∧ g.2 = none) ∨ ∃ r h, f.2 = some r ∧ g.2 = some h ∧ Holds r h)

/-- The mean over data sets of the interpolated values minus the mean of the reference. -/
def mean (nz : K) (gs : List ((K → K) × Option (K → K))) (T : K) : K :=
  (gs.map fun g => g.1 T).sum / nz - (gs.map fun g => (g.2.map fun h => h T).getD 0).sum / nz

theorem sumLoop_spec (nz T : K) (fs : List (Interp K × Option (Interp K))) (gs : List ((K → K) × Option (K → K)))
    (h : List.Forall₂ Holds2 fs gs) (acc : K) :
    ∃ fs', sumLoop nz T acc fs = some (acc + mean nz gs T, fs') ∧ List.Forall₂ Holds2 fs' gs := by
  induction h generalizing acc with
  | nil => exact ⟨[], by simp [sumLoop, mean], .nil⟩
  | @cons f g fs gs hfg _ ih =>
    obtain ⟨f, r⟩ := f
    obtain ⟨g, q⟩ := g
    obtain ⟨hf, hr⟩ := hfg
    obtain ⟨f', he, hf'⟩ := hf.eval T
    dsimp only at hf hr he hf'
    rcases hr with ⟨rfl, rfl⟩ | ⟨r, q, rfl, rfl, hrq⟩
    · obtain ⟨fs', h1, h2⟩ := ih (acc + g T / nz)
      refine ⟨(f', none) :: fs', ?_, .cons ⟨hf', Or.inl ⟨rfl, rfl⟩⟩ h2⟩
      simp only [sumLoop, he, Option.bind_eq_bind, Option.bind_some, h1, Option.pure_def, Option.some.injEq,
        Prod.mk.injEq, and_true]
      simp only [mean, List.map_cons, List.sum_cons, Option.map_none, Option.getD_none]
      ring
    · obtain ⟨r', hre, hr'⟩ := hrq.eval T
      obtain ⟨fs', h1, h2⟩ := ih (acc + g T / nz - q T / nz)
      refine ⟨(f', some r') :: fs', ?_, .cons ⟨hf', Or.inr ⟨r', q, rfl, rfl, hr'⟩⟩ h2⟩
      simp only [sumLoop, he, hre, Option.bind_eq_bind, Option.bind_some, h1, Option.pure_def, Option.some.injEq,
        Prod.mk.injEq, and_true]
      simp only [mean, List.map_cons, List.sum_cons, Option.map_some, Option.getD_some]
      ring

theorem colLoop_spec (nz T : K) (cs : List (List (Interp K × Option (Interp K))))
    (gs : List (List ((K → K) × Option (K → K)))) (h : List.Forall₂ (List.Forall₂ Holds2) cs gs) :
    ∃ cs', colLoop nz T cs = some (gs.map fun g => mean nz g T, cs') ∧ List.Forall₂ (List.Forall₂ Holds2) cs' gs := by
  induction h with
  | nil => exact ⟨[], rfl, .nil⟩
  | cons hc _ ih =>
    obtain ⟨c', h1, h2⟩ := sumLoop_spec nz T _ _ hc 0
    obtain ⟨cs', h3, h4⟩ := ih
    refine ⟨c' :: cs', ?_, .cons h2 h4⟩
    simp only [colLoop, h1, h3, Option.bind_eq_bind, Option.bind_some, Option.pure_def, zero_add, List.map_cons]

theorem avgLoop_spec (nz : K) (mesh : List K) (cs : List (List (Interp K × Option (Interp K))))
    (gs : List (List ((K → K) × Option (K → K)))) (h : List.Forall₂ (List.Forall₂ Holds2) cs gs) :
    avgLoop nz mesh cs = some (mesh.map fun T => (T, gs.map fun g => mean nz g T)) := by
  induction mesh generalizing cs with
  | nil => rfl
  | cons T mesh ih =>
    obtain ⟨cs', h1, h2⟩ := colLoop_spec nz T cs gs h
    simp only [avgLoop, h1, ih cs' h2, Option.bind_eq_bind, Option.bind_some, Option.pure_def, List.map_cons]

theorem mapM_forall₂ {α β γ : Type} {R : β → γ → Prop} (f : α → Option β) (g : α → γ) (l : List α)
    (h : ∀ a ∈ l, ∃ b, f a = some b ∧ R b (g a)) : ∃ bs, l.mapM f = some bs ∧ List.Forall₂ R bs (l.map g) := by
  induction l with
  | nil => exact ⟨[], rfl, .nil⟩
  | cons a l ih =>
    obtain ⟨b, hb, hR⟩ := h a (by simp)
    obtain ⟨bs, h1, h2⟩ := ih fun x hx => h x (by simp [hx])
    refine ⟨b :: bs, ?_, .cons hR h2⟩
    rw [List.mapM_cons, hb, h1]; rfl

/-- `F b k` is the piecewise-linear interpolation of column `k` of block `b` (constant
outside the range of the block). -/
def Interpolates (cols : ℕ) (b : TdBlock K) (F : ℕ → K → K) : Prop :=
  ∀ k < cols, ∃ t, Tabulates b k t ∧ ∀ x, IsInterp t x (F k x)

theorem tabulates_unique {b : TdBlock K} {k : ℕ} {t u : Tab K} (ht : Tabulates b k t) (hu : Tabulates b k u) : t = u := by
  have hirr : ∀ p q : K × K, p.1 < q.1 → q.1 < p.1 → p = q := fun p q h1 h2 => absurd (h1.trans h2) (lt_irrefl _)
  have hnd : ∀ {t : Tab K}, Usable t → t.Nodup := fun h =>
    h.inc.imp fun hlt he => absurd (he ▸ hlt) (lt_irrefl _)
  have hp : t.Perm u := by
    rw [List.perm_ext_iff_of_nodup (hnd ht.1) (hnd hu.1)]
    rintro ⟨x, y⟩
    rw [ht.2, hu.2]
  exact hp.eq_of_pairwise (fun p q _ _ => hirr p q) ht.1.inc hu.1.inc

/-- Every good block has such an interpolation. -/
theorem interpolates_exists {cols : ℕ} {b : TdBlock K} (hb : GoodBlock cols b) : ∃ F, Interpolates cols b F := by
  have : ∀ k, ∃ g : K → K, k < cols → ∃ t, Tabulates b k t ∧ ∀ x, IsInterp t x (g x) := by
    intro k
    by_cases hk : k < cols
    · obtain ⟨t, -, ht⟩ := colTab_spec hb hk
      obtain ⟨g, hg⟩ := interpolant_exists ht.1
      exact ⟨g, fun _ => ⟨t, ht, hg⟩⟩
    · exact ⟨fun _ => 0, fun h => absurd h hk⟩
  exact ⟨fun k => (this k).choose, fun k hk => (this k).choose_spec hk⟩

theorem holds_col {cols : ℕ} {b : TdBlock K} (hb : GoodBlock cols b) {F : ℕ → K → K} (hF : Interpolates cols b F)
    {k : ℕ} (hk : k < cols) : ∃ t, colTab b k = some t ∧ Holds (Interp.new t) (F k) := by
  obtain ⟨t, h1, h2⟩ := colTab_spec hb hk
  obtain ⟨u, h3, h4⟩ := hF k hk
  obtain rfl := tabulates_unique h2 h3
  exact ⟨t, h1, holds_new h2.1 h4⟩

/-- **C58, averages.** For data blocks without repeated temperatures and with complete rows
the output has one row per mesh point, and entry `k` of the row at temperature `T` is the
mean over the data sets of the interpolated columns `k`. -/
theorem tdavg_spec (cols : ℕ) (data : List (TdBlock K)) (hd : ∀ b ∈ data, GoodBlock cols b)
    (F : TdBlock K → ℕ → K → K) (hF : ∀ b ∈ data, Interpolates cols b (F b)) :
    tdavg cols data none = some ((mergeMeshes (data.map fun b => b.map Prod.fst)).map fun T =>
      (T, (List.range cols).map fun k => (data.map fun b => F b k T).sum / data.length)) := by
  obtain ⟨cs, h1, h2⟩ := mapM_forall₂ (R := List.Forall₂ Holds2)
    (fun k => data.mapM fun b => (colTab b k).map fun t => (Interp.new t, (none : Option (Interp K))))
    (fun k => data.map fun b => ((F b k, none) : (K → K) × Option (K → K))) (List.range cols) (by
      intro k hk
      apply mapM_forall₂
      intro b hb
      obtain ⟨t, ht, hh⟩ := holds_col (hd b hb) (hF b hb) (List.mem_range.1 hk)
      exact ⟨(Interp.new t, none), by rw [ht]; rfl, hh, Or.inl ⟨rfl, rfl⟩⟩)
  have : interpolators cols data none = some cs := h1
  simp only [tdavg, this, Option.bind_eq_bind, Option.bind_some, avgLoop_spec _ _ _ _ h2, List.map_map]
  congr 1
  apply List.map_congr_left
  intro T _
  congr 1
  apply List.map_congr_left
  intro k _
  have hz : ∀ l : List (TdBlock K), (l.map fun _ => (0 : K)).sum = 0 := by intro l; simp
  simp only [Function.comp_def, mean, List.map_map, Option.map_none, Option.getD_none, hz, zero_div, sub_zero]

/-- **C58, averages with a reference.** The mean of the interpolated reference data is
subtracted. -/
theorem tdavg_ref_spec (cols : ℕ) (data ref : List (TdBlock K)) (hlen : data.length = ref.length)
    (hd : ∀ b ∈ data, GoodBlock cols b) (hr : ∀ b ∈ ref, GoodBlock cols b)
    (F : TdBlock K → ℕ → K → K) (hF : ∀ b ∈ data, Interpolates cols b (F b)) (hG : ∀ b ∈ ref, Interpolates cols b (F b)) :
    tdavg cols data (some ref) = some ((mergeMeshes (data.map fun b => b.map Prod.fst)).map fun T =>
      (T, (List.range cols).map fun k =>
        (data.map fun b => F b k T).sum / data.length - (ref.map fun b => F b k T).sum / ref.length)) := by
  obtain ⟨cs, h1, h2⟩ := mapM_forall₂ (R := List.Forall₂ Holds2)
    (fun k => (data.zip ref).mapM fun p => do
        let t ← colTab p.1 k
        let u ← colTab p.2 k
        pure (Interp.new t, some (Interp.new u)))
    (fun k => (data.zip ref).map fun p => ((F p.1 k, some (F p.2 k)) : (K → K) × Option (K → K))) (List.range cols) (by
      intro k hk
      apply mapM_forall₂
      intro p hp
      obtain ⟨hp1, hp2⟩ := List.of_mem_zip (a := p.1) (b := p.2) hp
      obtain ⟨t, ht, hh⟩ := holds_col (hd _ hp1) (hF _ hp1) (List.mem_range.1 hk)
      obtain ⟨u, hu, hh'⟩ := holds_col (hr _ hp2) (hG _ hp2) (List.mem_range.1 hk)
      exact ⟨(Interp.new t, some (Interp.new u)), by rw [ht, hu]; rfl, hh, Or.inr ⟨_, _, rfl, rfl, hh'⟩⟩)
  have : interpolators cols data (some ref) = some cs := h1
  simp only [tdavg, this, Option.bind_eq_bind, Option.bind_some, avgLoop_spec _ _ _ _ h2, List.map_map]
  congr 1
  apply List.map_congr_left
  intro T _
  congr 1
  apply List.map_congr_left
  intro k _
  simp only [Function.comp_def, mean, List.map_map, Option.map_some, Option.getD_some]
  rw [← hlen]
  have e1 : ((data.zip ref).map fun p => F p.1 k T) = data.map fun b => F b k T := by
    rw [← List.map_fst_zip (l₁ := data) (l₂ := ref) hlen.le, List.map_map]
    simp only [List.map_fst_zip (l₁ := data) (l₂ := ref) hlen.le]
    rfl
  have e2 : ((data.zip ref).map fun p => F p.2 k T) = ref.map fun b => F b k T := by
    rw [← List.map_snd_zip (l₁ := data) (l₂ := ref) hlen.ge, List.map_map]
    simp only [List.map_snd_zip (l₁ := data) (l₂ := ref) hlen.ge]
    rfl
  rw [e1, e2]

/-- Two data sets on different meshes, in decreasing order of temperature. -/
example : tdavg 1 ([[(3, [6]), (1, [2])], [(2, [10]), (1, [0])]] : List (TdBlock ℚ)) none
    = some [(1, [1]), (2, [7]), (3, [8])] := by decide +kernel

example : ∀ b ∈ ([[(3, [6]), (1, [2])], [(2, [10]), (1, [0])]] : List (TdBlock ℚ)), GoodBlock 1 b := by
  intro b hb
  simp only [List.mem_cons, List.not_mem_nil, or_false] at hb
  rcases hb with rfl | rfl <;> exact ⟨by simp, by simp, by simp⟩

/-- A file without data is rejected. -/
theorem readFiles_empty (input : List (FileLine K)) (h : ∀ v, FileLine.data v ∉ input)
    (ref : Option (List (FileLine K))) : readFiles input ref = none := by
  have key : ∀ (ls : List (FileLine K)), (∀ v, FileLine.data v ∉ ls) → loadLoop 0 [] [] ls = some (0, []) := by
    intro ls
    induction ls with
    | nil => intro _; simp [loadLoop]
    | cons l ls ih =>
      intro hl
      have h' := ih fun v hv => hl v (List.mem_cons_of_mem _ hv)
      cases l with
      | data v => exact absurd List.mem_cons_self (hl v)
      | _ => simpa [loadLoop] using h'
  simp [readFiles, tdLoad, key input h]

/-- The reference must have as many data sets as the input, and there must be data. -/
theorem readFiles_spec (input ref : List (FileLine K)) (n : ℕ) (hn : n ≠ 0)
    (h : ∀ v, FileLine.data v ∈ input ++ ref → v.length = n + 1) (hne : ∃ v, FileLine.data v ∈ input) :
    readFiles input none = some (n, blocksOf input, none) ∧
    readFiles input (some ref) =
      if (blocksOf input).length = (blocksOf ref).length then some (n, blocksOf input, some (blocksOf ref)) else none := by
  have h1 := tdLoad_spec n hn input (fun v hv => h v (by simp [hv])) hne
  have hlen : (blocksOf input).length ≠ 0 := by
    intro h0
    obtain ⟨v, hv⟩ := hne
    have key : ∀ ls : List (FileLine K), FileLine.data v ∈ ls → ∃ b ∈ ls.splitOnP FileLine.isComment, b ≠ [] := by
      intro ls
      induction ls with
      | nil => simp
      | cons l ls ih =>
        intro hm
        rw [List.splitOnP_cons]
        cases l with
        | comment =>
          simp only [FileLine.isComment, if_true]
          obtain ⟨b, hb, hb'⟩ := ih (by simpa using hm)
          exact ⟨b, by simp [hb], hb'⟩
        | data w =>
          simp only [FileLine.isComment, Bool.false_eq_true, if_false]
          cases hsp : ls.splitOnP FileLine.isComment with
          | nil => exact absurd hsp (List.splitOnP_ne_nil _ _)
          | cons b bs => exact ⟨FileLine.data w :: b, by simp, by simp⟩
    obtain ⟨b, hb, hb'⟩ := key input hv
    have : b.map FileLine.row ∈ blocksOf input := by
      unfold blocksOf
      rw [List.mem_filter]
      exact ⟨List.mem_map.2 ⟨b, hb, rfl⟩, by simpa using hb'⟩
    rw [List.length_eq_zero_iff.1 h0] at this
    simp at this
  obtain ⟨c, hc1, hc2⟩ := loadLoop_spec n hn ref (fun v hv => h v (by simp [hv])) [] [] (by simp) n (Or.inl rfl)
  have hcn : c = n := by rcases hc1 with h | h <;> [exact h; exact h.1]
  subst hcn
  have h2 : tdLoad c ref = some (c, blocksOf ref) := by
    unfold tdLoad
    rw [show ([] : TdBlock K) = List.map FileLine.row [] from rfl, hc2]
    cases hsp : ref.splitOnP FileLine.isComment with
    | nil => exact absurd hsp (List.splitOnP_ne_nil _ _)
    | cons b bs => simp [blocksOf, hsp]
  constructor
  · simp only [readFiles, h1, Option.bind_eq_bind, Option.bind_some, if_neg hlen]
  · simp only [readFiles, h1, h2, Option.bind_eq_bind, Option.bind_some, if_neg hlen, ne_eq, ite_not]

/-! ### `intavg` -/

theorem intSum_spec (x : K) (fs : List (Interp K)) (gs : List (K → K)) (h : List.Forall₂ Holds fs gs) (acc : K) :
    ∃ fs', intSum x acc fs = some (acc + (gs.map fun g => g x).sum, fs') ∧ List.Forall₂ Holds fs' gs := by
  induction h generalizing acc with
  | nil => exact ⟨[], by simp [intSum], .nil⟩
  | @cons f g fs gs hf _ ih =>
    obtain ⟨f', he, hf'⟩ := hf.eval x
    obtain ⟨fs', h1, h2⟩ := ih (acc + g x)
    refine ⟨f' :: fs', ?_, .cons hf' h2⟩
    simp only [intSum, he, Option.bind_eq_bind, Option.bind_some, h1, Option.pure_def, List.map_cons, List.sum_cons,
      add_assoc]

/-- **C58 for `intavg`.** For tables with at least two points in increasing order the output
has one row per mesh point with the mean of the interpolations. -/
theorem intavg_spec (data : List (Tab K)) (hd : ∀ t ∈ data, Good t) (F : Tab K → K → K)
    (hF : ∀ t ∈ data, ∀ x, IsInterp t x (F t x)) :
    intavg data = some ((mergeMeshes (data.map fun t => t.map Prod.fst)).map fun x =>
      (x, (data.map fun t => F t x).sum / data.length)) := by
  have hall : (data.all fun t => decide (2 ≤ t.length)) = true := by
    rw [List.all_eq_true]; intro t ht; simpa using (hd t ht).len
  have hu : ∀ t ∈ data, Usable t := by
    intro t ht
    refine ⟨fun h => by have := (hd t ht).len; simp [h] at this, ?_⟩
    rw [List.pairwise_iff_getElem]
    intro i j hi hj hij
    have := (hd t ht).strict hij hj
    simpa [Tab.x, List.getD_eq_getElem, hi, hj] using this
  have h0 : List.Forall₂ Holds (data.map Interp.new) (data.map F) := by
    rw [List.forall₂_map_left_iff, List.forall₂_map_right_iff, List.forall₂_same]
    exact fun t ht => holds_new (hu t ht) (hF t ht)
  have key : ∀ (nz : K) (mesh : List K) (fs : List (Interp K)), List.Forall₂ Holds fs (data.map F) →
      intLoop nz mesh fs = some (mesh.map fun x => (x, (data.map fun t => F t x).sum / nz)) := by
    intro nz mesh
    induction mesh with
    | nil => intro fs _; rfl
    | cons x mesh ih =>
      intro fs hfs
      obtain ⟨fs', h1, h2⟩ := intSum_spec x fs _ hfs 0
      simp only [intLoop, h1, ih fs' h2, Option.bind_eq_bind, Option.bind_some, Option.pure_def, zero_add,
        List.map_map, Function.comp_def, List.map_cons]
  unfold intavg
  rw [if_pos hall]
  exact key _ _ _ h0

example : intavg ([[(1, 2), (3, 6)], [(1, 0), (2, 10)]] : List (Tab ℚ)) = some [(1, 1), (2, 7), (3, 8)] := by
  decide +kernel

/-- **Violation.** `intavg` does not order its input: a table with decreasing arguments gives
wrong values without any error. -/
theorem intavg_unordered : intavg ([[(2, 5), (1, 7)]] : List (Tab ℚ)) = some [(1, 5), (2, 5)] := by
  decide +kernel

end Verif.Tools
