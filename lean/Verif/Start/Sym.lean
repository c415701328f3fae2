import Verif.Start.Model
import Verif.Symm.Props
/-!
# Kind of numbers and symmetry
-/

namespace Verif.Start
open Verif.Text (Str stripLeading)
open Verif.Invar (Label)
open Verif.Symm

/-! ## Kind of numbers -/

/-- The line is blank. -/
def BlankLine (l : Str) : Prop := stripLeading l = []

/-- The line is a comment. -/
def CommentLine (l : Str) : Prop := ∃ t, stripLeading l = '#' :: t

/-- The line is a comment with the word `COMPLEX`. -/
def ComplexLine (l : Str) : Prop := ∃ t, stripLeading l = '#' :: t ∧ "COMPLEX".toList <:+: '#' :: t

theorem hasWord_iff (w s : Str) : hasWord w s = true ↔ w <:+: s := by
  induction s with
  | nil =>
    simp only [hasWord, List.isPrefixOf_iff_prefix, List.prefix_nil, List.infix_nil]
  | cons c s ih =>
    simp only [hasWord, Bool.or_eq_true, List.isPrefixOf_iff_prefix, ih, List.infix_cons_iff]

theorem scanHeader_iff (n : Nat) (ls : List Str) : scanHeader n ls = true ↔
    ∃ (a : List Str) (l : Str) (b : List Str), ls = a ++ l :: b ∧ a.length < n ∧ (∀ x ∈ a, BlankLine x ∨ CommentLine x) ∧ ComplexLine l := by
  induction n generalizing ls with
  | zero => simp [scanHeader]
  | succ n ih =>
    cases ls with
    | nil => simp [scanHeader]
    | cons x xs =>
      have rest : (BlankLine x ∨ CommentLine x) → ¬ ComplexLine x → (scanHeader n xs = true ↔
          ∃ (a : List Str) (l : Str) (b : List Str), x :: xs = a ++ l :: b ∧ a.length < n + 1 ∧ (∀ x ∈ a, BlankLine x ∨ CommentLine x) ∧ ComplexLine l) := by
        intro hx hc
        rw [ih]
        constructor
        · rintro ⟨a, l, b, rfl, h1, h2, h3⟩
          exact ⟨x :: a, l, b, rfl, by simpa using h1, by simpa using ⟨hx, h2⟩, h3⟩
        · rintro ⟨a, l, b, h, h1, h2, h3⟩
          cases a with
          | nil => exact absurd ((List.cons.inj h).1 ▸ h3) hc
          | cons y a =>
            exact ⟨a, l, b, (List.cons.inj h).2, by simpa using h1, fun z hz => h2 z (List.mem_cons_of_mem _ hz), h3⟩
      have none : ¬ (BlankLine x ∨ CommentLine x) → ¬ ∃ (a : List Str) (l : Str) (b : List Str), x :: xs = a ++ l :: b ∧ a.length < n + 1 ∧
          (∀ x ∈ a, BlankLine x ∨ CommentLine x) ∧ ComplexLine l := by
        rintro hx ⟨a, l, b, h, _, h2, h3⟩
        cases a with
        | nil =>
          rw [(List.cons.inj h).1] at hx
          obtain ⟨t, ht, _⟩ := h3
          exact hx (Or.inr ⟨t, ht⟩)
        | cons y a => exact hx ((List.cons.inj h).1 ▸ h2 y (List.mem_cons_self ..))
      rw [scanHeader]
      cases hs : stripLeading x with
      | nil =>
        refine rest (Or.inl hs) ?_
        rintro ⟨t, ht, _⟩
        rw [hs] at ht; exact absurd ht (by simp)
      | cons c t =>
        dsimp only
        by_cases hc : c = '#'
        · subst hc
          rw [if_neg (by simp)]
          by_cases hw : hasWord "COMPLEX".toList ('#' :: t) = true
          · rw [if_pos hw]
            refine ⟨fun _ => ⟨[], x, xs, rfl, by simp, by simp, t, hs, (hasWord_iff _ _).mp hw⟩, fun _ => rfl⟩
          · rw [if_neg hw]
            refine rest (Or.inr ⟨t, hs⟩) ?_
            rintro ⟨u, hu, hi⟩
            rw [hs] at hu
            rw [← hu] at hi
            exact hw ((hasWord_iff _ _).mpr hi)
        · rw [if_pos hc]
          refine ⟨fun h => absurd h (by simp), fun h => absurd h (none ?_)⟩
          rintro (h | ⟨u, hu⟩)
          · rw [BlankLine, hs] at h; exact absurd h (by simp)
          · rw [hs] at hu; exact hc (List.cons.inj hu).1

/-- **C112.** A calculation with complex numbers is made exactly if one of the first 64 lines of the data file is a comment with the word `COMPLEX` and all lines before it
are blank or comments. -/
theorem complexData_iff (ls : List Str) : complexData ls = true ↔
    ∃ (a : List Str) (l : Str) (b : List Str), ls = a ++ l :: b ∧ a.length < 64 ∧ (∀ x ∈ a, BlankLine x ∨ CommentLine x) ∧ ComplexLine l :=
  scanHeader_iff 64 ls

example : complexData ["# Input file for NRG Ljubljana".toList, "  # symtype QS COMPLEX".toList, "1 2 3".toList] = true ∧
    complexData ["# REAL".toList, "1 2 3".toList, "# COMPLEX".toList] = false := by decide +kernel

/-! ## Symmetry -/

theorem fill_replicate {A : Type} (e : A) (xs done : List A) (m : Nat) (h : xs.length ≤ m) :
    fill (done.length + 1) (e :: (done ++ List.replicate m e)) xs = some (e :: (done ++ (xs ++ List.replicate (m - xs.length) e))) := by
  induction xs generalizing done m with
  | nil => simp [fill]
  | cons x xs ih =>
    cases m with
    | zero => simp at h
    | succ m =>
      rw [fill, if_pos (by simp)]
      have hset : (e :: (done ++ List.replicate (m + 1) e)).set (done.length + 1) x = e :: ((done ++ [x]) ++ List.replicate m e) := by
        rw [List.set_cons_succ, List.set_append_right _ _ (le_refl _)]
        simp [List.replicate_succ]
      have := ih (done ++ [x]) m (by simpa using h)
      rw [List.length_append, List.length_singleton] at this
      rw [hset, this]
      simp

theorem fill_outside {A : Type} (v xs : List A) (k : Nat) (h : v.length < k + xs.length) (hx : k ≤ v.length) : fill k v xs = none := by
  induction xs generalizing v k with
  | nil => simp at h; omega
  | cons x xs ih =>
    rw [fill]
    split
    · rename_i hk
      exact ih (v.set k x) (k + 1) (by rw [List.length_set]; simp at h; omega) (by rw [List.length_set]; omega)
    · rfl

/-- The assignments fit: the first entries are the table, the rest has no quantum numbers. -/
theorem fill_fits (t : List (Label × Label)) (c : Nat) (h : t.length ≤ c) :
    fill 1 (List.replicate (c + 1) ([], [])) t = some (([], []) :: (t ++ List.replicate (c - t.length) ([], []))) := by
  have := fill_replicate (([], []) : Label × Label) t [] c h
  simpa [List.replicate_succ] using this

theorem fill_too_long (t : List (Label × Label)) (c : Nat) (h : c < t.length) : fill 1 (List.replicate (c + 1) ([], [])) t = none :=
  fill_outside _ _ _ (by simp; omega) (by simp)

/-- The tables are determined by name and number of channels. -/
theorem tableFor_mem {b : Builtin} (hb : b ∈ builtins) : tableFor b.symtype b.channels = some b.sym.table := by
  have hp : (builtins.map fun b => (b.symtype, b.channels)).Nodup := by decide +kernel
  have key : ∀ l : List Builtin, (l.map fun b => (b.symtype, b.channels)).Nodup → b ∈ l →
      l.find? (fun x => x.symtype == b.symtype && x.channels == b.channels) = some b := by
    intro l
    induction l with
    | nil => intro _ h; exact absurd h (by simp)
    | cons x l ih =>
      intro hn hm
      rw [List.map_cons, List.nodup_cons] at hn
      rw [List.find?_cons]
      by_cases hx : x.symtype = b.symtype ∧ x.channels = b.channels
      · have hxb : x = b := by
          rcases List.mem_cons.mp hm with h | h
          · exact h.symm
          · refine absurd (List.mem_map.mpr ⟨b, h, ?_⟩) hn.1
            rw [hx.1, hx.2]
        subst hxb
        simp
      · have : (x.symtype == b.symtype && x.channels == b.channels) = false := by
          rw [Bool.and_eq_false_iff]
          by_cases h1 : x.symtype = b.symtype
          · right; simpa using fun h2 => hx ⟨h1, h2⟩
          · left; simpa using h1
        rw [this]
        refine ih hn.2 ?_
        rcases List.mem_cons.mp hm with h | h
        · exact absurd ⟨by rw [h], by rw [h]⟩ hx
        · exact h
  unfold tableFor
  rw [key builtins hp hb]
  rfl

theorem tableFor_none {name : String} {channels : Nat} (h : ∀ b ∈ builtins, b.symtype = name → b.channels ≠ channels) : tableFor name channels = none := by
  unfold tableFor
  rw [List.find?_eq_none.mpr, Option.map_none]
  intro b hb
  simp only [Bool.and_eq_true, beq_iff_eq, not_and]
  exact fun h1 => h b hb h1

theorem table_length {b : Builtin} (hb : b ∈ builtins) : b.sym.table.length = combsOf b.symtype b.channels false := by
  have : ∀ b ∈ builtins, b.sym.table.length = combsOf b.symtype b.channels false := by decide +kernel
  exact this b hb

/-- The names the program knows. -/
def known (cplx : Bool) : List String := baseNames ++ moreNames ++ allNames ++ (if cplx then complexNames else [])

/-- **C112.** A build with all symmetries knows exactly the symmetries for which there are tables; the two with a threefold axis need complex numbers. -/
theorem served_iff (cplx : Bool) (name : String) : served ⟨true, true⟩ cplx name = true ↔
    (∃ b ∈ builtins, b.symtype = name) ∧ (cplx = true ∨ (name ≠ "SPSU2C3" ∧ name ≠ "QSC3")) := by
  have h1 : served ⟨true, true⟩ cplx name = true ↔ name ∈ known cplx := by
    unfold served known
    cases cplx <;> simp [or_assoc]
  have h2 : ∀ c : Bool, ∀ x ∈ known c, (∃ b ∈ builtins, b.symtype = x) ∧ (c = true ∨ (x ≠ "SPSU2C3" ∧ x ≠ "QSC3")) := by decide +kernel
  have h3 : ∀ b ∈ builtins, ∀ c : Bool, (c = true ∨ (b.symtype ≠ "SPSU2C3" ∧ b.symtype ≠ "QSC3")) → b.symtype ∈ known c := by decide +kernel
  rw [h1]
  constructor
  · exact h2 cplx name
  · rintro ⟨⟨b, hb, rfl⟩, h⟩
    exact h3 b hb cplx h

/-- **C112.** A name the build does not know is refused. -/
theorem symmetry_unknown (lv : Level) (cplx : Bool) (name : String) (channels : Nat) (sub : Bool) :
    setSymmetry lv cplx name channels sub = .error .unknown ↔ served lv cplx name = false := by
  constructor
  · intro h
    by_contra hc
    unfold setSymmetry at h
    rw [if_neg hc] at h
    split at h
    · exact absurd h (by simp)
    · split at h
      · exact absurd h (by simp)
      · exact absurd h (by simp)
  · intro h; exact if_pos h

/-- **C112.** Without substeps, a known symmetry and a number of channels for which there is a table: the object has exactly this table. -/
theorem symmetry_selected (lv : Level) (cplx : Bool) (b : Builtin) (hb : b ∈ builtins) (hs : served lv cplx b.symtype = true) :
    setSymmetry lv cplx b.symtype b.channels false = .ok ⟨b.sym.table.length, b.sym.table⟩ := by
  have hl : loadTable b.symtype b.channels false = some b.sym.table := by
    unfold loadTable
    by_cases hq : b.symtype = "QJ"
    · have : ∀ b ∈ builtins, b.symtype = "QJ" → b.channels = 3 := by decide +kernel
      rw [if_pos hq, ← tableFor_mem hb, hq, this b hb hq]
    · rw [if_neg hq, if_neg (by simp), if_neg (by simp), tableFor_mem hb]
  unfold setSymmetry
  rw [if_neg (by rw [hs]; simp), hl]
  dsimp only
  rw [fill_fits _ _ (le_of_eq (table_length hb)), ← table_length hb]
  simp

example : ∃ b ∈ builtins, b.symtype = "QSZ" ∧ b.channels = 2 ∧ served ⟨false, false⟩ false b.symtype = true ∧ b.sym.table.length = 16 :=
  ⟨⟨"QSZ", 2, fields_QSZ, tab_QSZ_2ch⟩, by simp [builtins], rfl, rfl, by decide, by decide⟩

/-- **C112.** Substeps: four symmetries take their table for one channel, and are the same for any number of channels. -/
theorem symmetry_substeps (lv : Level) (cplx : Bool) (b : Builtin) (hb : b ∈ builtins) (h1 : b.channels = 1) (hsub : b.symtype ∈ (["QS", "QSZ", "SPSU2", "SPU1"] : List String))
    (hs : served lv cplx b.symtype = true) (channels : Nat) :
    setSymmetry lv cplx b.symtype channels true = .ok ⟨b.sym.table.length, b.sym.table⟩ := by
  have hq : ∀ x ∈ (["QS", "QSZ", "SPSU2", "SPU1"] : List String), x ≠ "QJ" ∧ noSubNames.contains x = false := by decide
  have hl : loadTable b.symtype channels true = some b.sym.table := by
    unfold loadTable
    rw [if_neg (hq _ hsub).1, if_neg (by rw [(hq _ hsub).2]; simp), if_pos ⟨rfl, by simpa [subNames] using hsub⟩, ← h1, tableFor_mem hb]
  have hc : combsOf b.symtype channels true = b.sym.table.length := by
    rw [table_length hb, h1]; simp [combsOf]
  unfold setSymmetry
  rw [if_neg (by rw [hs]; simp), hl]
  dsimp only
  rw [hc, fill_fits _ _ (le_refl _)]
  simp

/-- **C112.** Without substeps, a number of channels without a table is refused, except for `QJ`. -/
theorem symmetry_refused (lv : Level) (cplx : Bool) (name : String) (channels : Nat) (hs : served lv cplx name = true) (hq : name ≠ "QJ")
    (h : ∀ b ∈ builtins, b.symtype = name → b.channels ≠ channels) : setSymmetry lv cplx name channels false = .error .refused := by
  have hl : loadTable name channels false = none := by
    unfold loadTable
    rw [if_neg hq, if_neg (by simp), if_neg (by simp), tableFor_none h]
  unfold setSymmetry
  rw [if_neg (by rw [hs]; simp), hl]

/-- **C113.** Substeps with more than one channel, for a symmetry that neither supports nor refuses them: the table is written beyond the end of the vectors, which are made
for the states of one site. -/
theorem symmetry_substeps_outside (lv : Level) (cplx : Bool) (b : Builtin) (hb : b ∈ builtins) (h2 : 2 ≤ b.channels) (h3 : b.symtype ∉ (["QS", "QSZ", "SPSU2", "SPU1"] : List String))
    (h4 : b.symtype ∉ (["QST", "QSTZ", "QSZTZ", "SPSU2T"] : List String)) (hs : served lv cplx b.symtype = true) :
    setSymmetry lv cplx b.symtype b.channels true = .error .outside := by
  have hl : loadTable b.symtype b.channels true = some b.sym.table := by
    unfold loadTable
    by_cases hq : b.symtype = "QJ"
    · have : ∀ b ∈ builtins, b.symtype = "QJ" → b.channels = 3 := by decide +kernel
      rw [if_pos hq, ← tableFor_mem hb, hq, this b hb hq]
    · rw [if_neg hq, if_neg (by simpa [noSubNames] using h4), if_neg (by simpa [subNames] using h3), tableFor_mem hb]
  have hlt : combsOf b.symtype b.channels true < b.sym.table.length := by
    have : ∀ b ∈ builtins, 2 ≤ b.channels → combsOf b.symtype b.channels true < b.sym.table.length := by decide +kernel
    exact this b hb h2
  unfold setSymmetry
  rw [if_neg (by rw [hs]; simp), hl]
  dsimp only
  rw [fill_too_long _ _ hlt]

example : ∃ b ∈ builtins, b.symtype = "U1" ∧ 2 ≤ b.channels ∧ b.symtype ∉ (["QS", "QSZ", "SPSU2", "SPU1"] : List String) ∧
    b.symtype ∉ (["QST", "QSTZ", "QSZTZ", "SPSU2T"] : List String) ∧
    served ⟨true, true⟩ false b.symtype = true :=
  ⟨⟨"U1", 2, fields_U1, tab_U1_2ch⟩, by simp [builtins], rfl, by decide, by decide, by decide, by decide⟩

/-- **C112.** Four symmetries refuse substeps; with one channel substeps change nothing for any symmetry. -/
theorem symmetry_substeps_other (lv : Level) (cplx : Bool) (name : String) (hs : served lv cplx name = true) :
    (name ∈ (["QST", "QSTZ", "QSZTZ", "SPSU2T"] : List String) → ∀ channels, setSymmetry lv cplx name channels true = .error .refused) ∧
    (∀ b ∈ builtins, b.symtype = name → b.channels = 1 → setSymmetry lv cplx name 1 true = setSymmetry lv cplx name 1 false) := by
  constructor
  · intro hn channels
    have hq : ∀ x ∈ (["QST", "QSTZ", "QSZTZ", "SPSU2T"] : List String), x ≠ "QJ" := by decide
    have hl : loadTable name channels true = none := by
      unfold loadTable
      rw [if_neg (hq _ hn), if_pos ⟨rfl, by simpa [noSubNames] using hn⟩]
    unfold setSymmetry
    rw [if_neg (by rw [hs]; simp), hl]
  · rintro b hb rfl h1
    have hno : b.symtype ∉ noSubNames := by
      have : ∀ b ∈ builtins, b.channels = 1 → b.symtype ∉ noSubNames := by decide +kernel
      exact this b hb h1
    have hq : b.symtype ≠ "QJ" := by
      have : ∀ b ∈ builtins, b.channels = 1 → b.symtype ≠ "QJ" := by decide +kernel
      exact this b hb h1
    have hl : loadTable b.symtype 1 true = loadTable b.symtype 1 false := by
      unfold loadTable
      rw [if_neg hq, if_neg hq, if_neg (by simpa using hno), ite_self, if_neg (by simp), if_neg (by simp)]
    have hc : combsOf b.symtype 1 true = combsOf b.symtype 1 false := by simp [combsOf]
    unfold setSymmetry
    rw [hl, hc]

/-- **C113.** `QJ` with one or two channels is written beyond the end of the vectors; with four or more channels the remaining entries have no quantum numbers. -/
theorem symmetry_QJ (lv : Level) (cplx : Bool) (h : lv.all = true) (channels : Nat) :
    (channels < 3 → setSymmetry lv cplx "QJ" channels false = .error .outside) ∧
    (3 ≤ channels → ∃ o, setSymmetry lv cplx "QJ" channels false = .ok o ∧ o.combs = 4 ^ channels ∧
      o.entries = tab_QJ_3ch ++ List.replicate (4 ^ channels - 64) ([], [])) := by
  have hs : served lv cplx "QJ" = true := by
    unfold served
    rw [h]
    have : allNames.contains "QJ" = true := by decide
    rw [this]
    simp
  have hm : (⟨"QJ", 3, fields_QJ, tab_QJ_3ch⟩ : Builtin) ∈ builtins := by simp [builtins]
  have hl : loadTable "QJ" channels false = some tab_QJ_3ch := by
    unfold loadTable
    rw [if_pos rfl]
    exact tableFor_mem hm
  have hlen : tab_QJ_3ch.length = 64 := by decide
  have hc : combsOf "QJ" channels false = 4 ^ channels := by simp [combsOf]
  constructor
  · intro h3
    unfold setSymmetry
    rw [if_neg (by rw [hs]; simp), hl]
    dsimp only
    rw [hc, fill_too_long]
    rw [hlen]
    have : channels = 0 ∨ channels = 1 ∨ channels = 2 := by omega
    rcases this with rfl | rfl | rfl <;> decide
  · intro h3
    have hle : 64 ≤ 4 ^ channels := by
      calc 64 = 4 ^ 3 := by decide
        _ ≤ 4 ^ channels := Nat.pow_le_pow_right (by decide) h3
    refine ⟨⟨4 ^ channels, tab_QJ_3ch ++ List.replicate (4 ^ channels - 64) ([], [])⟩, ?_, rfl, rfl⟩
    unfold setSymmetry
    rw [if_neg (by rw [hs]; simp), hl]
    dsimp only
    rw [hc, fill_fits _ _ (by rw [hlen]; exact hle), hlen]
    rfl

end Verif.Start
