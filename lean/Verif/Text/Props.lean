import Verif.Text.Lemmas
/-!
# C40 (text part), C55, C56, C63, C65
-/

namespace Verif.Text
open Verif.Invar (Label)

/-! ## C40 -/

/-- **C40.** A label written as text, followed by anything that does not begin
with a digit (in the files, a line break), is read back unchanged, and reading
stops right after it. -/
theorem label_text_roundtrip (l : Label) (hl : ∀ a ∈ l, inInt a) (rest : Str) (hr : NoDigit rest) :
    extractor l.length (str l ++ rest) = some (l, rest) := extractor_insertor l hl rest hr

/-- **C40.** Different labels have different texts and different names, whatever
their lengths. -/
theorem label_names_distinct (l m : Label) : (str l = str m ↔ l = m) ∧ (name l = name m ↔ l = m) :=
  ⟨⟨insertor_injective (by decide) (by decide) l m, fun h => by rw [h]⟩,
    ⟨insertor_injective (by decide) (by decide) l m, fun h => by rw [h]⟩⟩

example : str [-1, 2, 10] = "-1 2 10".toList ∧ name [-1, 2, 10] = "-1_2_10".toList := by decide +kernel
example : extractor 3 "-1 2 10\n".toList = some ([-1, 2, 10], ['\n']) := by decide +kernel
example : extractor 2 "5 x".toList = none := by decide +kernel

/-! ## C55 -/

theorem groupDigits_false (k : Nat) (s : Str) (h : s.length = 3 * k) :
    ∃ gs : List Str, groupDigits false s = gs.flatMap (fun g => '\'' :: g) ∧ gs.flatten = s ∧ ∀ g ∈ gs, g.length = 3 := by
  induction k generalizing s with
  | zero =>
    have : s = [] := List.length_eq_zero_iff.1 (by omega)
    subst this
    exact ⟨[], rfl, rfl, by simp⟩
  | succ k ih =>
    match s, h with
    | a :: b :: c :: s, h =>
      simp only [List.length_cons] at h
      obtain ⟨gs, h1, h2, h3⟩ := ih s (by omega)
      refine ⟨[a, b, c] :: gs, ?_, by simp [h2], ?_⟩
      · have e1 : (s.length + 1 + 1 + 1) % 3 = 0 := by omega
        have e2 : (s.length + 1 + 1) % 3 ≠ 0 := by omega
        have e3 : (s.length + 1) % 3 ≠ 0 := by omega
        simp [groupDigits, h1, e1, e2, e3]
      · intro g hg
        rcases List.mem_cons.1 hg with rfl | hg
        · rfl
        · exact h3 g hg

/-- **C55.** The figure is the decimal digits of the number, cut into groups of
exactly three from the right with marks between them; the first group has one to
three digits. -/
theorem memory_figure (n : Nat) :
    ∃ (g : Str) (gs : List Str), formatMemory n = g ++ gs.flatMap (fun x => '\'' :: x) ∧
      1 ≤ g.length ∧ g.length ≤ 3 ∧ (∀ x ∈ gs, x.length = 3) ∧ g ++ gs.flatten = natStr n := by
  have hne := natStr_ne_nil n
  unfold formatMemory
  generalize natStr n = s at hne
  have hpos : 0 < s.length := List.length_pos_iff.2 hne
  have hk : ∃ k r, s.length = r + 1 + 3 * k ∧ r < 3 := ⟨(s.length - 1) / 3, (s.length - 1) % 3, by omega, by omega⟩
  obtain ⟨k, r, hl, hr⟩ := hk
  match s, r, hl, hr with
  | a :: s, 0, hl, _ =>
    obtain ⟨gs, h1, h2, h3⟩ := groupDigits_false k s (by simp at hl; omega)
    exact ⟨[a], gs, by simp [groupDigits, h1], by simp, by simp, h3, by simp [h2]⟩
  | a :: b :: s, 1, hl, _ =>
    obtain ⟨gs, h1, h2, h3⟩ := groupDigits_false k s (by simp at hl; omega)
    have e1 : (s.length + 1) % 3 ≠ 0 := by simp at hl; omega
    exact ⟨[a, b], gs, by simp [groupDigits, h1, e1], by simp, by simp, h3, by simp [h2]⟩
  | a :: b :: c :: s, 2, hl, _ =>
    obtain ⟨gs, h1, h2, h3⟩ := groupDigits_false k s (by simp at hl; omega)
    have e1 : (s.length + 1) % 3 ≠ 0 := by simp at hl; omega
    have e2 : (s.length + 1 + 1) % 3 ≠ 0 := by simp at hl; omega
    exact ⟨[a, b, c], gs, by simp [groupDigits, h1, e1, e2], by simp, by simp, h3, by simp [h2]⟩
  | [a], 1, hl, _ => simp at hl; omega
  | [a], 2, hl, _ => simp at hl; omega
  | [a, b], 2, hl, _ => simp at hl; omega

/-- **C55.** Removing the marks gives the number's digits, so the value. -/
theorem memory_value (n : Nat) : (formatMemory n).filter (· != '\'') = natStr n ∧
    natValue ((formatMemory n).filter (· != '\'')) = n := by
  have key : ∀ b (s : Str), (∀ c ∈ s, isDigit c = true) → (groupDigits b s).filter (· != '\'') = s := by
    intro b s
    induction s generalizing b with
    | nil => intro _; rfl
    | cons c s ih =>
      intro h
      have h1 := (digit_ne (h c (by simp))).2.2.2.2.2.1
      have h2 := ih false fun x hx => h x (by simp [hx])
      simp only [groupDigits, List.filter_append, List.filter_cons, h2]
      split <;> simp [h1]
  have := key true (natStr n) (natStr_isDigit n)
  exact ⟨this, by unfold formatMemory; rw [this, natStr_value]⟩

example : formatMemory 1234567 = "1'234'567".toList ∧ formatMemory 999 = "999".toList := by decide +kernel

/-! ## C63 -/

/-- **C63.** Within one working directory different iterations and different
kinds of stored data have different file names. -/
theorem store_names_distinct (dir k k' : Str) (hk : k ∈ kinds) (hk' : k' ∈ kinds) (n n' : Nat)
    (h : storeName dir k n = storeName dir k' n') : k = k' ∧ n = n' := by
  have h1 : k ++ natStr n = k' ++ natStr n' := by
    have := List.append_cancel_left h
    exact (List.cons.inj this).2
  have hl : ∀ x ∈ kinds, ∀ c ∈ x, (!isDigit c) = true := by decide
  have key : ∀ (x : Str) (m : Nat), (∀ c ∈ x, (!isDigit c) = true) →
      (x ++ natStr m).takeWhile (fun c => !isDigit c) = x := by
    intro x m hx
    obtain ⟨c, s, hc, hd⟩ := natStr_cons m
    rw [List.takeWhile_append_of_pos hx, hc, List.takeWhile_cons, if_neg (by simp [hd])]
    simp
  have h2 : k = k' := by rw [← key k n (hl k hk), h1, key k' n' (hl k' hk')]
  subst h2
  exact ⟨rfl, natStr_injective (List.append_cancel_left h1)⟩

/-- **C63.** No temporary file has the name of a finished file, and temporary
files of different targets differ. -/
theorem tmp_names_distinct (dir k k' : Str) (n n' : Nat) :
    tmpName (storeName dir k n) ≠ storeName dir k' n' ∧
    (tmpName (storeName dir k n) = tmpName (storeName dir k' n') ↔ storeName dir k n = storeName dir k' n') := by
  refine ⟨?_, ?_, fun h => by rw [h]⟩
  · intro h
    have h1 := congrArg List.getLast? h
    have h2 : (tmpName (storeName dir k n)).getLast? = some 'p' := by
      simp [tmpName]
    have h3 : ∀ c ∈ (storeName dir k' n').getLast?, isDigit c = true := by
      intro c hc
      unfold storeName at hc
      rw [List.getLast?_append, List.getLast?_cons, List.getLast?_append] at hc
      have : ∃ x, (natStr n').getLast? = some x := ⟨_, List.getLast?_eq_some_getLast (natStr_ne_nil n')⟩
      obtain ⟨x, hx⟩ := this
      simp [hx] at hc
      subst hc
      exact natStr_isDigit n' x (List.mem_of_getLast? hx)
    rw [← h1, h2] at h3
    have := h3 'p' rfl
    revert this; decide
  · intro h
    exact List.append_cancel_right h

example : storeName "./Ab12".toList "rho".toList 12 = "./Ab12/rho12".toList := by decide +kernel

/-! ## C65 -/

theorem keepall_even (N : Nat) : keepall "even".toList N = decide (N % 2 = 0) := by
  by_cases h : N % 2 = 0
  · simp [keepall, h]
  · have h1 : split ',' ['e', 'v', 'e', 'n'] = [['e', 'v', 'e', 'n']] := by decide
    have h2 : natStr N ≠ ['e', 'v', 'e', 'n'] := by
      intro h3
      have := natStr_isDigit N 'e' (by rw [h3]; simp)
      revert this; decide
    simp [keepall, h, h1, h2]

theorem keepall_odd (N : Nat) : keepall "odd".toList N = decide (N % 2 = 1) := by
  by_cases h : N % 2 = 1
  · simp [keepall, h]
  · have h1 : split ',' ['o', 'd', 'd'] = [['o', 'd', 'd']] := by decide
    have h2 : natStr N ≠ ['o', 'd', 'd'] := by
      intro h3
      have := natStr_isDigit N 'o' (by rw [h3]; simp)
      revert this; decide
    simp [keepall, h, h1, h2]

/-- **C65.** With an empty setting no step keeps all states; "even" and "odd"
select by parity; a comma-separated list of step numbers selects exactly the
listed steps. -/
theorem keepall_spec (N : Nat) :
    keepall [] N = false ∧
    keepall "even".toList N = decide (N % 2 = 0) ∧
    keepall "odd".toList N = decide (N % 2 = 1) ∧
    ∀ l : List Nat, keepall (join ',' (l.map natStr)) N = decide (N ∈ l) := by
  refine ⟨rfl, keepall_even N, keepall_odd N, ?_⟩
  intro l
  have hs : split ',' (join ',' (l.map natStr)) = l.map natStr := by
    apply split_join
    intro s hs
    obtain ⟨n, _, rfl⟩ := List.mem_map.1 hs
    exact ⟨fun h => (digit_ne (natStr_isDigit n _ h)).2.2.2.2.1 rfl, natStr_ne_nil n⟩
  cases l with
  | nil => simp [keepall, join]
  | cons a l =>
    obtain ⟨c, s, hc, hd⟩ := natStr_cons a
    have hhead : ∃ t, join ',' ((a :: l).map natStr) = c :: t := by
      cases l with
      | nil => exact ⟨s, by simp [join, hc]⟩
      | cons b l => exact ⟨s ++ ',' :: join ',' ((b :: l).map natStr), by simp [join, hc]⟩
    obtain ⟨t, ht⟩ := hhead
    have h0 : join ',' ((a :: l).map natStr) ≠ [] := by rw [ht]; simp
    have h1 : join ',' ((a :: l).map natStr) ≠ "even".toList := by
      rw [ht]; intro h
      have : c = 'e' := (List.cons.inj h).1
      subst this; revert hd; decide
    have h2 : join ',' ((a :: l).map natStr) ≠ "odd".toList := by
      rw [ht]; intro h
      have : c = 'o' := (List.cons.inj h).1
      subst this; revert hd; decide
    unfold keepall
    rw [if_neg h0, if_neg (by simp only [h1, decide_false, Bool.false_and]; simp),
      if_neg (by simp only [h2, decide_false, Bool.false_and]; simp), hs]
    rw [Bool.eq_iff_iff]
    simp only [List.contains_iff_mem, List.mem_map, decide_eq_true_eq]
    constructor
    · rintro ⟨n, hn, he⟩; rw [← natStr_injective he]; exact hn
    · intro h; exact ⟨N, h, rfl⟩

/-- **C65.** Items are compared as text: an item written with a space is
silently ignored. -/
theorem keepall_space_ignored : keepall "5, 6".toList 5 = true ∧ keepall "5, 6".toList 6 = false := by decide +kernel

/-! ## C56 -/

/-- **C56 (part).** The scan reports the largest iteration in its range whose file exists,
and nothing if there is none. -/
theorem lastStored_partial (good : Nat → Bool) (ninit nmax : Nat) :
    (∀ n, lastStored good ninit nmax = some n ↔
      (ninit ≤ n ∧ n < nmax ∧ good n = true ∧ ∀ m, n < m → m < nmax → good m = false)) ∧
    (lastStored good ninit nmax = none ↔ ∀ m, ninit ≤ m → m < nmax → good m = false) := by
  unfold lastStored
  have key : ∀ k, (∀ n, (List.range' ninit k).foldl (fun acc n => if good n then some n else acc) none = some n ↔
      (ninit ≤ n ∧ n < ninit + k ∧ good n = true ∧ ∀ m, n < m → m < ninit + k → good m = false)) ∧
    ((List.range' ninit k).foldl (fun acc n => if good n then some n else acc) none = none ↔
      ∀ m, ninit ≤ m → m < ninit + k → good m = false) := by
    intro k
    induction k with
    | zero =>
      refine ⟨fun n => ?_, ?_⟩
      · simp; omega
      · simp; intro m h1 h2; omega
    | succ k ih =>
      obtain ⟨ih1, ih2⟩ := ih
      rw [List.range'_concat, List.foldl_append]
      simp only [List.foldl_cons, List.foldl_nil, Nat.one_mul]
      by_cases hg : good (ninit + k) = true
      · simp only [hg, if_true]
        refine ⟨fun n => ⟨?_, ?_⟩, ?_⟩
        · intro h; injection h with h; subst h
          exact ⟨by omega, by omega, hg, fun m h1 h2 => by omega⟩
        · rintro ⟨h1, h2, h3, h4⟩
          by_cases hn : n = ninit + k
          · rw [hn]
          · have := h4 (ninit + k) (by omega) (by omega)
            rw [hg] at this; cases this
        · simp only [reduceCtorEq, false_iff]
          intro h
          have := h (ninit + k) (by omega) (by omega)
          rw [hg] at this; cases this
      · have hg' : good (ninit + k) = false := by simpa using hg
        simp only [hg', Bool.false_eq_true, if_false]
        refine ⟨fun n => ?_, ?_⟩
        · rw [ih1]
          constructor
          · rintro ⟨h1, h2, h3, h4⟩
            refine ⟨h1, by omega, h3, fun m h5 h6 => ?_⟩
            by_cases hm : m = ninit + k
            · rw [hm]; exact hg'
            · exact h4 m h5 (by omega)
          · rintro ⟨h1, h2, h3, h4⟩
            have : n ≠ ninit + k := by rintro rfl; rw [hg'] at h3; cases h3
            exact ⟨h1, by omega, h3, fun m h5 h6 => h4 m h5 (by omega)⟩
        · rw [ih2]
          constructor
          · intro h m h1 h2
            by_cases hm : m = ninit + k
            · rw [hm]; exact hg'
            · exact h m h1 (by omega)
          · intro h m h1 h2; exact h m h1 (by omega)
  by_cases hle : ninit ≤ nmax
  · have := key (nmax - ninit)
    rwa [show ninit + (nmax - ninit) = nmax by omega] at this
  · rw [show nmax - ninit = 0 by omega]
    refine ⟨fun n => ?_, ?_⟩
    · simp; omega
    · simp; intro m h1 h2; omega

/-- **C56 (part).** With `resume`, the stored result is used for exactly those iterations
that are not later than some existing file of the range; all later ones are computed. -/
theorem usesStored_partial (good : Nat → Bool) (ninit nmax n : Nat) :
    (usesStored true (lastStored good ninit nmax) n = true ↔
      ∃ m, n ≤ m ∧ ninit ≤ m ∧ m < nmax ∧ good m = true) ∧
    usesStored false (lastStored good ninit nmax) n = false := by
  obtain ⟨h1, h2⟩ := lastStored_partial good ninit nmax
  refine ⟨?_, rfl⟩
  cases hl : lastStored good ninit nmax with
  | none =>
    simp only [usesStored, Bool.and_false, Bool.false_eq_true, false_iff]
    rintro ⟨m, _, ha, hb, hc⟩
    rw [h2.1 hl m ha hb] at hc; cases hc
  | some l =>
    obtain ⟨ha, hb, hc, hd⟩ := (h1 l).1 hl
    simp only [usesStored, Bool.true_and, decide_eq_true_eq]
    constructor
    · intro h; exact ⟨l, h, ha, hb, hc⟩
    · rintro ⟨m, hm, _, hm2, hg⟩
      by_contra hlt
      rw [hd m (by omega) hm2] at hg; cases hg

/-- **C56 fails**, first reason: the scan runs before the chain length is known,
so whatever files exist nothing is found and no stored iteration is ever used. -/
theorem resume_never_finds (resume : Bool) (good : Nat → Bool) (ninit : Nat) :
    lastStoredAfterConstruction resume good ninit = none ∧
    ∀ n, usesStored resume (lastStoredAfterConstruction resume good ninit) n = false := by
  have h : lastStoredAfterConstruction resume good ninit = none := by
    unfold lastStoredAfterConstruction
    cases resume
    · rfl
    · simp [lastStored]
  exact ⟨h, fun n => by rw [h]; simp [usesStored]⟩

/-- **C56 fails**, second reason: a gap is not noticed. With files for
iterations 0 and 2 only, iteration 2 is reported, and iteration 1 would be
loaded from a file that does not exist. -/
theorem lastStored_gap : lastStored (fun n => n == 0 || n == 2) 0 5 = some 2 ∧
    usesStored true (lastStored (fun n => n == 0 || n == 2) 0 5) 1 = true := by decide

end Verif.Text
