import Verif.Param.Lemmas
/-!
# C19, C64: parameter files
-/

namespace Verif.Param
open Verif.Text

/-- **C19.** Parsing a block gives exactly its settings, in order; it fails
exactly when a key occurs twice, and then names such a key. -/
theorem parseBlock_spec (ls : List Str) (es : Map) (h : Settings (blockLines ls) es) :
    ((es.map Prod.fst).Nodup → parseBlock ls [] = .ok es) ∧
    (¬ (es.map Prod.fst).Nodup → ∃ k v es1 es2, parseBlock ls [] = .duplicate k ∧
      es = es1 ++ (k, v) :: es2 ∧ k ∈ es1.map Prod.fst) := by
  simpa using parseBlock_eq ls [] es (by simp) h

/-- **C19.** The settings of given lines exist and are unique, so the theorem
above determines the result for every input. -/
theorem settings_determined (ls : List Str) : ∃! es, Settings ls es := by
  obtain ⟨es, h⟩ := settings_exist ls
  exact ⟨es, h, fun es' h' => settings_unique h' h⟩

/-- **C19.** Looking a key up gives the value on its line. -/
theorem lookup_setting (ls : List Str) (es m : Map) (h : Settings (blockLines ls) es)
    (hp : parseBlock ls [] = .ok m) (k v : Str) : Map.get m k = some v ↔ (k, v) ∈ es := by
  have hs := parseBlock_spec ls es h
  by_cases hn : (es.map Prod.fst).Nodup
  · rw [hs.1 hn] at hp
    injection hp with hp
    rw [← hp, get_eq_some es hn]
  · obtain ⟨k', _, _, _, h1, _⟩ := hs.2 hn
    rw [h1] at hp; cases hp

/-- **C19.** Blank lines and comments change nothing, wherever they stand. -/
theorem comments_ignored (a b : List Str) (c : Str) (hc : blankOrComment c = true) (m : Map) (name : Str) :
    parseBlock (a ++ c :: b) m = parseBlock (a ++ b) m ∧
    (findBlock name (a ++ c :: b) = none ↔ findBlock name (a ++ b) = none) := by
  constructor
  · induction a generalizing m with
    | nil => simp [parseBlock, hc]
    | cons l a ih =>
      simp only [List.cons_append, parseBlock]
      split
      · exact ih m
      · split
        · rfl
        · cases splitEq (strip l) with
          | none => exact ih m
          | some p => simp only; split <;> first | rfl | exact ih _
  · induction a with
    | nil => simp [findBlock, hc]
    | cons l a ih =>
      simp only [List.cons_append, findBlock]
      split
      · exact ih
      · split
        · simp
        · exact ih

/-- **C19.** Lines that do not count: only white space, or white space followed by `#`. -/
theorem insignificant_iff (s : Str) : blankOrComment s = true ↔
    (∀ c ∈ s, isSpace c = true) ∨ ∃ ws t, s = ws ++ '#' :: t ∧ ∀ c ∈ ws, isSpace c = true := by
  induction s with
  | nil => simp [blankOrComment]
  | cons c s ih =>
    by_cases hc : isSpace c = true
    · have : blankOrComment (c :: s) = blankOrComment s := by simp [blankOrComment, List.dropWhile, hc]
      rw [this, ih]
      constructor
      · rintro (h | ⟨ws, t, rfl, h⟩)
        · exact .inl (by simpa [hc] using h)
        · exact .inr ⟨c :: ws, t, rfl, by simpa [hc] using h⟩
      · rintro (h | ⟨ws, t, e, h⟩)
        · exact .inl fun d hd => h d (List.mem_cons_of_mem _ hd)
        · match ws, e with
          | [], e => simp only [List.nil_append, List.cons.injEq] at e; rw [e.1] at hc; exact absurd hc (by decide)
          | w :: ws, e =>
            simp only [List.cons_append, List.cons.injEq] at e
            exact .inr ⟨ws, t, e.2, fun d hd => h d (List.mem_cons_of_mem _ hd)⟩
    · have hc' : isSpace c = false := by simpa using hc
      have : blankOrComment (c :: s) = decide (c = '#') := by simp [blankOrComment, List.dropWhile, hc']
      rw [this]
      simp only [decide_eq_true_eq]
      constructor
      · rintro rfl; exact .inr ⟨[], s, rfl, by simp⟩
      · rintro (h | ⟨ws, t, e, h⟩)
        · exact absurd (h c (by simp)) hc
        · match ws, e with
          | [], e => simp only [List.nil_append, List.cons.injEq] at e; exact e.1
          | w :: ws, e =>
            simp only [List.cons_append, List.cons.injEq] at e
            exact absurd (e.1 ▸ h w (by simp)) hc

/-- **C19.** `nextline` delivers the first line that counts, and what follows it; the loop
over the lines of a block advances by exactly these lines. -/
theorem nextline_spec (ls : List Str) (m : Map) :
    (∀ l rest, nextline ls = some (l, rest) ↔ ∃ pre, ls = pre ++ l :: rest ∧ blankOrComment l = false ∧
      ∀ x ∈ pre, blankOrComment x = true) ∧
    (nextline ls = none ↔ ∀ x ∈ ls, blankOrComment x = true) ∧
    parseBlock ls m = (match nextline ls with
      | none => .ok m
      | some (l, rest) => parseBlock (l :: rest) m) := by
  induction ls with
  | nil => simp [nextline, parseBlock]
  | cons a ls ih =>
    obtain ⟨ih1, ih2, ih3⟩ := ih
    by_cases ha : blankOrComment a = true
    · have e : nextline (a :: ls) = nextline ls := by simp [nextline, ha]
      refine ⟨fun l rest => ?_, ?_, ?_⟩
      · rw [e, ih1]
        constructor
        · rintro ⟨pre, rfl, h1, h2⟩
          exact ⟨a :: pre, rfl, h1, by simpa [ha] using h2⟩
        · rintro ⟨pre, h, h1, h2⟩
          match pre, h with
          | [], h => simp only [List.nil_append, List.cons.injEq] at h; rw [← h.1, ha] at h1; cases h1
          | b :: pre, h =>
            simp only [List.cons_append, List.cons.injEq] at h
            exact ⟨pre, h.2, h1, fun x hx => h2 x (List.mem_cons_of_mem _ hx)⟩
      · rw [e, ih2]; simp [ha]
      · rw [e, ← ih3]; simp [parseBlock, ha]
    · have ha' : blankOrComment a = false := by simpa using ha
      have e : nextline (a :: ls) = some (a, ls) := by simp [nextline, ha']
      refine ⟨fun l rest => ?_, ?_, ?_⟩
      · rw [e]
        constructor
        · intro h
          simp only [Option.some.injEq, Prod.mk.injEq] at h
          exact ⟨[], by simp [h.1, h.2], h.1 ▸ ha', by simp⟩
        · rintro ⟨pre, h, h1, h2⟩
          match pre, h with
          | [], h => simp only [List.nil_append, List.cons.injEq] at h; simp [h.1, h.2]
          | b :: pre, h =>
            simp only [List.cons_append, List.cons.injEq] at h
            have := h2 b (by simp)
            rw [← h.1] at this; exact absurd this ha
      · rw [e]; simp [ha']
      · rw [e]

example : nextline [" # x".toList, [], "a=1".toList, "b=2".toList] = some ("a=1".toList, ["b=2".toList]) := by
  decide +kernel

theorem settings_perm_exists {ls ls' : List Str} {es : Map} (hp : ls.Perm ls') (h : Settings ls es) :
    ∃ es', Settings ls' es' ∧ es.Perm es' := by
  induction hp generalizing es with
  | nil => exact ⟨es, h, List.Perm.refl _⟩
  | cons l _ ih =>
    cases h with
    | skip _ _ _ hn hs => obtain ⟨e', h1, h2⟩ := ih hs; exact ⟨e', .skip _ _ _ hn h1, h2⟩
    | take _ _ _ k v ht hs => obtain ⟨e', h1, h2⟩ := ih hs; exact ⟨_, .take _ _ _ k v ht h1, h2.cons _⟩
  | swap l l' ls =>
    cases h with
    | skip _ _ _ hn hs =>
      cases hs with
      | skip _ _ _ hn' hs => exact ⟨_, .skip _ _ _ hn' (.skip _ _ _ hn hs), List.Perm.refl _⟩
      | take _ _ _ k v ht hs => exact ⟨_, .take _ _ _ k v ht (.skip _ _ _ hn hs), List.Perm.refl _⟩
    | take _ _ _ k v ht hs =>
      cases hs with
      | skip _ _ _ hn' hs => exact ⟨_, .skip _ _ _ hn' (.take _ _ _ k v ht hs), List.Perm.refl _⟩
      | take _ _ _ k' v' ht' hs =>
        exact ⟨_, .take _ _ _ k' v' ht' (.take _ _ _ k v ht hs), List.Perm.swap _ _ _⟩
  | trans _ _ ih1 ih2 =>
    obtain ⟨e1, h1, p1⟩ := ih1 h
    obtain ⟨e2, h2, p2⟩ := ih2 h1
    exact ⟨e2, h2, p1.trans p2⟩

/-- **C19.** The order of the lines of a block does not matter. -/
theorem order_irrelevant (ls ls' : List Str) (hp : (blockLines ls).Perm (blockLines ls')) (m : Map)
    (h : parseBlock ls [] = .ok m) :
    ∃ m', parseBlock ls' [] = .ok m' ∧ ∀ k, Map.get m k = Map.get m' k := by
  obtain ⟨es, hs⟩ := settings_exist (blockLines ls)
  obtain ⟨es', hs', pe⟩ := settings_perm_exists hp hs
  have h1 := parseBlock_spec ls es hs
  have h2 := parseBlock_spec ls' es' hs'
  by_cases hn : (es.map Prod.fst).Nodup
  · have hn' : (es'.map Prod.fst).Nodup := (pe.map _).nodup_iff.1 hn
    rw [h1.1 hn] at h
    injection h with h
    subst h
    refine ⟨es', h2.1 hn', fun k => ?_⟩
    apply Option.ext
    intro v
    rw [get_eq_some _ hn, get_eq_some _ hn', pe.mem_iff]
  · obtain ⟨k, _, _, _, h3, _⟩ := h1.2 hn
    rw [h3] at h; cases h

/-- **C19.** The block is reported missing exactly when no line of the file that counts is
its header. -/
theorem notFound_iff (file name : Str) :
    parser file name = .notFound ↔ ∀ l ∈ significant (lines file), strip l ≠ '[' :: name ++ [']'] := by
  have hpb : ∀ ls m, parseBlock ls m ≠ .notFound := by
    intro ls
    induction ls with
    | nil => intro m; simp [parseBlock]
    | cons l ls ih =>
      intro m
      unfold parseBlock
      split
      · exact ih m
      · split
        · simp
        · cases splitEq (strip l) with
          | none => exact ih m
          | some p => simp only; split
                      · simp
                      · exact ih _
  have hf : ∀ ls, findBlock name ls = none ↔ ∀ l ∈ significant ls, strip l ≠ '[' :: name ++ [']'] := by
    intro ls
    induction ls with
    | nil => simp [findBlock, significant]
    | cons l ls ih =>
      unfold findBlock
      by_cases hb : blankOrComment l = true
      · rw [if_pos hb, ih]
        simp [significant, hb]
      · rw [if_neg hb]
        have : significant (l :: ls) = l :: significant ls := by simp [significant, hb]
        rw [this]
        split
        · next h => simp [h]
        · next h =>
          rw [ih]
          simp only [List.mem_cons, forall_eq_or_imp]
          exact ⟨fun hh => ⟨h, hh⟩, fun hh => hh.2⟩
  unfold parser
  cases h : findBlock name (lines file) with
  | none => simp only [true_iff]; exact (hf _).1 h
  | some ls =>
    simp only [hpb, false_iff]
    intro hc
    rw [(hf _).2 hc] at h; cases h

theorem lines_cons (l rest : Str) (h : '\n' ∉ l) : lines (l ++ '\n' :: rest) = l :: lines rest := by
  have := splitAux_nodelim '\n' [] l rest h
  simpa [lines, split] using this

theorem splitAux_prefix (d : Char) (cur s : Str) (h : cur ≠ []) :
    ∃ t ts, splitAux d cur s = (cur ++ t) :: ts := by
  induction s generalizing cur with
  | nil => exact ⟨[], [], by simp [splitAux, h]⟩
  | cons c s ih =>
    simp only [splitAux]
    split
    · exact ⟨[], splitAux d [] s, by simp⟩
    · obtain ⟨t, ts, e⟩ := ih (cur ++ [c]) (by simp)
      exact ⟨c :: t, ts, by simp [e]⟩

/-- **C19.** What is written as `key=value` lines under a header is read back,
whatever precedes the block (as long as it does not contain the same header)
and whatever follows it (as long as that begins with another header). -/
theorem write_read (name : Str) (m : Map) (pre : List Str) (post : Str)
    (hname : '\n' ∉ name) (hk : ∀ e ∈ m, GoodKey e.1 ∧ GoodValue e.2) (hnd : (m.map Prod.fst).Nodup)
    (hpre : ∀ l ∈ pre, '\n' ∉ l ∧ strip l ≠ '[' :: name ++ [']'])
    (hpost : post = [] ∨ post.head? = some '[') :
    parser (pre.flatMap (fun l => l ++ ['\n']) ++ (render name m ++ post)) name = .ok m := by
  -- the header is found
  have hhead : strip ('[' :: name ++ [']']) = '[' :: name ++ [']'] := by
    apply strip_of_ends
    · intro c hc; simp at hc; subst hc; rfl
    · intro c hc
      have : ('[' :: name ++ [']']).getLast? = some ']' := by rw [List.getLast?_append]; rfl
      rw [this] at hc
      simp at hc; subst hc; rfl
  have hfind : ∀ pre : List Str, (∀ l ∈ pre, '\n' ∉ l ∧ strip l ≠ '[' :: name ++ [']']) → ∀ rest : Str,
      findBlock name (lines (pre.flatMap (fun l => l ++ ['\n']) ++ ('[' :: name ++ [']'] ++ '\n' :: rest)))
        = some (lines rest) := by
    intro pre
    induction pre with
    | nil =>
      intro _ rest
      rw [List.flatMap_nil, List.nil_append, lines_cons _ _ (by simpa using hname)]
      unfold findBlock
      rw [if_neg (by simp [blankOrComment, isSpace]), if_pos hhead]
    | cons l pre ih =>
      intro h rest
      have hl := h l (by simp)
      have := ih (fun x hx => h x (by simp [hx])) rest
      rw [List.flatMap_cons, List.append_assoc, List.append_assoc, List.singleton_append, lines_cons _ _ hl.1]
      unfold findBlock
      rw [if_neg hl.2]
      split <;> exact this
  -- the entries are read
  have hlines : ∀ (m acc : Map), (∀ e ∈ m, GoodKey e.1 ∧ GoodValue e.2) → ((acc ++ m).map Prod.fst).Nodup →
      parseBlock (lines ((m.flatMap fun e => e.1 ++ '=' :: e.2 ++ ['\n']) ++ post)) acc = .ok (acc ++ m) := by
    intro m
    induction m with
    | nil =>
      intro acc _ _
      simp only [List.flatMap_nil, List.nil_append, List.append_nil]
      rcases hpost with rfl | hp
      · rfl
      · cases post with
        | nil => simp at hp
        | cons c post =>
          simp at hp; subst hp
          obtain ⟨t, ts, e⟩ := splitAux_prefix '\n' ['['] post (by simp)
          have : lines ('[' :: post) = ('[' :: t) :: ts := by
            simp only [lines, split, splitAux]
            rw [if_neg (by decide)]
            exact e
          rw [this]
          unfold parseBlock
          rw [if_neg (by simp [blankOrComment, isSpace]), if_pos]
          have hs : ∃ u, strip ('[' :: t) = '[' :: u := by
            unfold strip stripTrailing stripLeading
            rw [List.dropWhile_cons, if_neg (by decide), List.reverse_cons]
            have : ∀ (x : Str), ∃ y, ((x ++ ['[']).dropWhile isSpace) = y ++ ['['] := by
              intro x
              induction x with
              | nil => exact ⟨[], by decide⟩
              | cons d x ih =>
                rw [List.cons_append, List.dropWhile_cons]
                split
                · exact ih
                · exact ⟨d :: x, rfl⟩
            obtain ⟨y, hy⟩ := this t.reverse
            exact ⟨y.reverse, by rw [hy]; simp⟩
          obtain ⟨u, hu⟩ := hs
          rw [hu]; rfl
    | cons e m ih =>
      intro acc h hn
      obtain ⟨k, v⟩ := e
      obtain ⟨⟨g1, g2, g3, g4, g5, g6⟩, g7, g8⟩ := h (k, v) (by simp)
      simp only at g1 g2 g3 g4 g5 g6 g7 g8
      have hk1 := strip_eq_self g2 g1
      have hnl : '\n' ∉ k ++ '=' :: v := by simp [g3, g8]
      have hst : strip (k ++ '=' :: v) = k ++ '=' :: v := by
        apply strip_of_ends
        · intro c hc
          apply hk1.1 c
          cases k with
          | nil => exact absurd rfl g1
          | cons d k => simpa using hc
        · intro c hc
          by_cases hv : v = []
          · subst hv; simp at hc; subst hc; rfl
          · apply (strip_eq_self g7 hv).2 c
            rw [List.getLast?_append, List.getLast?_cons] at hc
            obtain ⟨x, hx⟩ : ∃ x, v.getLast? = some x := ⟨_, List.getLast?_eq_some_getLast hv⟩
            simp [hx] at hc
            rw [hx]; simp [hc]
      have hfile : (((k, v) :: m).flatMap fun e => e.1 ++ '=' :: e.2 ++ ['\n']) ++ post
          = (k ++ '=' :: v) ++ '\n' :: ((m.flatMap fun e => e.1 ++ '=' :: e.2 ++ ['\n']) ++ post) := by simp
      rw [hfile, lines_cons _ _ hnl]
      have hbc : blankOrComment (k ++ '=' :: v) = false := by
        cases k with
        | nil => exact absurd rfl g1
        | cons d k =>
          have hd : isSpace d = false := hk1.1 d (by simp)
          have hd2 : d ≠ '#' := by simpa using g6
          simp [blankOrComment, hd, hd2]
      have hhd : (k ++ '=' :: v).head? ≠ some '[' := by
        cases k with
        | nil => exact absurd rfl g1
        | cons d k => simpa using g5
      have hsp : splitEq (k ++ '=' :: v) = some (k, v) := splitEq_some.2 ⟨rfl, g4⟩
      unfold parseBlock
      rw [if_neg (by simp [hbc]), hst, if_neg hhd, hsp]
      simp only [g2, g7]
      have hnot : ¬ (Map.get acc k).isSome = true := by
        rw [get_isSome]
        intro hin
        rw [List.map_append, List.map_cons] at hn
        exact (List.nodup_append.1 hn).2.2 _ hin _ (by simp) rfl
      rw [if_neg hnot, ih (acc ++ [(k, v)]) (fun x hx => h x (by simp [hx])) (by simpa using hn)]
      simp
  have hr : pre.flatMap (fun l => l ++ ['\n']) ++ (render name m ++ post)
      = pre.flatMap (fun l => l ++ ['\n']) ++ ('[' :: name ++ [']'] ++ '\n' ::
          ((m.flatMap fun e => e.1 ++ '=' :: e.2 ++ ['\n']) ++ post)) := by
    simp [render]
  unfold parser
  rw [hr, hfind pre hpre]
  simpa using hlines m [] hk (by simpa using hnd)

example : parser "# x\n[other]\nkeep=1\n[param]\n keep = 100 \n\n# c\nLambda=2.0 # no\n[extra]\nkeep=7\n".toList
    "param".toList = .ok [("keep".toList, "100".toList), ("Lambda".toList, "2.0 # no".toList)] := by decide +kernel
example : parser "[param]\na=1\na=2".toList "param".toList = .duplicate ['a'] := by decide +kernel
example : GoodKey "keep".toList ∧ GoodValue "a = b".toList := by
  refine ⟨⟨by decide, by decide, by decide, by decide, by decide, by decide⟩, by decide, by decide⟩

/-! ## C64 -/

/-- **C64 fails.** A line of the block without `=` (for instance `keep 100`) is
dropped: nothing is set and nothing is reported. -/
theorem line_without_eq_dropped (a b : List Str) (l : Str) (m : Map) (h : '=' ∉ strip l) (hh : ¬ isHeader l) :
    parseBlock (a ++ l :: b) m = parseBlock (a ++ b) m := by
  induction a generalizing m with
  | nil =>
    simp only [List.nil_append]
    conv_lhs => unfold parseBlock
    split
    · rfl
    · rw [if_neg (show ¬ (strip l).head? = some '[' from hh), splitEq_none.2 h]
  | cons l' a ih =>
    simp only [List.cons_append, parseBlock]
    split
    · exact ih m
    · split
      · rfl
      · cases splitEq (strip l') with
        | none => exact ih m
        | some p => simp only; split <;> first | rfl | exact ih _

/-- **C64 (part).** Every setting that was parsed is either given to the
parameter of that name or reported as unused; parameters that are not mentioned
have their default value; and construction fails exactly when a value cannot be
converted. -/
theorem applyAll_partial {V : Type} (ds : List (Decl V)) (hd : (ds.map Decl.keyword).Nodup) (m : Map) :
    ((∀ d ∈ ds, ∀ s, Map.get m d.keyword = some s → ∃ v, d.parse s = some v) →
      ∃ vs, applyAll ds m = .ok (vs, m.filter fun e => e.1 ∉ ds.map Decl.keyword) ∧
        vs.map Prod.fst = ds.map Decl.keyword ∧
        ∀ d ∈ ds, (Map.get m d.keyword = none → (d.keyword, d.default) ∈ vs) ∧
          (∀ s v, Map.get m d.keyword = some s → d.parse s = some v → (d.keyword, v) ∈ vs)) ∧
    ((∃ d ∈ ds, ∃ s, Map.get m d.keyword = some s ∧ d.parse s = none) →
      ∃ d ∈ ds, applyAll ds m = .badValue d.keyword) := by
  have getf : ∀ (m : Map) (k k' : Str), k' ≠ k → Map.get (m.filter fun e => e.1 ≠ k) k' = Map.get m k' := by
    intro m k k' hk
    unfold Map.get
    congr 1
    induction m with
    | nil => rfl
    | cons e m ih =>
      by_cases h1 : e.1 = k
      · rw [List.filter_cons, if_neg (by simp [h1]), ih, List.find?_cons]
        have : ¬ e.1 = k' := by rw [h1]; exact fun h => hk h.symm
        simp [this]
      · rw [List.filter_cons, if_pos (by simp [h1]), List.find?_cons, List.find?_cons, ih]
  have filt : ∀ (m : Map) (d : Decl V) (ds : List (Decl V)),
      (m.filter fun e => e.1 ≠ d.keyword).filter (fun e => e.1 ∉ ds.map Decl.keyword)
        = m.filter fun e => e.1 ∉ (d :: ds).map Decl.keyword := by
    intro m d ds
    rw [List.filter_filter]
    congr 1
    funext e
    simp only [List.map_cons, List.mem_cons]
    by_cases h1 : e.1 = d.keyword <;> simp [h1]
  induction ds generalizing m with
  | nil => simp [applyAll]
  | cons d ds ih =>
    simp only [List.map_cons, List.nodup_cons] at hd
    have hne : ∀ d' ∈ ds, d'.keyword ≠ d.keyword := fun d' hd' he => hd.1 (by
      rw [← he]; exact List.mem_map.2 ⟨d', hd', rfl⟩)
    cases hg : Map.get m d.keyword with
    | none =>
      obtain ⟨ih1, ih2⟩ := ih hd.2 m
      constructor
      · intro h
        obtain ⟨vs, h1, h2, h3⟩ := ih1 fun d' hd' => h d' (by simp [hd'])
        refine ⟨(d.keyword, d.default) :: vs, ?_, by simp [h2], ?_⟩
        · have hm : (m.filter fun e => e.1 ∉ (d :: ds).map Decl.keyword)
              = m.filter fun e => e.1 ∉ ds.map Decl.keyword := by
            apply List.filter_congr
            intro e he
            have : e.1 ≠ d.keyword := by
              intro hc
              have := (get_isSome m d.keyword).2 (List.mem_map.2 ⟨e, he, hc⟩)
              rw [hg] at this; cases this
            simp [this]
          simp only [applyAll, hg, h1, hm]
        · intro d' hd'
          rcases List.mem_cons.1 hd' with rfl | hd'
          · exact ⟨fun _ => by simp, fun s v hs _ => by rw [hg] at hs; cases hs⟩
          · obtain ⟨a, b⟩ := h3 d' hd'
            exact ⟨fun hh => List.mem_cons_of_mem _ (a hh), fun s v hs hv => List.mem_cons_of_mem _ (b s v hs hv)⟩
      · rintro ⟨d', hd', s, hs, hp⟩
        rcases List.mem_cons.1 hd' with rfl | hd'
        · rw [hg] at hs; cases hs
        · obtain ⟨d2, hd2, h2⟩ := ih2 ⟨d', hd', s, hs, hp⟩
          exact ⟨d2, by simp [hd2], by simp only [applyAll, hg, h2]⟩
    | some s =>
      obtain ⟨ih1, ih2⟩ := ih hd.2 (m.filter fun e => e.1 ≠ d.keyword)
      cases hp : d.parse s with
      | none =>
        refine ⟨fun h => ?_, fun _ => ⟨d, by simp, by simp only [applyAll, hg, hp]⟩⟩
        obtain ⟨v, hv⟩ := h d (by simp) s hg
        rw [hp] at hv; cases hv
      | some v =>
        constructor
        · intro h
          obtain ⟨vs, h1, h2, h3⟩ := ih1 fun d' hd' s' hs' => by
            rw [getf m _ _ (hne d' hd')] at hs'
            exact h d' (by simp [hd']) s' hs'
          rw [filt] at h1
          refine ⟨(d.keyword, v) :: vs, by simp only [applyAll, hg, hp, h1], by simp [h2], ?_⟩
          intro d' hd'
          rcases List.mem_cons.1 hd' with rfl | hd'
          · refine ⟨fun hh => (by rw [hg] at hh; cases hh), fun s' v' hs' hv' => ?_⟩
            rw [hg] at hs'; injection hs' with hs'; subst hs'
            rw [hp] at hv'; injection hv' with hv'; subst hv'
            simp
          · obtain ⟨a, b⟩ := h3 d' hd'
            rw [getf m _ _ (hne d' hd')] at a b
            exact ⟨fun hh => List.mem_cons_of_mem _ (a hh), fun s v hs hv => List.mem_cons_of_mem _ (b s v hs hv)⟩
        · rintro ⟨d', hd', s', hs', hp'⟩
          rcases List.mem_cons.1 hd' with rfl | hd'
          · rw [hg] at hs'; injection hs' with hs'; subst hs'; rw [hp] at hp'; cases hp'
          · obtain ⟨d2, hd2, h2⟩ := ih2 ⟨d', hd', s', by rw [getf m _ _ (hne d' hd')]; exact hs', hp'⟩
            exact ⟨d2, by simp [hd2], by simp only [applyAll, hg, hp, h2]⟩

example : parser "[param]\nkeep 100\nz=1".toList "param".toList = .ok [(['z'], ['1'])] := by decide +kernel

/-! ## C66: on/off settings -/

/-- The accepted spellings. -/
def words : Bool → List Str
  | true => ["1".toList, "true".toList, "yes".toList]
  | false => ["0".toList, "false".toList, "no".toList]

theorem strip_decompose (s : Str) :
    ∃ p q, s = p ++ strip s ++ q ∧ (∀ c ∈ p, isSpace c = true) ∧ (∀ c ∈ q, isSpace c = true) := by
  refine ⟨s.takeWhile isSpace, ((s.dropWhile isSpace).reverse.takeWhile isSpace).reverse, ?_, ?_, ?_⟩
  · unfold strip stripTrailing stripLeading
    rw [List.append_assoc, ← List.reverse_append, List.takeWhile_append_dropWhile, List.reverse_reverse,
      List.takeWhile_append_dropWhile]
  · intro c hc; exact List.all_eq_true.1 (List.all_takeWhile) c hc
  · intro c hc; exact List.all_eq_true.1 (List.all_takeWhile) c (List.mem_reverse.1 hc)

theorem strip_pad (p w q : Str) (hp : ∀ c ∈ p, isSpace c = true) (hq : ∀ c ∈ q, isSpace c = true)
    (hw : ∀ c ∈ w, isSpace c = false) (hne : w ≠ []) : strip (p ++ w ++ q) = w := by
  have drop : ∀ (a b : Str), (∀ c ∈ a, isSpace c = true) → (∀ c ∈ b.head?, isSpace c = false) →
      (a ++ b).dropWhile isSpace = b := by
    intro a
    induction a with
    | nil =>
      intro b _ hb
      cases b with
      | nil => rfl
      | cons c t => simp [hb c (by simp)]
    | cons c t ih =>
      intro b ha hb
      rw [List.cons_append, List.dropWhile_cons_of_pos (ha c (by simp))]
      exact ih b (fun x hx => ha x (by simp [hx])) hb
  unfold strip stripTrailing stripLeading
  rw [List.append_assoc, drop p (w ++ q) hp, List.reverse_append, drop]
  · simp
  · intro c hc; exact hq c (List.mem_reverse.1 hc)
  · intro c hc
    rw [List.head?_reverse] at hc
    exact hw c (List.mem_of_getLast? hc)
  · intro c hc
    cases w with
    | nil => exact absurd rfl hne
    | cons a t => simp at hc; subst hc; exact hw a (by simp)

theorem lower_one (c : Char) (d : Char) (h : lower c = d) (hd : d.toNat < 65) : c = d := by
  unfold lower at h
  split at h
  · rename_i hc
    exfalso
    have h1 : (Char.ofNat (c.toNat + 32)).toNat = c.toNat + 32 := by
      have : ∀ n, 65 ≤ n → n ≤ 90 → (Char.ofNat (n + 32)).toNat = n + 32 := by
        intro n h1 h2
        interval_cases n <;> rfl
      exact this _ hc.1 hc.2
    rw [← h, h1] at hd
    omega
  · exact h

theorem lower_space (c : Char) (h : isSpace c = true) : lower c = c := by
  unfold isSpace at h
  simp only [Bool.or_eq_true, decide_eq_true_eq] at h
  rcases h with ((((rfl | rfl) | rfl) | rfl) | rfl) | rfl <;> rfl

/-- A setting is read as on or off exactly if, after removal of surrounding white
space, it is one of `1`, `true`, `yes` or `0`, `false`, `no`, in any mixture of
upper and lower case; everything else is rejected. -/
theorem bool_spellings (s : Str) (b : Bool) :
    boolOf s = some b ↔ ∃ p w q, s = p ++ w ++ q ∧ (∀ c ∈ p, isSpace c = true) ∧ (∀ c ∈ q, isSpace c = true) ∧
      w.map lower ∈ words b := by
  have one : ∀ (t : Str) (d : Char), d.toNat < 65 → (lower d = d) → (t.map lower = [d] ↔ t = [d]) := by
    intro t d hd hl
    constructor
    · intro h
      match t, h with
      | [c], h => rw [lower_one c d (by simpa using h) hd]
    · rintro rfl; simp [hl]
  have key : ∀ t : Str, (if t = ['1'] then some true
      else if t = ['0'] then some false
      else if t.map lower = "true".toList ∨ t.map lower = "yes".toList then some true
      else if t.map lower = "false".toList ∨ t.map lower = "no".toList then some false
      else none) = some b ↔ t.map lower ∈ words b := by
    intro t
    have h1 := one t '1' (by decide) (by decide)
    have h0 := one t '0' (by decide) (by decide)
    simp only [← h1, ← h0]
    generalize t.map lower = u
    have e1 : "1".toList = ['1'] := by decide
    have e0 : "0".toList = ['0'] := by decide
    have et : "true".toList = ['t','r','u','e'] := by decide
    have ey : "yes".toList = ['y','e','s'] := by decide
    have ef : "false".toList = ['f','a','l','s','e'] := by decide
    have en : "no".toList = ['n','o'] := by decide
    cases b <;> simp only [words, e1, e0, et, ey, ef, en, List.mem_cons, List.not_mem_nil, or_false]
    · constructor
      · intro h
        split at h
        · cases h
        · split at h
          · exact .inl ‹_›
          · split at h
            · cases h
            · split at h
              · exact .inr ‹_›
              · cases h
      · rintro (rfl | rfl | rfl) <;> decide
    · constructor
      · intro h
        split at h
        · exact .inl ‹_›
        · split at h
          · cases h
          · split at h
            · exact .inr ‹_›
            · split at h <;> cases h
      · rintro (rfl | rfl | rfl) <;> decide
  constructor
  · intro h
    obtain ⟨p, q, hs, hp, hq⟩ := strip_decompose s
    exact ⟨p, strip s, q, hs, hp, hq, (key _).1 h⟩
  · rintro ⟨p, w, q, rfl, hp, hq, hw⟩
    have hns : ∀ b, ∀ u ∈ words b, u ≠ [] ∧ ∀ c ∈ u, isSpace c = false := by decide
    obtain ⟨hne, hsp⟩ := hns b _ hw
    have hst : strip (p ++ w ++ q) = w := by
      refine strip_pad p w q hp hq ?_ (fun h => hne (by rw [h]; rfl))
      intro c hc
      have h1 := hsp (lower c) (List.mem_map_of_mem hc)
      cases h2 : isSpace c with
      | false => rfl
      | true => rw [lower_space c h2, h2] at h1; cases h1
    unfold boolOf
    simp only [hst]
    exact (key w).2 hw

example : boolOf " YeS \t".toList = some true ∧ boolOf "FALSE".toList = some false ∧
    boolOf "on".toList = none ∧ boolOf "".toList = none ∧ boolOf "10".toList = none := by decide +kernel

end Verif.Param
