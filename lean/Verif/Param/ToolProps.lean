import Verif.Param.Tool
import Verif.Param.Props
/-!
# C92: the tools and the main program read the same parameter file
-/

namespace Verif.Param
open Verif.Text

/-- The last setting of a key. -/
def lastValue (es : Map) (k : Str) : Option Str := (es.reverse.find? fun e => e.1 = k).map (·.2)

theorem get_assign (m : Map) (k v k' : Str) : (m.assign k v).get k' = if k = k' then some v else m.get k' := by
  induction m with
  | nil => by_cases h : k = k' <;> simp [Map.assign, Map.get, h]
  | cons e m ih =>
    unfold Map.assign
    by_cases he : e.1 = k
    · rw [if_pos he]
      by_cases h : k = k'
      · simp [Map.get, h]
      · have : e.1 ≠ k' := by rw [he]; exact h
        simp [Map.get, h, this]
    · rw [if_neg he]
      by_cases h' : e.1 = k'
      · have : k ≠ k' := by rintro rfl; exact he h'
        simp [Map.get, h', this]
      · have e1 : Map.get (e :: Map.assign m k v) k' = Map.get (Map.assign m k v) k' := by simp [Map.get, h']
        have e2 : Map.get (e :: m) k' = Map.get m k' := by simp [Map.get, h']
        rw [e1, e2, ih]

/-- A line counts for the main program exactly if the trimmed line is not empty and does not start with `#`. -/
theorem blank_strip (l : Str) : blankOrComment l = match strip l with
    | [] => true
    | c :: _ => decide (c = '#') := by
  unfold blankOrComment strip stripLeading
  cases hd : l.dropWhile isSpace with
  | nil => rfl
  | cons c t =>
    have hc : isSpace c = false := by
      have := List.head?_dropWhile_not isSpace l
      rw [hd] at this
      simpa using this
    have : ∃ t', stripTrailing (c :: t) = c :: t' := by
      unfold stripTrailing
      rw [List.reverse_cons, List.dropWhile_append]
      split
      · exact ⟨[], by simp [hc]⟩
      · exact ⟨(t.reverse.dropWhile isSpace).reverse, by simp⟩
    obtain ⟨t', e⟩ := this
    rw [e]

theorem toolParse_get (ls : List Str) : ∀ (m es : Map), Settings (blockLines ls) es → ∀ k,
    (toolParse ls m).get k = (lastValue es k).or (m.get k) := by
  induction ls with
  | nil =>
    intro m es hs k
    cases hs
    simp [toolParse, lastValue]
  | cons l ls ih =>
    intro m es hs k
    unfold toolParse
    have hb := blank_strip l
    cases hst : strip l with
    | nil =>
      rw [hst] at hb
      have : blockLines (l :: ls) = blockLines ls := by simp [blockLines, significant, hb]
      rw [this] at hs
      exact ih m es hs k
    | cons c r =>
      rw [hst] at hb
      dsimp only at hb ⊢
      by_cases h1 : c = '['
      · rw [if_pos h1]
        have hb' : blankOrComment l = false := by rw [hb, h1]; decide
        have : blockLines (l :: ls) = [] := by simp [blockLines, significant, hb', isHeader, hst, h1]
        rw [this] at hs
        cases hs
        simp [lastValue]
      · rw [if_neg h1]
        by_cases h2 : c = '#'
        · rw [if_pos h2]
          have hb' : blankOrComment l = true := by rw [hb, h2]; decide
          have : blockLines (l :: ls) = blockLines ls := by simp [blockLines, significant, hb']
          rw [this] at hs
          exact ih m es hs k
        · rw [if_neg h2]
          have hb' : blankOrComment l = false := by rw [hb]; simpa using h2
          have : blockLines (l :: ls) = l :: blockLines ls := by simp [blockLines, significant, hb', isHeader, hst, h1]
          rw [this] at hs
          cases he : splitEq (c :: r) with
          | none =>
            dsimp only
            cases hs with
            | skip _ _ _ _ hs => exact ih m es hs k
            | take _ _ _ k v ht _ =>
              obtain ⟨a, b, h1, _⟩ := isSetting_iff.1 ht
              rw [hst, he] at h1
              cases h1
          | some p =>
            obtain ⟨a, b⟩ := p
            dsimp only
            cases hs with
            | skip _ _ _ hn _ => exact absurd (isSetting_iff.2 ⟨a, b, by rw [hst, he], rfl, rfl⟩) (hn _ _)
            | take _ _ es k2 v2 ht hs =>
              obtain ⟨a', b', h1, h2, h3⟩ := isSetting_iff.1 ht
              rw [hst, he] at h1
              simp only [Option.some.injEq, Prod.mk.injEq] at h1
              rw [ih _ es hs k, get_assign, h1.1, h1.2, ← h2, ← h3]
              unfold lastValue
              rw [List.reverse_cons, List.find?_append]
              cases es.reverse.find? fun e => decide (e.1 = k) with
              | some e => rfl
              | none => by_cases hk : k2 = k <;> simp [hk]

/-- **C92.** In a tool the value of a keyword is its last setting in the block. -/
theorem tool_value (ls : List Str) (es : Map) (h : Settings (blockLines ls) es) (k : Str) : (toolParse ls []).get k = lastValue es k := by
  rw [toolParse_get ls [] es h k]
  simp [Map.get]

theorem find_same (name : Str) : ∀ ls : List Str, (∀ l ∈ ls, strip l = '[' :: name ++ [']'] → l = '[' :: name ++ [']']) →
    toolFind name ls = findBlock name ls := by
  have hs : strip ('[' :: name ++ [']']) = '[' :: name ++ [']'] := by
    apply strip_of_ends
    · intro c hc
      simp at hc
      subst hc
      decide
    · intro c hc
      rw [List.getLast?_append] at hc
      simp at hc
      subst hc
      decide
  have hb : blankOrComment ('[' :: name ++ [']']) = false := rfl
  intro ls
  induction ls with
  | nil => intro _; rfl
  | cons l ls ih =>
    intro h
    unfold toolFind findBlock
    by_cases hl : l = '[' :: name ++ [']']
    · rw [if_pos hl, hl, hb, if_neg (by simp), if_pos hs]
    · rw [if_neg hl, ih fun x hx => h x (List.mem_cons_of_mem _ hx)]
      split
      · rfl
      · rw [if_neg fun e => hl (h l List.mem_cons_self e)]

/-- **C92.** If the main program accepts the file, a tool that reads the same block has the same value for every keyword, provided that the header
stands on its line without any white space. -/
theorem same_values (file name : Str) (m : Map) (h : parser file name = .ok m)
    (hh : ∀ l ∈ lines file, strip l = '[' :: name ++ [']'] → l = '[' :: name ++ [']']) (k : Str) :
    (toolParams file name).get k = m.get k := by
  unfold toolParams
  unfold parser at h
  rw [find_same name _ hh]
  cases hf : findBlock name (lines file) with
  | none => rw [hf] at h; cases h
  | some ls =>
    rw [hf] at h
    dsimp only at h ⊢
    obtain ⟨es, hes⟩ := settings_exist (blockLines ls)
    have hp := parseBlock_spec ls es hes
    have hn : (es.map Prod.fst).Nodup := by
      by_contra hn
      obtain ⟨k', _, _, _, h1, _⟩ := hp.2 hn
      rw [h1] at h
      cases h
    rw [hp.1 hn] at h
    injection h with h
    rw [tool_value ls es hes, ← h]
    have hr : (es.reverse.map Prod.fst).Nodup := by
      rw [List.map_reverse]
      exact List.nodup_reverse.mpr hn
    refine Option.ext fun v => ?_
    rw [get_eq_some es hn, show lastValue es k = Map.get es.reverse k from rfl, get_eq_some _ hr, List.mem_reverse]

/-- **C92, finding.** Otherwise a tool may use the defaults for all parameters, without any message: if no line is exactly the header. -/
theorem defaults_unless_exact (file name : Str) (h : ∀ l ∈ lines file, l ≠ '[' :: name ++ [']']) : toolParams file name = [] := by
  have : ∀ ls : List Str, (∀ l ∈ ls, l ≠ '[' :: name ++ [']']) → toolFind name ls = none := by
    intro ls
    induction ls with
    | nil => intro _; rfl
    | cons l ls ih =>
      intro h
      unfold toolFind
      rw [if_neg (h l List.mem_cons_self), ih fun x hx => h x (List.mem_cons_of_mem _ hx)]
  unfold toolParams
  rw [this _ h]

/-- A file with the line ends of another system: the main program reads it, the tools use their defaults. -/
theorem crlf_differs : parser "[param]\r\nLambda=3\r\n".toList "param".toList = .ok [("Lambda".toList, "3".toList)] ∧
    toolParams "[param]\r\nLambda=3\r\n".toList "param".toList = [] := by decide +kernel

/-- **C92, finding.** The spellings of a setting that is on, other than `true`, are accepted by the main program but read as off by the tools; all
other spellings have the same meaning. -/
theorem bool_agree {v : Str} {b : Bool} (h : boolOf v = some b) {m : Map} {k : Str} (hm : m.get k = some v) (d : Bool) :
    toolBool m k d = b ↔ b = false ∨ v = "true".toList := by
  unfold toolBool
  rw [hm]
  dsimp only
  by_cases hv : v = "true".toList
  · subst hv
    have : b = true := by
      have h2 : boolOf "true".toList = some true := by decide +kernel
      rw [h2] at h
      exact (Option.some.inj h).symm
    simp [this]
  · simp only [hv, or_false, decide_false]
    exact eq_comm

/-- The same file, read by both programs: the order of the lines, comments and white space do not matter. -/
example : parser "x=1\n# c\n[param]\n  Lambda = 3 # x\n\n#adapt=false\nadapt=true\n[other]\nLambda=2".toList "param".toList =
    .ok [("Lambda".toList, "3 # x".toList), ("adapt".toList, "true".toList)] ∧
    toolParams "x=1\n# c\n[param]\n  Lambda = 3 # x\n\n#adapt=false\nadapt=true\n[other]\nLambda=2".toList "param".toList =
      [("Lambda".toList, "3 # x".toList), ("adapt".toList, "true".toList)] := by decide +kernel

example : toolBool [("adapt".toList, "yes".toList)] "adapt".toList true = false ∧ boolOf "yes".toList = some true := by decide +kernel

/-- A repeated keyword: the main program stops, the tools take the last value. -/
example : parser "[param]\nz=1\nz=2".toList "param".toList = .duplicate "z".toList ∧
    (toolParams "[param]\nz=1\nz=2".toList "param".toList).get "z".toList = some "2".toList := by decide +kernel

end Verif.Param
