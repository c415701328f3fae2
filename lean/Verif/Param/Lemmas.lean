import Verif.Param.Spec
import Verif.Text.Lemmas
/-! # Parameter files: lemmas -/

namespace Verif.Param
open Verif.Text

theorem splitEq_some {s a b : Str} : splitEq s = some (a, b) ↔ s = a ++ '=' :: b ∧ '=' ∉ a := by
  induction s generalizing a b with
  | nil => simp [splitEq]
  | cons c s ih =>
    simp only [splitEq]
    split
    · next h =>
      subst h
      constructor
      · intro h; simp at h; rw [h.1, h.2]; simp
      · rintro ⟨h, hn⟩
        cases a with
        | nil => simp at h; simp [h]
        | cons d a => simp at h hn; exact absurd h.1 hn.1
    · next h =>
      constructor
      · intro hm
        simp only [Option.map_eq_some_iff] at hm
        obtain ⟨⟨a', b'⟩, h1, h2⟩ := hm
        simp at h2
        obtain ⟨h3, h4⟩ := ih.1 h1
        rw [← h2.1, ← h2.2, h3]
        refine ⟨by simp, ?_⟩
        simp only [List.mem_cons, not_or]
        exact ⟨fun he => h he.symm, h4⟩
      · rintro ⟨he, hn⟩
        cases a with
        | nil => simp at he; exact absurd he.1 h
        | cons d a =>
          simp at he hn
          rw [(ih (a := a)).2 ⟨he.2, by simpa using hn.2⟩, he.1]
          rfl

theorem splitEq_none {s : Str} : splitEq s = none ↔ '=' ∉ s := by
  induction s with
  | nil => simp [splitEq]
  | cons c s ih =>
    simp only [splitEq]
    split
    · next h => simp [h]
    · next h => simp only [Option.map_eq_none_iff, ih, List.mem_cons, not_or]
                exact ⟨fun hh => ⟨fun he => h he.symm, hh⟩, fun hh => hh.2⟩

theorem isSetting_iff {l k v : Str} :
    IsSetting l k v ↔ ∃ a b, splitEq (strip l) = some (a, b) ∧ k = strip a ∧ v = strip b := by
  unfold IsSetting
  constructor
  · rintro ⟨a, b, h1, h2, h3, h4⟩; exact ⟨a, b, splitEq_some.2 ⟨h1, h2⟩, h3, h4⟩
  · rintro ⟨a, b, h1, h3, h4⟩; obtain ⟨h1, h2⟩ := splitEq_some.1 h1; exact ⟨a, b, h1, h2, h3, h4⟩

theorem get_isSome (m : Map) (k : Str) : (Map.get m k).isSome = true ↔ k ∈ m.map Prod.fst := by
  simp only [Map.get, Option.isSome_map, List.find?_isSome, decide_eq_true_eq, List.mem_map]

theorem get_eq_some (m : Map) (h : (m.map Prod.fst).Nodup) (k v : Str) :
    Map.get m k = some v ↔ (k, v) ∈ m := by
  induction m with
  | nil => simp [Map.get]
  | cons e m ih =>
    obtain ⟨k', v'⟩ := e
    simp only [List.map_cons, List.nodup_cons] at h
    simp only [Map.get, List.find?_cons]
    by_cases hk : k' = k
    · subst hk
      simp only [decide_true, Option.map_some, Option.some.injEq, List.mem_cons, Prod.mk.injEq, true_and]
      constructor
      · rintro rfl; exact .inl rfl
      · rintro (h1 | h1)
        · exact h1.symm
        · exact absurd (List.mem_map.2 ⟨_, h1, rfl⟩) h.1
    · simp only [hk, decide_false, List.mem_cons, Prod.mk.injEq]
      rw [show (Option.map (fun x => x.2) (List.find? (fun e => decide (e.1 = k)) m)) = Map.get m k from rfl, ih h.2]
      constructor
      · exact .inr
      · rintro (h1 | h1)
        · exact absurd h1.1.symm hk
        · exact h1

theorem settings_exist (ls : List Str) : ∃ es, Settings ls es := by
  induction ls with
  | nil => exact ⟨[], .nil⟩
  | cons l ls ih =>
    obtain ⟨es, ih⟩ := ih
    cases h : splitEq (strip l) with
    | none =>
      exact ⟨es, .skip l ls es (fun k v hs => by
        obtain ⟨a, b, h1, _⟩ := isSetting_iff.1 hs; rw [h] at h1; cases h1) ih⟩
    | some p => exact ⟨_, .take l ls es _ _ (isSetting_iff.2 ⟨p.1, p.2, h, rfl, rfl⟩) ih⟩

theorem settings_unique {ls : List Str} {es es' : Map} (h : Settings ls es) (h' : Settings ls es') : es = es' := by
  induction h generalizing es' with
  | nil => cases h'; rfl
  | skip l ls es hn _ ih =>
    cases h' with
    | skip _ _ _ _ hs => exact ih hs
    | take _ _ _ k v ht _ => exact absurd ht (hn k v)
  | take l ls es k v ht _ ih =>
    cases h' with
    | skip _ _ _ hn _ => exact absurd ht (hn k v)
    | take _ _ es2 k2 v2 ht2 hs2 =>
      obtain ⟨a, b, h1, h2, h3⟩ := isSetting_iff.1 ht
      obtain ⟨a', b', h1', h2', h3'⟩ := isSetting_iff.1 ht2
      rw [h1] at h1'
      simp at h1'
      rw [ih hs2, h2, h3, h2', h3', h1'.1, h1'.2]

theorem parseBlock_eq (ls : List Str) : ∀ (m es : Map), (m.map Prod.fst).Nodup → Settings (blockLines ls) es →
    (((m ++ es).map Prod.fst).Nodup → parseBlock ls m = .ok (m ++ es)) ∧
    (¬ ((m ++ es).map Prod.fst).Nodup → ∃ k v es1 es2, parseBlock ls m = .duplicate k ∧
      es = es1 ++ (k, v) :: es2 ∧ k ∈ (m ++ es1).map Prod.fst) := by
  induction ls with
  | nil =>
    intro m es hm hs
    cases hs
    simp [parseBlock, hm]
  | cons l ls ih =>
    intro m es hm hs
    unfold parseBlock
    by_cases hb : blankOrComment l = true
    · rw [if_pos hb]
      apply ih m es hm
      have : blockLines (l :: ls) = blockLines ls := by simp [blockLines, significant, hb]
      rwa [this] at hs
    · rw [if_neg hb]
      have hb' : blankOrComment l = false := by simpa using hb
      by_cases hh : (strip l).head? = some '['
      · rw [if_pos hh]
        have : blockLines (l :: ls) = [] := by
          simp [blockLines, significant, hb', isHeader, hh]
        rw [this] at hs
        cases hs
        simp [hm]
      · rw [if_neg hh]
        have hbl : blockLines (l :: ls) = l :: blockLines ls := by
          simp [blockLines, significant, hb', isHeader, hh]
        rw [hbl] at hs
        cases he : splitEq (strip l) with
        | none =>
          simp only
          cases hs with
          | skip _ _ _ _ hs => exact ih m es hm hs
          | take _ _ _ k v ht _ =>
            obtain ⟨a, b, h1, _⟩ := isSetting_iff.1 ht; rw [he] at h1; cases h1
        | some p =>
          obtain ⟨a, b⟩ := p
          simp only
          cases hs with
          | skip _ _ _ hn _ => exact absurd (isSetting_iff.2 ⟨a, b, he, rfl, rfl⟩) (hn _ _)
          | take _ _ es k v ht hs =>
            obtain ⟨a', b', h1, h2, h3⟩ := isSetting_iff.1 ht
            rw [he] at h1; simp at h1
            rw [← h1.1] at h2; rw [← h1.2] at h3
            by_cases hd : (Map.get m (strip a)).isSome = true
            · rw [if_pos hd]
              have hin := (get_isSome m _).1 hd
              refine ⟨fun hnd => ?_, fun _ => ⟨strip a, v, [], es, rfl, by rw [h2]; rfl, by simpa using hin⟩⟩
              rw [List.map_append, List.map_cons, h2] at hnd
              exact absurd hin (fun hin => (List.nodup_append.1 hnd).2.2 _ hin _ (by simp) rfl)
            · rw [if_neg hd]
              have hin : strip a ∉ m.map Prod.fst := fun h => hd ((get_isSome m _).2 h)
              have hm' : ((m ++ [(strip a, strip b)]).map Prod.fst).Nodup := by
                rw [List.map_append, List.nodup_append]
                exact ⟨hm, by simp, by rintro x hx y hy rfl; simp at hy; rw [hy] at hx; exact hin hx⟩
              have := ih (m ++ [(strip a, strip b)]) es hm' hs
              rw [h2, h3]
              simp only [List.append_assoc, List.singleton_append] at this
              refine ⟨this.1, fun hnd => ?_⟩
              obtain ⟨k', v', es1, es2, p1, p2, p3⟩ := this.2 hnd
              exact ⟨k', v', (strip a, strip b) :: es1, es2, p1, by rw [p2]; rfl, by simpa using p3⟩

/-! ## Trimming -/

theorem dropWhile_idem {α : Type} (p : α → Bool) (l : List α) : (l.dropWhile p).dropWhile p = l.dropWhile p := by
  induction l with
  | nil => rfl
  | cons a l ih =>
    rw [List.dropWhile_cons]
    split
    · exact ih
    · next h => rw [List.dropWhile_cons, if_neg h]

/-- A trimmed non-empty text begins and ends with a non-blank character. -/
theorem strip_eq_self {s : Str} (h : strip s = s) (hne : s ≠ []) :
    (∀ c ∈ s.head?, isSpace c = false) ∧ (∀ c ∈ s.getLast?, isSpace c = false) := by
  unfold strip stripTrailing stripLeading at h
  have hlen1 : (s.dropWhile isSpace).length ≤ s.length := (List.dropWhile_suffix _).length_le
  have hlen2 : ((s.dropWhile isSpace).reverse.dropWhile isSpace).length ≤ (s.dropWhile isSpace).reverse.length :=
    (List.dropWhile_suffix _).length_le
  have hl := congrArg List.length h
  simp only [List.length_reverse] at hl hlen2
  have h1 : s.dropWhile isSpace = s := (List.dropWhile_suffix _).eq_of_length (by omega)
  rw [h1] at h hl
  have h2 : s.reverse.dropWhile isSpace = s.reverse :=
    (List.dropWhile_suffix _).eq_of_length (by simp; omega)
  have head : ∀ (t : Str), t.dropWhile isSpace = t → ∀ c ∈ t.head?, isSpace c = false := by
    intro t ht c hc
    cases t with
    | nil => simp at hc
    | cons d t =>
      simp at hc; subst hc
      by_contra hs
      rw [List.dropWhile_cons, if_pos (by simpa using hs)] at ht
      have := (List.dropWhile_suffix (l := t) isSpace).length_le
      rw [ht] at this; simp at this
  refine ⟨head s h1, fun c hc => head _ h2 c (by rwa [List.head?_reverse])⟩

theorem strip_of_ends {s : Str} (h1 : ∀ c ∈ s.head?, isSpace c = false) (h2 : ∀ c ∈ s.getLast?, isSpace c = false) :
    strip s = s := by
  have head : ∀ (t : Str), (∀ c ∈ t.head?, isSpace c = false) → t.dropWhile isSpace = t := by
    intro t ht
    cases t with
    | nil => rfl
    | cons d t => rw [List.dropWhile_cons, if_neg (by rw [ht d (by simp)]; simp)]
  unfold strip stripTrailing stripLeading
  rw [head s h1, head _ (by intro c hc; rw [List.head?_reverse] at hc; exact h2 c hc), List.reverse_reverse]

end Verif.Param
