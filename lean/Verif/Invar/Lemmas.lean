import Mathlib.Data.List.Nodup
import Verif.Invar.Spec
/-! Helper lemmas for quantum-number labels. -/

namespace Verif.Invar

theorem combine1_valid {t a b} (ha : Valid1 t a) (hb : Valid1 t b) :
    ∃ c, combine1 t a b = some c ∧ Valid1 t c ∧ Compose1 t a b c := by
  cases t
  · exact ⟨a + b, rfl, trivial, rfl⟩
  · simp only [Valid1] at ha hb
    refine ⟨a * b, by simp [combine1, ha], ?_, rfl⟩
    rcases ha with rfl | rfl <;> rcases hb with rfl | rfl <;> decide
  · simp only [Valid1] at ha hb
    rcases ha with rfl | rfl | rfl <;> rcases hb with rfl | rfl | rfl <;>
      exact ⟨_, rfl, by decide, by decide, by decide, by decide⟩

theorem compose1_unique {t a b c c'} (h : Compose1 t a b c) (h' : Compose1 t a b c') : c = c' := by
  cases t <;> simp only [Compose1] at h h' <;> omega

theorem inverse1_valid {t a} (ha : Valid1 t a) :
    ∃ c, inverse1 t a = some c ∧ Valid1 t c ∧ Compose1 t a c (neutral1 t) := by
  cases t
  · exact ⟨-a, rfl, trivial, by simp [Compose1, neutral1]; omega⟩
  · simp only [Valid1] at ha
    rcases ha with rfl | rfl <;> exact ⟨_, rfl, by decide, by decide⟩
  · simp only [Valid1] at ha
    rcases ha with rfl | rfl | rfl <;> exact ⟨_, rfl, by decide, by decide, by decide, by decide⟩

theorem valid_nil_iff {a : Label} : Valid [] a ↔ a = [] := by
  constructor
  · intro h; cases h; rfl
  · rintro rfl; exact .nil

theorem valid_cons_iff {t ts} {a : Label} :
    Valid (t :: ts) a ↔ ∃ x xs, a = x :: xs ∧ Valid1 t x ∧ Valid ts xs := by
  constructor
  · intro h; cases h with | cons h1 h2 => exact ⟨_, _, rfl, h1, h2⟩
  · rintro ⟨x, xs, rfl, h1, h2⟩; exact .cons h1 h2

theorem combine_valid {ts a b} (ha : Valid ts a) (hb : Valid ts b) :
    ∃ c, combine ts a b = some c ∧ Valid ts c ∧ Compose ts a b c := by
  induction ts generalizing a b with
  | nil =>
    rw [valid_nil_iff] at ha hb; subst ha hb
    exact ⟨[], rfl, .nil, .nil⟩
  | cons t ts ih =>
    obtain ⟨x, xs, rfl, hx, hxs⟩ := valid_cons_iff.1 ha
    obtain ⟨y, ys, rfl, hy, hys⟩ := valid_cons_iff.1 hb
    obtain ⟨c, h1, h2, h3⟩ := combine1_valid hx hy
    obtain ⟨cs, g1, g2, g3⟩ := ih hxs hys
    exact ⟨c :: cs, by simp [combine, h1, g1], .cons h2 g2, .cons h3 g3⟩

theorem compose_unique {ts a b c c'} (h : Compose ts a b c) (h' : Compose ts a b c') : c = c' := by
  induction h generalizing c' with
  | nil => cases h'; rfl
  | cons h1 _ ih =>
    cases h' with
    | cons g1 g2 => rw [compose1_unique h1 g1, ih g2]

theorem inverse_valid {ts a} (ha : Valid ts a) :
    ∃ c, inverse ts a = some c ∧ Valid ts c ∧ Compose ts a c (neutral ts) := by
  induction ts generalizing a with
  | nil =>
    rw [valid_nil_iff] at ha; subst ha
    exact ⟨[], rfl, .nil, .nil⟩
  | cons t ts ih =>
    obtain ⟨x, xs, rfl, hx, hxs⟩ := valid_cons_iff.1 ha
    obtain ⟨c, h1, h2, h3⟩ := inverse1_valid hx
    obtain ⟨cs, g1, g2, g3⟩ := ih hxs
    exact ⟨c :: cs, by simp [inverse, h1, g1], .cons h2 g2, .cons h3 g3⟩

theorem compose1_comm {t a b c} (h : Compose1 t a b c) : Compose1 t b a c := by
  cases t <;> simp only [Compose1] at h ⊢
  · omega
  · rw [h, Int.mul_comm]
  · omega

theorem compose_comm {ts a b c} (h : Compose ts a b c) : Compose ts b a c := by
  induction h with
  | nil => exact .nil
  | cons h1 _ ih => exact .cons (compose1_comm h1) ih

theorem compose1_assoc {t a b c ab bc r} (h1 : Compose1 t a b ab) (h2 : Compose1 t ab c r)
    (h3 : Compose1 t b c bc) : Compose1 t a bc r := by
  cases t <;> simp only [Compose1] at *
  · omega
  · subst h1 h2 h3; rw [Int.mul_assoc]
  · omega

theorem compose_assoc {ts a b c ab bc r} (h1 : Compose ts a b ab) (h2 : Compose ts ab c r)
    (h3 : Compose ts b c bc) : Compose ts a bc r := by
  induction h1 generalizing c bc r with
  | nil => cases h2; cases h3; exact .nil
  | cons g1 _ ih =>
    cases h2 with
    | cons g2 k2 => cases h3 with
      | cons g3 k3 => exact .cons (compose1_assoc g1 g2 g3) (ih k2 k3)

theorem compose1_neutral {t a} (ha : Valid1 t a) : Compose1 t a (neutral1 t) a := by
  cases t <;> simp only [Valid1, Compose1, neutral1] at *
  · omega
  · omega
  · omega

theorem compose_neutral {ts a} (ha : Valid ts a) : Compose ts a (neutral ts) a := by
  induction ts generalizing a with
  | nil => rw [valid_nil_iff] at ha; subst ha; exact .nil
  | cons t ts ih =>
    obtain ⟨x, xs, rfl, hx, hxs⟩ := valid_cons_iff.1 ha
    exact .cons (compose1_neutral hx) (ih hxs)

theorem valid_neutral (ts) : Valid ts (neutral ts) := by
  induction ts with
  | nil => exact .nil
  | cons t ts ih => exact .cons (by cases t <;> simp [Valid1, neutral1]) ih

/-- On valid labels `combine` is exactly `Compose`. -/
theorem combine_eq_some_iff {ts a b c} (ha : Valid ts a) (hb : Valid ts b) :
    combine ts a b = some c ↔ Compose ts a b c := by
  obtain ⟨d, h1, _, h3⟩ := combine_valid ha hb
  rw [h1]
  constructor
  · rintro h; cases h; exact h3
  · intro h; rw [compose_unique h3 h]

theorem compose_valid {ts a b c} (ha : Valid ts a) (hb : Valid ts b) (h : Compose ts a b c) :
    Valid ts c := by
  obtain ⟨d, _, h2, h3⟩ := combine_valid ha hb
  rwa [compose_unique h h3]

/-- Cancellation: composing with `d` and then with an inverse of `d`. -/
theorem compose_cancel {ts a d e b} (ha : Valid ts a) (he : Valid ts e)
    (hde : Compose ts d e (neutral ts)) : Compose ts e a b ↔ (Valid ts b ∧ Compose ts d b a) := by
  constructor
  · intro h
    have hb := compose_valid he ha h
    refine ⟨hb, ?_⟩
    -- d·(e·a) = (d·e)·a = a
    obtain ⟨r, _, _, hr⟩ := combine_valid (valid_neutral ts) ha
    have : r = a := compose_unique (compose_comm hr) (compose_neutral ha)
    subst this
    exact compose_assoc hde hr h
  · rintro ⟨hb, h⟩
    obtain ⟨r, _, _, hr⟩ := combine_valid (valid_neutral ts) hb
    have hrb : r = b := compose_unique (compose_comm hr) (compose_neutral hb)
    subst hrb
    exact compose_assoc (compose_comm hde) hr h

theorem lt_irrefl' (a : Label) : lt a a = false := by
  induction a with
  | nil => rfl
  | cons x xs ih => simp [lt, ih]

theorem lt_trans' (a b c : Label) (h1 : lt a b = true) (h2 : lt b c = true) : lt a c = true := by
  induction a generalizing b c with
  | nil =>
    cases b with
    | nil => simp [lt] at h1
    | cons y ys => cases c with
      | nil => simp [lt] at h2
      | cons z zs => rfl
  | cons x xs ih =>
    cases b with
    | nil => simp [lt] at h1
    | cons y ys => cases c with
      | nil => simp [lt] at h2
      | cons z zs =>
        simp only [lt] at h1 h2 ⊢
        split at h1
        · split at h2
          · rw [if_pos (by omega)]
          · split at h2
            · cases h2
            · rw [if_pos (by omega)]
        · split at h1
          · cases h1
          · split at h2
            · rw [if_pos (by omega)]
            · split at h2
              · cases h2
              · rw [if_neg (by omega), if_neg (by omega)]
                exact ih ys zs h1 h2

theorem lt_total' (a b : Label) : lt a b = true ∨ a = b ∨ lt b a = true := by
  induction a generalizing b with
  | nil => cases b <;> simp [lt]
  | cons x xs ih =>
    cases b with
    | nil => simp [lt]
    | cons y ys =>
      simp only [lt]
      rcases Int.lt_trichotomy x y with h | h | h
      · simp [h]
      · subst h
        simp only [Int.lt_irrefl, if_false, List.cons.injEq, true_and]
        exact ih ys
      · simp [h, Int.lt_asymm h]

theorem sane_iff (t : QnType) (x : Int) : sane t x = true ↔ Valid1 t x := by
  cases t <;> simp [sane, Valid1] <;> omega

theorem indexOfName_sound (names : List String) (w : String) (i : Nat) (h : indexOfName names w = some i) :
    names[i]? = some w := by
  unfold indexOfName at h
  rw [Option.map_eq_some_iff] at h
  obtain ⟨p, hp, rfl⟩ := h
  have hm := List.mem_of_getLast? hp
  rw [List.mem_filter] at hm
  obtain ⟨h1, h2⟩ := hm
  have := List.mem_zipIdx_iff_getElem?.1 h1
  rw [this]
  simpa using h2

theorem indexOfName_nodup (names : List String) (hn : names.Nodup) (w : String) (i : Nat) :
    indexOfName names w = some i ↔ names[i]? = some w := by
  refine ⟨indexOfName_sound names w i, fun h => ?_⟩
  have hex : ∃ j, indexOfName names w = some j := by
    unfold indexOfName
    have hne : names.zipIdx.filter (fun p => p.1 == w) ≠ [] := by
      intro h0
      have : (w, i) ∈ names.zipIdx.filter (fun p => p.1 == w) := by
        rw [List.mem_filter]
        exact ⟨List.mem_zipIdx_iff_getElem?.2 h, by simp⟩
      rw [h0] at this; cases this
    rw [List.getLast?_eq_some_getLast hne]
    exact ⟨_, rfl⟩
  obtain ⟨j, hj⟩ := hex
  have h2 := indexOfName_sound names w j hj
  have hi : i < names.length := (List.getElem?_eq_some_iff.1 h).1
  have hjl : j < names.length := (List.getElem?_eq_some_iff.1 h2).1
  have : i = j := by
    have e1 := (List.getElem?_eq_some_iff.1 h).2
    have e2 := (List.getElem?_eq_some_iff.1 h2).2
    exact (List.Nodup.getElem_inj_iff hn).1 (e1.trans e2.symm)
  rw [hj, this]

end Verif.Invar
