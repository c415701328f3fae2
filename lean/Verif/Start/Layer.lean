import Verif.Start.Model
/-!
# The check of the threading layer
-/

namespace Verif.Start
open Verif.Text (Str)

/-- The layer the library will use, as far as the program can know it: the variable if it is set to something, otherwise the layer of the build unless this is left to
the library. -/
def Selected (b : Build) (e : Option Str) (l : Str) : Prop :=
  (∃ s, e = some s ∧ s ≠ [] ∧ l = normalize s) ∨
    ((e = none ∨ e = some []) ∧ configured b ≠ "AUTO".toList ∧ l = configured b) ∨
    ((e = none ∨ e = some []) ∧ configured b = "AUTO".toList ∧ l = [])

/-- The layer needs one of the three OpenMP runtimes. -/
def NeedsRuntime (l : Str) : Prop := l = "GNU".toList ∨ l = "INTEL".toList ∨ l = "LLVM".toList

theorem layerNames_ne : ∀ p ∈ layerNames, p.2 ≠ [] := by decide

theorem normalize_eq_nil (s : Str) : normalize s = [] ↔ s = [] := by
  constructor
  · intro h
    unfold normalize at h
    split at h
    · rename_i p hp
      exact absurd h (layerNames_ne p (List.mem_of_find?_eq_some hp))
    · exact List.map_eq_nil_iff.mp h
  · rintro rfl; decide

theorem fromEnv_nil (e : Option Str) : fromEnv e = [] ↔ e = none ∨ e = some [] := by
  cases e with
  | none => simp [fromEnv]
  | some s => simp only [fromEnv, normalize_eq_nil, reduceCtorEq, false_or, Option.some.injEq]

theorem selected_active (b : Build) (e : Option Str) (l : Str) : Selected b e l ↔ l = active b e := by
  unfold Selected active
  by_cases h : fromEnv e = []
  · have h' := (fromEnv_nil e).mp h
    rw [if_neg (by simpa using h)]
    by_cases hc : configured b = "AUTO".toList
    · rw [if_pos hc]
      constructor
      · rintro (⟨s, rfl, hs, _⟩ | ⟨_, h2, _⟩ | ⟨_, _, h3⟩)
        · rcases h' with h' | h'
          · exact absurd h' (by simp)
          · exact absurd (Option.some.inj h') hs
        · exact absurd hc h2
        · exact h3
      · intro hl; exact Or.inr (Or.inr ⟨h', hc, hl⟩)
    · rw [if_neg hc]
      constructor
      · rintro (⟨s, rfl, hs, _⟩ | ⟨_, _, h3⟩ | ⟨_, h2, _⟩)
        · rcases h' with h' | h'
          · exact absurd h' (by simp)
          · exact absurd (Option.some.inj h') hs
        · exact h3
        · exact absurd h2 hc
      · intro hl; exact Or.inr (Or.inl ⟨h', hc, hl⟩)
  · rw [if_pos h]
    constructor
    · rintro (⟨s, rfl, _, hl⟩ | ⟨h', _⟩ | ⟨h', _⟩)
      · exact hl
      · exact absurd ((fromEnv_nil e).mpr h') h
      · exact absurd ((fromEnv_nil e).mpr h') h
    · intro hl
      cases e with
      | none => exact absurd rfl h
      | some s => exact Or.inl ⟨s, rfl, fun hs => h (by rw [hs]; decide), hl⟩

theorem hasFamily_iff (l : Str) : hasFamily l = true ↔ NeedsRuntime l := by
  unfold hasFamily NeedsRuntime
  simp only [Bool.or_eq_true, beq_iff_eq, or_assoc]

/-- **C110.** When the job is accepted: not a build with MKL, or the selected layer needs no OpenMP runtime, or the runtime's functions are present and — for a build
through `mkl_rt` — the build links a runtime and is configured for exactly this layer. -/
theorem prepare_iff (b : Build) (vis : Bool) (e : Option Str) :
    (prepare b vis e).1 = true ↔
      b.mkl = false ∨ ∃ l, Selected b (prepare b vis e).2 l ∧
        (¬ NeedsRuntime l ∨ (vis = true ∧
          (b.rt = true → b.omp = true ∧ l = configured b ∧ configured b ≠ "AUTO".toList ∧ configured b ≠ "COMPILER".toList))) := by
  have key : ∀ e', validate b vis e' = true ↔ b.mkl = false ∨ (¬ NeedsRuntime (active b e') ∨ (vis = true ∧
      (b.rt = true → b.omp = true ∧ active b e' = configured b ∧ configured b ≠ "AUTO".toList ∧ configured b ≠ "COMPILER".toList))) := by
    intro e'
    rw [← hasFamily_iff]
    unfold validate
    cases b.mkl <;> cases hf : hasFamily (active b e') <;> cases b.rt <;> cases b.omp <;> cases vis <;>
      by_cases h1 : configured b = "AUTO".toList <;> by_cases h2 : configured b = "COMPILER".toList <;>
      by_cases h3 : active b e' = configured b <;> simp [h1, h2, h3]
  simp only [prepare]
  rw [key]
  constructor
  · rintro (h | h)
    · exact Or.inl h
    · exact Or.inr ⟨_, (selected_active b _ _).mpr rfl, h⟩
  · rintro (h | ⟨l, hl, h⟩)
    · exact Or.inl h
    · rw [selected_active] at hl
      subst hl
      exact Or.inr h

example : (prepare ⟨true, true, true, "gnu_thread".toList⟩ true none).1 = true ∧
    (prepare ⟨true, true, true, "gnu_thread".toList⟩ true (some "Intel".toList)).1 = false ∧
    (prepare ⟨true, true, true, "gnu_thread".toList⟩ true (some "TBB".toList)).1 = true ∧
    (prepare ⟨true, true, false, "auto".toList⟩ true (some "GNU".toList)).1 = false := by decide +kernel

/-- **C110.** A value given by the user is never changed, and the variable is set only for a build with MKL and a definite layer, to this layer. -/
theorem prepare_variable (b : Build) (vis : Bool) (e : Option Str) :
    (∀ s, e = some s → (prepare b vis e).2 = some s) ∧
    (e = none → (prepare b vis e).2 = if b.mkl = true ∧ configured b ≠ "AUTO".toList ∧ configured b ≠ "COMPILER".toList
      then some (configured b) else none) := by
  constructor
  · rintro s rfl
    unfold prepare setFromBuild
    split
    · rw [if_pos (Or.inr (Or.inr (by simp)))]
    · rfl
  · rintro rfl
    unfold prepare setFromBuild
    by_cases hm : b.mkl = true
    · by_cases h : configured b ≠ "AUTO".toList ∧ configured b ≠ "COMPILER".toList
      · rw [if_pos hm, if_neg (by rintro (h1 | h1 | h1); exacts [h.1 h1, h.2 h1, h1 rfl]), if_pos ⟨hm, h⟩]
      · have h' : configured b = "AUTO".toList ∨ configured b = "COMPILER".toList ∨ (none : Option Str) ≠ none := by
          by_cases h1 : configured b = "AUTO".toList
          · exact Or.inl h1
          · by_cases h2 : configured b = "COMPILER".toList
            · exact Or.inr (Or.inl h2)
            · exact absurd ⟨h1, h2⟩ h
        rw [if_pos hm, if_pos h', if_neg (fun hh => h hh.2)]
    · rw [if_neg hm, if_neg (fun hh => hm hh.1)]

/-- **C110.** The check is repeated for the report (`c++/openmp.hpp:472`): the second answer is the first. -/
theorem prepare_again (b : Build) (vis : Bool) (e : Option Str) : prepare b vis (prepare b vis e).2 = prepare b vis e := by
  have : setFromBuild b (setFromBuild b e) = setFromBuild b e := by
    unfold setFromBuild
    by_cases hm : b.mkl = true
    · simp only [hm, if_true]
      by_cases h : configured b = "AUTO".toList ∨ configured b = "COMPILER".toList ∨ e ≠ none
      · simp only [if_pos h]
      · simp only [if_neg h]
        rw [if_pos (Or.inr (Or.inr (by simp)))]
    · simp [hm]
  unfold prepare
  rw [this]

/-- **C110.** Upper and lower case make no difference. -/
theorem prepare_case (b : Build) (vis : Bool) (s t : Str) (h : lower s = lower t) :
    (prepare b vis (some s)).1 = (prepare b vis (some t)).1 := by
  have hn : normalize s = normalize t := by unfold normalize; rw [h]
  have ha : active b (some s) = active b (some t) := by
    have hf : fromEnv (some s) = fromEnv (some t) := hn
    unfold active; rw [hf]
  have h2 : ∀ u, setFromBuild b (some u) = some u := fun u => by unfold setFromBuild; split <;> simp
  simp only [prepare, h2, validate, ha]

theorem toLower_not_upper (d : Char) : ¬ (65 ≤ d.toLower.val.toNat ∧ d.toLower.val.toNat ≤ 90) := by
  unfold Char.toLower
  split
  · rename_i h
    have h1 : 65 ≤ d.val.toNat ∧ d.val.toNat ≤ 90 := ⟨h.1, h.2⟩
    have h2 : (d.val + ('a'.val - 'A'.val)).toNat = d.val.toNat + 32 := by
      rw [UInt32.toNat_add, show ('a'.val - 'A'.val).toNat = 32 from by decide, Nat.mod_eq_of_lt (by omega)]
    change ¬ (65 ≤ (d.val + ('a'.val - 'A'.val)).toNat ∧ (d.val + ('a'.val - 'A'.val)).toNat ≤ 90)
    rw [h2]
    omega
  · rename_i h
    exact fun hh => h ⟨hh.1, hh.2⟩

/-- **C110.** A name that is not in the list passes the check, whatever was linked. -/
theorem prepare_unknown (b : Build) (vis : Bool) (s : Str) (h : ∀ p ∈ layerNames, p.1 ≠ lower s) (hs : s ≠ []) :
    (prepare b vis (some s)).1 = true := by
  rw [prepare_iff]
  refine Or.inr ⟨normalize s, Or.inl ⟨s, (prepare_variable b vis _).1 s rfl, hs, rfl⟩, Or.inl ?_⟩
  have hn : normalize s = lower s := by
    unfold normalize
    rw [List.find?_eq_none.mpr]
    intro p hp
    simpa using h p hp
  rw [hn]
  have hlow : ∀ c ∈ lower s, ¬ (65 ≤ c.val.toNat ∧ c.val.toNat ≤ 90) := by
    intro c hc
    obtain ⟨d, _, rfl⟩ := List.mem_map.mp hc
    exact toLower_not_upper d
  rintro (h1 | h1 | h1) <;> rw [h1] at hlow <;> revert hlow <;> decide

example : (prepare ⟨true, true, false, "AUTO".toList⟩ false (some "GNU_OPENMP".toList)).1 = true := by decide +kernel

end Verif.Start
