import Verif.Invar.Lemmas
/-!
# C01, C39, C40: laws of quantum-number labels
-/

namespace Verif.Invar

/-- **C01 (composition).** On well-formed labels `combine` succeeds, its result
is well-formed and is the componentwise composition: sum of charges, product of
parities, sum modulo 3. -/
theorem combine_is_composition (ts : List QnType) (a b : Label)
    (ha : Valid ts a) (hb : Valid ts b) :
    ∃ c, combine ts a b = some c ∧ Valid ts c ∧ Compose ts a b c :=
  combine_valid ha hb

/-- **C01 (commutativity).** -/
theorem combine_comm (ts : List QnType) (a b : Label) (ha : Valid ts a) (hb : Valid ts b) :
    combine ts a b = combine ts b a := by
  obtain ⟨c, h1, _, h3⟩ := combine_valid ha hb
  rw [h1, eq_comm, combine_eq_some_iff hb ha]
  exact compose_comm h3

/-- **C01 (associativity).** -/
theorem combine_assoc (ts : List QnType) (a b c : Label)
    (ha : Valid ts a) (hb : Valid ts b) (hc : Valid ts c) :
    (combine ts a b).bind (fun ab => combine ts ab c)
      = (combine ts b c).bind (fun bc => combine ts a bc) := by
  obtain ⟨ab, h1, v1, c1⟩ := combine_valid ha hb
  obtain ⟨bc, h2, v2, c2⟩ := combine_valid hb hc
  obtain ⟨r, h3, _, c3⟩ := combine_valid v1 hc
  rw [h1, h2]
  simp only [Option.bind_some]
  rw [h3, eq_comm, combine_eq_some_iff ha v2]
  exact compose_assoc c1 c3 c2

/-- **C01 (neutral element).** -/
theorem combine_neutral (ts : List QnType) (a : Label) (ha : Valid ts a) :
    combine ts a (neutral ts) = some a ∧ combine ts (neutral ts) a = some a := by
  rw [combine_eq_some_iff ha (valid_neutral ts), combine_eq_some_iff (valid_neutral ts) ha]
  exact ⟨compose_neutral ha, compose_comm (compose_neutral ha)⟩

/-- **C01 (inverse).** `inverse` succeeds on well-formed labels, gives a
well-formed label, and combining with it gives the neutral label. -/
theorem combine_inverse (ts : List QnType) (a : Label) (ha : Valid ts a) :
    ∃ b, inverse ts a = some b ∧ Valid ts b ∧ combine ts a b = some (neutral ts)
      ∧ combine ts b a = some (neutral ts) := by
  obtain ⟨b, h1, h2, h3⟩ := inverse_valid ha
  exact ⟨b, h1, h2, (combine_eq_some_iff ha h2).2 h3,
    (combine_eq_some_iff h2 ha).2 (compose_comm h3)⟩

/-- **C01 (rejection).** A label with a component that its type does not allow
is never combined or inverted: both operations throw.  `i` is any component. -/
theorem combine_rejects_invalid (ts : List QnType) (a b : Label) (i : Nat) (t : QnType) (x : Int)
    (ht : ts[i]? = some t) (hx : a[i]? = some x) (hbad : ¬ Valid1 t x) :
    combine ts a b = none ∧ inverse ts a = none := by
  induction ts generalizing a b i with
  | nil => simp at ht
  | cons t' ts ih =>
    cases a with
    | nil => simp at hx
    | cons y ys =>
      cases i with
      | zero =>
        simp only [List.getElem?_cons_zero, Option.some.injEq] at ht hx
        subst ht hx
        have h1 : ∀ z, combine1 t' y z = none ∧ inverse1 t' y = none := by
          intro z
          cases t' <;> simp only [Valid1, not_true, not_or] at hbad
          · simp [combine1, inverse1, hbad]
          · have : ¬ (0 ≤ y ∧ y ≤ 2) := by omega
            simp [combine1, inverse1, this]
        constructor
        · cases b with
          | nil => rfl
          | cons z zs => simp [combine, (h1 z).1]
        · simp [inverse, (h1 0).2]
      | succ i =>
        simp only [List.getElem?_cons_succ] at ht hx
        constructor
        · cases b with
          | nil => rfl
          | cons z zs => simp [combine, (ih ys zs i ht hx).1]
        · simp [inverse, (ih ys [] i ht hx).2]

-- The hypotheses are met by labels of a symmetry with all three kinds.
example : Valid [.additive, .multiplicative, .mod3] [-7, -1, 2] ∧
    Valid [.additive, .multiplicative, .mod3] [3, -1, 2] ∧
    combine [.additive, .multiplicative, .mod3] [-7, -1, 2] [3, -1, 2] = some [-4, 1, 1] := by
  refine ⟨?_, ?_, by decide⟩ <;> simp [Valid, Valid1]

example : combine [.additive, .multiplicative] [5, 0] [1, 1] = none := by decide

/-- **C01 (access by name).** With distinct declared names and a well-formed
label, `get` returns the component at the position of the name, and fails
exactly for a name that was not declared. -/
theorem get_spec (fields : List (String × QnType)) (hn : (fields.map Prod.fst).Nodup) (I : Label)
    (hI : Valid (fields.map Prod.snd) I) :
    (∀ (i : Nat) (f : String × QnType), fields[i]? = some f → get fields I f.1 = I[i]? ∧ i < I.length) ∧
    (∀ which, get fields I which = none ↔ which ∉ fields.map Prod.fst) := by
  have hlen : I.length = fields.length := by
    have := hI.length_eq; simpa using this.symm
  have hidx := indexOfName_nodup (fields.map Prod.fst) hn
  have key : ∀ (i : Nat) (f : String × QnType), fields[i]? = some f → get fields I f.1 = I[i]? ∧ i < I.length := by
    intro i f hf
    have hi : i < fields.length := by
      rcases Nat.lt_or_ge i fields.length with h | h
      · exact h
      · rw [List.getElem?_eq_none h] at hf; cases hf
    have hi' : i < I.length := by omega
    have h1 : indexOfName (fields.map Prod.fst) f.1 = some i :=
      (hidx f.1 i).2 (by rw [List.getElem?_map, hf]; rfl)
    have h2 : (fields.map Prod.snd)[i]? = some f.2 := by rw [List.getElem?_map, hf]; rfl
    have hv : Valid1 f.2 I[i] := by
      have h3 := List.Forall₂.get hI (i := i) (by simpa using hi) hi'
      simp only [List.get_eq_getElem, List.getElem_map] at h3
      rw [List.getElem?_eq_getElem hi] at hf
      injection hf with hf
      rwa [hf] at h3
    have hs : sane f.2 I[i] = true := (sane_iff _ _).2 hv
    refine ⟨?_, hi'⟩
    simp [get, h1, hf, List.getElem?_eq_getElem hi', hs]
  refine ⟨key, fun which => ⟨fun h hm => ?_, fun h => ?_⟩⟩
  · obtain ⟨f, hf, rfl⟩ := List.mem_map.1 hm
    obtain ⟨i, hi, rfl⟩ := List.mem_iff_getElem.1 hf
    obtain ⟨h1, h2⟩ := key i fields[i] (List.getElem?_eq_getElem hi)
    rw [h1, List.getElem?_eq_getElem h2] at h
    cases h
  · have : indexOfName (fields.map Prod.fst) which = none := by
      cases h1 : indexOfName (fields.map Prod.fst) which with
      | none => rfl
      | some i => exact absurd (List.mem_of_getElem? ((hidx which i).1 h1)) h
    simp [get, this]

/-- **C01.** A component that is not a value of its kind is not handed out. -/
theorem get_sane (fields : List (String × QnType)) (I : Label) (which : String) (x : Int)
    (h : get fields I which = some x) :
    ∃ (i : Nat) (f : String × QnType), fields[i]? = some f ∧ f.1 = which ∧ I[i]? = some x ∧ Valid1 f.2 x := by
  unfold get at h
  cases hi : indexOfName (fields.map Prod.fst) which with
  | none => simp [hi] at h
  | some i =>
    have hw := indexOfName_sound _ _ _ hi
    rw [List.getElem?_map, Option.map_eq_some_iff] at hw
    obtain ⟨f, hf, hw⟩ := hw
    have h2 : (fields.map Prod.snd)[i]? = some f.2 := by rw [List.getElem?_map, hf]; rfl
    cases hx : I[i]? with
    | none => simp [hi, hf, hx] at h
    | some y =>
      simp only [hi, h2, hx, Option.bind_eq_bind, Option.bind_some] at h
      by_cases hs : sane f.2 y = true
      · rw [if_pos hs] at h
        injection h with h
        subst h
        exact ⟨i, f, hf, hw, hx, (sane_iff _ _).1 hs⟩
      · rw [if_neg hs] at h; cases h

example : get [("Q", .additive), ("SS", .additive), ("P", .multiplicative)] [3, 2, -1] "P" = some (-1) ∧
    get [("Q", .additive), ("P", .multiplicative)] [3, 0] "P" = none ∧
    get [("Q", .additive), ("P", .multiplicative)] [3, 1] "SS" = none := by decide

/-- **C39 fails.** `InvertParity` throws for every non-empty label of every
symmetry: its vector constructor compares the size of its argument with the
size of the still empty member. -/
theorem invertParity_always_throws (names : List String) (I : Label) (hI : I ≠ []) :
    invertParity names I = none := by
  have : I.length ≠ 0 := by simpa using hI
  simp [invertParity, ofVector, this]

/-- What C39 should say, for an arbitrary implementation `f`. -/
def ParityInversionWorks (f : List String → Label → Option Label) : Prop :=
  ∀ names I i x, indexOfName names "P" = some i → I[i]? = some x →
    f names I = some (I.set i (-x)) ∧
    (f names I).bind (f names) = some I

/-- **C39 (negation).** The property does not hold of the code: witness `QSLR`,
label `(0, 1, 1)`. -/
theorem invertParity_not_involution : ¬ ParityInversionWorks invertParity := by
  intro h
  have := (h ["Q", "SS", "P"] [0, 1, 1] 2 1 (by decide) (by decide)).1
  revert this; decide

/-- **C39 (partial).** The in-place version, which does not go through that
constructor, has the property. -/
theorem invertMyParity_involution_partial : ParityInversionWorks invertMyParity := by
  intro names I i x hi hx
  have hlt : i < I.length := by
    rcases Nat.lt_or_ge i I.length with h | h
    · exact h
    · rw [List.getElem?_eq_none h] at hx; cases hx
  have h1 : invertMyParity names I = some (I.set i (-x)) := by
    simp [invertMyParity, hi, hx]
  refine ⟨h1, ?_⟩
  rw [h1]
  have h2 : (I.set i (-x))[i]? = some (-x) := by simp [hlt]
  simp only [Option.bind_some, invertMyParity, hi, h2, Option.bind_eq_bind, List.set_set, Int.neg_neg]
  congr 1
  rw [List.getElem?_eq_getElem hlt] at hx
  injection hx with hx
  rw [← hx]; exact List.set_getElem_self hlt

example : invertMyParity ["Q", "SS", "P"] [0, 1, -1] = some [0, 1, 1] := by decide

/-- **C40 (order).** `operator<` is a strict total order on labels. -/
theorem lt_irrefl (a : Label) : lt a a = false := lt_irrefl' a

theorem lt_trans (a b c : Label) (h1 : lt a b = true) (h2 : lt b c = true) : lt a c = true :=
  lt_trans' a b c h1 h2

theorem lt_total (a b : Label) : lt a b = true ∨ a = b ∨ lt b a = true := lt_total' a b

example : lt [-1, 1] [0, -5] = true := by decide

end Verif.Invar
