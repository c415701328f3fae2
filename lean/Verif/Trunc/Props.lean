import Verif.Trunc.Lemmas
import Verif.Trunc.Retry
import Mathlib.Tactic.NormNum
import Mathlib.Tactic.FieldSimp
import Mathlib.Data.Rat.Lemmas
import Mathlib.Algebra.Order.Archimedean.Basic
import Mathlib.Data.Rat.Cast.Order
/-!
# C08-C12, C60, C61: truncation
-/

namespace Verif.Trunc
variable {K : Type} [AddCommGroup K] [LinearOrder K]

/-! ## C09 -/

/-- The costs are acceptable input: there is one, and unless the Floquet scheme
is used the lowest one is 0. -/
def AcceptableCosts (s : Settings K) (all : List K) : Prop :=
  all ≠ [] ∧ (s.floquet = true ∨ (0 ∈ all ∧ ∀ x ∈ all, 0 ≤ x))

/-- **C09.** For every spectrum and every admissible setting the cutoff is
computed without error, is one of the costs, and is the `m`-th smallest cost
where `m` is the requested number `n` of states (all, if `n` is at least their
number); with the safeguard, `m` exceeds `n` by at most `safeguardmax`, every
gap passed is at most `safeguard`, and the extension stops only at the limit,
at the end of the spectrum or at a larger gap. -/
theorem cutoff_spec (s : Settings K) (all : List K) (hacc : AcceptableCosts s all)
    (hk : 1 ≤ s.keep) (hmin : s.keepmin ≤ s.keep) :
    ∃ c, highestRetained s all = .ok c ∧ c ∈ all ∧
      (s.keepall = true → ∀ x ∈ all, x ≤ c) ∧
      (s.keepall = false →
        (all.length ≤ requested s all → ∀ x ∈ all, x ≤ c) ∧
        (requested s all < all.length →
          ∃ m, IsNthSmallest m all c ∧ requested s all ≤ m ∧
            (s.safeguard ≤ 0 → m = requested s all) ∧
            (0 < s.safeguard →
              m ≤ requested s all + s.safeguardmax ∧
              (∀ j, requested s all ≤ j → j < m → GapAtMost all j s.safeguard) ∧
              (m = requested s all + s.safeguardmax ∨ m = all.length ∨
                ¬ GapAtMost all m s.safeguard)))) := by
  obtain ⟨hne, h0⟩ := hacc
  cases all with
  | nil => exact absurd rfl hne
  | cons a l =>
    obtain ⟨hmx1, hmx2⟩ := foldl_max_spec l a
    obtain ⟨hmn1, hmn2⟩ := foldl_min_spec l a
    have hmin0 : (!s.floquet && decide (l.foldl min a ≠ 0)) = false := by
      rcases h0 with h0 | ⟨h0, h0'⟩
      · simp [h0]
      · have : l.foldl min a = 0 := le_antisymm (hmn2 0 h0) (h0' _ hmn1)
        simp [this]
    set all := a :: l with hall
    have hkeep0 := nrkeep0_ok s all hmin
    have hpos := requested_pos s all hk
    set n := requested s all with hn
    by_cases hka : s.keepall = true
    · refine ⟨l.foldl max a, ?_, hmx1, fun _ => hmx2, fun h => by simp [hka] at h⟩
      simp only [highestRetained, hall, hka, if_true]
      rw [hmin0]; simp
    · have hka' : s.keepall = false := by simpa using hka
      by_cases hle : all.length ≤ n
      · refine ⟨l.foldl max a, ?_, hmx1, fun h => absurd h hka, fun _ => ⟨fun _ => hmx2, fun h => by omega⟩⟩
        simp only [highestRetained, hall, hmin0, hka', Bool.false_eq_true, if_false]
        rw [← hall, hkeep0]
        simp only [hle, if_true]
      · have hlt : n < all.length := by omega
        set pre := min all.length (max 1 n + (if s.safeguard > 0 then s.safeguardmax else 0)) with hpre
        have hpl : (partialSort pre all).length = pre := partialSort_length pre all (by omega)
        -- the number of levels after the safeguard
        have hm : ∃ m, (if s.safeguard > 0 then safeguardLoop (partialSort pre all) s.safeguard pre s.safeguardmax n
              else .ok n) = Except.ok m ∧ n ≤ m ∧ m ≤ pre ∧ (s.safeguard ≤ 0 → m = n) ∧
            (0 < s.safeguard → m ≤ n + s.safeguardmax ∧
              (∀ j, n ≤ j → j < m → GapAtMost all j s.safeguard) ∧
              (m = n + s.safeguardmax ∨ m = all.length ∨ ¬ GapAtMost all m s.safeguard)) := by
          by_cases hsg : s.safeguard > 0
          · have hpre' : pre = min all.length (n + s.safeguardmax) := by
              rw [hpre, if_pos hsg]; omega
            obtain ⟨m, g1, g2, g3, g4, g5, g6⟩ :=
              safeguardLoop_spec (partialSort pre all) s.safeguard pre s.safeguardmax n hpl hpos (by omega)
            refine ⟨m, by rw [if_pos hsg]; exact g1, g2, g4, fun h => absurd hsg (not_lt.2 h), fun _ => ⟨g3, ?_, ?_⟩⟩
            · intro j hj1 hj2 x y hx hy
              obtain ⟨b, a', h1, h2, h3⟩ := g5 j hj1 hj2
              have e1 := nth_unique hy (partialSort_get h1)
              have e2 := nth_unique hx (by have := partialSort_get h2; rwa [show j - 1 + 1 = j by omega] at this)
              rw [e1, e2]; exact h3
            · rcases g6 with h | h | ⟨b, a', h1, h2, h3⟩
              · exact Or.inl h
              · by_cases hc : all.length ≤ n + s.safeguardmax
                · right; left; omega
                · left; omega
              · right; right
                intro hg
                have hm1 : 1 ≤ m := by omega
                apply h3
                exact hg a' b (by have := partialSort_get h2; rwa [show m - 1 + 1 = m by omega] at this)
                  (partialSort_get h1)
          · exact ⟨n, by rw [if_neg hsg], le_refl _, by omega, fun _ => rfl, fun h => absurd h hsg⟩
        obtain ⟨m, g1, g2, g3, g4, g5⟩ := hm
        have hm1 : m - 1 < pre := by omega
        obtain ⟨c, hread⟩ : ∃ c, (partialSort pre all)[m - 1]? = some c :=
          ⟨_, List.getElem?_eq_getElem (by omega)⟩
        have hnth : IsNthSmallest m all c := by
          have := partialSort_get hread
          rwa [show m - 1 + 1 = m by omega] at this
        refine ⟨_, ?_, nth_mem hnth, fun h => absurd h hka, fun _ => ⟨fun h => by omega, fun _ => ⟨m, hnth, g2, g4, g5⟩⟩⟩
        simp only [highestRetained, hall, hmin0, hka', Bool.false_eq_true, if_false]
        rw [← hall, hkeep0]
        simp only [hle, if_false]
        rw [← hpre, g1]
        have hc : clamp m 1 all.length = .ok m := by
          simp only [clamp]
          rw [if_neg (by omega), if_neg (by omega), if_neg (by omega)]
        simp only [hc]
        exact readAt_some hread

/-- **C09.** Spectra that violate the precondition are rejected. -/
theorem cutoff_rejects (s : Settings K) (all : List K) (h : ¬ AcceptableCosts s all) :
    highestRetained s all = .error .assertFailed := by
  cases all with
  | nil => rfl
  | cons a l =>
    obtain ⟨hmn1, hmn2⟩ := foldl_min_spec l a
    simp only [AcceptableCosts, not_and_or, not_or, ne_eq, reduceCtorEq, not_true_eq_false, not_false_eq_true,
      false_or] at h
    have hf : s.floquet = false := by simpa using h.1
    have : l.foldl min a ≠ 0 := by
      intro he
      rcases h.2 with h2 | h2
      · exact h2 (he ▸ hmn1)
      · exact h2 fun x hx => he ▸ hmn2 x hx
    simp [highestRetained, hf, this]

example : highestRetained (⟨2, 0, 0, 1, 2, false, false⟩ : Settings ℤ) [0, 3, 4, 8, 5, 9] = .ok 5 := by decide
example : highestRetained (⟨4, 3, 1, 0, 2, false, false⟩ : Settings ℤ) [0, 3, 4, 8, 5, 9] = .ok 4 := by decide
example : AcceptableCosts (⟨4, 3, 1, 0, 2, false, false⟩ : Settings ℤ) [0, 3, 4, 8, 5, 9] :=
  ⟨by decide, Or.inr (by decide)⟩

/-! ## C08 -/

/-- **C08.** Whenever truncation is decided, the number of kept states of each
subspace is such that a state is kept (has index below that number) exactly if
its cost does not exceed the common cutoff; on the last step with the keep-all
option everything is kept. -/
theorem kept_iff_below_cutoff (s : Settings K) (lastAll : Bool) (subs : List (Sub K)) (p : Prepared K)
    (hp : truncatePrepare s lastAll subs = .ok p)
    (hs : ∀ sub ∈ subs, sub.crit.Pairwise (· ≤ ·)) :
    p.nrkept.length = subs.length ∧
    ∀ (i : Nat) (sub : Sub K) (k : Nat), subs[i]? = some sub → p.nrkept[i]? = some k →
      k ≤ sub.crit.length ∧
      (lastAll = true → k = sub.crit.length) ∧
      (lastAll = false → ∀ (j : Nat) (c : K), sub.crit[j]? = some c → (j < k ↔ c ≤ p.cmax)) := by
  unfold truncatePrepare at hp
  split at hp
  · cases hp
  · rename_i cmax _
    split at hp
    · cases hp
    · cases hp
      refine ⟨by simp, ?_⟩
      intro i sub k hi hk
      simp only [List.getElem?_map, hi, Option.map_some, Option.some.injEq] at hk
      subst hk
      refine ⟨?_, ?_, ?_⟩
      · simp only [keptCount]; split
        · exact le_refl _
        · exact List.countP_le_length
      · intro h; simp [keptCount, h]
      · intro h j c hj
        obtain ⟨hj', rfl⟩ := List.getElem?_eq_some_iff.1 hj
        simp only [keptCount, h, Bool.false_eq_true, if_false]
        exact countP_le_sorted (hs sub (List.mem_of_getElem? hi)) cmax j hj'

/-- **C08.** No discarded state of any subspace costs less than, or as much as,
a kept state of any subspace. -/
theorem kept_below_discarded (s : Settings K) (lastAll : Bool) (subs : List (Sub K)) (p : Prepared K)
    (hp : truncatePrepare s lastAll subs = .ok p)
    (hs : ∀ sub ∈ subs, sub.crit.Pairwise (· ≤ ·))
    (i i' j j' k k' : Nat) (sub sub' : Sub K) (c c' : K)
    (hi : subs[i]? = some sub) (hi' : subs[i']? = some sub')
    (hk : p.nrkept[i]? = some k) (hk' : p.nrkept[i']? = some k')
    (hj : sub.crit[j]? = some c) (hj' : sub'.crit[j']? = some c')
    (hkept : j ∈ kept k) (hdisc : j' ∈ discarded k' sub'.crit.length) : c < c' := by
  obtain ⟨_, h⟩ := kept_iff_below_cutoff s lastAll subs p hp hs
  obtain ⟨a1, a2, a3⟩ := h i sub k hi hk
  obtain ⟨b1, b2, b3⟩ := h i' sub' k' hi' hk'
  simp only [kept, List.mem_range] at hkept
  simp only [discarded, List.mem_map, List.mem_range] at hdisc
  obtain ⟨t, ht, rfl⟩ := hdisc
  cases lastAll with
  | true => have := b2 rfl; omega
  | false =>
    have h1 := (a3 rfl j c hj).1 hkept
    have h2 : ¬ (k' + t < k') := by omega
    rw [b3 rfl _ c' hj'] at h2
    exact lt_of_le_of_lt h1 (not_le.1 h2)

/-- **C08.** Kept and discarded indices are disjoint and together are all
computed states, in order; the same for the ranges used by the full
density-matrix algorithms, where the last step has no kept states. -/
theorem kept_discarded_partition (k n : Nat) (h : k ≤ n) (last : Bool) :
    kept k ++ discarded k n = List.range n ∧
    Krange last k ++ Drange last k n = List.range n ∧
    (last = true → Drange last k n = List.range n) ∧
    (last = false → Krange last k = kept k ∧ Drange last k n = discarded k n) := by
  have key : ∀ b, b ≤ n → List.range b ++ (List.range (n - b)).map (b + ·) = List.range n := by
    intro b hb
    rw [← List.range_add, Nat.add_sub_cancel' hb]
  refine ⟨key k h, ?_, ?_, ?_⟩
  · exact key _ (by unfold boundary; split <;> omega)
  · rintro rfl; simp [Drange, boundary]
  · rintro rfl; exact ⟨rfl, rfl⟩

/-- **C09 (counting over subspaces).** Unless everything is kept in the last
step, the total number of kept states is the number of costs up to the cutoff;
it is at least the smaller of the requested number and the number of states,
hence at least `min keepmin (number of states)`. -/
theorem total_kept (s : Settings K) (subs : List (Sub K)) (p : Prepared K)
    (hp : truncatePrepare s false subs = .ok p) (hk : 1 ≤ s.keep) (hmin : s.keepmin ≤ s.keep) :
    p.nrkept.sum = (subs.flatMap Sub.crit).countP (fun c => decide (c ≤ p.cmax)) ∧
    min (requested s (subs.flatMap Sub.crit)) (subs.flatMap Sub.crit).length ≤ p.nrkept.sum ∧
    min s.keepmin (subs.flatMap Sub.crit).length ≤ p.nrkept.sum := by
  unfold truncatePrepare at hp
  split at hp
  · cases hp
  · rename_i cmax hc
    split at hp
    · cases hp
    · cases hp
      have hsum : (subs.map (keptCount false cmax)).sum
          = (subs.flatMap Sub.crit).countP (fun c => decide (c ≤ cmax)) := by
        rw [List.countP_flatMap]
        rfl
      have hacc : AcceptableCosts s (subs.flatMap Sub.crit) := by
        by_contra h
        rw [cutoff_rejects s _ h] at hc
        cases hc
      obtain ⟨c, g1, g2, g3, g4⟩ := cutoff_spec s _ hacc hk hmin
      rw [hc] at g1
      cases g1
      have hle : min (requested s (subs.flatMap Sub.crit)) (subs.flatMap Sub.crit).length
          ≤ (subs.flatMap Sub.crit).countP (fun c => decide (c ≤ cmax)) := by
        have full : (∀ x ∈ subs.flatMap Sub.crit, x ≤ cmax) →
            (subs.flatMap Sub.crit).countP (fun c => decide (c ≤ cmax)) = (subs.flatMap Sub.crit).length := by
          intro h
          rw [List.countP_eq_length]
          intro x hx; simpa using h x hx
        cases hka : s.keepall with
        | true => rw [full (g3 hka)]; omega
        | false =>
          obtain ⟨h1, h2⟩ := g4 hka
          by_cases hl : (subs.flatMap Sub.crit).length ≤ requested s (subs.flatMap Sub.crit)
          · rw [full (h1 hl)]; omega
          · obtain ⟨m, k1, k2, _⟩ := h2 (by omega)
            have := k1.2
            omega
      refine ⟨hsum, by rw [hsum]; exact hle, ?_⟩
      simp only
      rw [hsum]
      refine le_trans ?_ hle
      have : s.keepmin ≤ requested s (subs.flatMap Sub.crit) := by
        unfold requested; split <;> omega
      omega

example : truncatePrepare (⟨3, 0, 0, 0, 0, false, false⟩ : Settings ℤ) false
    [⟨[0, 2, 7], 3⟩, ⟨[1, 2], 2⟩, ⟨[5], 1⟩] = .ok ⟨2, [2, 2, 0], false⟩ := by
  decide +kernel

/-! ## C61: partial diagonalisation -/

/-- A complete spectrum and the number of its lowest states that were computed. -/
structure PartialSub (K : Type) where
  full : List K
  computed : Nat

def PartialSub.sub (q : PartialSub K) : Sub K := ⟨q.full.take q.computed, q.full.length⟩
def PartialSub.fullSub (q : PartialSub K) : Sub K := ⟨q.full, q.full.length⟩

/-- In a subspace that does not raise `NotEnough`, the states that have not been
computed do not lie below the cutoff. -/
theorem uncomputed_above (cmax : K) (q : PartialSub K) (hq : q.full.Pairwise (· ≤ ·))
    (h1 : notEnough1 false cmax q.sub = .ok false) : ∀ x ∈ q.full.drop q.computed, cmax ≤ x := by
  intro x hx
  have hlen : q.sub.crit.length < q.full.length := by
    by_contra hcon
    simp only [PartialSub.sub, List.length_take] at hcon
    rw [List.drop_of_length_le (by omega)] at hx
    simp at hx
  unfold notEnough1 at h1
  split at h1
  · rename_i hk
    split at h1
    · cases h1
    · rename_i hlast heq
      have hd : q.sub.dim = q.full.length := rfl
      simp only [Except.ok.injEq, Bool.and_eq_false_iff, decide_eq_false_iff_not, not_not, hd, hlen,
        not_true_eq_false, or_false] at h1
      -- the highest computed cost equals the cutoff
      have hmem : hlast ∈ q.full.take q.computed := List.mem_of_getLast? heq
      rw [← h1]
      have := List.take_append_drop q.computed q.full
      rw [← this, List.pairwise_append] at hq
      exact hq.2.2 hlast hmem x hx
  · rename_i hk
    -- some computed state is discarded
    simp only [keptCount, Bool.false_eq_true, if_false] at hk
    rw [List.countP_eq_length] at hk
    push Not at hk
    obtain ⟨y, hy, hyc⟩ := hk
    have hyc : cmax < y := by simpa using hyc
    have hq' := hq
    rw [← List.take_append_drop q.computed q.full, List.pairwise_append] at hq'
    exact le_of_lt (lt_of_lt_of_le hyc (hq'.2.2 y hy x hx))

theorem notEnough_false {cmax : K} {subs : List (Sub K)} (h : notEnough false cmax subs = .ok false) :
    ∀ s ∈ subs, notEnough1 false cmax s = .ok false := by
  induction subs with
  | nil => simp
  | cons s l ih =>
    unfold notEnough at h
    split at h
    · cases h
    · cases h
    · rename_i h1
      intro t ht
      rcases List.mem_cons.1 ht with rfl | ht
      · exact h1
      · exact ih h t ht

/-- **C61 (partial).** If a step with partially computed spectra is accepted,
the number of computed states exceeds the number requested, and neither
`keepenergy` nor the safeguard is active, then the cutoff is the one that the
complete spectra would give, and every state of the complete spectra with cost
below the cutoff is kept. Missing from the full property: the case in which
fewer states were computed than requested (where it fails, see below), the
energy cutoff and the safeguard. -/
theorem partial_diag_same_cutoff_partial (s : Settings K) (qs : List (PartialSub K)) (p : Prepared K)
    (hsorted : ∀ q ∈ qs, q.full.Pairwise (· ≤ ·))
    (hp : truncatePrepare s false (qs.map PartialSub.sub) = .ok p) (hne : p.notEnough = false)
    (hk : 1 ≤ s.keep) (hmin : s.keepmin ≤ s.keep) (hke : s.keepenergy ≤ 0) (hsg : s.safeguard ≤ 0)
    (hka : s.keepall = false) (hmany : s.keep < ((qs.map PartialSub.sub).flatMap Sub.crit).length)
    (hfl : s.floquet = true ∨ ∀ q ∈ qs, ∀ x ∈ q.full, 0 ≤ x) :
    highestRetained s ((qs.map PartialSub.fullSub).flatMap Sub.crit) = .ok p.cmax ∧
    ∀ (i : Nat) (q : PartialSub K) (k : Nat), qs[i]? = some q → p.nrkept[i]? = some k →
      ∀ (j : Nat) (c : K), q.full[j]? = some c → c < p.cmax → j < k := by
  have hp0 := hp
  unfold truncatePrepare at hp
  split at hp
  · cases hp
  rename_i cmax hc
  split at hp
  · cases hp
  rename_i b hb
  cases hp
  simp only at hne
  subst hne
  set comp := (qs.map PartialSub.sub).flatMap Sub.crit with hcomp
  set full := (qs.map PartialSub.fullSub).flatMap Sub.crit with hfull
  have habove : ∀ q ∈ qs, ∀ x ∈ q.full.drop q.computed, cmax ≤ x := by
    intro q hq
    exact uncomputed_above cmax q (hsorted q hq)
      (notEnough_false hb q.sub (List.mem_map.2 ⟨q, hq, rfl⟩))
  -- `full` is a permutation of `comp ++ rest` with `rest` above the cutoff
  have hperm : full.Perm (comp ++ qs.flatMap fun q => q.full.drop q.computed) := by
    rw [hfull, hcomp]
    clear hp0 hc hb hmany hcomp hfull hsorted hfl habove
    induction qs with
    | nil => simp
    | cons q qs ih =>
      simp only [List.map_cons, List.flatMap_cons, PartialSub.fullSub, PartialSub.sub] at ih ⊢
      conv_lhs => rw [← List.take_append_drop q.computed q.full]
      rw [List.append_assoc, List.append_assoc]
      refine List.Perm.append_left _ ?_
      refine (List.Perm.append_left _ ih).trans ?_
      rw [← List.append_assoc, ← List.append_assoc]
      exact List.Perm.append_right _ List.perm_append_comm
  have hrest : ∀ x ∈ qs.flatMap fun q => q.full.drop q.computed, cmax ≤ x := by
    intro x hx
    obtain ⟨q, hq, hx⟩ := List.mem_flatMap.1 hx
    exact habove q hq x hx
  have hacc : AcceptableCosts s comp := by
    by_contra h
    rw [cutoff_rejects s _ h] at hc
    cases hc
  have hreq : ∀ l : List K, requested s l = s.keep := by intro l; simp [requested, hke]
  obtain ⟨c, g1, g2, _, g4⟩ := cutoff_spec s _ hacc hk hmin
  rw [hc] at g1; cases g1
  obtain ⟨_, h2⟩ := g4 hka
  obtain ⟨m, k1, k2, k3, _⟩ := h2 (by rw [hreq]; exact hmany)
  have hm : m = s.keep := by rw [k3 hsg, hreq]
  subst hm
  -- the cutoff is the same order statistic of the complete spectrum
  have hnth : IsNthSmallest s.keep full cmax := by
    rw [nth_perm hperm]
    constructor
    · rw [List.countP_append]
      have : (qs.flatMap fun q => q.full.drop q.computed).countP (fun x => decide (x < cmax)) = 0 := by
        rw [List.countP_eq_zero]
        intro x hx
        simpa using hrest x hx
      rw [this]; exact k1.1
    · rw [List.countP_append]; exact le_trans k1.2 (Nat.le_add_right _ _)
  have hlen : s.keep < full.length := by
    rw [hperm.length_eq, List.length_append]; omega
  have hacc' : AcceptableCosts s full := by
    refine ⟨by intro h; rw [h] at hlen; simp at hlen, ?_⟩
    rcases hacc.2 with h | ⟨h, h'⟩
    · exact Or.inl h
    · rcases hfl with hf | hf
      · exact Or.inl hf
      · right
        refine ⟨hperm.mem_iff.2 (List.mem_append_left _ h), ?_⟩
        intro x hx
        obtain ⟨sub, hsub, hx⟩ := List.mem_flatMap.1 hx
        obtain ⟨q, hq, rfl⟩ := List.mem_map.1 hsub
        exact hf q hq x hx
  obtain ⟨c', f1, f2, _, f4⟩ := cutoff_spec s _ hacc' hk hmin
  obtain ⟨_, f5⟩ := f4 hka
  obtain ⟨m', m1, m2, m3, _⟩ := f5 (by rw [hreq]; exact hlen)
  have hm' : m' = s.keep := by rw [m3 hsg, hreq]
  subst hm'
  refine ⟨by rw [f1, nth_unique m1 hnth], ?_⟩
  intro i q k hi hk' j c hj hlt
  have hq : q ∈ qs := List.mem_of_getElem? hi
  have hsort' : ∀ sub ∈ qs.map PartialSub.sub, sub.crit.Pairwise (· ≤ ·) := by
    intro sub hsub
    obtain ⟨q, hq, rfl⟩ := List.mem_map.1 hsub
    exact (hsorted q hq).sublist (List.take_sublist _ _)
  obtain ⟨_, hkept⟩ := kept_iff_below_cutoff s false _ _ hp0 hsort'
  obtain ⟨_, _, h3⟩ := hkept i q.sub k (by simp [hi]) hk'
  by_cases hjc : j < q.computed
  · refine (h3 rfl j c ?_).2 (le_of_lt hlt)
    simp only [PartialSub.sub]
    rw [List.getElem?_take_of_lt hjc]; exact hj
  · exfalso
    have : c ∈ q.full.drop q.computed := by
      rw [List.mem_iff_getElem?]
      exact ⟨j - q.computed, by rw [List.getElem?_drop, show q.computed + (j - q.computed) = j by omega]; exact hj⟩
    exact absurd hlt (not_lt.2 (habove q hq c this))

example : truncatePrepare (⟨2, 0, 0, 0, 0, false, false⟩ : Settings ℤ) false
    (([⟨[0, 2, 7, 9], 3⟩, ⟨[1, 2, 5], 2⟩] : List (PartialSub ℤ)).map PartialSub.sub)
      = .ok ⟨1, [1, 1], false⟩ := by decide +kernel

/-- **C61 fails in general.** A subspace of dimension 2 of which one state has
been computed, with two states to be kept: the step is accepted (no
`NotEnough`), although only one state is kept and the complete spectrum would
have kept both. The check exempts a subspace whose highest computed cost equals
the cutoff, and the cutoff is the highest computed cost when fewer states than
`keep` are available. -/
theorem partial_diag_misses_states :
    ∃ (s : Settings ℤ) (q : PartialSub ℤ) (p p' : Prepared ℤ),
      2 ≤ s.keep ∧ s.keepmin ≤ s.keep ∧
      truncatePrepare s false [q.sub] = .ok p ∧ p.notEnough = false ∧ p.nrkept.sum < s.keep ∧
      truncatePrepare s false [q.fullSub] = .ok p' ∧ p.nrkept.sum < p'.nrkept.sum ∧ p'.nrkept.sum ≤ s.keep :=
  ⟨⟨2, 0, 0, 0, 0, false, false⟩, ⟨[0, 1], 1⟩, ⟨0, [1], false⟩, ⟨1, [2], false⟩,
    by decide, by decide, by decide +kernel, rfl, by decide, by decide +kernel, by decide, by decide⟩

/-! ## C11 -/

section clusters
variable [IsOrderedAddMonoid K]

/-- The map from energies to corrected energies, as a specification: what C11
requires of the result. -/
structure IsCorrection (eps : K) (energies : List K) (f : K → K) : Prop where
  /-- the result is one of the energies -/
  mem : ∀ x ∈ energies, f x ∈ energies
  /-- no energy moves up -/
  le : ∀ x ∈ energies, f x ≤ x
  /-- none moves by as much as the threshold -/
  close : ∀ x ∈ energies, f x = x ∨ x - f x < eps
  /-- order is preserved -/
  mono : ∀ x ∈ energies, ∀ y ∈ energies, x ≤ y → f x ≤ f y
  /-- representatives are unchanged -/
  idem : ∀ x ∈ energies, f (f x) = f x
  /-- different corrected energies are at least the threshold apart -/
  apart : ∀ x ∈ energies, ∀ y ∈ energies, f x < f y → eps ≤ f y - f x

/-- The lowest energy is kept. -/
theorem cluster_assign (eps : K) (energies : List K) (m : List (K × K))
    (h : clusterMap eps energies = some m) :
    ∃ e l, energies.insertionSort (· ≤ ·) = e :: l ∧
      ∀ p ∈ (e, e) :: assign eps e l, fixOne m p.1 = p.2 := by
  unfold clusterMap at h
  split at h
  · cases h
  · rename_i e l hsort
    cases h
    refine ⟨e, l, hsort, ?_⟩
    have hs : (e :: l).Pairwise (· ≤ ·) := hsort ▸ List.pairwise_insertionSort _ energies
    rw [List.pairwise_cons] at hs
    have hpw : ((e, e) :: assign eps e l).Pairwise (Rel eps) := by
      rw [List.pairwise_cons]
      refine ⟨?_, assign_pairwise eps e l hs.1 hs.2⟩
      intro q hq
      obtain ⟨a1, a2, a3, a4, a5, a6⟩ := assign_basic eps e l hs.1 hs.2 q hq
      refine ⟨a1, ?_, fun h => (a6 h.symm).symm⟩
      rcases a5 with h | h
      · exact Or.inl h.symm
      · exact Or.inr h
    have hcons : ∀ p ∈ (e, e) :: assign eps e l, ∀ q ∈ (e, e) :: assign eps e l, p.1 = q.1 → p.2 = q.2 := by
      intro p hp q hq hpq
      by_cases he : p = q
      · rw [he]
      rcases List.pairwise_iff_getElem.1 hpw with h
      obtain ⟨i, hi, rfl⟩ := List.getElem_of_mem hp
      obtain ⟨j, hj, rfl⟩ := List.getElem_of_mem hq
      rcases Nat.lt_trichotomy i j with hij | hij | hij
      · exact (h i j hi hj hij).2.2 hpq
      · subst hij; rfl
      · exact ((h j i hj hi hij).2.2 hpq.symm).symm
    intro p hp
    rw [scan_eq, List.map_nil, List.nil_append]
    have hfind := mapFind_insertAll ([] : List (K × K)) (assign eps e l) p.1 p.2
      (fun q hq hqp => hcons q (by simp [hq]) p hp hqp) (Or.inl rfl)
    simp only [fixOne, hfind]
    split
    · rfl
    · rename_i hno
      simp only [mapFind, List.find?_nil, Option.map_none, Option.getD_none]
      by_contra hne
      apply hno
      rcases List.mem_cons.1 hp with rfl | hp
      · exact absurd rfl hne
      · exact ⟨p, hp, rfl, hne⟩

/-- **C11.** For every non-empty collection of energies and every threshold,
the correction succeeds, and the map it applies has all the properties of
`IsCorrection`. -/
theorem fixSplittings_spec (eps : K) (subs : List (List K)) (hne : subs.flatten ≠ []) :
    ∃ f : K → K, fixSplittings eps subs = some (subs.map fun v => v.map f) ∧
      IsCorrection eps subs.flatten f := by
  have hlen : (subs.flatten.insertionSort (· ≤ ·)) ≠ [] := by
    intro h
    have := List.length_insertionSort (α := K) (· ≤ ·) subs.flatten
    rw [h] at this
    exact hne (List.length_eq_zero_iff.1 this.symm)
  have hm : ∃ m, clusterMap eps subs.flatten = some m := by
    unfold clusterMap
    split
    · rename_i h; exact absurd h hlen
    · exact ⟨_, rfl⟩
  obtain ⟨m, hm⟩ := hm
  obtain ⟨e, l, hsort, hfix⟩ := cluster_assign eps _ m hm
  refine ⟨fixOne m, by simp [fixSplittings, hm], ?_⟩
  have hs : (e :: l).Pairwise (· ≤ ·) := hsort ▸ List.pairwise_insertionSort _ subs.flatten
  have hs' := hs
  rw [List.pairwise_cons] at hs'
  have hperm : subs.flatten.Perm (e :: l) := by
    rw [← hsort]; exact (List.perm_insertionSort _ _).symm
  have hmemL : ∀ x ∈ subs.flatten, (x, fixOne m x) ∈ (e, e) :: assign eps e l := by
    intro x hx
    have hx' := hperm.mem_iff.1 hx
    have hfst : ((e, e) :: assign eps e l).map Prod.fst = e :: l := by
      simp [assign_map_fst]
    rw [← hfst, List.mem_map] at hx'
    obtain ⟨p, hp, rfl⟩ := hx'
    rw [hfix p hp]; exact hp
  have hbasic : ∀ p ∈ (e, e) :: assign eps e l, e ≤ p.2 ∧ p.2 ≤ p.1 ∧ (p.2 = p.1 ∨ p.1 - p.2 < eps) ∧
      ((p.2, p.2) ∈ (e, e) :: assign eps e l) := by
    intro p hp
    rcases List.mem_cons.1 hp with rfl | hp
    · exact ⟨le_refl _, le_refl _, Or.inl rfl, by simp⟩
    · obtain ⟨a1, a2, a3, a4, a5, a6⟩ := assign_basic eps e l hs'.1 hs'.2 p hp
      refine ⟨a1, a2, a3, ?_⟩
      rcases a4 with h | h
      · rw [h]; simp
      · simp [h]
  have hpw : ((e, e) :: assign eps e l).Pairwise fun p q => Rel eps p q ∧ p.1 ≤ q.1 := by
    have h1 : ((e, e) :: assign eps e l).Pairwise (Rel eps) := by
      rw [List.pairwise_cons]
      refine ⟨?_, assign_pairwise eps e l hs'.1 hs'.2⟩
      intro q hq
      obtain ⟨a1, a2, a3, a4, a5, a6⟩ := assign_basic eps e l hs'.1 hs'.2 q hq
      refine ⟨a1, ?_, fun h => (a6 h.symm).symm⟩
      rcases a5 with h | h
      · exact Or.inl h.symm
      · exact Or.inr h
    have h2 : ((e, e) :: assign eps e l).Pairwise fun p q => p.1 ≤ q.1 := by
      rw [← List.pairwise_map (f := Prod.fst) (R := fun a b => a ≤ b)]
      simpa [assign_map_fst] using hs
    exact h1.imp₂ (fun p q a b => ⟨a, b⟩) h2
  -- comparison of two entries
  have hrel : ∀ p ∈ (e, e) :: assign eps e l, ∀ q ∈ (e, e) :: assign eps e l,
      (p.1 ≤ q.1 → p.2 ≤ q.2) ∧ (p.2 < q.2 → eps ≤ q.2 - p.2) := by
    intro p hp q hq
    obtain ⟨i, hi, rfl⟩ := List.getElem_of_mem hp
    obtain ⟨j, hj, rfl⟩ := List.getElem_of_mem hq
    rw [List.pairwise_iff_getElem] at hpw
    rcases Nat.lt_trichotomy i j with hij | hij | hij
    · obtain ⟨⟨r1, r2, r3⟩, r4⟩ := hpw i j hi hj hij
      refine ⟨fun _ => r1, fun h => ?_⟩
      rcases r2 with h' | h'
      · exact absurd h' (ne_of_lt h)
      · exact h'
    · subst hij; exact ⟨fun _ => le_refl _, fun h => absurd h (lt_irrefl _)⟩
    · obtain ⟨⟨r1, r2, r3⟩, r4⟩ := hpw j i hj hi hij
      refine ⟨fun h => ?_, fun h => absurd h (not_lt.2 r1)⟩
      exact le_of_eq (r3 (le_antisymm r4 h)).symm
  constructor
  · intro x hx
    obtain ⟨_, _, _, h⟩ := hbasic _ (hmemL x hx)
    have : fixOne m x ∈ ((e, e) :: assign eps e l).map Prod.fst := List.mem_map.2 ⟨_, h, rfl⟩
    simp only [List.map_cons, assign_map_fst] at this
    exact hperm.mem_iff.2 this
  · intro x hx; exact (hbasic _ (hmemL x hx)).2.1
  · intro x hx; exact (hbasic _ (hmemL x hx)).2.2.1
  · intro x hx y hy hxy; exact (hrel _ (hmemL x hx) _ (hmemL y hy)).1 hxy
  · intro x hx; exact hfix _ (hbasic _ (hmemL x hx)).2.2.2
  · intro x hx y hy hxy; exact (hrel _ (hmemL x hx) _ (hmemL y hy)).2 hxy

/-- **C11.** Energies that were sorted in a subspace stay sorted, so that
truncation (C08) applies to the corrected energies. -/
theorem fixSplittings_sorted (eps : K) (subs r : List (List K)) (h : fixSplittings eps subs = some r)
    (hs : ∀ v ∈ subs, v.Pairwise (· ≤ ·)) : ∀ v ∈ r, v.Pairwise (· ≤ ·) := by
  by_cases hne : subs.flatten = []
  · simp [fixSplittings, clusterMap, hne] at h
  obtain ⟨f, h1, h2⟩ := fixSplittings_spec eps subs hne
  rw [h] at h1
  cases h1
  intro v hv
  obtain ⟨w, hw, rfl⟩ := List.mem_map.1 hv
  rw [List.pairwise_map]
  refine (hs w hw).imp_of_mem ?_
  intro a b ha hb hab
  exact h2.mono a (List.mem_flatten.2 ⟨w, hw, ha⟩) b (List.mem_flatten.2 ⟨w, hw, hb⟩) hab

end clusters

example : fixSplittings (3 : ℤ) [[0, 2, 10], [1, 4, 5], [3, 12, 13]]
    = some [[0, 0, 10], [0, 3, 3], [3, 10, 13]] := by decide +kernel

/-! ## C12 -/

theorem applyPerm_length {α} {p : List Nat} {w : List α} (h : p.Perm (List.range w.length)) :
    (applyPerm p w).length = w.length := by
  have : ∀ i ∈ p, i < w.length := fun i hi => List.mem_range.1 (h.mem_iff.1 hi)
  have h2 : ∀ q : List Nat, (∀ i ∈ q, i < w.length) → (applyPerm q w).length = q.length := by
    intro q
    induction q with
    | nil => intro _; rfl
    | cons i q ih =>
      intro hq
      have hi := hq i (by simp)
      simp only [applyPerm, List.filterMap_cons, List.getElem?_eq_getElem hi, List.length_cons]
      have := ih fun j hj => hq j (by simp [hj])
      simp only [applyPerm] at this
      rw [this]
  rw [h2 p this, h.length_eq, List.length_range]

theorem applyPerm_zip {α β} {p : List Nat} {w : List α} {v : List β} (hl : w.length = v.length)
    (h : ∀ i ∈ p, i < w.length) : (applyPerm p w).zip (applyPerm p v) = applyPerm p (w.zip v) := by
  induction p with
  | nil => rfl
  | cons i p ih =>
    have hi := h i (by simp)
    have hi' : i < v.length := by omega
    have hz : i < (w.zip v).length := by rw [List.length_zip]; omega
    simp only [applyPerm, List.filterMap_cons, List.getElem?_eq_getElem hi, List.getElem?_eq_getElem hi',
      List.getElem?_eq_getElem hz, List.zip_cons_cons, List.getElem_zip]
    have := ih fun j hj => h j (by simp [hj])
    simp only [applyPerm] at this
    rw [this]

theorem applyPerm_perm {α} {p : List Nat} {w : List α} (h : p.Perm (List.range w.length)) :
    (applyPerm p w).Perm w := by
  have h1 : (applyPerm p w).Perm (applyPerm (List.range w.length) w) := h.filterMap _
  have h2 : applyPerm (List.range w.length) w = w := by
    clear h h1
    apply List.ext_getElem?
    intro i
    have : applyPerm (List.range w.length) w = (List.range w.length).pmap (fun i hi => w[i]'hi)
        (fun i hi => List.mem_range.1 hi) := by
      have : ∀ (q : List Nat) (hq : ∀ i ∈ q, i < w.length), applyPerm q w = q.pmap (fun i hi => w[i]'hi) hq := by
        intro q
        induction q with
        | nil => intro _; rfl
        | cons j q ih =>
          intro hq
          have hj := hq j (by simp)
          simp only [applyPerm, List.filterMap_cons, List.getElem?_eq_getElem hj, List.pmap_cons]
          have := ih fun k hk => hq k (by simp [hk])
          simp only [applyPerm] at this
          rw [this]
      exact this _ _
    rw [this]
    by_cases hi : i < w.length
    · rw [List.getElem?_eq_getElem hi, List.getElem?_eq_getElem (by simpa using hi)]
      simp
    · rw [List.getElem?_eq_none (by simpa using hi), List.getElem?_eq_none (by simpa using hi)]
  rw [h2] at h1
  exact h1

/-- **C12.** Whatever permutation the sort delivers, the states (cost, energy,
corrected energy, eigenvector) after sorting are a rearrangement of the states
before sorting, and their costs are in increasing order. -/
theorem sort_by_cost_permutes_states {ρ} (p : List Nat) (c v corr : List K) (rows : List ρ)
    (hv : v.length = c.length) (hcorr : corr.length = c.length) (hr : rows.length = c.length)
    (hp : IsSortingPerm c p) :
    let out := performSortByC p (c, v, corr, rows)
    (out.1.zip (out.2.1.zip (out.2.2.1.zip out.2.2.2))).Perm (c.zip (v.zip (corr.zip rows))) ∧
    out.1.length = c.length ∧ out.2.1.length = c.length ∧ out.2.2.1.length = c.length ∧
    out.2.2.2.length = c.length ∧
    out.1.Pairwise (· ≤ ·) := by
  have hb : ∀ i ∈ p, i < c.length := fun i hi => List.mem_range.1 (hp.1.mem_iff.1 hi)
  intro out
  have l1 : (corr.zip rows).length = c.length := by rw [List.length_zip]; omega
  have l2 : (v.zip (corr.zip rows)).length = c.length := by rw [List.length_zip]; omega
  have l3 : (c.zip (v.zip (corr.zip rows))).length = c.length := by rw [List.length_zip]; omega
  refine ⟨?_, ?_, ?_, ?_, ?_, ?_⟩
  · simp only [out, performSortByC]
    rw [applyPerm_zip (by omega) (by intro i hi; rw [hcorr]; exact hb i hi),
      applyPerm_zip (by omega) (by intro i hi; rw [hv]; exact hb i hi),
      applyPerm_zip (by omega) hb]
    exact applyPerm_perm (by rw [l3]; exact hp.1)
  · exact applyPerm_length hp.1
  · rw [← hv]; exact applyPerm_length (by rw [hv]; exact hp.1)
  · rw [← hcorr]; exact applyPerm_length (by rw [hcorr]; exact hp.1)
  · rw [← hr]; exact applyPerm_length (by rw [hr]; exact hp.1)
  · simp only [out, performSortByC, applyPerm]
    rw [List.pairwise_filterMap]
    exact hp.2.imp fun {a b} h x hx y hy => h x y hx hy

/-- The `r`-th row of a flat array with stride `dim`. -/
def flatRow {β} (vecs : List β) (dim r : Nat) : List β := (vecs.drop (dim * r)).take dim

theorem flatMap_uniform_drop {β} (f : Nat → List β) (dim M r : Nat) (hf : ∀ i < M, (f i).length = dim)
    (hr : r < M) (rest : List β) :
    ((((List.range M).flatMap f) ++ rest).drop (dim * r)).take dim = f r := by
  induction M generalizing r f with
  | zero => omega
  | succ M ih =>
    rw [List.range_succ_eq_map, List.flatMap_cons, List.append_assoc]
    cases r with
    | zero =>
      rw [Nat.mul_zero, List.drop_zero, List.take_append_of_le_length (by rw [hf 0 (by omega)]),
        List.take_of_length_le (by rw [hf 0 (by omega)])]
    | succ r =>
      have h0 := hf 0 (by omega)
      have e : dim * (r + 1) = (f 0).length + dim * r := by rw [h0, Nat.mul_succ]; omega
      rw [e, List.drop_append, List.flatMap_map, List.drop_of_length_le (by omega), List.nil_append,
        Nat.add_sub_cancel_left]
      exact ih (fun i => f (i + 1)) r (fun i hi => hf (i + 1) (by omega)) (by omega)

/-- **C12.** Sorting the eigenpairs delivered by the eigensolver: the `r`-th
eigenvalue and the `r`-th row of the vector array come from the same original
position, the first `M` eigenvalues are in increasing order, nothing else
changes. -/
theorem sort_eigenpairs_as_units {β} (p : List Nat) (vals : List K) (vecs : List β) (dim M : Nat)
    (hM : M ≤ vals.length) (hlen : M * dim ≤ vecs.length) (hp : IsSortingPerm (vals.take M) p) :
    ∃ vals' vecs', sortEigenpairs p vals vecs true dim M = some (vals', vecs') ∧
      vals'.length = vals.length ∧ vals'.drop M = vals.drop M ∧
      (vals'.take M).Pairwise (· ≤ ·) ∧
      ∃ q : List Nat, q.Perm (List.range M) ∧
        ∀ r < M, ∃ i, q[r]? = some i ∧ i < M ∧ vals'[r]? = vals[i]? ∧ flatRow vecs' dim r = flatRow vecs dim i := by
  have htl : (vals.take M).length = M := by simp [hM]
  have hp1 : p.Perm (List.range M) := by have := hp.1; rwa [htl] at this
  have hident : ((vals.take M).Pairwise (· ≤ ·)) → sortEigenpairs p vals vecs true dim M = some (vals, vecs) →
      ∃ vals' vecs', sortEigenpairs p vals vecs true dim M = some (vals', vecs') ∧
      vals'.length = vals.length ∧ vals'.drop M = vals.drop M ∧
      (vals'.take M).Pairwise (· ≤ ·) ∧
      ∃ q : List Nat, q.Perm (List.range M) ∧
        ∀ r < M, ∃ i, q[r]? = some i ∧ i < M ∧ vals'[r]? = vals[i]? ∧ flatRow vecs' dim r = flatRow vecs dim i := by
    intro hs he
    exact ⟨vals, vecs, he, rfl, rfl, hs, List.range M, List.Perm.refl _,
      fun r hr => ⟨r, List.getElem?_range hr, hr, rfl, rfl⟩⟩
  by_cases hM2 : M < 2
  · apply hident
    · rw [List.pairwise_iff_getElem]
      intro i j hi hj hij; omega
    · simp [sortEigenpairs, Nat.not_lt.2 hM, hM2]
  by_cases hid : p = List.range M
  · apply hident
    · rw [List.pairwise_iff_getElem]
      intro i j hi hj hij
      have h2 := hp.2
      rw [hid, List.pairwise_iff_getElem] at h2
      have := h2 i j (by simpa [htl] using hi) (by simpa [htl] using hj) hij
      simp only [List.getElem_range] at this
      exact this _ _ (List.getElem?_eq_getElem hi) (List.getElem?_eq_getElem hj)
    · simp [sortEigenpairs, Nat.not_lt.2 hM, hM2, hid]
  · have hpl : p.length = M := by rw [hp1.length_eq, List.length_range]
    have hpm : ∀ i ∈ p, i < M := fun i hi => List.mem_range.1 (hp1.mem_iff.1 hi)
    have happ : applyPerm p vals = applyPerm p (vals.take M) := by
      simp only [applyPerm]
      apply List.filterMap_congr
      intro i hi
      rw [List.getElem?_take_of_lt (hpm i hi)]
    have hal : (applyPerm p vals).length = M := by
      rw [happ, applyPerm_length (by rw [htl]; exact hp1), htl]
    have hget : ∀ r (hr : r < M), (applyPerm p vals)[r]? = vals[p[r]'(by omega)]? := by
      have : ∀ (q : List Nat), (∀ i ∈ q, i < vals.length) → ∀ r (hr : r < q.length),
          (applyPerm q vals)[r]? = vals[q[r]]? := by
        intro q
        induction q with
        | nil => intro _ r hr; simp at hr
        | cons i q ih =>
          intro hq r hr
          have hi := hq i (by simp)
          simp only [applyPerm, List.filterMap_cons, List.getElem?_eq_getElem hi]
          cases r with
          | zero => simp [List.getElem?_eq_getElem hi]
          | succ r =>
            have := ih (fun j hj => hq j (by simp [hj])) r (by simpa using hr)
            simpa [applyPerm] using this
      intro r hr
      exact this p (fun i hi => lt_of_lt_of_le (hpm i hi) hM) r (by omega)
    have hM' : ¬ (vals.length < M) := Nat.not_lt.2 hM
    refine ⟨applyPerm p vals ++ vals.drop M, (List.range M).flatMap (fun r => (List.range dim).filterMap fun j =>
        (p[r]?).bind fun pr => vecs[dim * pr + j]?) ++ vecs.drop (M * dim), by
      simp [sortEigenpairs, hM', hM2, hid], ?_, ?_, ?_, p, hp1, ?_⟩
    · simp [hal]; omega
    · rw [List.drop_append_of_le_length (by omega), List.drop_of_length_le (by omega)]; simp
    · rw [List.take_append_of_le_length (by omega), List.take_of_length_le (by omega), happ]
      simp only [applyPerm]
      rw [List.pairwise_filterMap]
      exact hp.2.imp fun {a b} h x hx y hy => h x y hx hy
    · intro r hr
      have hpr : p[r]? = some (p[r]'(by omega)) := List.getElem?_eq_getElem _
      have hprM : p[r]'(by omega) < M := hpm _ (List.getElem_mem _)
      refine ⟨p[r]'(by omega), hpr, hprM, ?_, ?_⟩
      · rw [List.getElem?_append_left (by omega), hget r hr]
      · have hrow : ∀ i < M, ((List.range dim).filterMap fun j =>
            (p[i]?).bind fun pr => vecs[dim * pr + j]?) = flatRow vecs dim (p[i]?.getD 0) ∧
            ((List.range dim).filterMap fun j =>
            (p[i]?).bind fun pr => vecs[dim * pr + j]?).length = dim := by
          intro i hi
          have hpi : p[i]? = some (p[i]'(by omega)) := List.getElem?_eq_getElem _
          have hpiM : p[i]'(by omega) < M := hpm _ (List.getElem_mem _)
          set t := p[i]'(by omega) with ht
          have hbound : dim * t + dim ≤ vecs.length := by
            have : dim * t + dim = (t + 1) * dim := by rw [Nat.succ_mul, Nat.mul_comm]
            rw [this]
            exact le_trans (Nat.mul_le_mul_right dim hpiM) hlen
          have hl : ∀ n ≤ dim, ((List.range n).filterMap fun j => vecs[dim * t + j]?) = (vecs.drop (dim * t)).take n := by
            intro n
            induction n with
            | zero => intro _; simp
            | succ n ihn =>
              intro hn
              have hlt : dim * t + n < vecs.length := by omega
              rw [List.range_succ, List.filterMap_append, ihn (by omega), List.take_succ]
              simp [List.getElem?_drop, List.getElem?_eq_getElem hlt]
          simp only [hpi, Option.bind_some, Option.getD_some]
          rw [hl dim (le_refl _)]
          refine ⟨rfl, ?_⟩
          rw [List.length_take, List.length_drop]; omega
        rw [flatRow, flatMap_uniform_drop _ dim M r (fun i hi => (hrow i hi).2) hr, (hrow r hr).1, hpr]
        rfl

example : sortEigenpairs [1, 2, 0] ([5, 1, 3] : List ℤ) ["a", "b", "c", "d", "e", "f"] true 2 3
    = some ([1, 3, 5], ["c", "d", "e", "f", "a", "b"]) := by decide
example : IsSortingPerm ([5, 1, 3] : List ℤ) [1, 2, 0] := by
  refine ⟨by decide, ?_⟩
  simp

/-! ## C60 -/

/-- **C60.** At least 1 and at most `n` eigenpairs are requested, all of them
for a ratio of 1 or more; the number is the smallest one that is at least
`ratio * n`, within these bounds. -/
theorem nrEigenpairs_spec (ratio : ℚ) (n : ℕ) (hn : 1 ≤ n) :
    1 ≤ nrEigenpairs ratio n ∧ nrEigenpairs ratio n ≤ n ∧
    (1 ≤ ratio → nrEigenpairs ratio n = n) ∧
    (ratio ≤ 1 → ratio * n ≤ nrEigenpairs ratio n) ∧
    (0 < ratio → (nrEigenpairs ratio n : ℚ) < ratio * n + 1) := by
  have hnq : (1 : ℚ) ≤ n := by exact_mod_cast hn
  unfold nrEigenpairs
  by_cases h1 : ratio = 1
  · subst h1
    simpa using hn
  · simp only [ne_eq, h1, not_false_eq_true, if_true]
    by_cases hlo : ⌈ratio * n⌉ < 1
    · simp only [hlo, if_true]
      have : ratio * n ≤ 0 := by
        have h := Int.le_ceil (ratio * n)
        have : (⌈ratio * n⌉ : ℚ) ≤ 0 := by exact_mod_cast (by omega : ⌈ratio * n⌉ ≤ 0)
        linarith
      refine ⟨le_refl _, by omega, ?_, ?_, ?_⟩
      · intro h; exfalso; nlinarith
      · intro _; push_cast; linarith
      · intro h; exfalso; nlinarith
    · simp only [hlo, if_false]
      by_cases hhi : (n : ℤ) < ⌈ratio * n⌉
      · simp only [hhi, if_true]
        refine ⟨by omega, le_refl _, fun _ => trivial, ?_, ?_⟩
        · intro h
          have : ratio * n ≤ 1 * n := by nlinarith
          simpa using this
        · intro h
          have h2 : (n : ℚ) < ⌈ratio * n⌉ := by exact_mod_cast hhi
          have h3 := Int.ceil_lt_add_one (ratio * (n : ℚ))
          push_cast
          linarith
      · simp only [hhi, if_false]
        refine ⟨by omega, by omega, ?_, fun _ => Int.le_ceil _, fun _ => Int.ceil_lt_add_one _⟩
        intro h
        have : (n : ℚ) ≤ ⌈ratio * n⌉ := le_trans (by nlinarith) (Int.le_ceil _)
        have : (n : ℤ) ≤ ⌈ratio * n⌉ := by exact_mod_cast this
        omega

/-- **C60.** The number requested does not decrease with the ratio or with the
dimension. -/
theorem nrEigenpairs_mono (r r' : ℚ) (n n' : ℕ) (hn : 1 ≤ n) (h : r ≤ r') (hnn : n ≤ n') (hr : 0 ≤ r) :
    nrEigenpairs r n ≤ nrEigenpairs r' n' := by
  have key : ∀ (r : ℚ) (n : ℕ), 1 ≤ n →
      nrEigenpairs r n = max 1 (min (⌈r * n⌉) (n : ℤ)) := by
    intro r n hn
    unfold nrEigenpairs
    by_cases h1 : r = 1
    · subst h1; simp; omega
    · simp only [ne_eq, h1, not_false_eq_true, if_true]
      split
      · omega
      · split <;> omega
  rw [key r n hn, key r' n' (by omega)]
  have hc : ⌈r * n⌉ ≤ ⌈r' * n'⌉ := by
    apply Int.ceil_le_ceil
    have : (n : ℚ) ≤ n' := by exact_mod_cast hnn
    exact mul_le_mul h this (by positivity) (le_trans hr h)
  omega

example : nrEigenpairs (1/3) 10 = 4 := by
  rw [nrEigenpairs]; norm_num

/-! ## C10 -/

/-- With all eigenstates computed, `NotEnough` cannot arise. -/
theorem complete_never_notEnough (s : Settings K) (lastAll : Bool) (subs : List (Sub K)) (p : Prepared K)
    (hp : truncatePrepare s lastAll subs = .ok p) (hall : ∀ sub ∈ subs, sub.dim ≤ sub.crit.length) :
    p.notEnough = false := by
  unfold truncatePrepare at hp
  split at hp
  · cases hp
  rename_i cmax _
  split at hp
  · cases hp
  rename_i b hb
  cases hp
  simp only
  clear * - hb hall
  induction subs with
  | nil => simp [notEnough] at hb; exact hb
  | cons t l ih =>
    have ht : ∀ b', notEnough1 lastAll cmax t = .ok b' → b' = false := by
      intro b' h
      unfold notEnough1 at h
      split at h
      · split at h
        · cases h
        · have := hall t (by simp)
          simp only [Except.ok.injEq] at h
          rw [← h]
          simp; omega
      · cases h; rfl
    unfold notEnough at hb
    split at hb
    · cases hb
    · rename_i h; simpa using ht _ h
    · exact ih (fun q hq => hall q (by simp [hq])) hb

/-- **C10.** With `restartfactor > 1` and a positive starting ratio, the retry
loop ends after finitely many attempts, whatever the eigensolver delivers, as
long as it delivers all states when asked for all (ratio 1). The last ratio is
at most 1, and if retries are enabled the loop does not end with too few states. -/
theorem retry_terminates (d : Diagonaliser) (s : Settings ℚ) (lastAll restart : Bool) (factor ratio : ℚ)
    (hf : 1 < factor) (hr : 0 < ratio) (hr1 : ratio ≤ 1)
    (hd : ∀ sub ∈ d 1, sub.dim ≤ sub.crit.length) :
    ∃ fuel res, doDiag d s lastAll restart factor fuel ratio = some res ∧ ratio ≤ res.ratio ∧ res.ratio ≤ 1 ∧
      (restart = true → ∀ p, res.prepared = .ok p → p.notEnough = false) := by
  -- enough attempts to reach ratio 1
  have base : ∀ ratio : ℚ, ratio = 1 → ∃ res, doDiag d s lastAll restart factor 1 ratio = some res ∧
      ratio ≤ res.ratio ∧ res.ratio ≤ 1 ∧ (restart = true → ∀ p, res.prepared = .ok p → p.notEnough = false) := by
    rintro ratio rfl
    unfold doDiag
    cases ht : truncatePrepare s lastAll (d 1) with
    | error e => exact ⟨_, rfl, le_refl _, le_refl _, by intro _ p h; cases h⟩
    | ok p =>
      have := complete_never_notEnough s lastAll _ p ht hd
      simp only [this, Bool.false_eq_true, if_false]
      exact ⟨_, rfl, le_refl _, le_refl _, by intro _ q h; cases h; exact this⟩
  have step : ∀ n : Nat, ∀ ratio : ℚ, 0 < ratio → ratio ≤ 1 → 1 ≤ ratio * factor ^ n →
      ∃ fuel res, doDiag d s lastAll restart factor fuel ratio = some res ∧ ratio ≤ res.ratio ∧ res.ratio ≤ 1 ∧
      (restart = true → ∀ p, res.prepared = .ok p → p.notEnough = false) := by
    intro n
    induction n with
    | zero =>
      intro ratio h0 h1 hn
      simp at hn
      obtain ⟨res, h⟩ := base ratio (le_antisymm h1 hn)
      exact ⟨1, res, h⟩
    | succ n ih =>
      intro ratio h0 h1 hn
      have hpos : 0 < min (ratio * factor) 1 := lt_min (by positivity) one_pos
      have hle : min (ratio * factor) 1 ≤ 1 := min_le_right _ _
      have hge : ratio ≤ min (ratio * factor) 1 := le_min (by nlinarith) h1
      have hnext : 1 ≤ min (ratio * factor) 1 * factor ^ n := by
        rcases le_total (ratio * factor) 1 with h | h
        · rw [min_eq_left h, mul_assoc, ← pow_succ']; exact hn
        · rw [min_eq_right h, one_mul]; exact one_le_pow₀ (le_of_lt hf)
      obtain ⟨fuel, res, g1, g2, g3, g4⟩ := ih _ hpos hle hnext
      cases ht : truncatePrepare s lastAll (d ratio) with
      | error e =>
        exact ⟨1, ⟨ratio, .error e⟩, by simp [doDiag, ht], le_refl _, h1, by intro _ p h; cases h⟩
      | ok p =>
        cases hp : p.notEnough with
        | false =>
          exact ⟨1, ⟨ratio, .ok p⟩, by simp [doDiag, ht, hp], le_refl _, h1, by intro _ q h; cases h; exact hp⟩
        | true =>
          cases restart with
          | false =>
            exact ⟨1, ⟨ratio, .ok p⟩, by simp [doDiag, ht, hp], le_refl _, h1, by intro h; cases h⟩
          | true =>
            refine ⟨fuel + 1, res, ?_, le_trans hge g2, g3, g4⟩
            simp only [doDiag, ht, hp, if_true, Bool.not_true, Bool.false_eq_true, if_false]
            exact g1
  obtain ⟨n, hn⟩ := pow_unbounded_of_one_lt (1 / ratio) hf
  refine step n ratio hr hr1 ?_
  rw [div_lt_iff₀ hr] at hn
  linarith

/-- The ratio 1 indeed makes the eigensolver wrapper compute every state. -/
theorem ratio_one_complete (n : ℕ) (hn : 1 ≤ n) : nrEigenpairs 1 n = n :=
  (nrEigenpairs_spec 1 n hn).2.2.1 (le_refl _)

/-- **C10 (last step).** When all states are kept in the last step, the first
attempt already asks for every state, whatever `diagratio` is: no retry takes
place and every state of every subspace is kept. The eigensolver is any one
that delivers as many states as the wrapper asks for. -/
theorem last_step_keeps_all (d : Diagonaliser) (s : Settings ℚ) (restart : Bool) (factor diagratio : ℚ)
    (hd : ∀ ratio, ∀ sub ∈ d ratio, 1 ≤ sub.dim ∧ (sub.crit.length : ℤ) = nrEigenpairs ratio sub.dim) :
    ∃ res, doDiag d s true restart factor 1 (initialRatio true diagratio) = some res ∧
      ∀ p, res.prepared = .ok p → p.notEnough = false ∧ p.nrkept = (d res.ratio).map Sub.dim := by
  have hr : initialRatio true diagratio = 1 := by simp [initialRatio]
  have hall : ∀ sub ∈ d 1, sub.crit.length = sub.dim := by
    intro sub h
    obtain ⟨h1, h2⟩ := hd 1 sub h
    rw [ratio_one_complete _ h1] at h2
    exact_mod_cast h2
  rw [hr]
  unfold doDiag
  cases ht : truncatePrepare s true (d 1) with
  | error e => exact ⟨_, rfl, by intro p h; cases h⟩
  | ok p =>
    have hne := complete_never_notEnough s true _ p ht (fun q hq => (hall q hq).ge)
    simp only [hne, Bool.false_eq_true, if_false]
    refine ⟨_, rfl, ?_⟩
    intro q h
    cases h
    refine ⟨hne, ?_⟩
    unfold truncatePrepare at ht
    split at ht
    · cases ht
    split at ht
    · cases ht
    cases ht
    simp only
    refine List.map_congr_left fun sub h => ?_
    simp only [keptCount, if_true]
    exact hall sub h

-- A solver that would compute half of the states at `diagratio = 1/2`.
example : ∃ d : Diagonaliser, (∀ ratio, ∀ sub ∈ d ratio, 1 ≤ sub.dim ∧
      (sub.crit.length : ℤ) = nrEigenpairs ratio sub.dim) ∧ d 1 = [⟨[0, 1, 2, 3], 4⟩] ∧
      d (1 / 2) = [⟨[0, 1], 4⟩] := by
  refine ⟨fun r => [⟨(List.range (nrEigenpairs r 4).toNat).map fun k : ℕ => (k : ℚ), 4⟩], ?_, ?_, ?_⟩
  · intro r sub h
    simp only [List.mem_singleton] at h
    subst h
    have := (nrEigenpairs_spec r 4 (by norm_num)).1
    simp only [List.length_map, List.length_range]
    omega
  · have : nrEigenpairs 1 4 = 4 := by decide +kernel
    simp only [this]; simp [List.range_succ]
  · have : nrEigenpairs (1 / 2) 4 = 2 := by decide +kernel
    simp only [this]; simp [List.range_succ]

/-- **C10 fails without `restartfactor > 1`.** The parameter is not validated;
with `restartfactor = 1` and an eigensolver that computes half of the states,
no number of attempts ends the loop. -/
theorem retry_diverges_without_growth :
    ∃ (d : Diagonaliser) (s : Settings ℚ) (ratio : ℚ), 0 < ratio ∧ ratio ≤ 1 ∧
      (∀ sub ∈ d 1, sub.dim ≤ sub.crit.length) ∧
      ∀ fuel, doDiag d s false true 1 fuel ratio = none := by
  refine ⟨fun r => if r = 1 then [⟨[0, 1], 2⟩, ⟨[3], 1⟩] else [⟨[0], 2⟩, ⟨[3], 1⟩], ⟨2, 0, 0, 0, 0, false, false⟩,
    1/2, by norm_num, by norm_num, by simp, ?_⟩
  intro fuel
  induction fuel with
  | zero => rfl
  | succ n ih =>
    have ht : truncatePrepare (⟨2, 0, 0, 0, 0, false, false⟩ : Settings ℚ) false
        ((fun r : ℚ => if r = 1 then [(⟨[0, 1], 2⟩ : Sub ℚ), ⟨[3], 1⟩] else [⟨[0], 2⟩, ⟨[3], 1⟩]) (1/2))
        = .ok ⟨3, [1, 1], true⟩ := by decide +kernel
    have hm : min ((1/2 : ℚ) * 1) 1 = 1/2 := by norm_num
    unfold doDiag
    rw [ht]
    simp only [if_true, Bool.not_true, Bool.false_eq_true, if_false, hm]
    exact ih

/-- **C10 fails for a step read from a checkpoint.** There the attempt does not
depend on the ratio (`c++/core.hpp:113-114` reads the same file), so an
insufficient stored spectrum makes the loop run for ever, for every factor. -/
theorem retry_diverges_on_checkpoint (factor : ℚ) :
    ∃ (stored : List (Sub ℚ)) (s : Settings ℚ),
      ∀ fuel ratio, doDiag (fun _ => stored) s false true factor fuel ratio = none := by
  refine ⟨[⟨[0], 2⟩, ⟨[3], 1⟩], ⟨2, 0, 0, 0, 0, false, false⟩, ?_⟩
  intro fuel
  induction fuel with
  | zero => intro _; rfl
  | succ n ih =>
    intro ratio
    have ht : truncatePrepare (⟨2, 0, 0, 0, 0, false, false⟩ : Settings ℚ) false
        [(⟨[0], 2⟩ : Sub ℚ), ⟨[3], 1⟩] = .ok ⟨3, [1, 1], true⟩ := by decide +kernel
    unfold doDiag
    rw [ht]
    simp only [if_true, Bool.not_true, Bool.false_eq_true, if_false]
    exact ih _

end Verif.Trunc
