import Verif.Symm.Structure
/-!
# Helper lemmas: the number of states of the next step
-/

namespace Verif.Symm
open Verif.Invar

theorem zip_map_left {α β γ} (l : List α) (f : α → β) (h : β × α → γ) :
    (((l.map f).zip l).map h) = l.map fun a => h (f a, a) := by
  induction l with
  | nil => rfl
  | cons a l ih => simp [ih]

theorem combine_total {ts d x} (hd : Valid ts d) (hx : Valid ts x) :
    ∃ c, combine ts d x = some c ∧ Valid ts c ∧ Compose ts d x c := combine_valid hd hx

/-- Total version of the ancestor label. -/
def anc (S : Symmetry) (J : Label) (r : Label × Label) : Label :=
  (combine (types S.fields) r.1 J).getD []

theorem ancestors_eq (S : Symmetry) (hv : RowsValid S) (J : Label) (hJ : Valid (types S.fields) J) :
    S.ancestors J = some (S.table.map (anc S J)) := by
  apply mapM_some
  intro r hr
  obtain ⟨c, h, _⟩ := combine_valid (hv r hr).1 hJ
  simp [anc, h]

theorem anc_eq_iff (S : Symmetry) (hv : RowsValid S) (I J : Label) (r : Label × Label) (hr : r ∈ S.table)
    (hI : Valid (types S.fields) I) (hJ : Valid (types S.fields) J) :
    anc S J r = I ↔ J = desc (types S.fields) r.1 I := by
  obtain ⟨c, h, h2, h3⟩ := combine_valid (hv r hr).1 hJ
  simp only [anc, h, Option.getD_some]
  constructor
  · rintro rfl; exact desc_unique (hv r hr).1 hI hJ h3
  · rintro rfl; exact compose_unique h3 (desc_compose (hv r hr).1 hI).2

theorem subspaceDims_eq (S : Symmetry) (hv : RowsValid S) (diag : Sizes) (J : Label)
    (hJ : Valid (types S.fields) J) :
    subspaceDims S diag J = some (S.table.map fun r =>
      if triangle S.fields J (anc S J r) r.2 then sizeSubspace diag (anc S J r) else 0) := by
  simp only [subspaceDims, ancestors_eq S hv J hJ, Option.bind_eq_bind, Option.bind_some]
  rw [zip_map_left]
  rfl

theorem natCast_sum_map {α} (l : List α) (f : α → Nat) :
    (((l.map f).sum : Nat) : Int) = (l.map fun a => (f a : Int)).sum := by
  induction l with
  | nil => rfl
  | cons a l ih => simp [ih]

theorem dims_sum (S : Symmetry) (hv : RowsValid S) (diag : Sizes) (hn : (diag.map Prod.fst).Nodup)
    (hd : ∀ p ∈ diag, Physical S.fields p.1) (J : Label) (hJ : Valid (types S.fields) J) :
    ((S.table.map fun r =>
      if triangle S.fields J (anc S J r) r.2 then sizeSubspace diag (anc S J r) else 0).sum : Int)
    = (diag.map fun p => (p.2 : Int) * (S.table.map fun r =>
        if J = desc (types S.fields) r.1 p.1 then
          (if triangle S.fields (desc (types S.fields) r.1 p.1) p.1 r.2 then (1 : Int) else 0) else 0).sum).sum := by
  rw [natCast_sum_map]
  simp only [← sum_map_mul_left']
  rw [sum_comm']
  congr 1
  apply List.map_congr_left
  intro r hr
  have key : ((if triangle S.fields J (anc S J r) r.2 then sizeSubspace diag (anc S J r) else 0 : Nat) : Int)
      = (diag.map fun p => if p.1 = anc S J r then
          (if triangle S.fields J p.1 r.2 then (p.2 : Int) else 0) else 0).sum := by
    by_cases h : triangle S.fields J (anc S J r) r.2 = true
    · simp only [h, if_true]
      rw [sizeSubspace_sum diag hn]
      congr 1
      apply List.map_congr_left
      intro p _
      by_cases hp : p.1 = anc S J r
      · simp [hp, h]
      · simp [hp]
    · simp only [h]
      rw [eq_comm]
      simp only [Bool.false_eq_true, if_false, Nat.cast_zero]
      apply sum_map_zero
      intro p _
      by_cases hp : p.1 = anc S J r
      · simp [hp, h]
      · simp [hp]
  rw [key]
  congr 1
  apply List.map_congr_left
  intro p hp
  have hI := physical_valid (hd p hp)
  have := anc_eq_iff S hv p.1 J r hr hI hJ
  by_cases h : J = desc (types S.fields) r.1 p.1
  · have h' : p.1 = anc S J r := (this.2 h).symm
    rw [if_pos h', if_pos h, ← h]
    split <;> simp
  · have h' : ¬ p.1 = anc S J r := fun e => h (this.1 e.symm)
    rw [if_neg h', if_neg h]; simp

/-- Double counting. -/
theorem total_states (S : Symmetry) (ms : List Label) (hdec : decomposes S ms) (diag : Sizes)
    (hn : (diag.map Prod.fst).Nodup) (hd : ∀ p ∈ diag, Physical S.fields p.1)
    (ls : List Label) (hls : ls.Nodup)
    (hmem : ∀ J, J ∈ ls ↔ allowed S.fields J = true ∧
        ∃ p ∈ diag, ∃ r ∈ S.table, J = desc (types S.fields) r.1 p.1) :
    (ls.map fun J => mult S.fields J *
      ((S.table.map fun r =>
        if triangle S.fields J (anc S J r) r.2 then sizeSubspace diag (anc S J r) else 0).sum : Int)).sum
    = (S.combs : Int) * stateCount S.fields diag := by
  have hv := rowsValid_of_decomposes S ms hdec
  have hJv : ∀ J ∈ ls, Valid (types S.fields) J := by
    intro J hJ
    obtain ⟨_, p, hp, r, hr, rfl⟩ := (hmem J).1 hJ
    exact (desc_compose (hv r hr).1 (physical_valid (hd p hp))).1
  have step1 : ∀ J ∈ ls, mult S.fields J *
      ((S.table.map fun r =>
        if triangle S.fields J (anc S J r) r.2 then sizeSubspace diag (anc S J r) else 0).sum : Int)
      = (diag.map fun p => (S.table.map fun r => if J = desc (types S.fields) r.1 p.1 then
          (p.2 : Int) * (mult S.fields J *
          (if triangle S.fields (desc (types S.fields) r.1 p.1) p.1 r.2 then (1 : Int) else 0)) else 0).sum).sum := by
    intro J hJ
    rw [dims_sum S hv diag hn hd J (hJv J hJ), ← sum_map_mul_left']
    congr 1
    apply List.map_congr_left
    intro p _
    rw [← sum_map_mul_left', ← sum_map_mul_left']
    congr 1
    apply List.map_congr_left
    intro r _
    split
    · ring
    · simp
  rw [List.map_congr_left step1, sum_comm', stateCount, ← sum_map_mul_left']
  congr 1
  apply List.map_congr_left
  intro p hp
  rw [sum_comm']
  have step2 : ∀ r ∈ S.table, (ls.map fun J => if J = desc (types S.fields) r.1 p.1 then
          (p.2 : Int) * (mult S.fields J *
          (if triangle S.fields (desc (types S.fields) r.1 p.1) p.1 r.2 then (1 : Int) else 0)) else 0).sum
      = (p.2 : Int) * term S.fields p.1 r := by
    intro r hr
    rw [sum_ite_eq_nodup ls hls]
    have hm : desc (types S.fields) r.1 p.1 ∈ ls ↔ allowed S.fields (desc (types S.fields) r.1 p.1) = true := by
      rw [hmem]
      exact ⟨fun h => h.1, fun h => ⟨h, p, hp, r, hr, rfl⟩⟩
    simp only [term]
    by_cases ha : allowed S.fields (desc (types S.fields) r.1 p.1) = true
    · rw [if_pos (hm.2 ha)]
      simp only [ha, Bool.true_and]
      split <;> simp
    · rw [if_neg (fun h => ha (hm.1 h))]
      simp [ha]
  rw [List.map_congr_left step2, sum_map_mul_left', sum_table S ms hdec p.1 (hd p hp)]
  ring

/-! ## Coupled descendants are physical -/

theorem triangle_physical (fs : List Field) (hf : ∀ f ∈ fs, goodField f) (I J Q : Label)
    (hI : Physical fs I) (hQ : Physical fs Q) (hJ : Valid (types fs) J)
    (h : triangle fs J I Q = true) : Physical fs J := by
  induction fs generalizing I J Q with
  | nil => cases hJ; exact .nil
  | cons f fs ih =>
    cases hI with | cons hi his =>
    cases hQ with | cons hq hqs =>
    cases hJ with | cons hj hjs =>
    simp only [triangle, Bool.and_eq_true] at h
    refine .cons ⟨hj, ?_, ?_⟩ (ih (fun f' hf' => hf f' (by simp [hf'])) _ _ _ his hqs hjs h.2)
    · intro ht
      have h1 := h.1
      simp only [ht, evalTest, su2Triangle_iff, SpinsCouple] at h1
      omega
    · intro ht
      have h1 := h.1
      simp only [ht, evalTest, su2Triangle_iff, SpinsCouple] at h1
      omega

end Verif.Symm
