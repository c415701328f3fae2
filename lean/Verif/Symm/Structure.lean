import Verif.Symm.Count
import Mathlib.Data.List.Nodup
/-!
# Helper lemmas: the structure of the next step
-/

namespace Verif.Symm
open Verif.Invar

/-! ## Lists in `Option` -/

theorem mapM_some {α β} (l : List α) (f : α → Option β) (h : α → β)
    (hf : ∀ x ∈ l, f x = some (h x)) : l.mapM f = some (l.map h) := by
  induction l with
  | nil => rfl
  | cons x xs ih =>
    rw [List.mapM_cons, hf x (by simp), ih (fun y hy => hf y (by simp [hy]))]
    rfl

theorem mapM_getElem? {α β} (l : List α) (f : α → Option β) (r : List β) (h : l.mapM f = some r) (i : Nat) :
    r[i]? = (l[i]?).bind f := by
  induction l generalizing r i with
  | nil => simp at h; subst h; simp
  | cons x xs ih =>
    rw [List.mapM_cons] at h
    cases hx : f x with
    | none => simp [hx] at h
    | some y =>
      cases hxs : xs.mapM f with
      | none => simp [hx, hxs] at h
      | some ys =>
        simp [hx, hxs] at h
        subst h
        cases i with
        | zero => simp [hx]
        | succ i => simpa using ih ys hxs i

/-! ## Validity of descendants -/

theorem desc1_compose {t d x} (hd : Valid1 t d) (hx : Valid1 t x) :
    Valid1 t (desc1 t d x) ∧ Compose1 t d (desc1 t d x) x := by
  cases t <;> simp only [Valid1] at hd hx ⊢
  · refine ⟨trivial, ?_⟩
    simp only [Compose1, desc1]; omega
  · rcases hd with rfl | rfl <;> rcases hx with rfl | rfl <;> simp [Compose1, desc1]
  · rcases hd with rfl | rfl | rfl <;> rcases hx with rfl | rfl | rfl <;>
      exact ⟨by decide, by decide, by decide, by decide⟩

theorem desc_compose {ts d x} (hd : Valid ts d) (hx : Valid ts x) :
    Valid ts (desc ts d x) ∧ Compose ts d (desc ts d x) x := by
  induction ts generalizing d x with
  | nil => cases hd; cases hx; exact ⟨.nil, .nil⟩
  | cons t ts ih =>
    cases hd with | cons hd1 hd2 =>
    cases hx with | cons hx1 hx2 =>
    exact ⟨.cons (desc1_compose hd1 hx1).1 (ih hd2 hx2).1,
      .cons (desc1_compose hd1 hx1).2 (ih hd2 hx2).2⟩

/-- Descendants and ancestors, as a relation. -/
theorem newSubspace1_iff (S : Symmetry) (I J : Label) (r : Label × Label)
    (hr : Valid (types S.fields) r.1) (hI : Valid (types S.fields) I) :
    S.newSubspace1 I r = some J ↔ Valid (types S.fields) J ∧ Compose (types S.fields) r.1 J I := by
  obtain ⟨e, h1, h2, h3⟩ := inverse_valid hr
  simp only [Symmetry.newSubspace1, h1, Option.bind_eq_bind, Option.bind_some]
  rw [combine_eq_some_iff h2 hI]
  exact compose_cancel hI h2 h3

theorem newSubspace1_eq_desc (S : Symmetry) (I : Label) (r : Label × Label)
    (hr : Valid (types S.fields) r.1) (hI : Valid (types S.fields) I) :
    S.newSubspace1 I r = some (desc (types S.fields) r.1 I) :=
  (newSubspace1_iff S I _ r hr hI).2 (desc_compose hr hI)

theorem desc_unique {ts d x y} (hd : Valid ts d) (hx : Valid ts x) (hy : Valid ts y)
    (h : Compose ts d y x) : y = desc ts d x := by
  obtain ⟨e, _, h2, h3⟩ := inverse_valid hd
  have h4 := (compose_cancel hx h2 h3).2 ⟨hy, h⟩
  have h5 := (compose_cancel hx h2 h3).2 (desc_compose hd hx)
  exact compose_unique h4 h5

/-! ## Validity of table rows -/

def RowsValid (S : Symmetry) : Prop :=
  ∀ r ∈ S.table, Valid (types S.fields) r.1 ∧ Physical S.fields r.2

theorem physical_valid {fs I} (h : Physical fs I) : Valid (types fs) I := by
  induction fs generalizing I with
  | nil => cases h; exact .nil
  | cons f fs ih =>
    cases h with | cons h1 h2 => exact .cons h1.1 (ih h2)

theorem expand_valid (fs : List Field) (hf : ∀ f ∈ fs, goodField f) (Q : Label) (hQ : Physical fs Q) :
    ∀ r ∈ expand fs Q, Valid (types fs) r.1 ∧ r.2 = Q := by
  induction fs generalizing Q with
  | nil => cases hQ; intro r hr; simp only [expand, List.mem_singleton] at hr; subst hr; exact ⟨.nil, rfl⟩
  | cons f fs ih =>
    cases hQ with | cons hq hqs =>
    rename_i q qs
    intro r hr
    simp only [expand, List.mem_flatMap, List.mem_map] at hr
    obtain ⟨d, hd, r', hr', rfl⟩ := hr
    obtain ⟨h1, h2⟩ := ih (fun f' hf' => hf f' (by simp [hf'])) qs hqs r' hr'
    refine ⟨.cons ?_ h1, by simp [h2]⟩
    have hgood := hf f (by simp)
    obtain ⟨nm, t, te, m, al⟩ := f
    obtain ⟨hq1, _⟩ := hq
    simp only at hq1 ⊢
    cases t
    · trivial
    · cases te <;> cases m <;> cases al <;> simp [goodField] at hgood
      simp only [expand1, List.mem_singleton] at hd; subst hd; exact hq1
    · cases te <;> cases m <;> cases al <;> simp [goodField] at hgood
      simp only [expand1, List.mem_singleton] at hd; subst hd
      simp only [Valid1] at hq1
      rcases hq1 with rfl | rfl | rfl <;> decide

theorem rowsValid_of_decomposes (S : Symmetry) (ms : List Label) (h : decomposes S ms) : RowsValid S := by
  simp only [decomposes, Bool.and_eq_true, List.all_eq_true, decide_eq_true_eq, List.isPerm_iff] at h
  obtain ⟨⟨hf, hm⟩, hp⟩ := h
  intro r hr
  rw [hp.mem_iff, List.mem_flatMap] at hr
  obtain ⟨Q, hQ, hr⟩ := hr
  obtain ⟨h1, h2⟩ := expand_valid S.fields hf Q (hm Q hQ) r hr
  exact ⟨h1, h2 ▸ hm Q hQ⟩

theorem newSubspaces_eq (S : Symmetry) (hv : RowsValid S) (I : Label) (hI : Valid (types S.fields) I) :
    S.newSubspaces I = some (S.table.map fun r => desc (types S.fields) r.1 I) :=
  mapM_some _ _ _ fun r hr => newSubspace1_eq_desc S I r (hv r hr).1 hI

theorem ancestors_some (S : Symmetry) (hv : RowsValid S) (J : Label) (hJ : Valid (types S.fields) J) :
    ∃ anc, S.ancestors J = some anc := by
  have : ∀ r ∈ S.table, combine (types S.fields) r.1 J = some ((combine (types S.fields) r.1 J).getD []) := by
    intro r hr
    obtain ⟨c, h, _⟩ := combine_valid (hv r hr).1 hJ
    simp [h]
  exact ⟨_, mapM_some _ _ _ this⟩

/-! ## `std::set` insertion -/

theorem mem_setInsert (x y : Label) (s : List Label) : y ∈ setInsert x s ↔ y = x ∨ y ∈ s := by
  induction s with
  | nil => simp [setInsert]
  | cons z zs ih =>
    simp only [setInsert]
    split
    · simp
    · split
      · simp only [List.mem_cons, ih]; tauto
      · rename_i h1 h2
        have hxz : x = z := by
          rcases Verif.Invar.lt_total' x z with h | h | h
          · exact absurd h h1
          · exact h
          · exact absurd h h2
        subst hxz; simp

/-- Sorted by `operator<`. -/
abbrev Sorted (s : List Label) : Prop := s.Pairwise fun a b => lt a b = true

theorem sorted_setInsert (x : Label) (s : List Label) (hs : Sorted s) : Sorted (setInsert x s) := by
  induction s with
  | nil => simp [setInsert]
  | cons z zs ih =>
    rw [Sorted, List.pairwise_cons] at hs
    simp only [setInsert]
    split
    · rename_i h
      refine List.pairwise_cons.2 ⟨?_, List.pairwise_cons.2 hs⟩
      intro y hy
      rcases List.mem_cons.1 hy with rfl | hy
      · exact h
      · exact Verif.Invar.lt_trans' _ _ _ h (hs.1 y hy)
    · split
      · rename_i h1 h2
        refine List.pairwise_cons.2 ⟨?_, ih hs.2⟩
        intro y hy
        rcases (mem_setInsert x y zs).1 hy with rfl | hy
        · exact h2
        · exact hs.1 y hy
      · exact List.pairwise_cons.2 hs

theorem foldl_setInsert (l s : List Label) (hs : Sorted s) :
    Sorted (l.foldl (fun s x => setInsert x s) s) ∧
    ∀ y, y ∈ l.foldl (fun s x => setInsert x s) s ↔ y ∈ l ∨ y ∈ s := by
  induction l generalizing s with
  | nil => simp [hs]
  | cons x xs ih =>
    obtain ⟨h1, h2⟩ := ih (setInsert x s) (sorted_setInsert x s hs)
    refine ⟨h1, fun y => ?_⟩
    rw [List.foldl_cons, h2, mem_setInsert]
    simp only [List.mem_cons]; tauto

theorem sorted_nodup {s : List Label} (hs : Sorted s) : s.Nodup :=
  hs.imp fun h => by rintro rfl; simp [Verif.Invar.lt_irrefl'] at h

theorem newSubspaceSet_spec (S : Symmetry) (hv : RowsValid S) (diag : Sizes)
    (hd : ∀ p ∈ diag, Physical S.fields p.1) :
    ∃ ls, newSubspaceSet S diag = some ls ∧ Sorted ls ∧
      ∀ J, J ∈ ls ↔ allowed S.fields J = true ∧
        ∃ p ∈ diag, ∃ r ∈ S.table, J = desc (types S.fields) r.1 p.1 := by
  have h1 : diag.mapM (fun p => S.newSubspaces p.1)
      = some (diag.map fun p => S.table.map fun r => desc (types S.fields) r.1 p.1) :=
    mapM_some _ _ _ fun p hp => newSubspaces_eq S hv p.1 (physical_valid (hd p hp))
  refine ⟨_, by simp only [newSubspaceSet, h1, Option.bind_eq_bind, Option.bind_some]; rfl, ?_, ?_⟩
  · exact (foldl_setInsert _ [] List.Pairwise.nil).1
  · intro J
    rw [(foldl_setInsert _ [] List.Pairwise.nil).2]
    simp only [List.mem_filter, List.mem_flatten, List.mem_map, List.not_mem_nil, or_false]
    constructor
    · rintro ⟨⟨_, ⟨p, hp, rfl⟩, hJ⟩, ha⟩
      obtain ⟨r, hr, rfl⟩ := List.mem_map.1 hJ
      exact ⟨ha, p, hp, r, hr, rfl⟩
    · rintro ⟨ha, p, hp, r, hr, rfl⟩
      exact ⟨⟨_, ⟨p, hp, rfl⟩, List.mem_map.2 ⟨r, hr, rfl⟩⟩, ha⟩

/-! ## Sums -/

theorem sum_comm' {α β} (l : List α) (m : List β) (f : α → β → Int) :
    (l.map fun a => (m.map fun b => f a b).sum).sum = (m.map fun b => (l.map fun a => f a b).sum).sum := by
  induction l with
  | nil => simp
  | cons a l ih => simp [ih, List.sum_map_add]

theorem sum_ite_eq_nodup (ls : List Label) (hn : ls.Nodup) (J : Label) (f : Label → Int) :
    (ls.map fun K => if K = J then f K else 0).sum = if J ∈ ls then f J else 0 := by
  induction ls with
  | nil => simp
  | cons K ls ih =>
    rw [List.nodup_cons] at hn
    simp only [List.map_cons, List.sum_cons, ih hn.2, List.mem_cons]
    by_cases h : K = J
    · subst h; simp [hn.1]
    · simp [h, Ne.symm h]

theorem sizeSubspace_sum (diag : Sizes) (hn : (diag.map Prod.fst).Nodup) (A : Label) :
    (sizeSubspace diag A : Int) = (diag.map fun p => if p.1 = A then (p.2 : Int) else 0).sum := by
  induction diag with
  | nil => simp [sizeSubspace]
  | cons p ps ih =>
    obtain ⟨K, n⟩ := p
    simp only [List.map_cons, List.nodup_cons] at hn
    have ih' := ih hn.2
    simp only [List.map_cons, List.sum_cons]
    rw [← ih']
    by_cases h : K = A
    · subst h
      have h0 : sizeSubspace ps K = 0 := by
        simp only [sizeSubspace]
        have : List.lookup K ps = none := by
          rw [List.lookup_eq_none_iff]
          intro q hq
          simp only [beq_eq_false_iff_ne, ne_eq, bne_iff_ne]
          intro he
          exact hn.1 (List.mem_map.2 ⟨q, hq, he.symm⟩)
        simp [this]
      simp [sizeSubspace] at h0 ⊢
      simp [List.lookup] at *
      omega
    · have : (A == K) = false := by simpa using Ne.symm h
      simp [sizeSubspace, List.lookup, this, h]

end Verif.Symm
