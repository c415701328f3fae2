import Verif.Bw.Lemmas
import Verif.Bw.Spec
/-!
# Adaptive broadening: one iteration
-/

namespace Verif.Bw
open Verif.Tools

/-! ## The broadened function -/

theorem term_eq (E α : ℝ) (r : ℝ × ℝ) :
    (if (decide (E < 0) == decide (r.1 < 0)) then r.2 * bfnc E α r.1 else 0) = r.2 * Broad.logGauss α E r.1 := by
  unfold bfnc Broad.logGauss
  rcases lt_trichotomy E 0 with hE | hE | hE <;> rcases lt_trichotomy r.1 0 with hr | hr | hr
  · simp [hE, hr, hr.ne, hE.not_gt, hr.not_gt]
  · simp [hE, hr]
  · simp [hE, hr, hr.not_gt]
  · simp [hE, hr]
  · simp [hE, hr]
  · simp [hE, hr.not_gt]
  · simp [hE, hr, hE.not_gt]
  · simp [hr, hE.not_gt]
  · simp [hE, hr, hr.ne', hE.not_gt, hr.not_gt]

theorem broadenAt_eq (p : List (ℝ × ℝ)) (b : List ℝ) (E : ℝ) : broadenAt p b E = shape p b E := by
  unfold broadenAt shape
  congr 1
  refine List.map_congr_left fun r _ => ?_
  exact term_eq E r.2 r.1

theorem broaden_eq (o : Opt) (p : List (ℝ × ℝ)) (m b : List ℝ) : broaden o p m b = valuesOn o p m b := by
  unfold broaden valuesOn
  refine List.map_congr_left fun x _ => ?_
  dsimp only
  rw [broadenAt_eq]
  norm_num
  congr 1
  rw [and_comm]

/-! ## Integrals and derivatives by index -/

theorem integLoop_getD (l : List (ℝ × ℝ)) : ∀ (s : ℝ) (p : ℝ × ℝ) (k : Nat), k < l.length →
    (integLoop s p l).getD k 0 = s + ∑ i ∈ Finset.range (k + 1),
      (((p :: l).getD i (0, 0)).2 + ((p :: l).getD (i + 1) (0, 0)).2) / 2 * (((p :: l).getD (i + 1) (0, 0)).1 - ((p :: l).getD i (0, 0)).1) := by
  induction l with
  | nil => intro s p k hk; simp at hk
  | cons r l ih =>
    intro s p k hk
    rw [Finset.sum_range_succ']
    simp only [integLoop]
    cases k with
    | zero => simp; ring
    | succ k =>
      rw [List.getD_cons_succ, ih _ _ _ (by simpa using hk)]
      simp only [List.getD_cons_succ, List.getD_cons_zero]
      ring

theorem zip_getD {m a : List ℝ} (h : m.length = a.length) (i : Nat) : (m.zip a).getD i (0, 0) = (m.getD i 0, a.getD i 0) := by
  by_cases hi : i < m.length
  · rw [List.getD_eq_getElem _ _ (by simp [← h, hi]), List.getD_eq_getElem _ _ hi, List.getD_eq_getElem _ _ (by omega),
      List.getElem_zip]
  · rw [List.getD_eq_default _ _ (by simp; omega), List.getD_eq_default _ _ (by omega), List.getD_eq_default _ _ (by omega)]

theorem integrate_getD {m a : List ℝ} (h : m.length = a.length) (k : Nat) (hk : k < m.length) :
    (integrate m a).getD k 0 = cum (fun k => m.getD k 0) (fun k => a.getD k 0) k := by
  unfold integrate cum
  have hz : (m.zip a).length = m.length := by simp [h]
  split
  · rename_i e; rw [e] at hz; simp at hz; omega
  · rename_i p l e
    cases k with
    | zero => simp
    | succ k =>
      rw [List.getD_cons_succ, integLoop_getD _ _ _ _ (by rw [e] at hz; simp at hz; omega), ← e, zero_add]
      refine Finset.sum_congr rfl fun i _ => ?_
      simp only [zip_getD h]

theorem list_ext_getD {l r : List ℝ} (h : l.length = r.length) (hk : ∀ k, k < l.length → l.getD k 0 = r.getD k 0) : l = r := by
  apply List.ext_getElem h
  intro i h1 h2
  have := hk i h1
  rwa [List.getD_eq_getElem _ _ h1, List.getD_eq_getElem _ _ h2] at this

theorem integrate_eq {m a : List ℝ} (h : m.length = a.length) :
    integrate m a = (List.range m.length).map fun k : Nat => cum (fun k => m.getD k 0) (fun k => a.getD k 0) k := by
  apply list_ext_getD (by simp [integrate_length h])
  intro k hk
  rw [integrate_length h] at hk
  rw [integrate_getD h k hk, List.getD_eq_getElem _ _ (by simpa using hk)]
  simp

theorem consec_getElem {α : Type} (l : List α) (k : Nat) (h : k < (consec l).length) :
    (consec l)[k] = (l[k]'(by simp [consec] at h; omega), l[k + 1]'(by simp [consec] at h; omega)) := by
  simp [consec]

theorem deriv_eq {m : List ℝ} (hm : 1 ≤ m.length) (f : Nat → ℝ) :
    deriv m ((List.range m.length).map fun k : Nat => f k) = (List.range m.length).map fun k : Nat => slope (fun k => m.getD k 0) f k := by
  have hl := deriv_length (m := m) (f := (List.range m.length).map fun k : Nat => f k) (by simp) hm
  apply List.ext_getElem (by simp [hl])
  intro i h1 h2
  rw [hl] at h1
  cases i with
  | zero => simp [deriv, slope]
  | succ i =>
    simp only [deriv, List.getElem_cons_succ, List.getElem_map, consec_getElem, List.getElem_zip, List.getElem_range, slope, dlog]
    rw [List.getD_eq_getElem _ _ h1, List.getD_eq_getElem _ _ (by omega)]

/-! ## Frequency zero -/

theorem crossing {m : List ℝ} (hm : MeshOK m) : ∃ z, z + 1 < m.length ∧ m.getD z 0 < 0 ∧ 0 < m.getD (z + 1) 0 := by
  obtain ⟨x, y, r, hx, hy⟩ := hm.left
  obtain ⟨u, v, s, hu, hv⟩ := hm.right
  have h0 : m.getD 0 0 < 0 := by
    have := (List.pairwise_cons.1 (hx ▸ hm.inc)).1 y (by simp)
    rw [hx]; simp; linarith
  have hlast : 0 < m.getD (m.length - 1) 0 := by
    have e : m = s.reverse ++ [v, u] := by
      have := congrArg List.reverse hu; simpa using this
    have hi := hm.inc
    rw [e, List.pairwise_append] at hi
    have := (List.pairwise_cons.1 hi.2.1).1 u (by simp)
    rw [e]
    simp
    linarith
  have hl : 2 ≤ m.length := by rw [hx]; simp
  have key : ∀ j, j < m.length → 0 < m.getD j 0 → ∃ z, z + 1 < m.length ∧ m.getD z 0 < 0 ∧ 0 < m.getD (z + 1) 0 := by
    intro j
    induction j with
    | zero => intro _ h; linarith
    | succ j ih =>
      intro hj h
      have hne : m.getD j 0 ≠ 0 := by
        rw [List.getD_eq_getElem _ _ (by omega)]; exact hm.nz _ (List.getElem_mem _)
      rcases lt_or_gt_of_ne hne with h' | h'
      · exact ⟨j, hj, h', h⟩
      · exact ih (by omega) h'
  exact key _ (by omega) hlast

theorem crossing_unique {m : List ℝ} (hm : MeshOK m) {z w : Nat} (hz : z + 1 < m.length ∧ m.getD z 0 < 0 ∧ 0 < m.getD (z + 1) 0)
    (hw : w + 1 < m.length ∧ m.getD w 0 < 0 ∧ 0 < m.getD (w + 1) 0) : z = w := by
  have mono : ∀ i j, i ≤ j → j < m.length → m.getD i 0 ≤ m.getD j 0 := by
    intro i j hij hj
    rcases eq_or_lt_of_le hij with rfl | hij
    · exact le_rfl
    · rw [List.getD_eq_getElem _ _ (by omega), List.getD_eq_getElem _ _ hj]
      exact (List.pairwise_iff_getElem.1 hm.inc i j (by omega) hj hij).le
  rcases lt_trichotomy z w with h | h | h
  · have := mono (z + 1) w (by omega) (by omega); linarith [hz.2.2, hw.2.1]
  · exact h
  · have := mono (w + 1) z (by omega) (by omega); linarith [hw.2.2, hz.2.1]

theorem omega0_eq {m f : List ℝ} (hm : MeshOK m) (hf : m.length = f.length) {z : Nat} (hz : z + 1 < m.length)
    (h1 : m.getD z 0 < 0) (h2 : 0 < m.getD (z + 1) 0) : omega0 m f = (f.getD z 0 + f.getD (z + 1) 0) / 2 := by
  unfold omega0
  have hl : (consec (m.zip f)).length = m.length - 1 := by simp [consec, ← hf]
  have hget : ∀ i (h : i < (consec (m.zip f)).length), (consec (m.zip f))[i] =
      ((m.getD i 0, f.getD i 0), (m.getD (i + 1) 0, f.getD (i + 1) 0)) := by
    intro i h
    rw [hl] at h
    rw [consec_getElem, List.getElem_zip, List.getElem_zip, List.getD_eq_getElem _ _ (by omega), List.getD_eq_getElem _ _ (by omega),
      List.getD_eq_getElem _ _ (by omega), List.getD_eq_getElem _ _ (by omega)]
  cases hfind : (consec (m.zip f)).find? fun p => decide (p.1.1 < 0) && decide (0 < p.2.1) with
  | none =>
    exfalso
    have := List.find?_eq_none.1 hfind _ (List.getElem_mem (by rw [hl]; omega : z < (consec (m.zip f)).length))
    rw [hget] at this
    exact this (by rw [Bool.and_eq_true]; exact ⟨decide_eq_true h1, decide_eq_true h2⟩)
  | some p =>
    dsimp only
    obtain ⟨hp, -⟩ := List.find?_eq_some_iff_append.1 hfind
    obtain ⟨i, hi, rfl⟩ := List.getElem_of_mem (List.mem_of_find?_eq_some hfind)
    rw [hget] at hp ⊢
    rw [hl] at hi
    have hp' := (Bool.and_eq_true _ _).mp hp
    have : z = i := crossing_unique hm ⟨hz, h1, h2⟩ ⟨by omega, of_decide_eq_true hp'.1, of_decide_eq_true hp'.2⟩
    rw [this]

/-! ## One iteration -/

theorem calcB_map (o : Opt) (f g : Nat → ℝ) (n : Nat) : calcB o ((List.range n).map fun k : Nat => f k) ((List.range n).map fun k : Nat => g k) =
    (List.range n).map fun k : Nat => widthOf o.b0 o.q (f k) (g k) := by
  unfold calcB
  rw [List.zip_map', List.map_map]
  refine List.map_congr_left fun k _ => ?_
  simp only [Function.comp, widthOf]
  congr 1
  ring

theorem forall₂_keep {α β : Type} {R S : α → β → Prop} {l : List α} {r : List β} (h : List.Forall₂ R l r)
    (hs : ∀ a b, R a b → S a b) : List.Forall₂ S l r := h.imp hs

/-- The new widths of one iteration. -/
theorem widths_step {o : Opt} (hq : 0 < o.q) (hb : 0 < o.b0) (p : List (ℝ × ℝ)) {m a : List ℝ} (hm : MeshOK m)
    (ha : m.length = a.length) :
    let inta := integrate m a
    let intb := combB m inta
    let intc := combC inta
    ∃ b, recalcB o p m (calcB o (deriv m intb) (deriv m intc)) (calcB o (deriv m inta) (deriv m intb)) = .ok b ∧
      NewWidths o o.bmin m a p b ∧ b.length = p.length ∧ ∀ w ∈ b, 0 < w ∧ o.bmin ≤ w ∧ w ≤ max o.bmin o.b0 := by
  obtain ⟨z, hz1, hz2, hz3⟩ := crossing hm
  have hl1 : 1 ≤ m.length := by omega
  intro inta intb intc
  have e1 : inta = (List.range m.length).map fun k : Nat => cum (fun k => m.getD k 0) (fun k => a.getD k 0) k := integrate_eq ha
  have hli : m.length = inta.length := by rw [e1]; simp
  have gi : ∀ k, k < m.length → inta.getD k 0 = cum (fun k => m.getD k 0) (fun k => a.getD k 0) k :=
    fun k hk => integrate_getD ha k hk
  have e0 := omega0_eq hm hli hz1 hz2 hz3
  rw [gi z (by omega), gi (z + 1) hz1] at e0
  have e2 : intb = (List.range m.length).map fun k : Nat => (cum (fun k => m.getD k 0) (fun k => a.getD k 0) k -
      (cum (fun k => m.getD k 0) (fun k => a.getD k 0) z + cum (fun k => m.getD k 0) (fun k => a.getD k 0) (z + 1)) / 2) := by
    show inta.map (· - omega0 m inta) = _
    rw [e0, e1, List.map_map]
    rfl
  have e3 : intc = (List.range m.length).map fun k : Nat => (cum (fun k => m.getD k 0) (fun k => a.getD k 0) (m.length - 1) -
      cum (fun k => m.getD k 0) (fun k => a.getD k 0) k) := by
    show inta.map (inta.getLastD 0 - ·) = _
    have hlast : inta.getLastD 0 = cum (fun k => m.getD k 0) (fun k => a.getD k 0) (m.length - 1) := by
      rw [← gi (m.length - 1) (by omega), hli, List.getLastD_eq_getLast?, List.getLast?_eq_getElem?, List.getD_eq_getElem?_getD]
    rw [hlast, e1, List.map_map]
    rfl
  have hda := deriv_eq hl1 fun k => cum (fun k => m.getD k 0) (fun k => a.getD k 0) k
  have hdb := deriv_eq hl1 fun k => (cum (fun k => m.getD k 0) (fun k => a.getD k 0) k -
      (cum (fun k => m.getD k 0) (fun k => a.getD k 0) z + cum (fun k => m.getD k 0) (fun k => a.getD k 0) (z + 1)) / 2)
  have hdc := deriv_eq hl1 fun k => (cum (fun k => m.getD k 0) (fun k => a.getD k 0) (m.length - 1) -
      cum (fun k => m.getD k 0) (fun k => a.getD k 0) k)
  rw [← e1] at hda
  rw [← e2] at hdb
  rw [← e3] at hdc
  have rn : ∀ v ∈ calcB o (deriv m inta) (deriv m intb), 0 < v ∧ v ≤ o.b0 := calcB_range hq hb _ _
  have rp : ∀ v ∈ calcB o (deriv m intb) (deriv m intc), 0 < v ∧ v ≤ o.b0 := calcB_range hq hb _ _
  have hn := calcB_map o (slope (fun k => m.getD k 0) fun k => cum (fun k => m.getD k 0) (fun k => a.getD k 0) k)
    (slope (fun k => m.getD k 0) fun k => (cum (fun k => m.getD k 0) (fun k => a.getD k 0) k -
      (cum (fun k => m.getD k 0) (fun k => a.getD k 0) z + cum (fun k => m.getD k 0) (fun k => a.getD k 0) (z + 1)) / 2)) m.length
  have hp := calcB_map o (slope (fun k => m.getD k 0) fun k => (cum (fun k => m.getD k 0) (fun k => a.getD k 0) k -
      (cum (fun k => m.getD k 0) (fun k => a.getD k 0) z + cum (fun k => m.getD k 0) (fun k => a.getD k 0) (z + 1)) / 2))
    (slope (fun k => m.getD k 0) fun k => (cum (fun k => m.getD k 0) (fun k => a.getD k 0) (m.length - 1) -
      cum (fun k => m.getD k 0) (fun k => a.getD k 0) k)) m.length
  rw [← hda, ← hdb] at hn
  rw [← hdb, ← hdc] at hp
  have ln : m.length = (calcB o (deriv m inta) (deriv m intb)).length := by rw [hn]; simp
  have lp : m.length = (calcB o (deriv m intb) (deriv m intc)).length := by rw [hp]; simp
  have i0 : ∀ t : Tab ℝ, Inv t ⟨none, 0, 0, 0, 0, 0, false⟩ := by intro t i hi; simp at hi
  obtain ⟨vs, v1, v2⟩ := recalcLoop_spec (bmin := o.bmin) (b0 := o.b0) (table_good hm lp) (table_good hm ln)
    (fun x v hv => interp_range hm lp rp hv) (fun x v hv => interp_range hm ln rn hv) (p.map Prod.fst) _ _ (i0 _) (i0 _)
  refine ⟨vs.map fun v => max o.bmin v, ?_, ?_, ?_, ?_⟩
  · unfold recalcB
    rw [if_neg (by rintro rfl; simp at hl1)]
    exact v1
  · refine ⟨z, hz1, hz2, hz3, ?_⟩
    dsimp only
    rw [List.forall₂_map_right_iff]
    rw [List.forall₂_map_left_iff] at v2
    refine v2.imp fun r v hv => ⟨v, rfl, ?_⟩
    by_cases h : r.1 < 0
    · rw [if_pos h, hn] at hv
      exact Or.inl ⟨h, hv⟩
    · rw [if_neg h, hp] at hv
      exact Or.inr ⟨not_lt.1 h, hv⟩
  · have := v2.length_eq
    simpa using this.symm
  · intro w hw
    obtain ⟨v, hv, rfl⟩ := List.mem_map.1 hw
    obtain ⟨i, hi, rfl⟩ := List.getElem_of_mem hv
    have h3 := (List.forall₂_iff_get.1 v2).2 i (by rw [v2.length_eq]; exact hi) hi
    have h4 : 0 < vs[i] ∧ vs[i] ≤ o.b0 := by
      simp only [List.get_eq_getElem] at h3
      split at h3
      · exact interp_range hm ln rn h3
      · exact interp_range hm lp rp h3
    exact ⟨lt_of_lt_of_le h4.1 (le_max_right _ _), le_max_left _ _, max_le_max le_rfl h4.2⟩

end Verif.Bw
