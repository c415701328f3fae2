import Verif.Sumrule.Model
import Verif.Sumrule.Props
import Verif.Spectral.AltProps
import Verif.Coef.Spec
/-!
# The total weight of the peaks of one step
-/

namespace Verif.Sumrule
open Verif.Invar Verif.Symm Verif.Mat Verif.Dm Verif.Spectral Finset

/-- The contribution of the kept states. -/
noncomputable def keptExpect (S : Symmetry) (st : SpecStep) (ρ : Rho ℂ) (P : Scalar ℂ) : ℂ :=
  (st.shell.thermo.map fun d => ((mult S.fields d.label : ℤ) : ℂ) * ∑ k ∈ range d.min, ∑ l ∈ range d.min,
    ((ρ.lookup d.label).getD Mat.empty).e k l * P d.label l k).sum

theorem sum_KD (d : EigD) (h : d.boundary ≤ d.nrall) (f : ℕ → ℂ) :
    (d.K.map f).sum + (d.D.map f).sum = ∑ i ∈ range d.nrall, f i := by
  have : d.K ++ d.D = List.range d.nrall := by
    unfold EigD.K EigD.D
    rw [List.range_eq_range']
    have := List.range'_append (s := 0) (m := d.boundary) (n := d.nrall - d.boundary) (step := 1)
    simp only [Nat.one_mul, Nat.zero_add] at this
    rw [this]
    congr 1
    omega
  rw [← List.sum_append, ← List.map_append, this]
  rfl

theorem sum_K (d : EigD) (f : ℕ → ℂ) : (d.K.map f).sum = ∑ i ∈ range d.boundary, f i := by
  unfold EigD.K
  rw [← List.range_eq_range']
  rfl

/-- All pairs of states except those of two kept states. -/
theorem sum_fdmPairs (c : Calc) (h : Sized c) (f : ℕ → ℕ → ℂ) :
    ((fdmPairs c).map fun x => f x.1 x.2).sum =
      (∑ j ∈ range c.dj.nrall, ∑ i ∈ range c.di.nrall, f j i) - ∑ j ∈ range c.dj.boundary, ∑ i ∈ range c.di.boundary, f j i := by
  unfold fdmPairs
  rw [List.map_append, List.map_append, List.sum_append, List.sum_append, sum_loop2, sum_loop2, sum_loop2]
  rw [← sum_KD c.dj h.bj]
  simp only [← sum_KD c.di h.bi, ← sum_K, List.sum_map_add]
  ring

theorem block_ls (c : Calc) (h : Sized c) :
    ∃ l, fdmLs c = some l ∧ (l.map Prod.snd).sum = -c.sign * c.factor *
      ((∑ j ∈ range c.dj.nrall, ∑ k ∈ range c.dj.nrall, fullRho c.dj c.rhoJ c.wnf c.T j k *
          ∑ i ∈ range c.di.nrall, c.op2.e k i * star (c.op1.e j i))
        - ∑ j ∈ range c.dj.boundary, ∑ k ∈ range c.dj.boundary, c.rhoJ.e j k *
          ∑ i ∈ range c.di.boundary, c.op2.e k i * star (c.op1.e j i)) := by
  refine ⟨_, fdmLs_spec c h, ?_⟩
  rw [List.map_map]
  simp only [Function.comp_def]
  rw [sum_fdmPairs c h fun j i => c.factor * lsWeight c j i, mul_sub]
  congr 1
  · rw [mul_sum]
    refine sum_congr rfl fun j _ => ?_
    simp only [lsWeight, mul_sum]
    rw [sum_comm]
    exact sum_congr rfl fun k _ => sum_congr rfl fun i _ => by ring
  · rw [mul_sum]
    refine sum_congr rfl fun j hj => ?_
    simp only [lsWeight]
    simp only [sum_fullRho_K' c.dj c.rhoJ c.wnf c.T _ j (mem_range.1 hj) h.bj, mul_sum]
    rw [sum_comm]
    exact sum_congr rfl fun k _ => sum_congr rfl fun i _ => by ring

theorem eigD_boundary (d : Thermo.Sub) : (eigD d).boundary = d.min := rfl

/-- A step of the second sweep as it is when the spectral functions are computed: `last` says
whether it is the last step. -/
structure StepOK (last : Bool) (st : SpecStep) : Prop where
  /-- the stored spectrum has the states of the step -/
  states : st.shell.thermo.map (fun d => (d.label, d.dim)) = Coef.stateCounts st.shell.diag
  kept : st.shell.thermo.map (fun d => (d.label, d.kept)) = keptSizes st.shell.store
  le : ∀ d ∈ st.shell.thermo, d.kept ≤ d.dim
  flag : ∀ d ∈ st.shell.thermo, d.last = last
  nodup : (st.shell.thermo.map Thermo.Sub.label).Nodup
  /-- the blocks of the operators -/
  keysA : (st.A.map Prod.fst).Nodup
  sizesA : ∀ e ∈ st.A, e.1.1 ∈ st.shell.thermo.map Thermo.Sub.label ∧ e.1.2 ∈ st.shell.thermo.map Thermo.Sub.label ∧
    e.2.r = sizeSubspace (Coef.stateCounts st.shell.diag) e.1.1 ∧ e.2.c = sizeSubspace (Coef.stateCounts st.shell.diag) e.1.2
  sizesB : ∀ e ∈ st.B, e.2.r = sizeSubspace (Coef.stateCounts st.shell.diag) e.1.1 ∧
    e.2.c = sizeSubspace (Coef.stateCounts st.shell.diag) e.1.2

/-- Density matrices for a step: a block for every subspace, of the size of the kept states unless the
step is the last one. -/
def RhoOK (last : Bool) (st : SpecStep) (ρ : Rho ℂ) : Prop :=
  ∀ d ∈ st.shell.thermo, ∃ M, ρ.lookup d.label = some M ∧ (last = false → M.r = d.kept ∧ M.c = d.kept)

theorem findSub_mem (sh : Thermo.Shell) (hn : (sh.map Thermo.Sub.label).Nodup) (d : Thermo.Sub) (hd : d ∈ sh) :
    findSub sh d.label = some d := by
  induction sh with
  | nil => simp at hd
  | cons x sh ih =>
    simp only [List.map_cons, List.nodup_cons] at hn
    rcases List.mem_cons.1 hd with rfl | hd
    · simp [findSub]
    · have : x.label ≠ d.label := fun h => hn.1 (by rw [h]; exact List.mem_map_of_mem hd)
      unfold findSub
      rw [List.find?_cons_of_neg (by simp [this])]
      exact ih hn.2 hd

theorem sizeSubspace_state {last : Bool} {st : SpecStep} (h : StepOK last st) {d : Thermo.Sub} (hd : d ∈ st.shell.thermo) :
    sizeSubspace (Coef.stateCounts st.shell.diag) d.label = d.dim := by
  unfold sizeSubspace
  have hm : (d.label, d.dim) ∈ Coef.stateCounts st.shell.diag := by
    rw [← h.states]; exact List.mem_map_of_mem (f := fun d : Thermo.Sub => (d.label, d.dim)) hd
  have hn : ((Coef.stateCounts st.shell.diag).map Prod.fst).Nodup := by
    rw [← h.states, List.map_map]; exact h.nodup
  rw [lookup_of_mem _ hn _ hm]
  rfl

/-- A sum over the blocks of an operator as a sum over all pairs of subspaces. -/
theorem sum_blocks2 {M : Type} [AddCommMonoid M] (O : Ops.Elements ℂ) (hk : (O.map Prod.fst).Nodup) (sh : Thermo.Shell)
    (hn : (sh.map Thermo.Sub.label).Nodup)
    (hin : ∀ e ∈ O, e.1.1 ∈ sh.map Thermo.Sub.label ∧ e.1.2 ∈ sh.map Thermo.Sub.label)
    (F : Label → Label → Mat ℂ → M) :
    (O.map fun e => F e.1.1 e.1.2 e.2).sum = (sh.map fun d => (sh.map fun q =>
      (match O.lookup (d.label, q.label) with | some m => F d.label q.label m | none => 0)).sum).sum := by
  induction O with
  | nil => simp
  | cons e O ih =>
    simp only [List.map_cons, List.nodup_cons] at hk
    rw [List.map_cons, List.sum_cons, ih hk.2 fun x hx => hin x (List.mem_cons_of_mem _ hx)]
    have key : ∀ d q : Thermo.Sub, (match (e :: O).lookup (d.label, q.label) with | some m => F d.label q.label m | none => 0)
        = (if e.1.1 = d.label then (if e.1.2 = q.label then F e.1.1 e.1.2 e.2 else 0) else 0) +
          (match O.lookup (d.label, q.label) with | some m => F d.label q.label m | none => 0) := by
      intro d q
      obtain ⟨⟨x, y⟩, m⟩ := e
      by_cases h : (d.label, q.label) = (x, y)
      · obtain ⟨h1, h2⟩ := Prod.mk.inj h
        have hno : O.lookup (d.label, q.label) = none := by
          cases hO : O.lookup (d.label, q.label) with
          | none => rfl
          | some m' =>
            exfalso
            apply hk.1
            rw [← h]
            exact List.mem_map.2 ⟨_, mem_of_lookup2 _ _ _ hO, rfl⟩
        rw [hno]
        simp [List.lookup, h1, h2]
      · have : ((d.label, q.label) == (x, y)) = false := by simpa using h
        simp only [List.lookup, this]
        by_cases h1 : x = d.label
        · by_cases h2 : y = q.label
          · exact absurd (by rw [h1, h2]) h
          · simp [h2]
        · simp [h1]
    simp only [key, List.sum_map_add]
    congr 1
    obtain ⟨h1, h2⟩ := hin e (by simp)
    obtain ⟨d0, hd0, e1⟩ := List.mem_map.1 h1
    obtain ⟨q0, hq0, e2⟩ := List.mem_map.1 h2
    have single : ∀ (x : Label) (v : M), x ∈ sh.map Thermo.Sub.label → (sh.map fun d => if x = d.label then v else 0).sum = v := by
      intro x v hx
      clear key ih hin h1 h2 hd0 hq0
      induction sh with
      | nil => simp at hx
      | cons s sh ih =>
        simp only [List.map_cons, List.nodup_cons] at hn
        simp only [List.map_cons, List.sum_cons]
        by_cases hs : x = s.label
        · rw [if_pos hs, List.sum_eq_zero, add_zero]
          intro y hy
          obtain ⟨d, hd, rfl⟩ := List.mem_map.1 hy
          exact if_neg fun h => hn.1 (by rw [← hs, h]; exact List.mem_map_of_mem hd)
        · rw [if_neg hs, zero_add]
          exact ih hn.2 (by
            simp only [List.map_cons, List.mem_cons] at hx
            exact hx.resolve_left hs)
    have : ∀ d : Thermo.Sub, (sh.map fun q => (if e.1.1 = d.label then (if e.1.2 = q.label then F e.1.1 e.1.2 e.2 else 0) else 0)).sum
        = if e.1.1 = d.label then F e.1.1 e.1.2 e.2 else 0 := by
      intro d
      by_cases h : e.1.1 = d.label
      · simp only [if_pos h]; exact single _ _ h2
      · simp [h]
    simp only [this]
    exact (single _ _ h1).symm

/-- **One step.** The lesser peaks of a step add up to the difference of the expectation value of
`B A†` between all states and the kept states only. -/
theorem step_ls (S : Symmetry) (a : SpecArgs) (c : ℂ) {last : Bool} {st : SpecStep} (h : StepOK last st) {ρ : Rho ℂ} (hρ : RhoOK last st ρ)
    (hcf : ∀ e ∈ st.A, a.cf e.1.1 e.1.2 = true) (hff : ∀ e ∈ st.A, a.ff e.1.2 e.1.1 = c * ((mult S.fields e.1.1 : ℤ) : ℂ)) :
    ∃ l, specStep a true st ρ = some l ∧ (l.map Prod.snd).sum = -((gfSign a.gt : ℤ) : ℂ) * c *
      (fullExpect S a.T st ρ (Coef.prodEntry (Coef.stateCounts st.shell.diag) st.B st.A) -
       (if last then 0 else keptExpect S st ρ (Coef.prodEntry (keptSizes st.shell.store) st.B st.A))) := by
  classical
  -- the value of a block
  have hblock : ∀ e ∈ st.A, ∃ l, specBlock a true st ρ e = some l ∧ ∀ d ∈ st.shell.thermo, ∀ q ∈ st.shell.thermo, d.label = e.1.1 → q.label = e.1.2 →
      (l.map Prod.snd).sum = -((gfSign a.gt : ℤ) : ℂ) * (c * ((mult S.fields d.label : ℤ) : ℂ)) *
      ((∑ j ∈ range d.dim, ∑ k ∈ range d.dim, fullRho (eigD d) ((ρ.lookup d.label).getD Mat.empty) st.wnf a.T j k *
          ∑ i ∈ range q.dim, Ops.optEntry (st.B.lookup (d.label, q.label)) k i * star (e.2.e j i))
        - ∑ j ∈ range d.min, ∑ k ∈ range d.min, ((ρ.lookup d.label).getD Mat.empty).e j k *
          ∑ i ∈ range q.min, Ops.optEntry (st.B.lookup (d.label, q.label)) k i * star (e.2.e j i)) := by
    intro e he
    obtain ⟨m1, m2, s1, s2⟩ := h.sizesA e he
    obtain ⟨d, hd, e1⟩ := List.mem_map.1 m1
    obtain ⟨q, hq, e2⟩ := List.mem_map.1 m2
    have uniq : ∀ d' ∈ st.shell.thermo, ∀ d'' ∈ st.shell.thermo, d'.label = d''.label → d' = d'' := by
      intro d' hd' d'' hd'' hll
      have := findSub_mem _ h.nodup d' hd'
      rw [hll, findSub_mem _ h.nodup d'' hd''] at this
      exact (Option.some.inj this).symm
    unfold specBlock
    cases hB : st.B.lookup e.1 with
    | none =>
      refine ⟨[], rfl, fun d' _ q' _ h1 h2 => ?_⟩
      rw [h1, h2, hB]
      simp [Ops.optEntry]
    | some op2 =>
      dsimp only
      rw [if_neg (by rw [hcf e he]; simp), ← e1, ← e2, findSub_mem _ h.nodup d hd, findSub_mem _ h.nodup q hq]
      dsimp only
      obtain ⟨M, hM, hMs⟩ := hρ d hd
      obtain ⟨b1, b2⟩ := h.sizesB _ (mem_of_lookup2 _ _ _ hB)
      rw [← e1, sizeSubspace_state h hd] at s1
      rw [← e2, sizeSubspace_state h hq] at s2
      dsimp only at b1 b2
      rw [← e1, sizeSubspace_state h hd] at b1
      rw [← e2, sizeSubspace_state h hq] at b2
      have hs : Sized ⟨eigD q, eigD d, e.2, op2, a.ff e.1.2 e.1.1, Mat.zero q.kept q.kept, M, a.gt, a.T, st.wnf⟩ :=
        ⟨⟨s1, s2⟩, ⟨b1, b2⟩, h.le q hq, h.le d hd, fun _ => ⟨rfl, rfl⟩, fun hl => hMs (by
          rw [← h.flag d hd]; exact hl)⟩
      obtain ⟨l, hl1, hl2⟩ := block_ls _ hs
      refine ⟨l, ?_, ?_⟩
      · rw [hM]
        simp only [if_true, Option.bind_eq_bind, Option.bind_some]
        rw [← hl1, e1, e2]
        rfl
      · intro d' hd' q' hq' h1 h2
        obtain rfl := uniq d' hd' d hd h1
        obtain rfl := uniq q' hq' q hq h2
        rw [hl2]
        dsimp only
        rw [hff e he, hM, e1, e2, hB]
        rfl
  choose! L hL1 hL2 using hblock
  refine ⟨(st.A.map L).flatten, ?_, ?_⟩
  · unfold specStep
    rw [Spectral.mapM_of_forall _ _ _ hL1]
    rfl
  -- the sum over the blocks
  have e0 : (((st.A.map L).flatten).map Prod.snd).sum = (st.A.map fun e => ((L e).map Prod.snd).sum).sum := by
    clear hL1 hL2 hff hcf h
    induction st.A with
    | nil => rfl
    | cons e l ih => rw [List.map_cons, List.flatten_cons, List.map_append, List.sum_append, ih]; rfl
  rw [e0]
  let F : Label → Label → Mat ℂ → ℂ := fun x y m =>
    match findSub st.shell.thermo x, findSub st.shell.thermo y with
    | some d, some q => -((gfSign a.gt : ℤ) : ℂ) * (c * ((mult S.fields d.label : ℤ) : ℂ)) *
      ((∑ j ∈ range d.dim, ∑ k ∈ range d.dim, fullRho (eigD d) ((ρ.lookup d.label).getD Mat.empty) st.wnf a.T j k *
          ∑ i ∈ range q.dim, Ops.optEntry (st.B.lookup (d.label, q.label)) k i * star (m.e j i))
        - ∑ j ∈ range d.min, ∑ k ∈ range d.min, ((ρ.lookup d.label).getD Mat.empty).e j k *
          ∑ i ∈ range q.min, Ops.optEntry (st.B.lookup (d.label, q.label)) k i * star (m.e j i))
    | _, _ => 0
  have e1 : (st.A.map fun e => ((L e).map Prod.snd).sum) = st.A.map fun e => F e.1.1 e.1.2 e.2 := by
    apply List.map_congr_left
    intro e he
    obtain ⟨m1, m2, _, _⟩ := h.sizesA e he
    obtain ⟨d, hd, g1⟩ := List.mem_map.1 m1
    obtain ⟨q, hq, g2⟩ := List.mem_map.1 m2
    rw [hL2 e he d hd q hq g1 g2]
    simp only [F]
    rw [← g1, ← g2, findSub_mem _ h.nodup d hd, findSub_mem _ h.nodup q hq]
  rw [e1, sum_blocks2 st.A h.keysA st.shell.thermo h.nodup (fun e he => ⟨(h.sizesA e he).1, (h.sizesA e he).2.1⟩) F]
  have e2 : ∀ d ∈ st.shell.thermo, ∀ q ∈ st.shell.thermo,
      (match st.A.lookup (d.label, q.label) with | some m => F d.label q.label m | none => 0) =
      -((gfSign a.gt : ℤ) : ℂ) * (c * ((mult S.fields d.label : ℤ) : ℂ)) *
      ((∑ j ∈ range d.dim, ∑ k ∈ range d.dim, fullRho (eigD d) ((ρ.lookup d.label).getD Mat.empty) st.wnf a.T j k *
          ∑ i ∈ range q.dim, Ops.optEntry (st.B.lookup (d.label, q.label)) k i * star (Ops.optEntry (st.A.lookup (d.label, q.label)) j i))
        - ∑ j ∈ range d.min, ∑ k ∈ range d.min, ((ρ.lookup d.label).getD Mat.empty).e j k *
          ∑ i ∈ range q.min, Ops.optEntry (st.B.lookup (d.label, q.label)) k i * star (Ops.optEntry (st.A.lookup (d.label, q.label)) j i)) := by
    intro d hd q hq
    cases st.A.lookup (d.label, q.label) with
    | none => simp [Ops.optEntry]
    | some m =>
      simp only [F]
      rw [findSub_mem _ h.nodup d hd, findSub_mem _ h.nodup q hq]
      rfl
  have e3 : ∀ d ∈ st.shell.thermo, (st.shell.thermo.map fun q =>
      (match st.A.lookup (d.label, q.label) with | some m => F d.label q.label m | none => 0)).sum =
      -((gfSign a.gt : ℤ) : ℂ) * c * (((mult S.fields d.label : ℤ) : ℂ) *
      (∑ j ∈ range d.dim, ∑ k ∈ range d.dim, fullRho (eigD d) ((ρ.lookup d.label).getD Mat.empty) st.wnf a.T j k *
          Coef.prodEntry (Coef.stateCounts st.shell.diag) st.B st.A d.label k j))
      - -((gfSign a.gt : ℤ) : ℂ) * c * (if last then 0 else ((mult S.fields d.label : ℤ) : ℂ) *
        ∑ j ∈ range d.min, ∑ k ∈ range d.min, ((ρ.lookup d.label).getD Mat.empty).e j k *
          Coef.prodEntry (keptSizes st.shell.store) st.B st.A d.label k j) := by
    intro d hd
    rw [List.map_congr_left (e2 d hd), List.sum_map_mul_left]
    have p1 : ∀ j k, Coef.prodEntry (Coef.stateCounts st.shell.diag) st.B st.A d.label k j = (st.shell.thermo.map fun q =>
        ∑ i ∈ range q.dim, Ops.optEntry (st.B.lookup (d.label, q.label)) k i * star (Ops.optEntry (st.A.lookup (d.label, q.label)) j i)).sum := by
      intro j k
      unfold Coef.prodEntry
      rw [← h.states, List.map_map]
      rfl
    have p2 : last = false → ∀ j k, Coef.prodEntry (keptSizes st.shell.store) st.B st.A d.label k j = (st.shell.thermo.map fun q =>
        ∑ i ∈ range q.min, Ops.optEntry (st.B.lookup (d.label, q.label)) k i * star (Ops.optEntry (st.A.lookup (d.label, q.label)) j i)).sum := by
      intro hl j k
      unfold Coef.prodEntry
      rw [← h.kept, List.map_map]
      congr 1
      apply List.map_congr_left
      intro q hq
      have : q.min = q.kept := by unfold Thermo.Sub.min; rw [h.flag q hq, hl]; rfl
      rw [this]
      rfl
    have swap : ∀ (n : ℕ) (g : ℕ → ℕ → ℂ) (w : Thermo.Sub → ℕ → ℕ → ℂ),
        (st.shell.thermo.map fun q => ∑ j ∈ range n, ∑ k ∈ range n, g j k * w q j k).sum =
        ∑ j ∈ range n, ∑ k ∈ range n, g j k * (st.shell.thermo.map fun q => w q j k).sum := by
      intro n g w
      rw [Dm.sum_swap_range]
      refine sum_congr rfl fun j _ => ?_
      rw [Dm.sum_swap_range]
      exact sum_congr rfl fun k _ => List.sum_map_mul_left ..
    have msub : ∀ (f g : Thermo.Sub → ℂ), (st.shell.thermo.map fun q => f q - g q).sum = (st.shell.thermo.map f).sum - (st.shell.thermo.map g).sum := by
      intro f g
      simp only [sub_eq_add_neg, List.sum_map_add]
      congr 1
      generalize st.shell.thermo = t
      induction t with
      | nil => simp
      | cons x t ih => simp [ih]; ring
    rw [msub, swap, swap]
    simp only [p1]
    cases last with
    | true =>
      have : d.min = 0 := by unfold Thermo.Sub.min; rw [h.flag d hd]; rfl
      rw [this]
      simp only [range_zero, sum_empty, if_true]
      ring
    | false =>
      simp only [p2 rfl, Bool.false_eq_true, if_false]
      ring
  rw [List.map_congr_left e3]
  unfold fullExpect keptExpect
  have msub : ∀ (f g : Thermo.Sub → ℂ), (st.shell.thermo.map fun q => f q - g q).sum = (st.shell.thermo.map f).sum - (st.shell.thermo.map g).sum := by
    intro f g
    simp only [sub_eq_add_neg, List.sum_map_add]
    congr 1
    generalize st.shell.thermo = t
    induction t with
    | nil => simp
    | cons x t ih => simp [ih]; ring
  rw [msub, List.sum_map_mul_left, List.sum_map_mul_left, mul_sub]
  congr 2
  cases last with
  | true => simp
  | false => simp

end Verif.Sumrule
