import Verif.Coef.CheckSound
/-!
# What the checked items say about one kind of multiplet
-/

namespace Verif.Coef
open Verif.Invar Verif.Symm

/-- The sum of the products of two factors in the rows of one kind of multiplet that lead
from the combinations `j1` and `j2` through the same combination to the displacement `D`. -/
noncomputable def MType.pairSum (fs : List Field) (F : Nat → FVal) (I : Label) (ds : List (Label × Label)) (m : MType)
    (j1 j2 : Nat) (D : Label) : ℝ :=
  ((m.rows.zip ds).map fun p =>
    if spinTri fs I (done (types fs)) p.2.1 p.2.2 then
      (p.1.map fun x => if x.1 = j1 ∧ dmul (types fs) p.2.1 ((m.ins[x.2.1]?).getD []) = D ∧ spinTri fs I p.2.1 D m.qn = true then
        (p.1.map fun y => if y.1 = j2 ∧ y.2.1 = x.2.1 then (F x.2.2).real * (F y.2.2).real else 0).sum else 0).sum
    else 0).sum

/-- The combination `j` couples, and the operator takes the displacement `D` to it. -/
def MType.Active (fs : List Field) (I : Label) (ds : List (Label × Label)) (m : MType) (j : Nat) (D : Label) : Prop :=
  ∃ a d c, m.ins[j]? = some a ∧ (d, c) ∈ ds ∧ dmul (types fs) a d = D ∧
    spinTri fs I (done (types fs)) a m.qn = true ∧ spinTri fs I a D c = true

/-- The factors of the multiplet are finite where they are used, and orthonormal. -/
def MType.Good (fs : List Field) (F : Nat → FVal) (I : Label) (ds : List (Label × Label)) (m : MType) : Prop :=
  ∀ j1 j2 D, m.Active fs I ds j1 D → m.Active fs I ds j2 D →
    m.pairSum fs F I ds j1 j2 D = (if j1 = j2 then 1 else 0) ∧
    ∀ rows d c, (rows, d, c) ∈ m.rows.zip ds → spinTri fs I (done (types fs)) d c = true →
      ∀ x ∈ rows, x.1 = j1 → dmul (types fs) d ((m.ins[x.2.1]?).getD []) = D → spinTri fs I d D m.qn = true →
        (F x.2.2).toReal.isSome

theorem sum_filter_map {β : Type} (l : List β) (p : β → Bool) (f : β → ℝ) :
    ((l.filter p).map f).sum = (l.map fun x => if p x then f x else 0).sum := by
  induction l with
  | nil => rfl
  | cons x l ih => by_cases h : p x = true <;> simp [h, ih]

theorem quadsT_sum (fs : List Field) (F : Nat → FVal) (I : Label) (m : MType) (j1 j2 : Nat) (D d c : Label)
    (rows : List (Nat × Nat × Nat)) :
    ((quadsT (types fs) m j1 j2 D d c rows).map (Quad.term fs F I)).sum =
      if spinTri fs I (done (types fs)) d c then
        (rows.map fun x => if x.1 = j1 ∧ dmul (types fs) d ((m.ins[x.2.1]?).getD []) = D ∧ spinTri fs I d D m.qn = true then
          (rows.map fun y => if y.1 = j2 ∧ y.2.1 = x.2.1 then (F x.2.2).real * (F y.2.2).real else 0).sum else 0).sum
      else 0 := by
  unfold quadsT
  have e : ∀ l : List (Nat × Nat × Nat), ((l.flatMap fun x => if x.1 = j1 ∧ dmul (types fs) d ((m.ins[x.2.1]?).getD []) = D then
      (rows.filter fun y => decide (y.1 = j2 ∧ y.2.1 = x.2.1)).map fun y =>
        (⟨[⟨done (types fs), d, c⟩, ⟨d, D, m.qn⟩], x.2.2, y.2.2⟩ : Quad) else []).map (Quad.term fs F I)).sum =
      if spinTri fs I (done (types fs)) d c then
        (l.map fun x => if x.1 = j1 ∧ dmul (types fs) d ((m.ins[x.2.1]?).getD []) = D ∧ spinTri fs I d D m.qn = true then
          (rows.map fun y => if y.1 = j2 ∧ y.2.1 = x.2.1 then (F x.2.2).real * (F y.2.2).real else 0).sum else 0).sum
      else 0 := by
    intro l
    induction l with
    | nil => simp
    | cons x l ih =>
      rw [List.flatMap_cons, List.map_append, List.sum_append, ih]
      by_cases h1 : spinTri fs I (done (types fs)) d c = true
      · simp only [h1, if_true, List.map_cons, List.sum_cons]
        congr 1
        by_cases h2 : x.1 = j1 ∧ dmul (types fs) d ((m.ins[x.2.1]?).getD []) = D
        · rw [if_pos h2, List.map_map, sum_filter_map]
          by_cases h3 : spinTri fs I d D m.qn = true
          · rw [if_pos ⟨h2.1, h2.2, h3⟩]
            simp only [Function.comp_def, Quad.term, holdsAll, List.all_cons, List.all_nil, h1, h3, Bool.and_self, if_true,
              decide_eq_true_eq]
          · rw [if_neg (by simp [h3])]
            simp only [Bool.not_eq_true] at h3
            simp [Function.comp_def, Quad.term, holdsAll, h3]
        · rw [if_neg h2, if_neg (fun h => h2 ⟨h.1, h.2.1⟩)]; rfl
      · simp only [Bool.not_eq_true] at h1
        rw [h1]
        simp only [Bool.false_eq_true, if_false, add_zero]
        split
        · rw [List.map_map, sum_filter_map]
          simp [Function.comp_def, Quad.term, holdsAll, h1]
        · rfl
  exact e rows

theorem quads_sum (fs : List Field) (F : Nat → FVal) (I : Label) (ds : List (Label × Label)) (m : MType) (j1 j2 : Nat) (D : Label) :
    ((quads (types fs) ds m j1 j2 D).map (Quad.term fs F I)).sum = m.pairSum fs F I ds j1 j2 D := by
  unfold quads MType.pairSum
  generalize m.rows.zip ds = l
  induction l with
  | nil => rfl
  | cons p l ih =>
    rw [List.flatMap_cons, List.map_append, List.sum_append, ih, quadsT_sum, List.map_cons, List.sum_cons]

theorem mem_items {ts : List QnType} {ds : List (Label × Label)} {m : MType} {j1 j2 : Nat} {a1 a2 d1 c1 d2 c2 : Label}
    (h1 : m.ins[j1]? = some a1) (h2 : m.ins[j2]? = some a2) (h3 : (d1, c1) ∈ ds) (h4 : (d2, c2) ∈ ds)
    (h5 : dmul ts a1 d1 = dmul ts a2 d2) (h6 : j1 ≤ j2) :
    (⟨[⟨done ts, a1, m.qn⟩, ⟨done ts, a2, m.qn⟩, ⟨a1, dmul ts a1 d1, c1⟩, ⟨a2, dmul ts a2 d2, c2⟩],
          quads ts ds m j1 j2 (dmul ts a1 d1), j1 == j2⟩ : Item) ∈ items ts ds m := by
  unfold items
  refine List.mem_flatMap.2 ⟨(a1, j1), ?_, List.mem_flatMap.2 ⟨(d1, c1), h3, List.mem_flatMap.2 ⟨(a2, j2), ?_, ?_⟩⟩⟩
  · rw [List.mk_mem_zipIdx_iff_getElem?]; exact h1
  · rw [List.mk_mem_zipIdx_iff_getElem?]; exact h2
  · rw [if_pos (by rw [Nat.ble_eq]; exact h6)]
    refine List.mem_flatMap.2 ⟨(d2, c2), h4, ?_⟩
    rw [if_pos h5]; exact List.mem_singleton.2 rfl

theorem sum_swap {β γ : Type} (l : List β) (m : List γ) (f : β → γ → ℝ) :
    (l.map fun x => (m.map fun y => f x y).sum).sum = (m.map fun y => (l.map fun x => f x y).sum).sum := by
  induction l with
  | nil => simp
  | cons x l ih =>
    simp only [List.map_cons, List.sum_cons, ih]
    clear ih
    induction m with
    | nil => simp
    | cons y m ih' => simp only [List.map_cons, List.sum_cons]; linarith

theorem MType.pairSum_symm (fs : List Field) (F : Nat → FVal) (I : Label) (ds : List (Label × Label)) (m : MType)
    (j1 j2 : Nat) (D : Label) : m.pairSum fs F I ds j1 j2 D = m.pairSum fs F I ds j2 j1 D := by
  unfold MType.pairSum
  congr 1
  refine List.map_congr_left fun p _ => ?_
  congr 1
  have e : ∀ i1 i2 : Nat, (p.1.map fun x => if x.1 = i1 ∧ dmul (types fs) p.2.1 ((m.ins[x.2.1]?).getD []) = D ∧
      spinTri fs I p.2.1 D m.qn = true then
        (p.1.map fun y => if y.1 = i2 ∧ y.2.1 = x.2.1 then (F x.2.2).real * (F y.2.2).real else 0).sum else 0).sum =
      (p.1.map fun x => (p.1.map fun y => if x.1 = i1 ∧ y.1 = i2 ∧ y.2.1 = x.2.1 ∧
        dmul (types fs) p.2.1 ((m.ins[x.2.1]?).getD []) = D ∧ spinTri fs I p.2.1 D m.qn = true then
          (F x.2.2).real * (F y.2.2).real else 0).sum).sum := by
    intro i1 i2
    congr 1
    refine List.map_congr_left fun x _ => ?_
    by_cases h : x.1 = i1 ∧ dmul (types fs) p.2.1 ((m.ins[x.2.1]?).getD []) = D ∧ spinTri fs I p.2.1 D m.qn = true
    · rw [if_pos h]
      congr 1
      refine List.map_congr_left fun y _ => ?_
      exact if_congr (by tauto) rfl rfl
    · rw [if_neg h]
      refine (List.sum_eq_zero fun z hz => ?_).symm
      obtain ⟨y, _, rfl⟩ := List.mem_map.1 hz
      exact if_neg (by tauto)
  rw [e j1 j2, e j2 j1, sum_swap]
  congr 1
  refine List.map_congr_left fun x _ => ?_
  congr 1
  refine List.map_congr_left fun y _ => ?_
  by_cases h : x.2.1 = y.2.1
  · rw [h, mul_comm]
    exact if_congr (by tauto) rfl rfl
  · rw [if_neg (by tauto), if_neg (by tauto)]

theorem good_of_items {fs : List Field} {F : Nat → FVal} {I : Label} {ds : List (Label × Label)} {m : MType}
    (h : ∀ it ∈ items (types fs) ds m, it.Holds fs F I) : m.Good fs F I ds := by
  have key : ∀ j1 j2 D, j1 ≤ j2 → m.Active fs I ds j1 D → m.Active fs I ds j2 D →
      (∀ q ∈ quads (types fs) ds m j1 j2 D, holdsAll fs I q.tests = true → (F q.k).toReal.isSome ∧ (F q.l).toReal.isSome) ∧
      m.pairSum fs F I ds j1 j2 D = if j1 = j2 then 1 else 0 := by
    rintro j1 j2 D hle ⟨a1, d1, c1, h1, h2, rfl, h3, h4⟩ ⟨a2, d2, c2, g1, g2, g0, g3, g4⟩
    have := h _ (mem_items h1 g1 h2 g2 g0.symm hle)
    simp only [Item.Holds, quads_sum] at this
    have := this (by simp only [holdsAll, List.all_cons, List.all_nil, h3, h4, g3, Bool.and_true, Bool.true_and]; rw [g0]; exact g4)
    refine ⟨this.1, ?_⟩
    rw [this.2]
    simp
  intro j1 j2 D h1 h2
  refine ⟨?_, ?_⟩
  · rcases le_total j1 j2 with hle | hle
    · exact (key j1 j2 D hle h1 h2).2
    · rw [MType.pairSum_symm, (key j2 j1 D hle h2 h1).2]
      exact if_congr eq_comm rfl rfl
  intro rows d c hm hs x hx hj hD ht
  have := (key j1 j1 D (le_refl _) h1 h1).1 ⟨[⟨done (types fs), d, c⟩, ⟨d, D, m.qn⟩], x.2.2, x.2.2⟩ ?_ ?_
  · exact this.1
  · refine List.mem_flatMap.2 ⟨(rows, d, c), hm, List.mem_flatMap.2 ⟨x, hx, ?_⟩⟩
    rw [if_pos ⟨hj, hD⟩]
    exact List.mem_map.2 ⟨x, List.mem_filter.2 ⟨hx, by simp [hj]⟩, rfl⟩
  · simp [holdsAll, hs, ht]

end Verif.Coef
