import Verif.Raw.Parts
/-! # The writes are the data sets of the specification -/

namespace Verif.Raw
open Verif.Text
open Verif.Invar (Label)

variable {V : Type}

theorem mem_matrix {a : Bool → Addr} {m : Mat V} {b : Addr} {v : V} : (b, v) ∈ matrix a m ↔ ∃ im, b = a im ∧ MatPart m im v := by
  unfold matrix MatPart
  obtain ⟨x, y⟩ := m
  simp only [List.mem_cons, Prod.mk.injEq, List.mem_map, Option.mem_toList, Bool.exists_bool, Bool.false_eq_true, if_false, if_true]
  constructor
  · rintro (⟨rfl, rfl⟩ | ⟨z, h, rfl, rfl⟩)
    · exact .inl ⟨rfl, rfl⟩
    · exact .inr ⟨rfl, h⟩
  · rintro (⟨rfl, rfl⟩ | ⟨rfl, h⟩)
    · exact .inl ⟨rfl, rfl⟩
    · exact .inr ⟨v, h, rfl, rfl⟩

theorem leaf_all (l : Leaf) : l ∈ Leaf.all := by cases l <;> decide
theorem cat_all (l : Cat) : l ∈ Cat.all := by cases l <;> decide
theorem stat_all (l : Stat) : l ∈ Stat.all := by cases l <;> decide
theorem sub_all (l : Sub) : l ∈ Sub.all := by cases l <;> decide
theorem fdm_all (l : Fdm) : l ∈ Fdm.all := by cases l <;> decide

theorem mem_leaves (b : Bool) (l : Leaf) :
    l ∈ (if b then Leaf.all else Leaf.all.filter fun l => l ≠ .matrix ∧ l ≠ .matrixImag) ↔ (b = true ∨ (l ≠ .matrix ∧ l ≠ .matrixImag)) := by
  cases b <;> cases l <;> decide

theorem mem_diag {n : Nat} {b : Bool} {d : Diag V} {a : Addr} {v : V} :
    (a, v) ∈ diagWrites n b d ↔ ∃ e ∈ d, ∃ l, (b = true ∨ (l ≠ Leaf.matrix ∧ l ≠ Leaf.matrixImag)) ∧ e.2 l = some v ∧ a = .eigen n e.1 l := by
  unfold diagWrites
  rw [List.mem_flatMap]
  constructor
  · rintro ⟨e, he, h⟩
    obtain ⟨l, hl, h⟩ := List.mem_filterMap.1 h
    obtain ⟨w, hw, h⟩ := Option.map_eq_some_iff.1 h
    injection h with h1 h2
    subst h1 h2
    exact ⟨e, he, l, (mem_leaves b l).1 hl, hw, rfl⟩
  · rintro ⟨e, he, l, hl, hv, rfl⟩
    exact ⟨e, he, List.mem_filterMap.2 ⟨l, (mem_leaves b l).2 hl, by rw [hv]; rfl⟩⟩

theorem mem_blocks {n : Nat} {I : Label} {a : Addr} {v : V} (bs : List (Label × Mat V)) : ∀ k,
    ((a, v) ∈ blockWrites n I k bs ↔ ∃ j b im, bs[j]? = some b ∧ MatPart b.2 im v ∧ a = .block n I (k + j) b.1 im) := by
  induction bs with
  | nil => intro k; simp [blockWrites]
  | cons b bs ih =>
    intro k
    rw [blockWrites, List.mem_append, mem_matrix, ih]
    constructor
    · rintro (⟨im, h, hm⟩ | ⟨j, c, im, hj, hm, h⟩)
      · exact ⟨0, b, im, rfl, hm, h⟩
      · exact ⟨j + 1, c, im, by simpa using hj, hm, by rw [h, Nat.add_assoc, Nat.add_comm 1 j]⟩
    · rintro ⟨j, c, im, hj, hm, h⟩
      cases j with
      | zero =>
        simp only [List.getElem?_cons_zero, Option.some.injEq] at hj
        subst hj
        exact .inl ⟨im, h, hm⟩
      | succ j => exact .inr ⟨j, c, im, by simpa using hj, hm, by rw [h, Nat.add_assoc, Nat.add_comm 1 j]⟩

theorem mem_ops {n : Nat} {o : Ops V} {a : Addr} {v : V} : (a, v) ∈ opWrites n o ↔
    ∃ c, ∃ e ∈ o c, ∃ I J m im, ((I, J), m) ∈ e.2 ∧ MatPart m im v ∧ a = .op n c e.1 I J im := by
  unfold opWrites
  constructor
  · intro h
    obtain ⟨c, -, h⟩ := List.mem_flatMap.1 h
    obtain ⟨e, he, h⟩ := List.mem_flatMap.1 h
    obtain ⟨m, hm, h⟩ := List.mem_flatMap.1 h
    obtain ⟨im, h, hp⟩ := mem_matrix.1 h
    exact ⟨c, e, he, m.1.1, m.1.2, m.2, im, hm, hp, h⟩
  · rintro ⟨c, e, he, I, J, m, im, hm, hp, h⟩
    exact List.mem_flatMap.2 ⟨c, cat_all c, List.mem_flatMap.2 ⟨e, he, List.mem_flatMap.2 ⟨((I, J), m), hm, mem_matrix.2 ⟨im, h, hp⟩⟩⟩⟩

theorem mem_ham {n : Nat} {r : List (Label × Mat V)} {a : Addr} {v : V} : (a, v) ∈ hamWrites n r ↔ ∃ e ∈ r, ∃ im, MatPart e.2 im v ∧ a = .ham n e.1 im := by
  unfold hamWrites
  rw [List.mem_flatMap]
  constructor
  · rintro ⟨e, he, h⟩
    obtain ⟨im, h, hp⟩ := mem_matrix.1 h
    exact ⟨e, he, im, hp, h⟩
  · rintro ⟨e, he, im, hp, h⟩
    exact ⟨e, he, mem_matrix.2 ⟨im, h, hp⟩⟩

theorem ite_mem {α : Type} {b : Bool} {l : List α} {x : α} (hb : b = true) (h : x ∈ l) : x ∈ if b then l else [] := by
  rw [if_pos hb]; exact h

theorem mem_step {h : Switches} {nrg last : Bool} {n : Nat} {s : StepData V} {a : Addr} {v : V} :
    (a, v) ∈ stepWrites h nrg last n s ↔ h.here last = true ∧ StepItem h nrg n s a v := by
  unfold stepWrites
  constructor
  · intro hw
    obtain ⟨h0, hw⟩ := mem_ite hw
    refine ⟨h0, ?_⟩
    rcases List.mem_append.1 hw with hw | hw
    · obtain ⟨h1, hw⟩ := mem_ite hw
      obtain ⟨e, he, hw⟩ := List.mem_map.1 hw
      injection hw with e1 e2
      subst e1 e2
      exact .struct h1 he
    rcases List.mem_append.1 hw with hw | hw
    · obtain ⟨h1, hw⟩ := mem_ite hw
      rw [Bool.and_eq_true] at h1
      obtain ⟨r, hr, hw⟩ := List.mem_flatMap.1 hw
      obtain ⟨e, he, im, hp, rfl⟩ := mem_ham.1 hw
      exact .ham h1.1 h1.2 hr he hp
    rcases List.mem_append.1 hw with hw | hw
    · obtain ⟨h1, hw⟩ := mem_ite hw
      rcases List.mem_append.1 hw with hw | hw
      · obtain ⟨e, he, l, hl, hv, rfl⟩ := mem_diag.1 hw
        exact .eigen h1 hl he hv
      · obtain ⟨h2, hw⟩ := mem_ite hw
        obtain ⟨e, he, hw⟩ := List.mem_flatMap.1 hw
        obtain ⟨j, b, im, hj, hp, rfl⟩ := (mem_blocks _ 0).1 hw
        rw [Nat.zero_add]
        exact .block h1 h2 he hj hp
    · obtain ⟨h1, hw⟩ := mem_ite hw
      obtain ⟨c, e, he, I, J, m, im, hm, hp, rfl⟩ := mem_ops.1 hw
      exact .op h1 he hm hp
  · rintro ⟨h0, hi⟩
    refine ite_mem h0 ?_
    cases hi with
    | struct h1 he => exact List.mem_append_left _ (ite_mem h1 (List.mem_map.2 ⟨_, he, rfl⟩))
    | ham h1 h2 hr he hp =>
      exact List.mem_append_right _ (List.mem_append_left _ (ite_mem (by rw [h1, h2]; rfl) (List.mem_flatMap.2 ⟨_, hr, mem_ham.2 ⟨_, he, _, hp, rfl⟩⟩)))
    | eigen h1 hl he hv =>
      exact List.mem_append_right _ (List.mem_append_right _ (List.mem_append_left _ (ite_mem h1 (List.mem_append_left _
        (mem_diag.2 ⟨_, he, _, hl, hv, rfl⟩)))))
    | block h1 h2 he hj hp =>
      exact List.mem_append_right _ (List.mem_append_right _ (List.mem_append_left _ (ite_mem h1 (List.mem_append_right _ (ite_mem h2
        (List.mem_flatMap.2 ⟨_, he, (mem_blocks _ 0).2 ⟨_, _, _, hj, hp, by rw [Nat.zero_add]⟩⟩))))))
    | op h1 he hm hp =>
      exact List.mem_append_right _ (List.mem_append_right _ (List.mem_append_right _ (ite_mem h1 (mem_ops.2 ⟨_, _, he, _, _, _, _, hm, hp, rfl⟩))))

theorem mem_steps {h : Switches} {nrg : Bool} {a : Addr} {v : V} (ss : List (StepData V)) : ∀ n,
    ((a, v) ∈ stepsWrites h nrg n ss ↔ ∃ i s, ss[i]? = some s ∧ (h.all = true ∨ (h.last = true ∧ i + 1 = ss.length)) ∧ StepItem h nrg (n + i) s a v) := by
  induction ss with
  | nil => intro n; simp [stepsWrites]
  | cons s ss ih =>
    intro n
    rw [stepsWrites, List.mem_append, mem_step, ih]
    constructor
    · rintro (⟨h0, hi⟩ | ⟨i, t, ht, hl, hi⟩)
      · refine ⟨0, s, rfl, ?_, hi⟩
        unfold Switches.here at h0
        rw [Bool.or_eq_true, Bool.and_eq_true, List.isEmpty_iff] at h0
        exact h0.imp id fun c => ⟨c.1, by simp [c.2]⟩
      · refine ⟨i + 1, t, by simpa using ht, hl.imp id fun hl => ⟨hl.1, by simpa using hl.2⟩, ?_⟩
        rw [show n + (i + 1) = n + 1 + i by omega]
        exact hi
    · rintro ⟨i, t, ht, hl, hi⟩
      cases i with
      | zero =>
        simp only [List.getElem?_cons_zero, Option.some.injEq] at ht
        subst ht
        refine .inl ⟨?_, hi⟩
        unfold Switches.here
        rcases hl with hl | ⟨hl, h1⟩
        · simp [hl]
        · have : ss = [] := by simpa using h1
          simp [hl, this]
      | succ i =>
        refine .inr ⟨i, t, by simpa using ht, hl.imp id fun hl => ⟨hl.1, by simpa using hl.2⟩, ?_⟩
        rw [show n + 1 + i = n + (i + 1) by omega]
        exact hi

theorem mem_stats {a : Addr} {v : V} (l : List (Stat → V)) : ∀ n,
    ((a, v) ∈ statsWrites n l ↔ ∃ (i : Nat) (s : Stat → V) (t : Stat), l[i]? = some s ∧ a = .stat (n + i) t ∧ v = s t) := by
  induction l with
  | nil => intro n; simp [statsWrites]
  | cons s l ih =>
    intro n
    rw [statsWrites, List.mem_append, ih]
    constructor
    · rintro (hw | ⟨i, u, t, hu, h1, h2⟩)
      · obtain ⟨t, -, hw⟩ := List.mem_map.1 hw
        injection hw with h1 h2
        exact ⟨0, s, t, rfl, h1.symm, h2.symm⟩
      · exact ⟨i + 1, u, t, by simpa using hu, by rw [h1, show n + 1 + i = n + (i + 1) by omega], h2⟩
    · rintro ⟨i, u, t, hu, h1, h2⟩
      cases i with
      | zero =>
        simp only [List.getElem?_cons_zero, Option.some.injEq] at hu
        subst hu
        exact .inl (List.mem_map.2 ⟨t, stat_all t, by rw [h1, h2]; rfl⟩)
      | succ i => exact .inr ⟨i, u, t, by simpa using hu, by rw [h1, show n + 1 + i = n + (i + 1) by omega], h2⟩

theorem mem_subs {n : Nat} {one : V} {s : List (Label × (Sub → V))} {a : Addr} {v : V} : (a, v) ∈ subsWrites n one s ↔
    ((∃ e ∈ s, a = .list n e.1 ∧ v = one) ∨ ∃ e ∈ s, ∃ l, a = .data n e.1 l ∧ v = e.2 l) := by
  unfold subsWrites
  rw [List.mem_append]
  constructor
  · rintro (hw | hw)
    · obtain ⟨e, he, hw⟩ := List.mem_map.1 hw
      injection hw with h1 h2
      exact .inl ⟨e, he, h1.symm, h2.symm⟩
    · obtain ⟨e, he, hw⟩ := List.mem_flatMap.1 hw
      obtain ⟨l, -, hw⟩ := List.mem_map.1 hw
      injection hw with h1 h2
      exact .inr ⟨e, he, l, h1.symm, h2.symm⟩
  · rintro (⟨e, he, rfl, rfl⟩ | ⟨e, he, l, rfl, rfl⟩)
    · exact .inl (List.mem_map.2 ⟨e, he, rfl⟩)
    · exact .inr (List.mem_flatMap.2 ⟨e, he, List.mem_map.2 ⟨l, sub_all l, rfl⟩⟩)

theorem mem_store {one : V} {a : Addr} {v : V} (l : List (List (Label × (Sub → V)))) : ∀ n,
    ((a, v) ∈ storeWrites one n l ↔ ∃ (i : Nat) (s : List (Label × (Sub → V))), l[i]? = some s ∧
      ((∃ e ∈ s, a = .list (n + i) e.1 ∧ v = one) ∨ ∃ e ∈ s, ∃ l, a = .data (n + i) e.1 l ∧ v = e.2 l)) := by
  induction l with
  | nil => intro n; simp [storeWrites]
  | cons s l ih =>
    intro n
    rw [storeWrites, List.mem_append, ih, mem_subs]
    constructor
    · rintro (hw | ⟨i, t, ht, hw⟩)
      · exact ⟨0, s, rfl, hw⟩
      · exact ⟨i + 1, t, by simpa using ht, by rw [show n + (i + 1) = n + 1 + i by omega]; exact hw⟩
    · rintro ⟨i, t, ht, hw⟩
      cases i with
      | zero =>
        simp only [List.getElem?_cons_zero, Option.some.injEq] at ht
        subst ht
        exact .inl hw
      | succ i => exact .inr ⟨i, t, by simpa using ht, by rw [show n + 1 + i = n + (i + 1) by omega]; exact hw⟩

theorem mem_writes {r : Run V} {a : Addr} {v : V} : (a, v) ∈ r.writes ↔ Item r a v := by
  rw [writes_eq]
  have e1 : ∀ i, r.Ninit + 1 + i = r.Ninit + i + 1 := fun i => by omega
  constructor
  · intro hw
    rcases List.mem_append.1 hw with hw | hw
    · obtain ⟨e, he, hw⟩ := List.mem_map.1 hw
      injection hw with h1 h2
      subst h1 h2
      exact .param he
    rcases List.mem_append.1 hw with hw | hw
    · obtain ⟨h0, hw⟩ := mem_ite hw
      rcases List.mem_append.1 hw with hw | hw
      · obtain ⟨e, he, l, -, hv, rfl⟩ := mem_diag.1 hw
        exact .eigen h0 he hv
      · obtain ⟨c, e, he, I, J, m, im, hm, hp, rfl⟩ := mem_ops.1 hw
        exact .op h0 he hm hp
    rcases List.mem_append.1 hw with hw | hw
    · obtain ⟨i, s, hs, hl, hi⟩ := (mem_steps _ _).1 hw
      rw [e1] at hi
      exact .step hs hl hi
    · cases hf : r.final with
      | inl f =>
        rw [hf] at hw
        change (a, v) ∈ finalWrites _ _ _ at hw
        unfold finalWrites at hw
        rcases List.mem_cons.1 hw with hw | hw
        · injection hw with h1 h2
          subst h1 h2
          exact .gs hf
        rcases List.mem_append.1 hw with hw | hw
        · obtain ⟨i, s, t, hs, h1, h2⟩ := (mem_stats _ _).1 hw
          rw [e1] at h1
          subst h1 h2
          exact .stat hf hs
        rcases List.mem_append.1 hw with hw | hw
        · obtain ⟨e, he, hw⟩ := List.mem_map.1 hw
          injection hw with h1 h2
          subst h1 h2
          exact .expv hf he
        rcases List.mem_cons.1 hw with hw | hw
        · injection hw with h1 h2
          subst h1 h2
          exact .total hf
        obtain ⟨h0, hw⟩ := mem_ite hw
        rcases List.mem_cons.1 hw with hw | hw
        · injection hw with h1 h2
          subst h1 h2
          exact .range hf h0
        obtain ⟨i, s, hs, hw⟩ := (mem_store _ _).1 hw
        rw [e1] at hw
        rcases hw with ⟨e, he, rfl, rfl⟩ | ⟨e, he, l, rfl, rfl⟩
        · exact .list hf h0 hs he
        · exact .data hf h0 hs he
      | inr f =>
        rw [hf] at hw
        cases f with
        | none => cases hw
        | some f =>
          change (a, v) ∈ finalDmWrites f at hw
          unfold finalDmWrites at hw
          rcases List.mem_append.1 hw with hw | hw
          · obtain ⟨l, -, hw⟩ := List.mem_map.1 hw
            injection hw with h1 h2
            subst h1 h2
            exact .fdm hf
          · obtain ⟨e, he, hw⟩ := List.mem_map.1 hw
            injection hw with h1 h2
            subst h1 h2
            exact .fdmExpv hf he
  · intro hi
    have hend : (a, v) ∈ endWrites r.switches r.Ninit r.final → _ := fun h =>
      List.mem_append_right (r.params.map fun e => (Addr.param e.1, e.2)) (List.mem_append_right
        (if r.switches.all then diagWrites r.Ninit true r.diag ++ opWrites r.Ninit r.ops else [])
        (List.mem_append_right (stepsWrites r.switches r.nrg (r.Ninit + 1) r.steps) h))
    cases hi with
    | param he => exact List.mem_append_left _ (List.mem_map.2 ⟨_, he, rfl⟩)
    | eigen h0 he hv =>
      exact List.mem_append_right _ (List.mem_append_left _ (ite_mem h0 (List.mem_append_left _ (mem_diag.2 ⟨_, he, _, .inl rfl, hv, rfl⟩))))
    | op h0 he hm hp =>
      exact List.mem_append_right _ (List.mem_append_left _ (ite_mem h0 (List.mem_append_right _ (mem_ops.2 ⟨_, _, he, _, _, _, _, hm, hp, rfl⟩))))
    | step hs hl hi =>
      exact List.mem_append_right _ (List.mem_append_right _ (List.mem_append_left _ ((mem_steps _ _).2 ⟨_, _, hs, hl, by rw [e1]; exact hi⟩)))
    | gs hf =>
      refine hend ?_
      rw [hf]
      exact List.mem_cons_self
    | stat hf hs =>
      refine hend ?_
      rw [hf]
      exact List.mem_cons_of_mem _ (List.mem_append_left _ ((mem_stats _ _).2 ⟨_, _, _, hs, by rw [e1], rfl⟩))
    | expv hf he =>
      refine hend ?_
      rw [hf]
      exact List.mem_cons_of_mem _ (List.mem_append_right _ (List.mem_append_left _ (List.mem_map.2 ⟨_, he, rfl⟩)))
    | total hf =>
      refine hend ?_
      rw [hf]
      exact List.mem_cons_of_mem _ (List.mem_append_right _ (List.mem_append_right _ List.mem_cons_self))
    | range hf h0 =>
      refine hend ?_
      rw [hf]
      exact List.mem_cons_of_mem _ (List.mem_append_right _ (List.mem_append_right _ (List.mem_cons_of_mem _ (ite_mem h0 List.mem_cons_self))))
    | list hf h0 hs he =>
      refine hend ?_
      rw [hf]
      exact List.mem_cons_of_mem _ (List.mem_append_right _ (List.mem_append_right _ (List.mem_cons_of_mem _ (ite_mem h0 (List.mem_cons_of_mem _
        ((mem_store _ _).2 ⟨_, _, hs, .inl ⟨_, he, by rw [e1], rfl⟩⟩))))))
    | data hf h0 hs he =>
      refine hend ?_
      rw [hf]
      exact List.mem_cons_of_mem _ (List.mem_append_right _ (List.mem_append_right _ (List.mem_cons_of_mem _ (ite_mem h0 (List.mem_cons_of_mem _
        ((mem_store _ _).2 ⟨_, _, hs, .inr ⟨_, he, _, by rw [e1], rfl⟩⟩))))))
    | fdm hf =>
      refine hend ?_
      rw [hf]
      exact List.mem_append_left _ (List.mem_map.2 ⟨_, fdm_all _, rfl⟩)
    | fdmExpv hf he =>
      refine hend ?_
      rw [hf]
      exact List.mem_append_right _ (List.mem_map.2 ⟨_, he, rfl⟩)

end Verif.Raw
