import Verif.Raw.Lemmas
/-! # The steps, the end and the whole run: usable and distinct addresses -/

namespace Verif.Raw
open Verif.Text
open Verif.Invar (Label)

variable {V : Type}

theorem diag_ok {n : Nat} {b : Bool} {d : Diag V} (h : Labels d) : ∀ w ∈ diagWrites n b d, AddrOK w.1 ∧ kind w.1 = 1 ∧ num w.1 = n := by
  intro w hw
  obtain ⟨e, he, l, hw⟩ := diag_mem hw
  rw [hw]
  exact ⟨h.2 e he, rfl, rfl⟩

theorem op_ok {n : Nat} {o : Ops V} (h : OpsOK o) : ∀ w ∈ opWrites n o, AddrOK w.1 ∧ kind w.1 = 5 ∧ num w.1 = n := by
  intro w hw
  obtain ⟨c, e, he, m, hm, im, hw⟩ := op_mem hw
  rw [hw]
  exact ⟨⟨(h c).1.2 e he, ((h c).2 e he).2 m hm⟩, rfl, rfl⟩

theorem blocks_ok {n : Nat} {l : List (Label × List (Label × Mat V))} (h : Labels l) :
    ∀ w ∈ (l.flatMap fun b => blockWrites n b.1 0 b.2), AddrOK w.1 ∧ kind w.1 = 2 ∧ num w.1 = n := by
  intro w hw
  obtain ⟨e, he, hw⟩ := List.mem_flatMap.1 hw
  obtain ⟨j, A, im, -, hw⟩ := block_mem _ _ hw
  rw [hw]
  exact ⟨h.2 e he, rfl, rfl⟩

theorem ham_ok {n : Nat} {r : List (List (Label × Mat V))} (h : ∀ x ∈ r, Labels x) :
    ∀ w ∈ r.flatMap (hamWrites n), AddrOK w.1 ∧ kind w.1 = 3 ∧ num w.1 = n := by
  intro w hw
  obtain ⟨x, hx, hw⟩ := List.mem_flatMap.1 hw
  obtain ⟨m, hm, im, hw⟩ := ham_mem hw
  rw [hw]
  exact ⟨(h x hx).2 m hm, rfl, rfl⟩

theorem struct_ok {n : Nat} {l : List (Label × V)} (h : Labels l) :
    ∀ w ∈ (l.map fun e => (Addr.struct n e.1, e.2)), AddrOK w.1 ∧ kind w.1 = 4 ∧ num w.1 = n := by
  intro w hw
  obtain ⟨e, he, rfl⟩ := List.mem_map.1 hw
  exact ⟨h.2 e he, rfl, rfl⟩

theorem mem_ite {α : Type} {b : Bool} {l : List α} {x : α} (h : x ∈ if b then l else []) : b = true ∧ x ∈ l := by
  cases b
  · simp at h
  · exact ⟨rfl, by simpa using h⟩

theorem step_ok {h : Switches} {nrg last : Bool} {n : Nat} {s : StepData V} (hs : StepOK s) :
    ∀ w ∈ stepWrites h nrg last n s, AddrOK w.1 ∧ (1 ≤ kind w.1 ∧ kind w.1 ≤ 5) ∧ num w.1 = n := by
  intro w hw
  unfold stepWrites at hw
  obtain ⟨-, hw⟩ := mem_ite hw
  rcases List.mem_append.1 hw with hw | hw
  · obtain ⟨a, b, c⟩ := struct_ok hs.struct w (mem_ite hw).2
    exact ⟨a, by omega, c⟩
  rcases List.mem_append.1 hw with hw | hw
  · obtain ⟨a, b, c⟩ := ham_ok hs.rounds w (mem_ite hw).2
    exact ⟨a, by omega, c⟩
  rcases List.mem_append.1 hw with hw | hw
  · rcases List.mem_append.1 (mem_ite hw).2 with hw | hw
    · obtain ⟨a, b, c⟩ := diag_ok hs.diag w hw
      exact ⟨a, by omega, c⟩
    · obtain ⟨a, b, c⟩ := blocks_ok hs.blocks w (mem_ite hw).2
      exact ⟨a, by omega, c⟩
  · obtain ⟨a, b, c⟩ := op_ok hs.ops w (mem_ite hw).2
    exact ⟨a, by omega, c⟩

theorem ne_of_kind {a b : Addr} (h : kind a ≠ kind b) : a ≠ b := fun h' => h (by rw [h'])
theorem ne_of_num {a b : Addr} (h : num a ≠ num b) : a ≠ b := fun h' => h (by rw [h'])

theorem nodup_ite {b : Bool} {w : Writes V} (h : b = true → (addrs w).Nodup) : (addrs (if b then w else [])).Nodup := by
  cases b
  · simp [addrs]
  · simpa using h rfl

theorem nodup_left {w u : Writes V} (h : (addrs (w ++ u)).Nodup) : (addrs w).Nodup := by
  unfold addrs at *
  rw [List.map_append, List.nodup_append] at h
  exact h.1

theorem nodup_right {w u : Writes V} (h : (addrs (w ++ u)).Nodup) : (addrs u).Nodup := by
  unfold addrs at *
  rw [List.map_append, List.nodup_append] at h
  exact h.2.1

/-- The matrices of this step are not stored twice. -/
def stepOnce (h : Switches) (nrg last : Bool) (s : StepData V) : Prop :=
  h.ham = true → nrg = true → h.here last = true → (s.rounds.flatten.map Prod.fst).Nodup

theorem step_nodup {h : Switches} {nrg last : Bool} {n : Nat} {s : StepData V} (hs : StepOK s) :
    (addrs (stepWrites h nrg last n s)).Nodup ↔ stepOnce h nrg last s := by
  constructor
  · intro hn h1 h2 h3
    unfold stepWrites at hn
    rw [if_pos h3] at hn
    have := nodup_left (nodup_right hn)
    rw [h1, h2] at this
    simp only [Bool.and_self, if_true] at this
    rw [rounds_eq] at this
    exact (ham_nodup n _).1 this
  · intro ho
    unfold stepWrites
    refine nodup_ite fun h3 => ?_
    refine nodup_addrs_append (nodup_ite fun _ => nodup_table (fun e : Label × V => e.1) (Addr.struct n) (fun a b h => by injection h) (fun e => e.2) _ hs.struct.1)
      (nodup_addrs_append (nodup_ite fun hb => ?_) (nodup_addrs_append (nodup_ite fun _ => ?_) (nodup_ite fun _ => op_nodup n hs.ops) ?_) ?_) ?_
    · rw [Bool.and_eq_true] at hb
      rw [rounds_eq]
      exact (ham_nodup n _).2 (ho hb.1 hb.2 h3)
    · refine nodup_addrs_append (diag_nodup n _ hs.diag) (nodup_ite fun _ => blocks_nodup n hs.blocks) ?_
      intro x hx y hy
      have a := (diag_ok hs.diag x hx).2.1
      have b := (blocks_ok hs.blocks y (mem_ite hy).2).2.1
      exact ne_of_kind (by omega)
    · intro x hx y hy
      have b := (op_ok hs.ops y (mem_ite hy).2).2.1
      rcases List.mem_append.1 (mem_ite hx).2 with hx | hx
      · have a := (diag_ok hs.diag x hx).2.1
        exact ne_of_kind (by omega)
      · have a := (blocks_ok hs.blocks x (mem_ite hx).2).2.1
        exact ne_of_kind (by omega)
    · intro x hx y hy
      have a := (ham_ok hs.rounds x (mem_ite hx).2).2.1
      rcases List.mem_append.1 hy with hy | hy
      · rcases List.mem_append.1 (mem_ite hy).2 with hy | hy
        · have b := (diag_ok hs.diag y hy).2.1
          exact ne_of_kind (by omega)
        · have b := (blocks_ok hs.blocks y (mem_ite hy).2).2.1
          exact ne_of_kind (by omega)
      · have b := (op_ok hs.ops y (mem_ite hy).2).2.1
        exact ne_of_kind (by omega)
    · intro x hx y hy
      have a := (struct_ok hs.struct x (mem_ite hx).2).2.1
      rcases List.mem_append.1 hy with hy | hy
      · have b := (ham_ok hs.rounds y (mem_ite hy).2).2.1
        exact ne_of_kind (by omega)
      rcases List.mem_append.1 hy with hy | hy
      · rcases List.mem_append.1 (mem_ite hy).2 with hy | hy
        · have b := (diag_ok hs.diag y hy).2.1
          exact ne_of_kind (by omega)
        · have b := (blocks_ok hs.blocks y (mem_ite hy).2).2.1
          exact ne_of_kind (by omega)
      · have b := (op_ok hs.ops y (mem_ite hy).2).2.1
        exact ne_of_kind (by omega)

/-! ## All steps -/

theorem steps_ok {h : Switches} {nrg : Bool} (ss : List (StepData V)) : ∀ {n : Nat}, (∀ s ∈ ss, StepOK s) →
    ∀ w ∈ stepsWrites h nrg n ss, AddrOK w.1 ∧ (1 ≤ kind w.1 ∧ kind w.1 ≤ 5) ∧ n ≤ num w.1 := by
  induction ss with
  | nil => intro n _ w hw; cases hw
  | cons s ss ih =>
    intro n hs w hw
    rw [stepsWrites] at hw
    rcases List.mem_append.1 hw with hw | hw
    · obtain ⟨a, b, c⟩ := step_ok (hs s (by simp)) w hw
      exact ⟨a, b, by omega⟩
    · obtain ⟨a, b, c⟩ := ih (fun s h => hs s (by simp [h])) w hw
      exact ⟨a, b, by omega⟩

/-- No matrix twice, in all steps. -/
def stepsOnce (h : Switches) (nrg : Bool) : List (StepData V) → Prop
  | [] => True
  | s :: ss => stepOnce h nrg ss.isEmpty s ∧ stepsOnce h nrg ss

theorem steps_nodup {h : Switches} {nrg : Bool} (ss : List (StepData V)) : ∀ {n : Nat}, (∀ s ∈ ss, StepOK s) →
    ((addrs (stepsWrites h nrg n ss)).Nodup ↔ stepsOnce h nrg ss) := by
  induction ss with
  | nil => intro n _; simp [addrs, stepsWrites, stepsOnce]
  | cons s ss ih =>
    intro n hs
    have hs1 := hs s (by simp)
    have hs2 : ∀ s ∈ ss, StepOK s := fun s h => hs s (by simp [h])
    rw [stepsWrites, stepsOnce]
    constructor
    · intro hn
      exact ⟨(step_nodup hs1).1 (nodup_left hn), (ih hs2).1 (nodup_right hn)⟩
    · rintro ⟨h1, h2⟩
      refine nodup_addrs_append ((step_nodup hs1).2 h1) ((ih hs2).2 h2) ?_
      intro x hx y hy
      have a := (step_ok hs1 x hx).2.2
      have b := (steps_ok ss hs2 y hy).2.2
      exact ne_of_num (by omega)

theorem stepsOnce_iff {h : Switches} {nrg : Bool} (ss : List (StepData V)) : stepsOnce h nrg ss ↔
    (h.ham = true → nrg = true → ∀ i s, ss[i]? = some s → (h.all = true ∨ (h.last = true ∧ i + 1 = ss.length)) → (s.rounds.flatten.map Prod.fst).Nodup) := by
  induction ss with
  | nil => simp [stepsOnce]
  | cons s ss ih =>
    rw [stepsOnce, ih]
    constructor
    · rintro ⟨h1, h2⟩ a b i t ht hi
      cases i with
      | zero =>
        simp only [List.getElem?_cons_zero, Option.some.injEq] at ht
        subst ht
        apply h1 a b
        unfold Switches.here
        rcases hi with hi | ⟨hi, hl⟩
        · simp [hi]
        · have : ss = [] := by simpa using hl
          simp [hi, this]
      | succ i =>
        rw [List.getElem?_cons_succ] at ht
        refine h2 a b i t ht (hi.imp id fun hi => ⟨hi.1, by simpa using hi.2⟩)
    · intro H
      refine ⟨?_, ?_⟩
      · intro a b c
        refine H a b 0 s rfl ?_
        unfold Switches.here at c
        rw [Bool.or_eq_true, Bool.and_eq_true, List.isEmpty_iff] at c
        exact c.imp id fun c => ⟨c.1, by simp [c.2]⟩
      · intro a b i t ht hi
        exact H a b (i + 1) t (by simpa using ht) (hi.imp id fun hi => ⟨hi.1, by simpa using hi.2⟩)

/-! ## The end -/

theorem stats_ok (l : List (Stat → V)) : ∀ {n : Nat}, ∀ w ∈ statsWrites n l, AddrOK w.1 ∧ kind w.1 = 7 ∧ n ≤ num w.1 := by
  induction l with
  | nil => intro n w hw; cases hw
  | cons s l ih =>
    intro n w hw
    rw [statsWrites] at hw
    rcases List.mem_append.1 hw with hw | hw
    · obtain ⟨e, -, rfl⟩ := List.mem_map.1 hw
      exact ⟨trivial, rfl, Nat.le_refl _⟩
    · obtain ⟨a, b, c⟩ := ih w hw
      exact ⟨a, b, by omega⟩

theorem stats_nodup (l : List (Stat → V)) : ∀ n : Nat, (addrs (statsWrites n l)).Nodup := by
  induction l with
  | nil => intro n; simp [addrs, statsWrites]
  | cons s l ih =>
    intro n
    rw [statsWrites]
    refine nodup_addrs_append (nodup_table (fun e : Stat => e) (Addr.stat n) (fun a b h => by injection h) s _ (by decide)) (ih _) ?_
    intro x hx y hy
    obtain ⟨e, -, rfl⟩ := List.mem_map.1 hx
    have b := (stats_ok l y hy).2.2
    exact ne_of_num (by show n ≠ _; omega)

theorem subs_ok {n : Nat} {one : V} {s : List (Label × (Sub → V))} (h : Labels s) :
    ∀ w ∈ subsWrites n one s, AddrOK w.1 ∧ (kind w.1 = 11 ∨ kind w.1 = 12) ∧ num w.1 = n := by
  intro w hw
  unfold subsWrites at hw
  rcases List.mem_append.1 hw with hw | hw
  · obtain ⟨e, he, rfl⟩ := List.mem_map.1 hw
    exact ⟨h.2 e he, .inl rfl, rfl⟩
  · obtain ⟨e, he, hw⟩ := List.mem_flatMap.1 hw
    obtain ⟨l, -, rfl⟩ := List.mem_map.1 hw
    exact ⟨h.2 e he, .inr rfl, rfl⟩

theorem subs_nodup (n : Nat) (one : V) {s : List (Label × (Sub → V))} (h : Labels s) : (addrs (subsWrites n one s)).Nodup := by
  unfold subsWrites
  refine nodup_addrs_append (nodup_table (fun e : Label × (Sub → V) => e.1) (Addr.list n) (fun a b h => by injection h) (fun _ => one) _ h.1)
    (nodup_keyed (fun e => e.1) keyI _ s ?_ h.1 ?_) ?_
  · intro e _ w hw
    obtain ⟨l, -, rfl⟩ := List.mem_map.1 hw
    rfl
  · intro e _
    exact nodup_table (fun e : Sub => e) (Addr.data n e.1) (fun a b h => by injection h) e.2 _ (by decide)
  · intro x hx y hy
    obtain ⟨e, he, rfl⟩ := List.mem_map.1 hx
    obtain ⟨e, he, hy⟩ := List.mem_flatMap.1 hy
    obtain ⟨l, -, rfl⟩ := List.mem_map.1 hy
    simp

theorem store_ok {one : V} (l : List (List (Label × (Sub → V)))) : ∀ {n : Nat}, (∀ s ∈ l, Labels s) →
    ∀ w ∈ storeWrites one n l, AddrOK w.1 ∧ (kind w.1 = 11 ∨ kind w.1 = 12) ∧ n ≤ num w.1 := by
  induction l with
  | nil => intro n _ w hw; cases hw
  | cons s l ih =>
    intro n hs w hw
    rw [storeWrites] at hw
    rcases List.mem_append.1 hw with hw | hw
    · obtain ⟨a, b, c⟩ := subs_ok (hs s (by simp)) w hw
      exact ⟨a, b, by omega⟩
    · obtain ⟨a, b, c⟩ := ih (fun s h => hs s (by simp [h])) w hw
      exact ⟨a, b, by omega⟩

theorem store_nodup (one : V) (l : List (List (Label × (Sub → V)))) : ∀ {n : Nat}, (∀ s ∈ l, Labels s) → (addrs (storeWrites one n l)).Nodup := by
  induction l with
  | nil => intro n _; simp [addrs, storeWrites]
  | cons s l ih =>
    intro n hs
    have hs2 : ∀ s ∈ l, Labels s := fun s h => hs s (by simp [h])
    rw [storeWrites]
    refine nodup_addrs_append (subs_nodup n one (hs s (by simp))) (ih hs2) ?_
    intro x hx y hy
    have a := (subs_ok (hs s (by simp)) x hx).2.2
    have b := (store_ok l hs2 y hy).2.2
    exact ne_of_num (by omega)

theorem nodup_addrs_cons {a : Addr} {v : V} {w : Writes V} (hw : (addrs w).Nodup) (h : ∀ y ∈ w, a ≠ y.1) : (addrs ((a, v) :: w)).Nodup :=
  nodup_addrs_append (w := [(a, v)]) (by simp [addrs]) hw fun x hx y hy => by
    rw [List.mem_singleton] at hx
    subst hx
    exact h y hy

/-- The writes at the end. -/
def endWrites (h : Switches) (Ninit : Nat) : Final V ⊕ Option (FinalDm V) → Writes V
  | .inl f => finalWrites h Ninit f
  | .inr none => []
  | .inr (some f) => finalDmWrites f

theorem end_ok {h : Switches} {N : Nat} {f : Final V ⊕ Option (FinalDm V)} (hf : FinalOK f) :
    ∀ w ∈ endWrites h N f, AddrOK w.1 ∧ 6 ≤ kind w.1 := by
  intro w hw
  match f, hf, hw with
  | .inl f, hf, hw =>
    change w ∈ finalWrites h N f at hw
    unfold finalWrites at hw
    rcases List.mem_cons.1 hw with rfl | hw
    · exact ⟨trivial, by show 6 ≤ 6; omega⟩
    rcases List.mem_append.1 hw with hw | hw
    · obtain ⟨a, b, -⟩ := stats_ok _ w hw
      exact ⟨a, by omega⟩
    rcases List.mem_append.1 hw with hw | hw
    · obtain ⟨e, he, rfl⟩ := List.mem_map.1 hw
      exact ⟨hf.1.2 e he, by show 6 ≤ 8; omega⟩
    rcases List.mem_cons.1 hw with rfl | hw
    · exact ⟨trivial, by show 6 ≤ 9; omega⟩
    rcases List.mem_cons.1 (mem_ite hw).2 with rfl | hw
    · exact ⟨trivial, by show 6 ≤ 10; omega⟩
    · obtain ⟨a, b, -⟩ := store_ok _ hf.2 w hw
      exact ⟨a, by omega⟩
  | .inr (some f), hf, hw =>
    change w ∈ finalDmWrites f at hw
    unfold finalDmWrites at hw
    rcases List.mem_append.1 hw with hw | hw
    · obtain ⟨e, -, rfl⟩ := List.mem_map.1 hw
      exact ⟨trivial, by show 6 ≤ 13; omega⟩
    · obtain ⟨e, he, rfl⟩ := List.mem_map.1 hw
      exact ⟨hf.2 e he, by show 6 ≤ 14; omega⟩

theorem end_nodup (h : Switches) (N : Nat) {f : Final V ⊕ Option (FinalDm V)} (hf : FinalOK f) : (addrs (endWrites h N f)).Nodup := by
  match f, hf with
  | .inr none, _ => simp [addrs, endWrites]
  | .inr (some f), hf =>
    change (addrs (finalDmWrites f)).Nodup
    unfold finalDmWrites
    refine nodup_addrs_append (nodup_table (fun e : Fdm => e) Addr.fdm (fun a b h => by injection h) f.values _ (by decide))
      (nodup_table (fun e : Str × V => e.1) Addr.fdmExpv (fun a b h => by injection h) (fun e => e.2) _ hf.1) ?_
    intro x hx y hy
    obtain ⟨e, -, rfl⟩ := List.mem_map.1 hx
    obtain ⟨e, -, rfl⟩ := List.mem_map.1 hy
    simp
  | .inl f, hf =>
    change (addrs (finalWrites h N f)).Nodup
    unfold finalWrites
    have hstore : ∀ y ∈ storeWrites f.one (N + 1) f.store, 11 ≤ kind y.1 := fun y hy => by
      have := (store_ok _ hf.2 y hy).2.1
      omega
    have hrange : ∀ y ∈ (if h.all then (Addr.range, f.range) :: storeWrites f.one (N + 1) f.store else []), 10 ≤ kind y.1 := by
      intro y hy
      rcases List.mem_cons.1 (mem_ite hy).2 with rfl | hy
      · exact Nat.le_refl 10
      · exact Nat.le_of_succ_le (hstore y hy)
    have htotal : ∀ y ∈ (Addr.total, f.total) :: (if h.all then (Addr.range, f.range) :: storeWrites f.one (N + 1) f.store else []), 9 ≤ kind y.1 := by
      intro y hy
      rcases List.mem_cons.1 hy with rfl | hy
      · exact Nat.le_refl 9
      · exact Nat.le_of_succ_le (hrange y hy)
    have hexpv : ∀ y ∈ (f.expv.map fun e => (Addr.expv e.1, e.2)), kind y.1 = 8 := by
      intro y hy
      obtain ⟨e, -, rfl⟩ := List.mem_map.1 hy
      rfl
    refine nodup_addrs_cons (nodup_addrs_append (stats_nodup _ _) (nodup_addrs_append
      (nodup_table (fun e : Str × V => e.1) Addr.expv (fun a b h => by injection h) (fun e => e.2) _ hf.1.1)
      (nodup_addrs_cons (nodup_ite fun _ => nodup_addrs_cons (store_nodup _ _ hf.2) ?_) ?_) ?_) ?_) ?_
    · intro y hy
      have := hstore y hy
      exact ne_of_kind (by show 10 ≠ _; omega)
    · intro y hy
      have := hrange y hy
      exact ne_of_kind (by show 9 ≠ _; omega)
    · intro x hx y hy
      have a := hexpv x hx
      have := htotal y hy
      exact ne_of_kind (by omega)
    · intro x hx y hy
      have a := (stats_ok _ x hx).2.1
      rcases List.mem_append.1 hy with hy | hy
      · have := hexpv y hy
        exact ne_of_kind (by omega)
      · have := htotal y hy
        exact ne_of_kind (by omega)
    · intro y hy
      rcases List.mem_append.1 hy with hy | hy
      · have a := (stats_ok _ y hy).2.1
        exact ne_of_kind (by show 6 ≠ _; omega)
      rcases List.mem_append.1 hy with hy | hy
      · have := hexpv y hy
        exact ne_of_kind (by show 6 ≠ _; omega)
      · have := htotal y hy
        exact ne_of_kind (by show 6 ≠ _; omega)

/-! ## The run -/

theorem writes_eq (r : Run V) : r.writes = (r.params.map fun e => (.param e.1, e.2)) ++
    ((if r.switches.all then diagWrites r.Ninit true r.diag ++ opWrites r.Ninit r.ops else []) ++
      (stepsWrites r.switches r.nrg (r.Ninit + 1) r.steps ++ endWrites r.switches r.Ninit r.final)) := by
  unfold Run.writes
  rcases r.final with f | f
  · rfl
  · cases f <;> rfl

theorem begin_ok {r : Run V} (h : RunOK r) : ∀ w ∈ (if r.switches.all then diagWrites r.Ninit true r.diag ++ opWrites r.Ninit r.ops else []),
    AddrOK w.1 ∧ (1 ≤ kind w.1 ∧ kind w.1 ≤ 5) ∧ num w.1 = r.Ninit := by
  intro w hw
  rcases List.mem_append.1 (mem_ite hw).2 with hw | hw
  · obtain ⟨a, b, c⟩ := diag_ok h.diag w hw
    exact ⟨a, by omega, c⟩
  · obtain ⟨a, b, c⟩ := op_ok h.ops w hw
    exact ⟨a, by omega, c⟩

theorem run_ok {r : Run V} (h : RunOK r) : ∀ w ∈ r.writes, AddrOK w.1 := by
  intro w hw
  rw [writes_eq] at hw
  rcases List.mem_append.1 hw with hw | hw
  · obtain ⟨e, he, rfl⟩ := List.mem_map.1 hw
    exact h.params.2 e he
  rcases List.mem_append.1 hw with hw | hw
  · exact (begin_ok h w hw).1
  rcases List.mem_append.1 hw with hw | hw
  · exact (steps_ok _ h.steps w hw).1
  · exact (end_ok h.final w hw).1

theorem run_nodup {r : Run V} (h : RunOK r) : (addrs r.writes).Nodup ↔ r.Once := by
  have hO : r.Once ↔ stepsOnce r.switches r.nrg r.steps := (stepsOnce_iff r.steps).symm
  rw [hO, writes_eq]
  constructor
  · intro hn
    exact (steps_nodup _ h.steps).1 (nodup_left (nodup_right (nodup_right hn)))
  · intro ho
    refine nodup_addrs_append (nodup_table (fun e : Str × V => e.1) Addr.param (fun a b h => by injection h) (fun e => e.2) _ h.params.1)
      (nodup_addrs_append (nodup_ite fun _ => nodup_addrs_append (diag_nodup _ _ h.diag) (op_nodup _ h.ops) ?_)
        (nodup_addrs_append ((steps_nodup _ h.steps).2 ho) (end_nodup _ _ h.final) ?_) ?_) ?_
    · intro x hx y hy
      have a := (diag_ok h.diag x hx).2.1
      have b := (op_ok h.ops y hy).2.1
      exact ne_of_kind (by omega)
    · intro x hx y hy
      have a := (steps_ok _ h.steps x hx).2.1
      have b := (end_ok h.final y hy).2
      exact ne_of_kind (by omega)
    · intro x hx y hy
      have a := (begin_ok h x hx).2
      rcases List.mem_append.1 hy with hy | hy
      · have b := (steps_ok _ h.steps y hy).2.2
        exact ne_of_num (by omega)
      · have b := (end_ok h.final y hy).2
        exact ne_of_kind (by omega)
    · intro x hx y hy
      obtain ⟨e, -, rfl⟩ := List.mem_map.1 hx
      rcases List.mem_append.1 hy with hy | hy
      · have b := (begin_ok h y hy).2.1
        exact ne_of_kind (by show 0 ≠ _; omega)
      rcases List.mem_append.1 hy with hy | hy
      · have b := (steps_ok _ h.steps y hy).2.1
        exact ne_of_kind (by show 0 ≠ _; omega)
      · have b := (end_ok h.final y hy).2
        exact ne_of_kind (by show 0 ≠ _; omega)

end Verif.Raw
