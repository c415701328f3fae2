import Verif.Raw.Names
/-! # Sequences of writes; distinct data sets -/

namespace Verif.Raw
open Verif.Text
open Verif.Invar (Label)

variable {V : Type}

/-! ## Writing -/

/-- Neither lies below the other. -/
def Apart (a b : List Str) : Prop := ¬ a <+: b ∧ ¬ b <+: a

theorem dump_eq {f : File V} {p : Str} {v : V} (h0 : comps p ≠ []) (h : ∀ e ∈ f, Apart e.1 (comps p)) :
    dump f p v = some (f ++ [(comps p, v)]) := by
  unfold dump
  rw [if_neg]
  rintro (h1 | ⟨e, he, h1⟩)
  · exact h0 h1
  · exact h1.elim (h e he).1 (h e he).2

theorem dump_some {f g : File V} {p : Str} {v : V} (h : dump f p v = some g) :
    comps p ≠ [] ∧ (∀ e ∈ f, Apart e.1 (comps p)) ∧ g = f ++ [(comps p, v)] := by
  unfold dump at h
  split at h
  · cases h
  · next hn =>
    injection h with h
    refine ⟨fun h0 => hn (.inl h0), fun e he => ⟨fun h1 => hn (.inr ⟨e, he, .inl h1⟩), fun h1 => hn (.inr ⟨e, he, .inr h1⟩)⟩, h.symm⟩

theorem dumpAll_iff (ws : List (Str × V)) : ∀ f g : File V, dumpAll f ws = some g ↔
    ((∀ w ∈ ws, comps w.1 ≠ []) ∧ ws.Pairwise (fun x y => Apart (comps x.1) (comps y.1)) ∧
      (∀ e ∈ f, ∀ w ∈ ws, Apart e.1 (comps w.1)) ∧ g = f ++ ws.map fun w => (comps w.1, w.2)) := by
  induction ws with
  | nil =>
    intro f g
    simp only [dumpAll, List.not_mem_nil, false_implies, implies_true, List.Pairwise.nil, true_and, List.map_nil, List.append_nil, Option.some.injEq]
    exact ⟨fun h => h.symm, fun h => h.symm⟩
  | cons w ws ih =>
    intro f g
    obtain ⟨p, v⟩ := w
    constructor
    · intro h
      rw [dumpAll] at h
      cases hd : dump f p v with
      | none => rw [hd] at h; cases h
      | some f1 =>
        rw [hd] at h
        dsimp only at h
        obtain ⟨h1, h2, rfl⟩ := dump_some hd
        obtain ⟨a1, a2, a3, a4⟩ := (ih _ _).1 h
        refine ⟨?_, ?_, ?_, ?_⟩
        · intro w hw
          rcases List.mem_cons.1 hw with rfl | hw
          · exact h1
          · exact a1 w hw
        · exact List.pairwise_cons.2 ⟨fun w hw => a3 (comps p, v) (by simp) w hw, a2⟩
        · intro e he w hw
          rcases List.mem_cons.1 hw with rfl | hw
          · exact h2 e he
          · exact a3 e (by simp [he]) w hw
        · rw [a4]; simp
    · rintro ⟨h1, h2, h3, rfl⟩
      rw [List.pairwise_cons] at h2
      rw [dumpAll, dump_eq (h1 _ (by simp)) fun e he => h3 e he (p, v) (by simp)]
      dsimp only
      refine (ih _ _).2 ⟨fun w hw => h1 w (by simp [hw]), h2.2, ?_, by simp⟩
      intro e he w hw
      rw [List.mem_append, List.mem_singleton] at he
      rcases he with he | rfl
      · exact h3 e he w (by simp [hw])
      · exact h2.1 w hw

/-- The addresses of a sequence of writes. -/
def addrs (w : Writes V) : List Addr := w.map Prod.fst

/-- The names of a sequence of writes. -/
def named (w : Writes V) : List (Str × V) := w.map fun w => (path w.1, w.2)

theorem apart_iff {a b : Addr} (ha : AddrOK a) (hb : AddrOK b) : Apart (comps (path a)) (comps (path b)) ↔ a ≠ b := by
  rw [comps_path ha, comps_path hb]
  constructor
  · rintro h rfl
    exact h.1 (List.prefix_refl _)
  · intro h
    exact ⟨fun h1 => h (parts_antichain h1), fun h1 => h (parts_antichain h1).symm⟩

/-- With usable names a sequence of writes succeeds if and only if the addresses are distinct. -/
theorem dumpAll_named {w : Writes V} (hw : ∀ x ∈ w, AddrOK x.1) (f : File V) :
    dumpAll [] (named w) = some f ↔ ((addrs w).Nodup ∧ f = w.map fun x => (parts x.1, x.2)) := by
  rw [dumpAll_iff]
  have e : (named w).map (fun x => (comps x.1, x.2)) = w.map fun x => (parts x.1, x.2) := by
    unfold named
    rw [List.map_map]
    exact List.map_congr_left fun x hx => by simp only [Function.comp]; rw [comps_path (hw x hx)]
  have hp : (named w).Pairwise (fun x y => Apart (comps x.1) (comps y.1)) ↔ (addrs w).Nodup := by
    unfold named addrs List.Nodup
    rw [List.pairwise_map, List.pairwise_map]
    constructor
    · exact fun h => h.imp_of_mem fun {a b} ha hb h => (apart_iff (hw a ha) (hw b hb)).1 h
    · exact fun h => h.imp_of_mem fun {a b} ha hb h => (apart_iff (hw a ha) (hw b hb)).2 h
  rw [hp, e, List.nil_append]
  constructor
  · exact fun h => ⟨h.2.1, h.2.2.2⟩
  · intro h
    refine ⟨?_, h.1, by simp, h.2⟩
    intro x hx
    unfold named at hx
    obtain ⟨y, hy, rfl⟩ := List.mem_map.1 hx
    dsimp only
    rw [comps_path (hw y hy)]
    exact parts_ne_nil _

theorem get_parts {w : Writes V} (hn : (addrs w).Nodup) {a : Addr} {v : V} (ha : AddrOK a) (h : (a, v) ∈ w) :
    get (w.map fun x => (parts x.1, x.2)) (path a) = some v := by
  unfold get
  rw [comps_path ha]
  induction w with
  | nil => cases h
  | cons x w ih =>
    rw [addrs, List.map_cons, List.nodup_cons] at hn
    rw [List.map_cons, List.find?_cons]
    rcases List.mem_cons.1 h with rfl | h
    · simp
    · have hne : parts x.1 ≠ parts a := by
        intro h1
        have := parts_antichain (h1 ▸ List.prefix_refl _ : parts x.1 <+: parts a)
        exact hn.1 (List.mem_map.2 ⟨(a, v), h, this.symm⟩)
      simp only [hne, decide_false]
      exact ih hn.2 h

theorem get_none {w : Writes V} {p : Str} (h : ∀ x ∈ w, parts x.1 ≠ comps p) : get (w.map fun x => (parts x.1, x.2)) p = none := by
  unfold get
  rw [Option.map_eq_none_iff, List.find?_eq_none]
  intro e he
  obtain ⟨x, hx, rfl⟩ := List.mem_map.1 he
  simpa using h x hx

/-! ## Distinct addresses -/

theorem nodup_addrs_append {w u : Writes V} (hw : (addrs w).Nodup) (hu : (addrs u).Nodup) (h : ∀ x ∈ w, ∀ y ∈ u, x.1 ≠ y.1) :
    (addrs (w ++ u)).Nodup := by
  unfold addrs at *
  rw [List.map_append, List.nodup_append]
  refine ⟨hw, hu, ?_⟩
  intro a ha b hb
  obtain ⟨x, hx, rfl⟩ := List.mem_map.1 ha
  obtain ⟨y, hy, rfl⟩ := List.mem_map.1 hb
  exact h x hx y hy

theorem nodup_keyed {α κ : Type} (kf : α → κ) (key : Addr → Option κ) (g : α → Writes V) (l : List α)
    (hk : ∀ e ∈ l, ∀ w ∈ g e, key w.1 = some (kf e)) (hn : (l.map kf).Nodup) (hg : ∀ e ∈ l, (addrs (g e)).Nodup) :
    (addrs (l.flatMap g)).Nodup := by
  induction l with
  | nil => simp [addrs]
  | cons e l ih =>
    rw [List.map_cons, List.nodup_cons] at hn
    rw [List.flatMap_cons]
    refine nodup_addrs_append (hg e (by simp)) (ih (fun x hx => hk x (by simp [hx])) hn.2 fun x hx => hg x (by simp [hx])) ?_
    intro x hx y hy hxy
    obtain ⟨e', he', hy'⟩ := List.mem_flatMap.1 hy
    have h1 := hk e (by simp) x hx
    rw [hxy, hk e' (by simp [he']) y hy'] at h1
    injection h1 with h1
    exact hn.1 (List.mem_map.2 ⟨e', he', h1⟩)

/-- A table stored as it is. -/
theorem nodup_table {α κ : Type} (kf : α → κ) (c : κ → Addr) (hc : ∀ a b, c a = c b → a = b) (v : α → V) (l : List α) (hn : (l.map kf).Nodup) :
    (addrs (l.map fun e => (c (kf e), v e))).Nodup := by
  unfold addrs
  rw [List.map_map]
  have : (Prod.fst ∘ fun e => (c (kf e), v e)) = c ∘ kf := rfl
  rw [this, ← List.map_map]
  exact hn.map fun a b h => hc a b h

theorem matrix_mem {a : Bool → Addr} {m : Mat V} {w : Addr × V} (h : w ∈ matrix a m) : ∃ im, w.1 = a im := by
  unfold matrix at h
  rcases List.mem_cons.1 h with rfl | h
  · exact ⟨_, rfl⟩
  · obtain ⟨v, -, rfl⟩ := List.mem_map.1 h
    exact ⟨_, rfl⟩

theorem nodup_matrix {a : Bool → Addr} (ha : a false ≠ a true) (m : Mat V) : (addrs (matrix a m)).Nodup := by
  obtain ⟨r, i⟩ := m
  cases i with
  | none => simp [addrs, matrix]
  | some v => simp [addrs, matrix, ha]

/-- Kind of data set. -/
def kind : Addr → Nat
  | .param _ => 0
  | .eigen .. => 1
  | .block .. => 2
  | .ham .. => 3
  | .struct .. => 4
  | .op .. => 5
  | .gs => 6
  | .stat .. => 7
  | .expv _ => 8
  | .total => 9
  | .range => 10
  | .list .. => 11
  | .data .. => 12
  | .fdm _ => 13
  | .fdmExpv _ => 14

/-- Number of the step. -/
def num : Addr → Nat
  | .eigen n .. => n
  | .block n .. => n
  | .ham n .. => n
  | .struct n .. => n
  | .op n .. => n
  | .stat n .. => n
  | .list n .. => n
  | .data n .. => n
  | _ => 0

def keyI : Addr → Option Label
  | .eigen _ I _ => some I
  | .block _ I _ _ _ => some I
  | .ham _ I _ => some I
  | .struct _ I => some I
  | .list _ I => some I
  | .data _ I _ => some I
  | _ => none

def keyC : Addr → Option Cat
  | .op _ c .. => some c
  | _ => none

def keyO : Addr → Option Str
  | .op _ _ o .. => some o
  | _ => none

def keyIJ : Addr → Option (Label × Label)
  | .op _ _ _ I J _ => some (I, J)
  | _ => none

/-! ### Results of the diagonalisation -/

theorem leaves_nodup (b : Bool) : (if b then Leaf.all else Leaf.all.filter fun l => l ≠ .matrix ∧ l ≠ .matrixImag).Nodup := by
  cases b <;> decide

theorem addrs_filterMap (n : Nat) (I : Label) (e : Leaf → Option V) (ls : List Leaf) :
    (addrs (ls.filterMap fun l => (e l).map fun v => (Addr.eigen n I l, v))).Sublist (ls.map (.eigen n I)) := by
  induction ls with
  | nil => simp [addrs]
  | cons l ls ih =>
    rw [List.filterMap_cons]
    cases e l with
    | none => exact ih.cons _
    | some v => exact ih.cons₂ _

theorem diag_mem {n : Nat} {b : Bool} {d : Diag V} {w : Addr × V} (h : w ∈ diagWrites n b d) : ∃ e ∈ d, ∃ l, w.1 = .eigen n e.1 l := by
  unfold diagWrites at h
  obtain ⟨e, he, h⟩ := List.mem_flatMap.1 h
  obtain ⟨l, -, h⟩ := List.mem_filterMap.1 h
  obtain ⟨v, -, rfl⟩ := Option.map_eq_some_iff.1 h
  exact ⟨e, he, l, rfl⟩

theorem diag_nodup (n : Nat) (b : Bool) {d : Diag V} (h : Labels d) : (addrs (diagWrites n b d)).Nodup := by
  unfold diagWrites
  refine nodup_keyed (fun e => e.1) keyI _ d ?_ h.1 ?_
  · intro e _ w hw
    obtain ⟨l, -, h⟩ := List.mem_filterMap.1 hw
    obtain ⟨v, -, rfl⟩ := Option.map_eq_some_iff.1 h
    rfl
  · intro e _
    exact (addrs_filterMap n e.1 e.2 _).nodup ((leaves_nodup b).map fun a b h => by injection h)

/-! ### Blocks -/

theorem block_mem {n : Nat} {I : Label} (bs : List (Label × Mat V)) : ∀ (k : Nat) {w : Addr × V}, w ∈ blockWrites n I k bs →
    ∃ j A im, k ≤ j ∧ w.1 = .block n I j A im := by
  induction bs with
  | nil => intro k w h; cases h
  | cons b bs ih =>
    intro k w h
    rw [blockWrites] at h
    rcases List.mem_append.1 h with h | h
    · obtain ⟨im, h⟩ := matrix_mem h
      exact ⟨k, _, im, Nat.le_refl _, h⟩
    · obtain ⟨j, A, im, hj, h⟩ := ih (k + 1) h
      exact ⟨j, A, im, by omega, h⟩

theorem block_nodup (n : Nat) (I : Label) (bs : List (Label × Mat V)) : ∀ k, (addrs (blockWrites n I k bs)).Nodup := by
  induction bs with
  | nil => intro k; simp [addrs, blockWrites]
  | cons b bs ih =>
    intro k
    rw [blockWrites]
    refine nodup_addrs_append (nodup_matrix (by simp) _) (ih _) ?_
    intro x hx y hy hxy
    obtain ⟨im, h⟩ := matrix_mem hx
    obtain ⟨j, A, im', hj, h'⟩ := block_mem bs _ hy
    rw [h, h'] at hxy
    injection hxy with _ _ h1
    omega

theorem blocks_nodup (n : Nat) {l : List (Label × List (Label × Mat V))} (h : Labels l) :
    (addrs (l.flatMap fun b => blockWrites n b.1 0 b.2)).Nodup := by
  refine nodup_keyed (fun e => e.1) keyI _ l ?_ h.1 fun e _ => block_nodup n e.1 e.2 0
  intro e _ w hw
  obtain ⟨j, A, im, -, h⟩ := block_mem _ _ hw
  rw [h]; rfl

/-! ### Operators -/

theorem op_mem {n : Nat} {o : Ops V} {w : Addr × V} (h : w ∈ opWrites n o) : ∃ c, ∃ e ∈ o c, ∃ m ∈ e.2, ∃ im, w.1 = .op n c e.1 m.1.1 m.1.2 im := by
  unfold opWrites at h
  obtain ⟨c, -, h⟩ := List.mem_flatMap.1 h
  obtain ⟨e, he, h⟩ := List.mem_flatMap.1 h
  obtain ⟨m, hm, h⟩ := List.mem_flatMap.1 h
  obtain ⟨im, h⟩ := matrix_mem h
  exact ⟨c, e, he, m, hm, im, h⟩

theorem op_nodup (n : Nat) {o : Ops V} (h : OpsOK o) : (addrs (opWrites n o)).Nodup := by
  unfold opWrites
  refine nodup_keyed (fun c => c) keyC _ _ ?_ (by decide) ?_
  · intro c _ w hw
    obtain ⟨e, -, hw⟩ := List.mem_flatMap.1 hw
    obtain ⟨m, -, hw⟩ := List.mem_flatMap.1 hw
    obtain ⟨im, hw⟩ := matrix_mem hw
    rw [hw]; rfl
  · intro c _
    refine nodup_keyed (fun e => e.1) keyO _ _ ?_ (h c).1.1 ?_
    · intro e _ w hw
      obtain ⟨m, -, hw⟩ := List.mem_flatMap.1 hw
      obtain ⟨im, hw⟩ := matrix_mem hw
      rw [hw]; rfl
    · intro e he
      refine nodup_keyed (fun m => m.1) keyIJ _ _ ?_ ((h c).2 e he).1 ?_
      · intro m _ w hw
        obtain ⟨im, hw⟩ := matrix_mem hw
        rw [hw]; rfl
      · intro m _
        exact nodup_matrix (by simp) _

/-! ### Hamiltonian -/

theorem rounds_eq (n : Nat) (r : List (List (Label × Mat V))) : r.flatMap (hamWrites n) = hamWrites n r.flatten := by
  unfold hamWrites
  induction r with
  | nil => rfl
  | cons a r ih => rw [List.flatMap_cons, ih, List.flatten_cons, List.flatMap_append]

theorem ham_mem {n : Nat} {r : List (Label × Mat V)} {w : Addr × V} (h : w ∈ hamWrites n r) : ∃ m ∈ r, ∃ im, w.1 = .ham n m.1 im := by
  unfold hamWrites at h
  obtain ⟨m, hm, h⟩ := List.mem_flatMap.1 h
  obtain ⟨im, h⟩ := matrix_mem h
  exact ⟨m, hm, im, h⟩

theorem ham_nodup (n : Nat) (r : List (Label × Mat V)) : (addrs (hamWrites n r)).Nodup ↔ (r.map Prod.fst).Nodup := by
  constructor
  · intro h
    have hs : (r.map fun m => Addr.ham n m.1 false).Sublist (addrs (hamWrites n r)) := by
      clear h
      induction r with
      | nil => simp [addrs, hamWrites]
      | cons m r ih =>
        unfold hamWrites addrs at *
        rw [List.flatMap_cons, List.map_append, List.map_cons, matrix, List.map_cons, List.cons_append]
        exact (ih.trans (List.sublist_append_right _ _)).cons₂ _
    have := hs.nodup h
    have e : (r.map fun m => Addr.ham n m.1 false) = (r.map Prod.fst).map fun I => Addr.ham n I false := by rw [List.map_map]; rfl
    rw [e] at this
    exact this.of_map _
  · intro h
    unfold hamWrites
    refine nodup_keyed (fun e => e.1) keyI _ r ?_ h fun e _ => nodup_matrix (by simp) _
    intro e _ w hw
    obtain ⟨im, hw⟩ := matrix_mem hw
    rw [hw]; rfl

end Verif.Raw
