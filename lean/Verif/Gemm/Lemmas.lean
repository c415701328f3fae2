import Verif.Gemm.Spec
import Mathlib.Data.List.Nodup
import Mathlib.Data.List.Basic
/-!
# Lemmas about the loops
-/

namespace Verif.Gemm
open Verif.Mat (Mat)
open Finset

variable {K : Type}

theorem put_same (mem : Mem K) (p : Nat) (x : Option K) : put mem p x p = x := by simp [put]

theorem put_other (mem : Mem K) {p q : Nat} (h : q ≠ p) (x : Option K) : put mem p x q = mem q := by simp [put, h]

theorem fold_put {ι : Type} (ad : ι → Nat) (F : ι → Option K → Option K) (l : List ι) (hn : l.Nodup)
    (hi : ∀ x ∈ l, ∀ y ∈ l, ad x = ad y → x = y) (mem : Mem K) :
    (∀ x ∈ l, l.foldl (fun mem x => put mem (ad x) (F x (mem (ad x)))) mem (ad x) = F x (mem (ad x))) ∧
    (∀ p, (∀ x ∈ l, p ≠ ad x) → l.foldl (fun mem x => put mem (ad x) (F x (mem (ad x)))) mem p = mem p) := by
  induction l generalizing mem with
  | nil => exact ⟨fun x h => absurd h (by simp), fun _ _ => rfl⟩
  | cons y l ih =>
    have hn' := List.nodup_cons.mp hn
    obtain ⟨h1, h2⟩ := ih hn'.2 (fun x hx z hz => hi x (List.mem_cons_of_mem _ hx) z (List.mem_cons_of_mem _ hz))
      (put mem (ad y) (F y (mem (ad y))))
    have hne : ∀ x ∈ l, ad y ≠ ad x := by
      intro x hx e
      have := hi y List.mem_cons_self x (List.mem_cons_of_mem _ hx) e
      exact hn'.1 (this ▸ hx)
    constructor
    · intro x hx
      rw [List.foldl_cons]
      rcases List.mem_cons.mp hx with rfl | hx
      · rw [h2 _ hne, put_same]
      · rw [h1 x hx, put_other _ (fun e => hne x hx e.symm)]
    · intro p hp
      rw [List.foldl_cons, h2 p fun x hx => hp x (List.mem_cons_of_mem _ hx), put_other _ (hp y List.mem_cons_self)]

theorem mem_pairs (m n : Nat) (x : Nat × Nat) :
    x ∈ ((List.range n).flatMap fun j => (List.range m).map fun i => (i, j)) ↔ x.1 < m ∧ x.2 < n := by
  obtain ⟨a, b⟩ := x
  simp only [List.mem_flatMap, List.mem_map, List.mem_range, Prod.mk.injEq]
  constructor
  · rintro ⟨j, hj, i, hi, rfl, rfl⟩
    exact ⟨hi, hj⟩
  · rintro ⟨h1, h2⟩
    exact ⟨b, h2, a, h1, rfl, rfl⟩

theorem nodup_pairs (m n : Nat) : ((List.range n).flatMap fun j => (List.range m).map fun i => (i, j)).Nodup := by
  rw [List.nodup_flatMap]
  constructor
  · intro j _
    exact List.Nodup.map (fun a b h => by simpa using h) List.nodup_range
  · refine List.nodup_range.imp ?_
    intro a b hab x hx hy
    simp only [List.mem_map] at hx hy
    obtain ⟨i, _, rfl⟩ := hx
    obtain ⟨i', _, h⟩ := hy
    exact hab (by simpa using (congrArg Prod.snd h).symm)

theorem loop_spec (ad : Nat → Nat → Nat) (F : Nat → Nat → Option K → Option K) (m n : Nat)
    (hi : ∀ i < m, ∀ j < n, ∀ i' < m, ∀ j' < n, ad i j = ad i' j' → i = i' ∧ j = j') (mem : Mem K) :
    (∀ i < m, ∀ j < n, loop ad F m n mem (ad i j) = F i j (mem (ad i j))) ∧
    (∀ p, (∀ i < m, ∀ j < n, p ≠ ad i j) → loop ad F m n mem p = mem p) := by
  have h := fold_put (fun x : Nat × Nat => ad x.1 x.2) (fun x => F x.1 x.2) _ (nodup_pairs m n)
    (by
      intro x hx y hy e
      rw [mem_pairs] at hx hy
      have := hi _ hx.1 _ hx.2 _ hy.1 _ hy.2 e
      exact Prod.ext this.1 this.2) mem
  refine ⟨fun i h1 j h2 => h.1 (i, j) ((mem_pairs m n _).mpr ⟨h1, h2⟩), fun p hp => h.2 p ?_⟩
  intro x hx
  rw [mem_pairs] at hx
  exact hp _ hx.1 _ hx.2

theorem addr_inj {s i j i' j' : Nat} (h1 : j < s) (h2 : j' < s) (h : i * s + j = i' * s + j') : i = i' ∧ j = j' := by
  have e1 : (i * s + j) / s = i := by
    rw [Nat.mul_comm, Nat.mul_add_div (by omega), Nat.div_eq_of_lt h1, Nat.add_zero]
  have e2 : (i' * s + j') / s = i' := by
    rw [Nat.mul_comm, Nat.mul_add_div (by omega), Nat.div_eq_of_lt h2, Nat.add_zero]
  have hi : i = i' := by rw [← e1, ← e2, h]
  subst hi
  exact ⟨rfl, by omega⟩

variable [Field K] [StarRing K]

theorem dot_spec (f g : Nat → Option K) (x y : Nat → K) (k : Nat) (hf : ∀ l < k, f l = some (x l)) (hg : ∀ l < k, g l = some (y l)) :
    dot f g k = some (∑ l ∈ range k, x l * y l) := by
  induction k with
  | zero => rfl
  | succ k ih =>
    have := ih (fun l hl => hf l (by omega)) (fun l hl => hg l (by omega))
    unfold dot at this ⊢
    rw [List.range_succ, List.foldl_append, this, Finset.sum_range_succ]
    simp [hf k (by omega), hg k (by omega)]

theorem cell_spec [DecidableEq K] (α β s c : K) (x : Option K) (hx : β ≠ 0 → x = some c) : cell α β (some s) x = some (α * s + β * c) := by
  unfold cell
  by_cases h : β = 0
  · simp [h]
  · simp [h, hx h]

/-- The elements of `op(A)` as seen by the Fortran routine, which assumes the transposed matrix. -/
theorem felem_spec {A : Arr K} {M : Mat K} (h : Holds A M) (hv : A.v.inner = 1) (t : Tr) (i l : Nat) (hi : i < (op t M).r)
    (hl : l < (op t M).c) :
    felem t.char (fun p => A.mem (A.v.off + p)) A.v.stride l i = some ((op t M).e i l) := by
  obtain ⟨_, _, h3⟩ := h
  have e : ∀ a b, A.v.off + (b + a * A.v.stride) = A.v.addr a b := by
    intro a b
    simp only [View.addr, hv]
    omega
  cases t with
  | none => simp [felem, Tr.char, op, e, h3 i hi l hl]
  | trans => simp [felem, Tr.char, op, e, h3 l hl i hi]
  | conj => simp [felem, Tr.char, op, Mat.adj, e, h3 l hl i hi]

theorem op_size {A : Arr K} {M : Mat K} (h : Holds A M) (t : Tr) : opRows t A.v = (op t M).r ∧ opCols t A.v = (op t M).c := by
  obtain ⟨h1, h2, _⟩ := h
  cases t <;> simp [opRows, opCols, op, Mat.adj, h1, h2]

end Verif.Gemm
