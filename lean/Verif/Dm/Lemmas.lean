import Verif.Dm.Spec
import Verif.Symm.StructureSum
import Verif.Mat.Props
import Mathlib.Algebra.BigOperators.Field
import Mathlib.Algebra.Order.BigOperators.Group.Finset
import Mathlib.Tactic.FieldSimp
/-!
# Helper lemmas for density matrices
-/

namespace Verif.Dm
open Verif.Invar Verif.Symm Verif.Mat Finset

theorem lookup_of_mem {β} (l : List (Label × β)) (hn : (l.map Prod.fst).Nodup) (p : Label × β) (hp : p ∈ l) :
    l.lookup p.1 = some p.2 := by
  induction l with
  | nil => simp at hp
  | cons q l ih =>
    obtain ⟨a, v⟩ := q
    simp only [List.map_cons, List.nodup_cons] at hn
    rcases List.mem_cons.1 hp with rfl | hp
    · simp [List.lookup]
    · have : p.1 ≠ a := fun h => hn.1 (List.mem_map.2 ⟨p, hp, h⟩)
      have : (p.1 == a) = false := by simpa using this
      simp [List.lookup, this, ih hn.2 hp]

theorem mem_of_lookup {β} (l : List (Label × β)) (a : Label) (v : β) (h : l.lookup a = some v) : (a, v) ∈ l := by
  induction l with
  | nil => simp at h
  | cons q l ih =>
    obtain ⟨b, w⟩ := q
    by_cases e : a = b
    · subst e; simp [List.lookup] at h; simp [h]
    · have : (a == b) = false := by simpa using e
      simp [List.lookup, this] at h
      exact List.mem_cons_of_mem _ (ih h)

theorem sum_lookup {β M} [AddCommMonoid M] (l : List (Label × β)) (hn : (l.map Prod.fst).Nodup) (A : Label)
    (f : Label → β → M) :
    (l.map fun p => if p.1 = A then f p.1 p.2 else 0).sum
      = (match l.lookup A with | some v => f A v | none => 0) := by
  induction l with
  | nil => simp
  | cons q l ih =>
    obtain ⟨a, v⟩ := q
    simp only [List.map_cons, List.nodup_cons] at hn
    simp only [List.map_cons, List.sum_cons, ih hn.2]
    by_cases h : a = A
    · subst h
      have : l.lookup a = none := by
        rw [List.lookup_eq_none_iff]
        intro q hq
        simp only [bne_iff_ne, ne_eq]
        intro e
        exact hn.1 (List.mem_map.2 ⟨q, hq, e.symm⟩)
      simp [List.lookup, this]
    · have : (A == a) = false := by simpa using Ne.symm h
      simp [List.lookup, this, h]

theorem sum_swap {α β M} [AddCommMonoid M] (l : List α) (m : List β) (f : α → β → M) :
    (l.map fun a => (m.map fun b => f a b).sum).sum = (m.map fun b => (l.map fun a => f a b).sum).sum := by
  induction l with
  | nil => simp
  | cons a l ih => simp [ih, List.sum_map_add]

theorem sum_swap_range {α M} [AddCommMonoid M] (l : List α) (n : ℕ) (f : α → ℕ → M) :
    (l.map fun a => ∑ i ∈ range n, f a i).sum = ∑ i ∈ range n, (l.map fun a => f a i).sum := by
  induction l with
  | nil => simp
  | cons a l ih => simp [ih, sum_add_distrib]

variable {K : Type} [Field K] [StarRing K]

/-- `(U^† ρ U)(a,b)`. -/
def quad (ρ U : Mat K) (a b : ℕ) : K := ∑ l ∈ range ρ.c, ∑ k ∈ range ρ.c, star (U.e k a) * ρ.e k l * U.e l b

/-- What subspace `J`, block `i`, adds to the entry `(a, b)`. -/
def contr (cur : BackShell) (diag : DiagU K) (rho : Rho K) (i : ℕ) (J : Label) (a b : ℕ) : K :=
  match rho.lookup J, diag.lookup J, cur.lookup J with
  | some ρ, some E, some s => if s.rmax.getD i 0 = 0 then 0 else quad ρ (E.U.getD i empty) a b
  | _, _, _ => 0

def Diagonal (ρ : Mat K) : Prop := ∀ i < ρ.r, ∀ j < ρ.c, i ≠ j → ρ.e i j = 0

theorem rotate_entries (M U ρ : Mat K) (c : K) (d : Bool) (hd : d = true → Diagonal ρ)
    (h1 : M.r = U.c) (h2 : U.r = ρ.c) (h3 : ρ.r = ρ.c) (h4 : U.c = M.c) (hf : U.r ≠ 0) (hg : U.c ≠ 0) :
    ∃ M', (if d then rotateDiagonal M c U ρ else rotate M c U ρ) = some M' ∧ M'.r = M.r ∧ M'.c = M.c ∧
      ∀ a b, M'.e a b = M.e a b + c * quad ρ U a b := by
  have hfin : finiteSize U = true := by simp [finiteSize, hf, hg]
  have hs : M.r = U.c ∧ U.r = ρ.r ∧ ρ.c = U.r ∧ U.c = M.c := ⟨h1, by omega, by omega, h4⟩
  cases d with
  | false =>
    refine ⟨axpy M c (mul (mul (adj U) ρ) U), ?_, rfl, rfl, fun a b => ?_⟩
    · simp only [rotate, hfin, if_true, Bool.false_eq_true, if_false]; rw [if_pos hs]
    · simp only [axpy, mul, adj, quad, h2, sum_mul]
  | true =>
    refine ⟨axpy M c (mul (adj U) ⟨U.r, U.c, fun i j => ρ.e i i * U.e i j⟩), ?_, rfl, rfl, fun a b => ?_⟩
    · simp only [rotateDiagonal, hfin, if_true]; rw [if_pos hs]
    · simp only [axpy, mul, adj, quad, h2]
      congr 2
      refine sum_congr rfl fun l hl => ?_
      rw [sum_eq_single_of_mem l hl]
      · ring
      · intro k hk hkl
        have hd' := hd rfl
        rw [hd' k (by rw [h3]; simpa using hk) l (by simpa using hl) hkl]
        ring

theorem eig_rmax {S : Symmetry} {prev : BackShell} {J : Label} {E : Eig K} {s : BackSub} (hE : EigOK S prev J E s)
    (i : ℕ) (hi : i < S.combs) :
    E.U[i]? = some (E.U.getD i empty) ∧ (E.U.getD i empty).r = E.nr ∧ s.rmax[i]? = some (E.U.getD i empty).c
      ∧ s.rmax.getD i 0 = (E.U.getD i empty).c := by
  have hl : i < E.U.length := by rw [hE.count]; exact hi
  have e1 : E.U[i]? = some (E.U.getD i empty) := by
    rw [List.getD_eq_getElem?_getD, List.getElem?_eq_getElem hl]; rfl
  obtain ⟨h1, h2⟩ := hE.shape i _ e1
  exact ⟨e1, h1, h2, by rw [List.getD_eq_getElem?_getD, h2]; rfl⟩

/-- In a linked pair of steps the block size is the number of kept states of the
ancestor, or zero. -/
theorem rmax_cases {S : Symmetry} (hv : RowsValid S) {prev : BackShell}
    {J : Label} (hJ : Valid (types S.fields) J) {rm : List ℕ}
    (hd : subspaceDims S (keptSizes prev) J = some rm) (i : ℕ) (r : Label × Label) (hr : S.table[i]? = some r) :
    rm.getD i 0 = 0 ∨ ∃ s, prev.lookup (anc S J r) = some s ∧ rm.getD i 0 = s.kept := by
  rw [subspaceDims_eq S hv _ J hJ] at hd
  cases hd
  have h0 : (S.table.map fun r =>
      if triangle S.fields J (anc S J r) r.2 then sizeSubspace (keptSizes prev) (anc S J r) else 0).getD i 0
      = if triangle S.fields J (anc S J r) r.2 then sizeSubspace (keptSizes prev) (anc S J r) else 0 := by
    rw [List.getD_eq_getElem?_getD, List.getElem?_map, hr]; rfl
  rw [h0]
  split
  · generalize anc S J r = A
    have : (keptSizes prev).lookup A = (prev.lookup A).map BackSub.kept := by
      simp only [keptSizes]
      clear hv h0
      induction prev with
      | nil => rfl
      | cons p ps ih =>
        obtain ⟨b, w⟩ := p
        by_cases h : A = b
        · subst h; simp [List.lookup]
        · have : (A == b) = false := by simpa using h
          simp [List.lookup, this, ih]
    rw [sizeSubspace, this]
    cases h : prev.lookup A with
    | none => left; rfl
    | some s => right; exact ⟨s, rfl, rfl⟩
  · left; rfl

/-- One call of `addFrom` in a linked pair of steps. -/
theorem addFrom_entries {S : Symmetry} (hv : RowsValid S) {prev : BackShell} {cur : Shell K} (hL : Linked S prev cur)
    {rho : Rho K} (hR : Fits rho cur.diag) (d : Bool) (hd : d = true → ∀ p ∈ rho, Diagonal p.2)
    (p : Label × BackSub) (hp : p ∈ prev) (i : ℕ) (r : Label × Label) (hr : S.table[i]? = some r) (c : K) (M : Mat K)
    (hM : M.r = p.2.kept ∧ M.c = p.2.kept) :
    ∃ M', addFrom S.combs cur.store cur.diag rho i (desc (types S.fields) r.1 p.1) c d M = some M' ∧
      (M'.r = p.2.kept ∧ M'.c = p.2.kept) ∧
      ∀ a b, M'.e a b = M.e a b + c * contr cur.store cur.diag rho i (desc (types S.fields) r.1 p.1) a b := by
  set J := desc (types S.fields) r.1 p.1 with hJ
  have hi : i < S.combs := (List.getElem?_eq_some_iff.1 hr).1
  have hpv := (hL.prevLabels p hp).1
  have hrm := List.mem_of_getElem? hr
  cases h1 : rho.lookup J with
  | none => exact ⟨M, by simp [addFrom, h1], hM, fun a b => by simp [contr, h1]⟩
  | some ρ =>
    obtain ⟨hsq, E, hE, hle⟩ := hR.2 _ (mem_of_lookup _ _ _ h1)
    simp only at hsq hE hle
    have hmem := mem_of_lookup _ _ _ hE
    obtain ⟨s, hs, hok⟩ := hL.eigs _ hmem
    simp only at hs hok
    obtain ⟨e1, e2, e3, e4⟩ := eig_rmax hok i hi
    have hJv := (hL.curLabels _ hmem).1
    have hc : contr cur.store cur.diag rho i J = fun a b => if s.rmax.getD i 0 = 0 then 0 else quad ρ (E.U.getD i empty) a b := by
      funext a b; simp only [contr, h1, hE, hs]
    rw [e4] at hc
    have e5 := rmax_cases hv hJv hok.dims i r hr
    rw [e4] at e5
    rw [hc]
    clear hc
    generalize E.U.getD i empty = B at *
    dsimp only
    by_cases c0 : ρ.c = 0
    · refine ⟨M, by simp [addFrom, h1, hE, cdmI, hi, c0], hM, fun a b => by simp [quad, c0]⟩
    by_cases k0 : M.c = 0
    · refine ⟨M, by simp [addFrom, h1, hE, cdmI, hi, c0, k0], hM, fun a b => ?_⟩
      rcases e5 with h | ⟨s', hs', h⟩
      · simp [h]
      · rw [(anc_eq_iff S hv p.1 J r hrm hpv hJv).2 hJ, lookup_of_mem _ hL.prevNodup p hp] at hs'
        cases hs'
        simp [h, ← hM.2, k0]
    by_cases r0 : B.c = 0
    · refine ⟨M, ?_, hM, fun a b => by rw [if_pos r0]; simp⟩
      simp [addFrom, h1, hE, cdmI, hi, c0, k0, hs, e3, r0]
    · have hkept : B.c = M.c := by
        rcases e5 with h | ⟨s', hs', h⟩
        · exact absurd h r0
        · rw [(anc_eq_iff S hv p.1 J r hrm hpv hJv).2 hJ, lookup_of_mem _ hL.prevNodup p hp] at hs'
          cases hs'
          rw [h, hM.2]
      have hsub : submatrix B 0 ρ.c 0 B.c
          = some ⟨ρ.c, B.c, B.e⟩ := by
        simp [submatrix, e2, hle]
      obtain ⟨M', g1, g2, g3, g4⟩ := rotate_entries M ⟨ρ.c, B.c, B.e⟩ ρ c d
        (fun h => hd h _ (mem_of_lookup _ _ _ h1)) (by simp only; omega) rfl hsq hkept c0 r0
      refine ⟨M', ?_, ⟨by rw [g2, hM.1], by rw [g3, hM.2]⟩, fun a b => ?_⟩
      · rw [← g1]
        simp only [addFrom, h1, hE, cdmI, hi, if_true, c0, if_false, k0, hs, Option.bind_eq_bind, Option.bind_some,
          e3, r0, hkept, hle, and_self, e1]
        rw [← hkept, hsub]
        rfl
      · rw [g4, if_neg r0]; rfl

/-- A left fold of additions. -/
theorem foldlM_add {α} (l : List α) (f : Mat K → α → Option (Mat K)) (n : ℕ) (g : α → ℕ → ℕ → K)
    (hf : ∀ x ∈ l, ∀ M : Mat K, M.r = n ∧ M.c = n → ∃ M', f M x = some M' ∧ (M'.r = n ∧ M'.c = n) ∧
      ∀ a b, M'.e a b = M.e a b + g x a b) (M : Mat K) (hM : M.r = n ∧ M.c = n) :
    ∃ M', l.foldlM f M = some M' ∧ (M'.r = n ∧ M'.c = n) ∧ ∀ a b, M'.e a b = M.e a b + (l.map fun x => g x a b).sum := by
  induction l generalizing M with
  | nil => exact ⟨M, rfl, hM, fun a b => by simp⟩
  | cons x l ih =>
    obtain ⟨M1, h1, h2, h3⟩ := hf x (by simp) M hM
    obtain ⟨M2, g1, g2, g3⟩ := ih (fun y hy => hf y (by simp [hy])) M1 h2
    refine ⟨M2, by simp [List.foldlM_cons, h1, g1], g2, fun a b => ?_⟩
    rw [g3, h3, List.map_cons, List.sum_cons, add_assoc]

theorem mapM_exists {α β} (l : List α) (f : α → Option β) (P : α → β → Prop) (h : ∀ x ∈ l, ∃ y, f x = some y ∧ P x y) :
    ∃ r, l.mapM f = some r ∧ List.Forall₂ P l r := by
  induction l with
  | nil => exact ⟨[], rfl, .nil⟩
  | cons x l ih =>
    obtain ⟨y, h1, h2⟩ := h x (by simp)
    obtain ⟨r, h3, h4⟩ := ih fun z hz => h z (by simp [hz])
    exact ⟨y :: r, by simp [List.mapM_cons, h1, h3], .cons h2 h4⟩

/-- The label of block `i` below `I`. -/
def below (S : Symmetry) (I : Label) (i : ℕ) : Label := desc (types S.fields) (S.table.getD i ([], [])).1 I

/-- The entry `(a, b)` contributed to `rho_{N-1}[I]` by all blocks. -/
def entrySum (S : Symmetry) (cur : Shell K) (rho : Rho K) (I : Label) (a b : ℕ) : K :=
  ∑ i ∈ range S.combs, multRatio S (below S I i) I * contr cur.store cur.diag rho i (below S I i) a b

/-- What `rho_{N-1}` must be, subspace by subspace. -/
def IsPrev (E : Label → ℕ → ℕ → K) (p : Label × BackSub) (q : Label × Mat K) : Prop :=
  q.1 = p.1 ∧ q.2.r = p.2.kept ∧ q.2.c = p.2.kept ∧ ∀ a < p.2.kept, ∀ b < p.2.kept, q.2.e a b = E p.1 a b

theorem table_getD (S : Symmetry) (i : ℕ) (h : i < S.combs) : S.table[i]? = some (S.table.getD i ([], [])) := by
  rw [List.getD_eq_getElem?_getD, List.getElem?_eq_getElem h]; rfl

theorem sum_zipIdx {M} [AddCommMonoid M] {α} (l : List α) (f : α → ℕ → M) (d : α) :
    (l.zipIdx.map fun x => f x.1 x.2).sum = ∑ i ∈ range l.length, f (l.getD i d) i := by
  have : l.zipIdx.map (fun x => f x.1 x.2) = (List.range l.length).map fun i => f (l.getD i d) i := by
    apply List.ext_getElem
    · simp
    · intro n h1 h2
      simp at h1
      simp [h1]
  rw [this]
  induction l.length with
  | zero => simp
  | succ n ih => rw [List.range_succ, List.map_append, List.sum_append, ih, sum_range_succ]; simp

theorem dmStep_entries {S : Symmetry} (hv : RowsValid S) {prev : BackShell} {cur : Shell K} (hL : Linked S prev cur)
    {rho : Rho K} (hR : Fits rho cur.diag) :
    ∃ rp, dmStep S prev cur.store cur.diag rho = some rp ∧ List.Forall₂ (IsPrev (entrySum S cur rho)) prev rp := by
  apply mapM_exists
  intro p hp
  have hpv := (hL.prevLabels p hp).1
  by_cases hk : p.2.kept = 0
  · refine ⟨(p.1, zero 0 0), by simp [hk], rfl, by simp [hk, zero], by simp [hk, zero], ?_⟩
    intro a ha; omega
  · have hns := newSubspaces_eq S hv p.1 hpv
    obtain ⟨M, h1, h2, h3⟩ := foldlM_add (S.table.map fun r => desc (types S.fields) r.1 p.1).zipIdx
      (fun M x => addFrom S.combs cur.store cur.diag rho x.2 x.1 (multRatio S x.1 p.1) false M) p.2.kept
      (fun x a b => multRatio S x.1 p.1 * contr cur.store cur.diag rho x.2 x.1 a b)
      (by
        intro x hx M hM
        obtain ⟨J, i⟩ := x
        have := List.mem_zipIdx_iff_getElem?.1 hx
        simp only [List.getElem?_map, Option.map_eq_some_iff] at this
        obtain ⟨r, hr, rfl⟩ := this
        exact addFrom_entries hv hL hR false (by simp) p hp i r hr _ M hM)
      (zero p.2.kept p.2.kept) ⟨rfl, rfl⟩
    refine ⟨(p.1, M), by simp only [if_neg hk, hns, Option.bind_eq_bind, Option.bind_some, h1]; rfl, rfl, h2.1, h2.2, ?_⟩
    intro a _ b _
    simp only [h3, zero, zero_add]
    rw [sum_zipIdx _ (fun J i => multRatio S J p.1 * contr cur.store cur.diag rho i J a b) (desc (types S.fields) [] p.1)]
    simp only [List.length_map, entrySum, Symmetry.combs]
    refine sum_congr rfl fun i hi => ?_
    have hi' : i < S.table.length := by simpa using hi
    have : (S.table.map fun r => desc (types S.fields) r.1 p.1).getD i (desc (types S.fields) [] p.1) = below S p.1 i := by
      simp [below, List.getD_eq_getElem?_getD, hi']
    rw [this]

/-- The entry contributed by the discarded sector, if there is one. -/
def optEntry (S : Symmetry) (cur : Shell K) (dd : Option (Rho K)) (I : Label) (a b : ℕ) : K :=
  match dd with | some d => entrySum S cur d I a b | none => 0

theorem fdmStep_entries {S : Symmetry} (hv : RowsValid S) {prev : BackShell} {cur : Shell K} (hL : Linked S prev cur)
    {rho : Rho K} (hR : Fits rho cur.diag) (dd : Option (Rho K))
    (hD : ∀ d, dd = some d → Fits d cur.diag ∧ ∀ p ∈ d, Diagonal p.2) :
    ∃ rp, fdmStep S prev cur.store cur.diag rho dd = some rp ∧
      List.Forall₂ (IsPrev fun I a b => entrySum S cur rho I a b + optEntry S cur dd I a b) prev rp := by
  apply mapM_exists
  intro p hp
  have hpv := (hL.prevLabels p hp).1
  have hns := newSubspaces_eq S hv p.1 hpv
  by_cases hk : p.2.kept = 0
  · refine ⟨(p.1, zero 0 0), by simp [hk, hns], rfl, by simp [hk, zero], by simp [hk, zero], ?_⟩
    intro a ha; omega
  · have hsub : ∀ i < S.combs, (S.table.map fun r => desc (types S.fields) r.1 p.1)[i]? = some (below S p.1 i) := by
      intro i hi
      rw [List.getElem?_map, table_getD S i hi]; rfl
    obtain ⟨M, h1, h2, h3⟩ := foldlM_add (List.range S.combs)
      (fun M i => do
        let sub ← (S.table.map fun r => desc (types S.fields) r.1 p.1)[i]?
        let coef := multRatio S sub p.1
        let M1 ← addFrom S.combs cur.store cur.diag rho i sub coef false M
        addDD S.combs cur.store cur.diag dd i sub coef M1) p.2.kept
      (fun i a b => multRatio S (below S p.1 i) p.1 * contr cur.store cur.diag rho i (below S p.1 i) a b
        + (match dd with
          | some d => multRatio S (below S p.1 i) p.1 * contr cur.store cur.diag d i (below S p.1 i) a b
          | none => 0))
      (by
        intro i hi M hM
        have hi' : i < S.combs := by simpa using hi
        obtain ⟨M1, g1, g2, g3⟩ := addFrom_entries hv hL hR false (by simp) p hp i _ (table_getD S i hi')
          (multRatio S (below S p.1 i) p.1) M hM
        have g1' : addFrom S.combs cur.store cur.diag rho i (below S p.1 i) (multRatio S (below S p.1 i) p.1) false M
          = some M1 := g1
        cases dd with
        | none =>
          refine ⟨M1, ?_, g2, fun a b => by rw [g3]; simp [below]⟩
          simp only [hsub i hi', Option.bind_eq_bind, Option.bind_some, g1', addDD]
        | some d =>
          obtain ⟨M2, k1, k2, k3⟩ := addFrom_entries hv hL (hD d rfl).1 true (fun _ => (hD d rfl).2) p hp i _
            (table_getD S i hi') (multRatio S (below S p.1 i) p.1) M1 g2
          refine ⟨M2, ?_, k2, fun a b => by rw [k3, g3]; simp only [below]; ring⟩
          simp only [hsub i hi', Option.bind_eq_bind, Option.bind_some, g1']
          exact k1)
      (zero p.2.kept p.2.kept) ⟨rfl, rfl⟩
    simp only [Option.bind_eq_bind] at h1
    refine ⟨(p.1, M), by simp only [if_neg hk, hns, Option.bind_eq_bind, Option.bind_some, h1]; rfl, rfl, h2.1, h2.2, ?_⟩
    intro a _ b _
    simp only [h3, zero, zero_add]
    have hsum : ∀ f : ℕ → K, ((List.range S.combs).map f).sum = ∑ i ∈ range S.combs, f i := by
      intro f
      induction S.combs with
      | zero => simp
      | succ n ih => rw [List.range_succ, List.map_append, List.sum_append, ih, sum_range_succ]; simp
    rw [hsum, sum_add_distrib]
    cases dd with
    | none => simp [entrySum, optEntry]
    | some d => simp [entrySum, optEntry]

/-! ### Trace -/

theorem trace_quad {S : Symmetry} {prev : BackShell} {J : Label} {E : Eig K} {s : BackSub} (hE : EigOK S prev J E s)
    (ρ : Mat K) (hsq : ρ.r = ρ.c) (hle : ρ.c ≤ E.nr) :
    ∑ i ∈ range S.combs, ∑ a ∈ range (E.U.getD i empty).c, quad ρ (E.U.getD i empty) a a = trace ρ := by
  have h1 : ∀ i, ∑ a ∈ range (E.U.getD i empty).c, quad ρ (E.U.getD i empty) a a
      = ∑ l ∈ range ρ.c, ∑ k ∈ range ρ.c, ρ.e k l *
        ∑ a ∈ range (E.U.getD i empty).c, (E.U.getD i empty).e l a * star ((E.U.getD i empty).e k a) := by
    intro i
    simp only [quad]
    rw [sum_comm]
    refine sum_congr rfl fun l _ => ?_
    rw [sum_comm]
    refine sum_congr rfl fun k _ => ?_
    rw [mul_sum]
    exact sum_congr rfl fun a _ => by ring
  simp only [h1]
  rw [sum_comm, trace, hsq]
  refine sum_congr rfl fun l hl => ?_
  rw [sum_comm]
  have h2 : ∀ k ∈ range ρ.c, ∑ i ∈ range S.combs, ρ.e k l *
      ∑ a ∈ range (E.U.getD i empty).c, (E.U.getD i empty).e l a * star ((E.U.getD i empty).e k a)
      = if l = k then ρ.e k l else 0 := by
    intro k hk
    rw [← mul_sum, hE.ortho l (by have := mem_range.1 hl; omega) k (by have := mem_range.1 hk; omega)]
    split <;> simp
  rw [sum_congr rfl h2, sum_ite_eq]
  simp [hl]

theorem entrySum_trace {S : Symmetry} (hv : RowsValid S) {prev : BackShell} {cur : Shell K} (hL : Linked S prev cur)
    [CharZero K] {rho : Rho K} (hR : Fits rho cur.diag) :
    (prev.map fun p => ((mult S.fields p.1 : ℤ) : K) * ∑ a ∈ range p.2.kept, entrySum S cur rho p.1 a a).sum
      = rhoTrace S rho := by
  -- the trace of one block with `n` columns
  let T : ℕ → Label → Mat K → ℕ → K := fun i J ρ n =>
    match cur.diag.lookup J, cur.store.lookup J with
    | some E, some s => if s.rmax.getD i 0 = 0 then 0 else
        ((mult S.fields J : ℤ) : K) * ∑ a ∈ range n, quad ρ (E.U.getD i empty) a a
    | _, _ => 0
  have step1 : ∀ p ∈ prev, ((mult S.fields p.1 : ℤ) : K) * ∑ a ∈ range p.2.kept, entrySum S cur rho p.1 a a
      = ∑ i ∈ range S.combs, (rho.map fun q => if q.1 = below S p.1 i then T i q.1 q.2 p.2.kept else 0).sum := by
    intro p hp
    have hm : ((mult S.fields p.1 : ℤ) : K) ≠ 0 := by
      have := (hL.prevLabels p hp).2
      exact_mod_cast (by omega : mult S.fields p.1 ≠ 0)
    simp only [entrySum]
    rw [sum_comm, mul_sum]
    refine sum_congr rfl fun i _ => ?_
    rw [sum_lookup rho hR.1 (below S p.1 i) fun J ρ => T i J ρ p.2.kept, ← mul_sum, ← mul_assoc, multRatio,
      mul_div_cancel₀ _ hm]
    simp only [contr, T]
    cases h1 : rho.lookup (below S p.1 i) with
    | none => simp
    | some ρ =>
      cases h2 : cur.diag.lookup (below S p.1 i) with
      | none => simp
      | some E =>
        cases h3 : cur.store.lookup (below S p.1 i) with
        | none => simp
        | some s =>
          simp only
          split <;> simp
  rw [List.map_congr_left step1, sum_swap_range]
  -- exchange the sums over `I` and `J`
  have step2 : ∀ i ∈ range S.combs,
      (prev.map fun p => (rho.map fun q => if q.1 = below S p.1 i then T i q.1 q.2 p.2.kept else 0).sum).sum
      = (rho.map fun q => ((mult S.fields q.1 : ℤ) : K) *
          (match cur.diag.lookup q.1 with
            | some E => ∑ a ∈ range (E.U.getD i empty).c, quad q.2 (E.U.getD i empty) a a | none => 0)).sum := by
    intro i hi
    have hi' : i < S.combs := by simpa using hi
    rw [sum_swap]
    congr 1
    apply List.map_congr_left
    intro q hq
    obtain ⟨hsq, E, hE, hle⟩ := hR.2 q hq
    have hmem := mem_of_lookup _ _ _ hE
    obtain ⟨s, hs, hok⟩ := hL.eigs _ hmem
    simp only at hs hok
    have hJv := (hL.curLabels _ hmem).1
    simp only at hJv
    obtain ⟨e1, e2, e3, e4⟩ := eig_rmax hok i hi'
    have hr := table_getD S i hi'
    have hrm := List.mem_of_getElem? hr
    have hiff : ∀ p ∈ prev, (if q.1 = below S p.1 i then T i q.1 q.2 p.2.kept else 0)
        = if p.1 = anc S q.1 (S.table.getD i ([], [])) then T i q.1 q.2 p.2.kept else 0 := by
      intro p hp
      have := anc_eq_iff S hv p.1 q.1 _ hrm (hL.prevLabels p hp).1 hJv
      by_cases h : q.1 = below S p.1 i
      · rw [if_pos h, if_pos (this.2 h).symm]
      · rw [if_neg h, if_neg fun h' => h (this.1 h'.symm)]
    rw [List.map_congr_left hiff,
      sum_lookup prev hL.prevNodup (anc S q.1 (S.table.getD i ([], []))) fun _ s => T i q.1 q.2 s.kept]
    simp only [hE, T, hs, e4]
    rcases rmax_cases hv hJv hok.dims i _ hr with h | ⟨s', hs', h⟩
    · rw [e4] at h
      simp only [h, if_true, range_zero, sum_empty, mul_zero]
      split <;> rfl
    · rw [e4] at h
      rw [hs']
      simp only [h]
      split
      · rename_i h0; simp [h0]
      · rfl
  rw [sum_congr rfl step2, ← sum_swap_range, rhoTrace]
  congr 1
  apply List.map_congr_left
  intro q hq
  obtain ⟨hsq, E, hE, hle⟩ := hR.2 q hq
  have hmem := mem_of_lookup _ _ _ hE
  obtain ⟨s, hs, hok⟩ := hL.eigs _ hmem
  simp only [hE]
  rw [← mul_sum, trace_quad hok q.2 hsq hle]

theorem rhoTrace_prev (S : Symmetry) (prev : BackShell) (rp : Rho K) (F : Label → ℕ → ℕ → K)
    (h : List.Forall₂ (IsPrev F) prev rp) :
    rhoTrace S rp = (prev.map fun p => ((mult S.fields p.1 : ℤ) : K) * ∑ a ∈ range p.2.kept, F p.1 a a).sum := by
  induction h with
  | nil => rfl
  | @cons p q ps qs h1 h2 ih =>
    simp only [rhoTrace, List.map_cons, List.sum_cons] at ih ⊢
    rw [ih, h1.1, trace, h1.2.1]
    congr 2
    exact sum_congr rfl fun a ha => h1.2.2.2 a (mem_range.1 ha) a (mem_range.1 ha)

/-! ### Hermiticity and positivity -/

theorem quad_hermitian (ρ U : Mat K) (h : Hermitian ρ) (a b : ℕ) : quad ρ U a b = star (quad ρ U b a) := by
  simp only [quad, star_sum]
  rw [sum_comm]
  refine sum_congr rfl fun k hk => sum_congr rfl fun l hl => ?_
  rw [h.2 k (by rw [h.1]; exact mem_range.1 hk) l (by rw [h.1]; exact mem_range.1 hl)]
  simp only [star_mul', star_star]
  ring

theorem multRatio_star (S : Symmetry) (J I : Label) : star (multRatio S J I : K) = multRatio S J I := by
  simp [multRatio]

theorem contr_hermitian {cur : Shell K} {rho : Rho K} (h : ∀ p ∈ rho, Hermitian p.2) (i : ℕ) (J : Label) (a b : ℕ) :
    contr cur.store cur.diag rho i J a b = star (contr cur.store cur.diag rho i J b a) := by
  simp only [contr]
  cases h1 : rho.lookup J with
  | none => simp
  | some ρ =>
    cases h2 : cur.diag.lookup J with
    | none => simp
    | some E =>
      cases h3 : cur.store.lookup J with
      | none => simp
      | some s =>
        simp only
        split
        · simp
        · exact quad_hermitian _ _ (h _ (mem_of_lookup _ _ _ h1)) _ _

theorem entrySum_hermitian {S : Symmetry} {cur : Shell K} {rho : Rho K} (h : ∀ p ∈ rho, Hermitian p.2) (I : Label)
    (a b : ℕ) : entrySum S cur rho I a b = star (entrySum S cur rho I b a) := by
  simp only [entrySum, star_sum, star_mul', multRatio_star]
  exact sum_congr rfl fun i _ => by rw [contr_hermitian h]

/-- The quadratic form of an `n × n` array. -/
def form (n : ℕ) (F : ℕ → ℕ → K) (x : ℕ → K) : K := ∑ i ∈ range n, ∑ j ∈ range n, star (x i) * F i j * x j

theorem form_quad (ρ U : Mat K) (n : ℕ) (x : ℕ → K) :
    form n (quad ρ U) x = ∑ k ∈ range ρ.c, ∑ l ∈ range ρ.c,
      star (∑ a ∈ range n, U.e k a * x a) * ρ.e k l * (∑ a ∈ range n, U.e l a * x a) := by
  have : ∀ k l, star (∑ a ∈ range n, U.e k a * x a) * ρ.e k l * (∑ a ∈ range n, U.e l a * x a)
      = ∑ i ∈ range n, ∑ j ∈ range n, star (x i) * (star (U.e k i) * ρ.e k l * U.e l j) * x j := by
    intro k l
    rw [star_sum, sum_mul, sum_mul]
    refine sum_congr rfl fun i _ => ?_
    rw [mul_sum]
    refine sum_congr rfl fun j _ => ?_
    rw [star_mul']; ring
  simp only [this, form, quad]
  have e : ∀ i j, star (x i) * (∑ l ∈ range ρ.c, ∑ k ∈ range ρ.c, star (U.e k i) * ρ.e k l * U.e l j) * x j
      = ∑ k ∈ range ρ.c, ∑ l ∈ range ρ.c, star (x i) * (star (U.e k i) * ρ.e k l * U.e l j) * x j := by
    intro i j
    rw [sum_comm, mul_sum, sum_mul]
    refine sum_congr rfl fun k _ => ?_
    rw [mul_sum, sum_mul]
  simp only [e]
  calc ∑ i ∈ range n, ∑ j ∈ range n, ∑ k ∈ range ρ.c, ∑ l ∈ range ρ.c, star (x i) * (star (U.e k i) * ρ.e k l * U.e l j) * x j
      = ∑ i ∈ range n, ∑ k ∈ range ρ.c, ∑ l ∈ range ρ.c, ∑ j ∈ range n, star (x i) * (star (U.e k i) * ρ.e k l * U.e l j) * x j := by
        refine sum_congr rfl fun i _ => ?_
        rw [sum_comm]
        exact sum_congr rfl fun k _ => sum_comm
    _ = _ := by
        rw [sum_comm]
        exact sum_congr rfl fun k _ => sum_comm

section Order
variable [PartialOrder K] [StarOrderedRing K]

theorem form_quad_nonneg (ρ U : Mat K) (hsq : ρ.r = ρ.c) (h : PosSemidef ρ) (n : ℕ) (x : ℕ → K) :
    0 ≤ form n (quad ρ U) x := by
  rw [form_quad]
  have := h fun k => ∑ a ∈ range n, U.e k a * x a
  rwa [hsq] at this

theorem multRatio_mul_nonneg (S : Symmetry) (J I : Label) (hJ : 0 ≤ mult S.fields J) (hI : 0 ≤ mult S.fields I)
    (y : K) (hy : 0 ≤ y) : (0 : K) ≤ multRatio S J I * y := by
  obtain ⟨m, hm⟩ := Int.eq_ofNat_of_zero_le hJ
  obtain ⟨n, hn⟩ := Int.eq_ofNat_of_zero_le hI
  simp only [multRatio, hm, hn, Int.cast_natCast]
  have e : (m : K) / n * y = star (n : K)⁻¹ * ((m * n : ℕ) • y) * (n : K)⁻¹ := by
    rw [nsmul_eq_mul]
    by_cases h : (n : K) = 0
    · simp [h]
    · push_cast
      simp only [star_inv₀, star_natCast]
      field_simp
  rw [e]
  exact star_left_conjugate_nonneg (nsmul_nonneg hy _) _

theorem form_sum (n m : ℕ) (F : ℕ → ℕ → ℕ → K) (x : ℕ → K) :
    form n (fun a b => ∑ i ∈ range m, F i a b) x = ∑ i ∈ range m, form n (F i) x := by
  simp only [form, mul_sum, sum_mul]
  rw [eq_comm, sum_comm]
  exact sum_congr rfl fun a _ => sum_comm

theorem form_smul (n : ℕ) (c : K) (F : ℕ → ℕ → K) (x : ℕ → K) :
    form n (fun a b => c * F a b) x = c * form n F x := by
  simp only [form, mul_sum]
  exact sum_congr rfl fun a _ => sum_congr rfl fun b _ => by ring

theorem form_add (n : ℕ) (F G : ℕ → ℕ → K) (x : ℕ → K) :
    form n (fun a b => F a b + G a b) x = form n F x + form n G x := by
  simp only [form, mul_add, add_mul, sum_add_distrib]

theorem entrySum_nonneg {S : Symmetry} {prev : BackShell} {cur : Shell K} (hL : Linked S prev cur)
    {rho : Rho K} (hR : Fits rho cur.diag) (h : ∀ p ∈ rho, PosSemidef p.2) (p : Label × BackSub) (hp : p ∈ prev)
    (n : ℕ) (x : ℕ → K) : 0 ≤ form n (entrySum S cur rho p.1) x := by
  have : entrySum S cur rho p.1 = fun a b => ∑ i ∈ range S.combs,
      multRatio S (below S p.1 i) p.1 * contr cur.store cur.diag rho i (below S p.1 i) a b := rfl
  rw [this, form_sum]
  refine sum_nonneg fun i _ => ?_
  rw [form_smul]
  cases h1 : rho.lookup (below S p.1 i) with
  | none => simp [contr, h1, form]
  | some ρ =>
    obtain ⟨hsq, E, hE, _⟩ := hR.2 _ (mem_of_lookup _ _ _ h1)
    simp only at hsq hE
    have hm := (hL.curLabels _ (mem_of_lookup _ _ _ hE)).2
    cases h3 : cur.store.lookup (below S p.1 i) with
    | none => simp [contr, h1, hE, h3, form]
    | some s =>
      by_cases h0 : s.rmax.getD i 0 = 0
      · have e : contr cur.store cur.diag rho i (below S p.1 i) = fun _ _ => 0 := by
          funext a b; simp only [contr, h1, hE, h3, h0, if_true]
        rw [e]; simp [form]
      · have e : contr cur.store cur.diag rho i (below S p.1 i) = quad ρ (E.U.getD i empty) := by
          funext a b; simp only [contr, h1, hE, h3, h0, if_false]
        rw [e]
        exact multRatio_mul_nonneg S _ _ (le_of_lt hm) (le_of_lt (hL.prevLabels p hp).2) _
          (form_quad_nonneg ρ _ hsq (h _ (mem_of_lookup _ _ _ h1)) n x)

end Order

end Verif.Dm
