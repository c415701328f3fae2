import Verif.Spin.Spec
import Mathlib.Algebra.BigOperators.Group.List.Basic
/-! # Helper lemmas for the degeneracy factors -/

namespace Verif.Spin
open Verif.Invar (Label)
open Verif.Symm Spec

theorem mem_finals_su2 (a b c : Int) : a ∈ finals .su2 b c ↔
    ∃ k : Nat, (k : Int) < min b c ∧ a = ((b - c).natAbs : Int) + 1 + 2 * (k : Int) := by
  simp only [finals, List.mem_map, List.mem_range]
  constructor
  · rintro ⟨k, hk, rfl⟩; exact ⟨k, by omega, rfl⟩
  · rintro ⟨k, hk, rfl⟩; exact ⟨k, by omega, rfl⟩

theorem mem_finals_su2T (a b c : Int) : a ∈ finals .su2T b c ↔
    ∃ k : Nat, (k : Int) < min (2 * b + 1) (2 * c + 1) ∧ a = ((b - c).natAbs : Int) + (k : Int) := by
  simp only [finals, List.mem_map, List.mem_range]
  constructor
  · rintro ⟨k, hk, rfl⟩; exact ⟨k, by omega, rfl⟩
  · rintro ⟨k, hk, rfl⟩; exact ⟨k, by omega, rfl⟩

theorem mem_su2_iff (a b c : Int) : a ∈ finals .su2 b c ↔
    ((b - c).natAbs : Int) + 1 ≤ a ∧ a ≤ b + c - 1 ∧ (a + b + c) % 2 = 1 ∧ 0 < b ∧ 0 < c := by
  rw [mem_finals_su2]
  constructor
  · rintro ⟨k, hk, rfl⟩; omega
  · rintro ⟨h1, h2, h3, h4, h5⟩
    exact ⟨((a - ((b - c).natAbs : Int) - 1) / 2).toNat, by omega, by omega⟩

theorem mem_su2T_iff (a b c : Int) (hb : 0 ≤ b) (hc : 0 ≤ c) : a ∈ finals .su2T b c ↔
    ((b - c).natAbs : Int) ≤ a ∧ a ≤ b + c := by
  rw [mem_finals_su2T]
  constructor
  · rintro ⟨k, hk, rfl⟩; omega
  · rintro ⟨h1, h2⟩
    exact ⟨(a - ((b - c).natAbs : Int)).toNat, by omega, by omega⟩

theorem doubletChecked_eq (ssp ss1 : Int) (h : ss1 ∈ finals .su2 ssp 2) :
    doubletChecked ssp ss1 = some ((ss1 : ℚ) / 2) := by
  rw [mem_su2_iff] at h
  have h' : ss1 = ssp + 1 ∨ ss1 = ssp - 1 := by omega
  rcases h' with rfl | rfl
  · simp [doubletChecked, check, doublet, S]; ring
  · have : ¬ ssp - 1 = ssp + 1 := by omega
    simp [doubletChecked, check, doublet, S, this]

theorem doublet_eq (ssp ss1 : Int) (h : ss1 ∈ finals .su2 ssp 2) :
    doublet ssp ss1 = (ss1 : ℚ) / 2 := by
  rw [mem_su2_iff] at h
  have h' : ss1 = ssp + 1 ∨ ss1 = ssp - 1 := by omega
  rcases h' with rfl | rfl
  · simp [doublet, S]; ring
  · have : ¬ ssp - 1 = ssp + 1 := by omega
    simp [doublet, S, this]

theorem triplet_eq' (ssp ss1 : Int) (h : ss1 = ssp + 2 ∨ ss1 = ssp ∨ ss1 = ssp - 2) :
    triplet ssp ss1 = some ((ss1 : ℚ) / 3) := by
  rcases h with rfl | rfl | rfl
  · simp [triplet, check, switch3]; ring
  · have : ¬ ss1 = ss1 + 2 := by omega
    simp [triplet, check, switch3]
  · have h1 : ¬ ssp - 2 = ssp + 2 := by omega
    have h2 : ¬ ssp - 2 = ssp := by omega
    simp [triplet, check, switch3, h1, h2]; ring

theorem triplet_eq (ssp ss1 : Int) (h : ss1 ∈ finals .su2 ssp 3) :
    triplet ssp ss1 = some ((ss1 : ℚ) / 3) := by
  rw [mem_su2_iff] at h
  exact triplet_eq' _ _ (by omega)

theorem tripletT_eq (t t1 : Int) (ht : 0 ≤ t) (h : t1 ∈ finals .su2T t 1) :
    triplet (2 * t + 1) (2 * t1 + 1) = some ((2 * (t1 : ℚ) + 1) / 3) ∧ ¬ (t = 0 ∧ t1 = 0) := by
  rw [mem_su2T_iff _ _ _ ht (by decide)] at h
  refine ⟨?_, by omega⟩
  rw [triplet_eq' _ _ (by omega)]; push_cast; rfl

theorem quadruplet_eq (jjp jj1 : Int) (h : jj1 ∈ finals .su2 jjp 4) :
    quadruplet jjp jj1 = some ((jj1 : ℚ) / 4) := by
  rw [mem_su2_iff] at h
  have h' : jj1 = jjp + 3 ∨ jj1 = jjp + 1 ∨ jj1 = jjp - 1 ∨ jj1 = jjp - 3 := by omega
  rcases h' with rfl | rfl | rfl | rfl
  · simp [quadruplet, check, S]; ring
  · have h2 : 2 ≤ jjp := by omega
    simp [quadruplet, check, S, h2]; ring
  · have h2 : 2 ≤ jjp := by omega
    have h3 : ¬ jjp - 1 = jjp + 3 := by omega
    have h4 : ¬ jjp - 1 = jjp + 1 := by omega
    simp [quadruplet, check, S, h2, h3, h4]; ring
  · have h2 : 4 ≤ jjp := by omega
    have h3 : ¬ jjp - 3 = jjp + 3 := by omega
    have h4 : ¬ jjp - 3 = jjp + 1 := by omega
    have h5 : ¬ jjp - 3 = jjp - 1 := by omega
    simp [quadruplet, check, S, h2, h3, h4, h5]; ring

/-! ### dimension of a product of multiplets -/

theorem nat_rat (n : ℕ) (z : ℤ) (h : (n : ℤ) = z) : (n : ℚ) = (z : ℚ) := by
  rw [← h]; exact (Int.cast_natCast n).symm

theorem sum_range_affine (n : Nat) (x y : ℚ) :
    ((List.range n).map fun k : Nat => x + y * (k : ℚ)).sum = n * x + y * (n * (n - 1) / 2) := by
  induction n with
  | zero => simp
  | succ n ih => rw [List.range_succ, List.map_append, List.sum_append, ih]; simp; ring

theorem finals_sum_su2 (b c : Int) (hb : 0 < b) (hc : 0 < c) :
    ((finals .su2 b c).map fun a : Int => (a : ℚ)).sum = (b : ℚ) * c := by
  simp only [finals, List.map_map]
  have := sum_range_affine (min b c).toNat (((b - c).natAbs : ℚ) + 1) 2
  rw [show ((fun a : Int => (a : ℚ)) ∘ fun k : Nat => ((b - c).natAbs : Int) + 1 + 2 * (k : Int))
      = fun k : Nat => (((b - c).natAbs : ℚ) + 1) + 2 * (k : ℚ) from by
    funext k; simp only [Function.comp]; rw [nat_rat _ _ rfl]; push_cast; rfl, this]
  rcases le_total b c with h | h
  · have h1 : ((b - c).natAbs : ℚ) = c - b := by
      rw [nat_rat _ (c - b) (by omega)]; push_cast; rfl
    have h2 : (((min b c).toNat : ℕ) : ℚ) = b := nat_rat _ _ (by omega)
    rw [h1, h2]; ring
  · have h1 : ((b - c).natAbs : ℚ) = b - c := by
      rw [nat_rat _ (b - c) (by omega)]; push_cast; rfl
    have h2 : (((min b c).toNat : ℕ) : ℚ) = c := nat_rat _ _ (by omega)
    rw [h1, h2]; ring

theorem finals_sum_su2T (b c : Int) (hb : 0 ≤ b) (hc : 0 ≤ c) :
    ((finals .su2T b c).map fun a : Int => (((2 * a + 1 : Int)) : ℚ)).sum = (2 * (b : ℚ) + 1) * (2 * c + 1) := by
  simp only [finals, List.map_map]
  have := sum_range_affine (min (2 * b + 1) (2 * c + 1)).toNat (2 * ((b - c).natAbs : ℚ) + 1) 2
  rw [show ((fun a : Int => (((2 * a + 1 : Int)) : ℚ)) ∘ fun k : Nat => ((b - c).natAbs : Int) + (k : Int))
      = fun k : Nat => (2 * ((b - c).natAbs : ℚ) + 1) + 2 * (k : ℚ) from by
    funext k; simp only [Function.comp]; rw [nat_rat (b - c).natAbs _ rfl]; push_cast; ring, this]
  rcases le_total b c with h | h
  · have h1 : ((b - c).natAbs : ℚ) = c - b := by
      rw [nat_rat _ (c - b) (by omega)]; push_cast; rfl
    have h2 : (((min (2 * b + 1) (2 * c + 1)).toNat : ℕ) : ℚ) = 2 * b + 1 := by
      rw [nat_rat _ (2 * b + 1) (by omega)]; push_cast; rfl
    rw [h1, h2]; ring
  · have h1 : ((b - c).natAbs : ℚ) = b - c := by
      rw [nat_rat _ (b - c) (by omega)]; push_cast; rfl
    have h2 : (((min (2 * b + 1) (2 * c + 1)).toNat : ℕ) : ℚ) = 2 * c + 1 := by
      rw [nat_rat _ (2 * c + 1) (by omega)]; push_cast; rfl
    rw [h1, h2]; ring

/-- Test, multiplicity and admissibility of a quantum number fit together. -/
def Consistent (f : Field) : Prop :=
  (f.test = .su2 ∧ f.mult = .val ∧ f.allow = .pos) ∨
  (f.test = .su2T ∧ f.mult = .twiceAddOne ∧ f.allow = .nonneg) ∨
  ((f.test = .u1 ∨ f.test = .z2 ∨ f.test = .c3) ∧ f.mult = .one)

theorem finals_sum (f : Field) (hf : Consistent f) (b c : Int)
    (hb : evalAllow f.allow b = true) (hc : evalAllow f.allow c = true) :
    ((finals f.test b c).map fun a => ((evalMult f.mult a : Int) : ℚ)).sum
      = (evalMult f.mult b : ℚ) * (evalMult f.mult c : ℚ) := by
  rcases hf with ⟨h1, h2, h3⟩ | ⟨h1, h2, h3⟩ | ⟨h1, h2⟩
  · rw [h3] at hb hc
    rw [h1, h2]
    simp only [evalMult]
    exact finals_sum_su2 b c (by simpa [evalAllow] using hb) (by simpa [evalAllow] using hc)
  · rw [h3] at hb hc
    rw [h1, h2]
    simp only [evalMult]
    rw [finals_sum_su2T b c (by simpa [evalAllow] using hb) (by simpa [evalAllow] using hc)]
    push_cast; rfl
  · rcases h1 with h1 | h1 | h1 <;> simp [h1, h2, finals, evalMult]

theorem sum_flatMap' {α β : Type} (l : List α) (g : α → List β) (w : β → ℚ) :
    ((l.flatMap g).map w).sum = (l.map fun a => ((g a).map w).sum).sum := by
  induction l with
  | nil => rfl
  | cons a l ih => simp only [List.flatMap_cons, List.map_append, List.sum_append, ih, List.map_cons, List.sum_cons]

theorem sum_mul_right' {α : Type} (l : List α) (w : α → ℚ) (c : ℚ) :
    (l.map fun a => w a * c).sum = (l.map w).sum * c := by
  induction l with
  | nil => simp
  | cons a l ih => simp only [List.map_cons, List.sum_cons, ih]; ring

theorem finalLabels_sum (fs : List Field) (hfs : ∀ f ∈ fs, Consistent f) (bs cs : Label)
    (hlb : bs.length = fs.length) (hlc : cs.length = fs.length)
    (hb : allowed fs bs = true) (hc : allowed fs cs = true) :
    ((finalLabels fs bs cs).map fun a => (mult fs a : ℚ)).sum = (mult fs bs : ℚ) * (mult fs cs : ℚ) := by
  induction fs generalizing bs cs with
  | nil => cases bs <;> cases cs <;> simp [finalLabels, mult] at *
  | cons f fs ih =>
    match bs, cs, hlb, hlc with
    | b :: bs, c :: cs, hlb, hlc =>
      simp only [allowed, Bool.and_eq_true] at hb hc
      simp only [finalLabels, sum_flatMap', List.map_map, mult]
      have := ih (fun g hg => hfs g (List.mem_cons_of_mem _ hg)) bs cs (by simpa using hlb)
        (by simpa using hlc) hb.2 hc.2
      have e : ∀ a : Int, ((finalLabels fs bs cs).map ((fun x => (mult (f :: fs) x : ℚ)) ∘ fun x => a :: x)).sum
          = (evalMult f.mult a : ℚ) * ((mult fs bs : ℚ) * (mult fs cs : ℚ)) := by
        intro a
        rw [← this]
        have : ((fun x => (mult (f :: fs) x : ℚ)) ∘ fun x => a :: x)
            = fun x => (mult fs x : ℚ) * (evalMult f.mult a : ℚ) := by
          funext x; simp only [Function.comp, mult]; push_cast; ring
        rw [this, sum_mul_right']; ring
      simp only [e]
      rw [sum_mul_right', finals_sum f (hfs f (List.mem_cons_self ..)) b c hb.1 hc.1]
      push_cast; ring

theorem mapM_some {α β : Type} (l : List α) (g : α → Option β) (h : α → β)
    (e : ∀ a ∈ l, g a = some (h a)) : l.mapM g = some (l.map h) := by
  induction l with
  | nil => rfl
  | cons a l ih =>
    rw [List.mapM_cons, e a (List.mem_cons_self ..), ih fun b hb => e b (List.mem_cons_of_mem _ hb)]
    rfl

/-- An exact factor obeys the sum rule. -/
theorem sumRule_of_exact {fs : List Field} {fac : Label → Label → Option ℚ} {op : Label}
    (hfs : ∀ f ∈ fs, Consistent f) (hop : op.length = fs.length) (hopa : allowed fs op = true)
    (hm : mult fs op ≠ 0) (h : Exact fs fac op) : SumRule fs fac op := by
  intro Ip hl ha
  refine ⟨_, mapM_some _ _ (exactFactor fs op) fun a hm => h Ip a hl ha hm, ?_⟩
  have : ((finalLabels fs Ip op).map (exactFactor fs op))
      = (finalLabels fs Ip op).map fun a => (mult fs a : ℚ) * (1 / (mult fs op : ℚ)) :=
    List.map_congr_left fun a _ => by simp only [exactFactor]; ring
  rw [this, sum_mul_right', finalLabels_sum fs hfs Ip op hl hop ha hopa]
  have : (mult fs op : ℚ) ≠ 0 := by exact_mod_cast hm
  field_simp

/-! ### states of a multiplet -/

theorem sum_range_sq (n : Nat) (x : ℚ) :
    ((List.range n).map fun k : Nat => ((k : ℚ) - x) ^ 2).sum
      = (n : ℚ) * (n - 1) * (2 * n - 1) / 6 - x * n * (n - 1) + n * x ^ 2 := by
  induction n with
  | zero => simp
  | succ n ih => rw [List.range_succ, List.map_append, List.sum_append, ih]; simp; ring

/-- The value of a moment on one component, summed over the components. -/
def onComp : Moment → ℚ → ℚ
  | .spinSq, m => m ^ 2
  | .angmomSq, m => m ^ 2
  | .sz, x => (x - 1) / 2
  | .szSq, x => ((x - 1) / 2) ^ 2
  | .charge, x => x
  | .chargeSq, x => x * x

/-- The moment suits the kind of multiplet. -/
def Suits (f : Field) (m : Moment) : Prop :=
  (f.mult = .val ∧ m = .spinSq) ∨ (f.mult = .twiceAddOne ∧ m = .angmomSq) ∨
  (f.mult = .one ∧ (m = .sz ∨ m = .szSq ∨ m = .charge ∨ m = .chargeSq))

/-- Non-negative dimension. -/
def DimOk (f : Field) (a : Int) : Prop := 0 ≤ evalMult f.mult a

theorem comps_sum (f : Field) (m : Moment) (h : Suits f m) (a : Int) (ha : DimOk f a) :
    ((comps f a).map (onComp m)).sum = (evalMult f.mult a : ℚ) * m.weight a := by
  unfold DimOk at ha
  rcases h with ⟨h1, rfl⟩ | ⟨h1, rfl⟩ | ⟨h1, h2⟩
  · rw [h1] at ha
    simp only [evalMult] at ha
    simp only [comps, h1, List.map_map, evalMult, Moment.weight]
    rw [show (onComp .spinSq ∘ fun k : Nat => (k : ℚ) - ((a : ℚ) - 1) / 2)
      = fun k : Nat => ((k : ℚ) - ((a : ℚ) - 1) / 2) ^ 2 from rfl, sum_range_sq]
    have : ((a.toNat : ℕ) : ℚ) = a := nat_rat _ _ (by omega)
    rw [this]; push_cast; ring
  · rw [h1] at ha
    simp only [evalMult] at ha
    simp only [comps, h1, List.map_map, evalMult, Moment.weight]
    rw [show (onComp .angmomSq ∘ fun k : Nat => (k : ℚ) - (a : ℚ))
      = fun k : Nat => ((k : ℚ) - (a : ℚ)) ^ 2 from rfl, sum_range_sq]
    have : (((2 * a + 1).toNat : ℕ) : ℚ) = 2 * a + 1 := by
      rw [nat_rat _ (2 * a + 1) (by omega)]; push_cast; rfl
    rw [this]; push_cast; ring
  · rcases h2 with rfl | rfl | rfl | rfl <;> simp [comps, h1, onComp, evalMult, Moment.weight, S]

theorem comps_length (f : Field) (a : Int) (ha : DimOk f a) :
    ((comps f a).length : ℚ) = (evalMult f.mult a : ℚ) := by
  unfold DimOk at ha
  cases h : f.mult <;> simp only [comps, h, evalMult, List.length_map, List.length_range, List.length_singleton] at *
  · simp
  · exact nat_rat _ _ (by omega)
  · exact nat_rat _ _ (by omega)

/-- Every multiplet of the label has a non-negative dimension. -/
def DimsOk : List Field → Label → Prop
  | f :: fs, a :: as => DimOk f a ∧ DimsOk fs as
  | _, _ => True

theorem sum_const {α : Type} (l : List α) (c : ℚ) : (l.map fun _ => c).sum = l.length * c := by
  induction l with
  | nil => simp
  | cons a l ih => simp only [List.map_cons, List.sum_cons, ih, List.length_cons]; push_cast; ring

theorem states_count (fs : List Field) (as : Label) (h : DimsOk fs as) (c : ℚ) :
    ((states fs as).map fun _ => c).sum = (mult fs as : ℚ) * c := by
  induction fs generalizing as c with
  | nil => simp [states, mult]
  | cons f fs ih =>
    cases as with
    | nil => simp [states, mult]
    | cons a as =>
      simp only [states, sum_flatMap', List.map_map, mult, Function.comp_def]
      simp only [ih as h.2, sum_const, comps_length f a h.1]
      push_cast; ring

theorem states_sum (fs : List Field) (as : Label) (hl : as.length = fs.length) (h : DimsOk fs as)
    (qn : String) (f : Field) (hf : fieldOf fs qn = some f) (m : Moment) (hs : Suits f m) :
    ∃ x, get fs as qn = some x ∧
      ((states fs as).map fun s => onComp m ((get fs s qn).getD 0)).sum = (mult fs as : ℚ) * m.weight x := by
  induction fs generalizing as with
  | nil => simp [fieldOf] at hf
  | cons g fs ih =>
    match as, hl with
    | a :: as, hl =>
      by_cases hn : g.name = qn
      · have : f = g := by
          simp only [fieldOf, List.find?_cons, hn, decide_true, Option.some.injEq] at hf
          exact hf.symm
        subst this
        refine ⟨a, by simp [get, hn], ?_⟩
        simp only [states, sum_flatMap', List.map_map, Function.comp_def, get, hn, if_true, Option.getD_some]
        simp only [states_count fs as h.2]
        rw [show (fun a_1 => (mult fs as : ℚ) * onComp m a_1) = fun x => onComp m x * (mult fs as : ℚ) from by
          funext x; ring, sum_mul_right', comps_sum f m hs a h.1]
        simp only [mult]; push_cast; ring
      · have hf' : fieldOf fs qn = some f := by
          simpa only [fieldOf, List.find?_cons, hn, decide_false] using hf
        obtain ⟨x, hx, hsum⟩ := ih as (by simpa using hl) h.2 hf'
        refine ⟨x, by simp [get, hn, hx], ?_⟩
        simp only [states, sum_flatMap', List.map_map, Function.comp_def, get, hn, if_false]
        simp only [hsum, sum_const, comps_length g a h.1, mult]
        push_cast; ring

theorem dimsOk_of_allowed (fs : List Field) (hfs : ∀ f ∈ fs, f.mult = .one ∨ (f.mult = .val ∧ f.allow = .pos) ∨
      (f.mult = .twiceAddOne ∧ f.allow = .nonneg)) (as : Label) (h : allowed fs as = true) : DimsOk fs as := by
  induction fs generalizing as with
  | nil => trivial
  | cons f fs ih =>
    cases as with
    | nil => trivial
    | cons a as =>
      simp only [allowed, Bool.and_eq_true] at h
      refine ⟨?_, ih (fun g hg => hfs g (List.mem_cons_of_mem _ hg)) as h.2⟩
      unfold DimOk
      rcases hfs f (List.mem_cons_self ..) with h1 | ⟨h1, h2⟩ | ⟨h1, h2⟩
      · simp [h1, evalMult]
      · rw [h2] at h; simp [evalAllow] at h; simp [h1, evalMult]; omega
      · rw [h2] at h; simp [evalAllow] at h; simp [h1, evalMult]; omega

end Verif.Spin
