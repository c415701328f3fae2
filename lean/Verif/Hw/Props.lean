import Verif.Hw.Model
import Verif.Raw.Lemmas
import Verif.Cmd.Props
import Verif.Mx.Files
/-!
# `h5write` stores what it is given and leaves the rest (C138)
-/

namespace Verif.Hw
open Verif.Text
open Verif.Raw (File comps dump get Apart dumpAll dumpAll_iff dump_eq dump_some)
open Verif.Cmd (Line given)

variable {K : Type}

/-- What is to be stored for the operand `i`. -/
def Stores (F : Mx.Fmt K) (scalar : Bool) (fs : Mx.Files) (i : Str) (v : Val K) : Prop :=
  if scalar then v = .scalar (Cmd.num i) else ∃ s t, fs i = some s ∧ Mx.readText F s = .ok t ∧ v = .matrix t

theorem value_iff (F : Mx.Fmt K) (b : Bool) (fs : Mx.Files) (i : Str) (v : Val K) : value F b fs i = .ok v ↔ Stores F b fs i v := by
  unfold value Stores
  cases b with
  | true =>
    simp only [if_true, Except.ok.injEq]
    exact ⟨fun h => h.symm, fun h => h.symm⟩
  | false =>
    simp only [Bool.false_eq_true, if_false, Mx.readMatrix]
    cases hf : fs i with
    | none => simp
    | some s =>
      dsimp only
      cases hr : Mx.readText F s with
      | error e => simp [hr]
      | ok t =>
        constructor
        · intro h
          injection h with h
          exact ⟨s, t, rfl, hr, h.symm⟩
        · rintro ⟨s', t', h1, h2, h3⟩
          injection h1 with h1
          subst h1
          rw [hr] at h2
          injection h2 with h2
          subst h2
          rw [h3]

theorem work_done (F : Mx.Fmt K) (s : Cmd.H5Set) (f p i : Str) (w w' : World K) : work F s f p i w = (.done, w') ↔
    ∃ h v, opened s.truncate w f = some h ∧ Stores F s.scalar w.texts i v ∧ comps p ≠ [] ∧ (∀ e ∈ h, Apart e.1 (comps p)) ∧ w' = w.put f (h ++ [(comps p, v)]) := by
  unfold work
  cases ho : opened s.truncate w f with
  | none => simp
  | some h =>
    dsimp only
    cases hv : value F s.scalar w.texts i with
    | error e =>
      constructor
      · intro h'
        injection h' with h1
        cases h1
      · rintro ⟨h', v, h1, h2, -⟩
        rw [(value_iff ..).2 h2] at hv
        cases hv
    | ok v =>
      dsimp only
      cases hd : dump h p v with
      | none =>
        constructor
        · intro h'
          injection h' with h1
          cases h1
        · rintro ⟨h', v', h1, h2, h3, h4, -⟩
          injection h1 with h1
          subst h1
          rw [(value_iff ..).2 h2] at hv
          injection hv with hv
          subst hv
          rw [dump_eq h3 h4] at hd
          cases hd
      | some g =>
        obtain ⟨h3, h4, h5⟩ := dump_some hd
        constructor
        · intro h'
          injection h' with _ h1
          exact ⟨h, v, rfl, (value_iff ..).1 hv, h3, h4, by rw [← h1, h5]⟩
        · rintro ⟨h', v', h1, h2, -, -, h6⟩
          injection h1 with h1
          subst h1
          rw [(value_iff ..).2 h2] at hv
          injection hv with hv
          subst hv
          rw [h6, h5]

/-- A run succeeds if and only if there are three operands `f p i`, the file `f` exists or `-t` is given, `i` is a number (with `-s`) or the name of a file with a
matrix, and `p` is a name that is free; then the data set is the only change. -/
theorem h5write_success (F : Mx.Fmt K) (l : Line) (hl : l.OK ['h', 's', 't']) (hh : given 'h' l.options = false) (w w' : World K) :
    run F l.words w = (.done, w') ↔ ∃ f p i h v, l.operands = [f, p, i] ∧ (if given 't' l.options then h = [] else w.h5 f = some h) ∧
      Stores F (given 's' l.options) w.texts i v ∧ comps p ≠ [] ∧ (∀ e ∈ h, Apart e.1 (comps p)) ∧
        w' = { w with h5 := fun g => if g = f then some (h ++ [(comps p, v)]) else w.h5 g } := by
  have hc := (Cmd.h5write_command l hl).2 hh
  have ho : ∀ f h, (opened (given 't' l.options) w f = some h ↔ (if given 't' l.options then h = [] else w.h5 f = some h)) := by
    intro f h
    unfold opened
    cases given 't' l.options with
    | false => simp
    | true =>
      simp only [if_true, Option.some.injEq]
      exact ⟨fun h => h.symm, fun h => h.symm⟩
  constructor
  · intro hr
    unfold run at hr
    cases hm : Cmd.h5write.main l.words with
    | error e =>
      rw [hm] at hr
      injection hr with h1
      cases h1
    | ok r =>
      rw [hm] at hr
      dsimp only at hr
      obtain ⟨f, p, i, h1, h2⟩ := (hc r).1 hm
      subst h2
      obtain ⟨h, v, a1, a2, a3, a4, a5⟩ := (work_done ..).1 hr
      exact ⟨f, p, i, h, v, h1, (ho f h).1 a1, a2, a3, a4, a5⟩
  · rintro ⟨f, p, i, h, v, h1, h2, h3, h4, h5, h6⟩
    unfold run
    rw [(hc (Cmd.h5Of l.options, f, p, i)).2 ⟨f, p, i, h1, rfl⟩]
    exact (work_done ..).2 ⟨h, v, (ho f h).2 h2, h3, h4, h5, h6⟩

theorem get_append_self {V : Type} {h : File V} {p : Str} {v : V} (ha : ∀ e ∈ h, Apart e.1 (comps p)) : get (h ++ [(comps p, v)]) p = some v := by
  unfold Raw.get
  rw [List.find?_append, List.find?_eq_none.2]
  · simp
  · intro e he h1
    have := of_decide_eq_true h1
    exact (ha e he).1 (this ▸ List.prefix_refl _)

theorem get_append_other {V : Type} {h : File V} {p q : Str} {v : V} (hq : comps q ≠ comps p) : get (h ++ [(comps p, v)]) q = get h q := by
  unfold Raw.get
  rw [List.find?_append]
  have : ([(comps p, v)].find? fun e => e.1 = comps q) = none := by
    have hq' : comps p ≠ comps q := fun h => hq h.symm
    simp [hq']
  rw [this]
  simp

/-- After a run with success the value is found under the name; under every other name the file contains what it did before, with `-t` nothing; no other file is changed. -/
theorem h5write_found (F : Mx.Fmt K) (l : Line) (hl : l.OK ['h', 's', 't']) (hh : given 'h' l.options = false) (w w' : World K)
    (hr : run F l.words w = (.done, w')) : ∃ f p i v h', l.operands = [f, p, i] ∧ Stores F (given 's' l.options) w.texts i v ∧ w'.h5 f = some h' ∧
      get h' p = some v ∧ (∀ q, comps q ≠ comps p → get h' q = if given 't' l.options then none else (w.h5 f).bind fun h => get h q) ∧
        (∀ g, g ≠ f → w'.h5 g = w.h5 g) ∧ w'.texts = w.texts := by
  obtain ⟨f, p, i, h, v, h1, h2, h3, h4, h5, rfl⟩ := (h5write_success F l hl hh w w').1 hr
  refine ⟨f, p, i, v, h ++ [(comps p, v)], h1, h3, by simp, get_append_self h5, ?_, ?_, rfl⟩
  · intro q hq
    rw [get_append_other hq]
    split at h2
    · next ht => rw [if_pos ht, h2]; rfl
    · next ht => rw [if_neg ht, h2]; rfl
  · intro g hg
    simp [hg]

/-- A matrix that was saved as text by one of the other tools is stored as it is. -/
theorem h5write_matrix (F : Mx.Fmt K) (c : Nat) (m : List (List K)) (hc : 0 < c) (hm : m ≠ []) (hr : ∀ r ∈ m, r.length = c ∧ ∀ x ∈ r, F.rep x)
    (fs : Mx.Files) (i : Str) (hi : fs i = some (Mx.matText F m)) (v : Val K) : Stores F false fs i v ↔ v = .matrix ⟨m.length, c, m⟩ := by
  have h := Mx.matText_read F c m hc hr
  rw [if_neg hm] at h
  unfold Stores
  simp only [Bool.false_eq_true, if_false]
  constructor
  · rintro ⟨s, t, h1, h2, h3⟩
    rw [hi] at h1
    injection h1 with h1
    subst h1
    rw [h] at h2
    injection h2 with h2
    rw [h3, ← h2]
  · rintro rfl
    exact ⟨_, _, hi, h, rfl⟩

/-! ## Several runs -/

/-- One run: with `-s` or without, the name, the operand. -/
structure Job where
  scalar : Bool
  path : Str
  input : Str

/-- Its command line, `h5write [-s] -- f path input`. -/
def Job.words (f : Str) (j : Job) : List Str := (if j.scalar then [['-', 's']] else []) ++ [['-', '-'], f, j.path, j.input]

/-- Runs in turn, as long as they succeed. -/
def session (F : Mx.Fmt K) (f : Str) : List Job → World K → Option (World K)
  | [], w => some w
  | j :: js, w =>
    match run F (j.words f) w with
    | (.done, w) => session F f js w
    | _ => none

theorem job_main (f : Str) (j : Job) : Cmd.h5write.main (j.words f) = .ok ({ scalar := j.scalar, truncate := false }, f, j.path, j.input) := by
  obtain ⟨b, p, i⟩ := j
  cases b <;> rfl

/-- Runs in turn succeed if and only if all the names are free and apart, and then the file contains what it did before and all values. -/
theorem session_iff (F : Mx.Fmt K) (f : Str) (val : Job → Val K) (js : List Job) : ∀ (w w' : World K) (h : File (Val K)), w.h5 f = some h →
    (∀ j ∈ js, Stores F j.scalar w.texts j.input (val j)) →
    (session F f js w = some w' ↔ ∃ h', dumpAll h (js.map fun j => (j.path, val j)) = some h' ∧ w' = if js = [] then w else w.put f h') := by
  induction js with
  | nil =>
    intro w w' h hw _
    simp only [session, List.map_nil, dumpAll, Option.some.injEq, if_true]
    exact ⟨fun e => ⟨h, rfl, e.symm⟩, fun ⟨_, _, e⟩ => e.symm⟩
  | cons j js ih =>
    intro w w' h hw hv
    have hvj := (value_iff ..).2 (hv j (by simp))
    have hrun : run F (j.words f) w = match dump h j.path (val j) with
        | none => (End.taken, w.put f h)
        | some h => (End.done, w.put f h) := by
      unfold run
      rw [job_main]
      dsimp only
      unfold work
      rw [show opened false w f = some h from hw]
      dsimp only
      rw [hvj]
      dsimp only
      cases dump h j.path (val j) <;> rfl
    rw [session, List.map_cons, dumpAll, hrun]
    cases hd : dump h j.path (val j) with
    | none => simp
    | some g =>
      dsimp only
      rw [ih (w.put f g) w' g (by simp [World.put]) fun k hk => hv k (by simp [hk])]
      have e : ∀ h', (if js = [] then w.put f g else (w.put f g).put f h') = (if js = [] then w.put f g else w.put f h') := by
        intro h'
        have : (w.put f g).put f h' = w.put f h' := by
          unfold World.put
          congr 1
          funext x
          by_cases hx : x = f <;> simp [hx]
        rw [this]
      simp only [List.cons_ne_nil, if_false]
      constructor
      · rintro ⟨h', h1, h2⟩
        refine ⟨h', h1, ?_⟩
        rw [h2, e]
        split
        · next hn =>
          subst hn
          simp only [List.map_nil, dumpAll, Option.some.injEq] at h1
          rw [h1]
        · rfl
      · rintro ⟨h', h1, h2⟩
        refine ⟨h', h1, ?_⟩
        rw [h2, e]
        split
        · next hn =>
          subst hn
          simp only [List.map_nil, dumpAll, Option.some.injEq] at h1
          rw [h1]
        · rfl

theorem find_pairwise {V : Type} {h : File V} (hp : h.Pairwise fun x y => Apart x.1 y.1) {p : Str} {v : V} (hm : (comps p, v) ∈ h) : get h p = some v := by
  unfold Raw.get
  induction h with
  | nil => cases hm
  | cons x h ih =>
    rw [List.pairwise_cons] at hp
    rw [List.find?_cons]
    rcases List.mem_cons.1 hm with rfl | hm
    · simp
    · have hne : x.1 ≠ comps p := fun he => (hp.1 _ hm).1 (he ▸ List.prefix_refl _)
      simp only [hne, decide_false]
      exact ih hp.2 hm

/-- With names that are usable and apart from each other, runs on an empty file succeed in every order, and all values are found. -/
theorem h5write_any_order (F : Mx.Fmt K) (f : Str) (val : Job → Val K) (js ks : List Job) (hp : ks.Perm js) (w : World K) (hw : w.h5 f = some [])
    (hv : ∀ j ∈ js, Stores F j.scalar w.texts j.input (val j)) (hc : ∀ j ∈ js, comps j.path ≠ [])
    (ha : js.Pairwise fun a b => Apart (comps a.path) (comps b.path)) :
    ∃ w' h', session F f ks w = some w' ∧ w'.h5 f = some h' ∧ ∀ j ∈ js, get h' j.path = some (val j) := by
  have hk : ks.Pairwise fun a b => Apart (comps a.path) (comps b.path) := (hp.pairwise_iff fun {_ _} h => ⟨h.2, h.1⟩).2 ha
  have hd : dumpAll [] (ks.map fun j => (j.path, val j)) = some (ks.map fun j => (comps j.path, val j)) := by
    refine (dumpAll_iff _ _ _).2 ⟨?_, ?_, by simp, by simp⟩
    · intro x hx
      obtain ⟨j, hj, rfl⟩ := List.mem_map.1 hx
      exact hc j (hp.mem_iff.1 hj)
    · rw [List.pairwise_map]
      exact hk
  have hs := (session_iff F f val ks w _ [] hw fun j hj => hv j (hp.mem_iff.1 hj)).2 ⟨_, hd, rfl⟩
  refine ⟨_, ks.map fun j => (comps j.path, val j), hs, ?_, ?_⟩
  · split
    · next hn => rw [hw, hn]; rfl
    · simp [World.put]
  · intro j hj
    refine find_pairwise ?_ (List.mem_map.2 ⟨j, hp.mem_iff.2 hj, rfl⟩)
    rw [List.pairwise_map]
    exact hk

end Verif.Hw
