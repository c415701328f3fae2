import Verif.Cmd.Lemmas
import Verif.Table.Props
import Verif.Text.Lemmas
/-!
# Options one by one: lemmas
-/

namespace Verif.Cmd
open Verif.Text

/-! ## Options -/

theorem given_snoc (c : Char) (l : Options) (d : Char) (a : Option Str) : given c (l ++ [(d, a)]) = (given c l || d == c) := by
  simp [given]

theorem argOf_snoc (c : Char) (l : Options) (d : Char) (a : Option Str) : argOf c (l ++ [(d, a)]) = if d = c then a else argOf c l := by
  unfold argOf
  rw [List.filter_append]
  by_cases h : d = c
  · simp [h]
  · simp [h]

theorem argOf2_snoc (c e : Char) (l : Options) (d : Char) (a : Option Str) :
    argOf2 c e (l ++ [(d, a)]) = if d = c ∨ d = e then a else argOf2 c e l := by
  unfold argOf2
  rw [List.filter_append]
  by_cases h : d = c ∨ d = e
  · rcases h with rfl | rfl <;> simp
  · simp [h]

theorem argsOf_snoc (c : Char) (l : Options) (d : Char) (a : Option Str) :
    argsOf c (l ++ [(d, a)]) = if d = c then argsOf c l ++ [a.getD []] else argsOf c l := by
  unfold argsOf
  rw [List.filter_append]
  by_cases h : d = c
  · simp [h]
  · simp [h]

theorem numOf_snoc (c : Char) (x : ℚ) (l : Options) (d : Char) (a : Option Str) :
    numOf c x (l ++ [(d, a)]) = if d = c then (a.map num).getD x else numOf c x l := by
  unfold numOf
  rw [argOf_snoc]
  split <;> rfl

theorem lastAmong_snoc (cs : List Char) (l : Options) (d : Char) (a : Option Str) :
    lastAmong cs (l ++ [(d, a)]) = if d ∈ cs then some d else lastAmong cs l := by
  unfold lastAmong
  rw [List.map_append, List.filter_append]
  by_cases h : d ∈ cs
  · simp [h]
  · simp [h]

/-- Options of the list `os`, with and without argument as they should be. -/
def Valid (os : Str) (l : Options) : Prop := ∀ p ∈ l, kind os p.1 = some p.2.isSome

theorem Line.OK.valid {os : Str} {l : Line} (h : l.OK os) : Valid os l.options := by
  have hplain : ∀ fs : Str, (∀ f ∈ fs, Flag os f) → ∀ p ∈ plainOpts fs, kind os p.1 = some p.2.isSome := by
    intro fs hf p hp
    obtain ⟨f, hm, rfl⟩ := List.mem_map.1 hp
    exact (hf f hm).kind
  intro p hp
  obtain ⟨q, hq, hp⟩ := List.mem_flatMap.1 hp
  have hq := h q hq
  cases q with
  | flags fs => exact hplain fs hq.2 p hp
  | glued fs c arg =>
    rcases List.mem_append.1 hp with hp | hp
    · exact hplain fs hq.1 p hp
    · rw [List.mem_singleton.1 hp]; exact hq.2.1.kind
  | apart fs c arg =>
    rcases List.mem_append.1 hp with hp | hp
    · exact hplain fs hq.1 p hp
    · rw [List.mem_singleton.1 hp]; exact hq.2.kind
  | operand s => simp [Piece.options] at hp

theorem events_snoc {σ : Type} (step : σ → Char → Str → Except Stop σ) (l : Options) (c : Char) (a : Option Str) (s s' : σ)
    (h : events step (l.map ev) s = .ok s') : events step ((l ++ [(c, a)]).map ev) s = step s' c (a.getD []) := by
  induction l generalizing s with
  | nil =>
    simp only [List.map_nil, events] at h
    cases h
    simp only [List.nil_append, List.map_cons, List.map_nil, ev, events]
    cases step s' c (a.getD []) <;> rfl
  | cons p l ih =>
    simp only [List.map_cons, List.cons_append, ev, events] at h ⊢
    cases hp : step s p.1 (p.2.getD []) with
    | error e => rw [hp] at h; simp at h
    | ok s1 => rw [hp] at h; exact ih s1 h

/-- Settings that follow the options one by one. -/
theorem events_spec {σ : Type} {os : Str} {step : σ → Char → Str → Except Stop σ} {init : σ} (spec : Options → σ) (bad : List Char) (h0 : spec [] = init)
    (hs : ∀ l c a, kind os c = some a.isSome → c ∉ bad → step (spec l) c (a.getD []) = .ok (spec (l ++ [(c, a)]))) (l : Options) (hv : Valid os l)
    (hb : ∀ c ∈ bad, given c l = false) : events step (l.map ev) init = .ok (spec l) := by
  induction l using List.reverseRecOn with
  | nil => simp [events, h0]
  | append_singleton l p ih =>
    obtain ⟨c, a⟩ := p
    have h1 := ih (fun q hq => hv q (by simp [hq])) (fun c hc => by
      have := hb c hc
      rw [given_snoc] at this
      simp at this
      exact this.1)
    rw [events_snoc step l c a init _ h1]
    refine hs l c a (hv (c, a) (by simp)) fun hc => ?_
    have := hb c hc
    rw [given_snoc] at this
    simp at this

theorem main_line {σ τ : Type} (t : Tool σ τ) (hos : '-' ∉ t.opts) (spec : Options → σ) (bad : List Char) (h0 : spec [] = t.init)
    (hs : ∀ l c a, kind t.opts c = some a.isSome → c ∉ bad → t.step (spec l) c (a.getD []) = .ok (spec (l ++ [(c, a)])))
    (l : Line) (h : l.OK t.opts) (hb : ∀ c ∈ bad, given c l.options = false) : t.main l.words = t.finish (spec l.options) l.operands := by
  unfold Tool.main
  rw [getopt_reads hos l h]
  simp only
  rw [events_spec spec bad h0 hs l.options h.valid hb]

/-- The options of a list by kind. -/
theorem kind_cases {os flags args : Str} (h : ∀ c ∈ os, (kind os c = some false → c ∈ flags) ∧ (kind os c = some true → c ∈ args)) {c : Char}
    {a : Option Str} (hk : kind os c = some a.isSome) : (c ∈ flags ∧ a = none) ∨ (c ∈ args ∧ ∃ x, a = some x) := by
  have hm := h c (kind_mem hk)
  cases a with
  | none => exact .inl ⟨hm.1 hk, rfl⟩
  | some x => exact .inr ⟨hm.2 hk, x, rfl⟩

theorem cols_step (l : Options) (c : Char) (a : Option Str) (hk : kind ['h', 'v', 'o', '2', '3'] c = some a.isSome) (hb : c ∉ ['h']) :
    colsStep (colsOf l) c (a.getD []) = .ok (colsOf (l ++ [(c, a)])) := by
  have hm := kind_mem hk
  simp at hm
  rcases hm with rfl | rfl | rfl | rfl | rfl <;>
    simp_all [colsStep, colsOf, given_snoc, lastAmong_snoc]

theorem specmoments_step (l : Options) (c : Char) (a : Option Str) (hk : kind specmoments.opts c = some a.isSome) (hb : c ∉ ([] : List Char)) :
    specmoments.step (momOf l) c (a.getD []) = .ok (momOf (l ++ [(c, a)])) := by
  rcases kind_cases (flags := ['v', 'o', 'p', 'n', 'c']) (args := ['l', 'h']) (by decide +kernel) hk with ⟨hm, rfl⟩ | ⟨hm, x, rfl⟩
  · simp only [List.mem_cons, List.not_mem_nil, or_false] at hm
    rcases hm with rfl | rfl | rfl | rfl | rfl <;> first | (simp at hb; done) | simp [specmoments, momOf, given_snoc, lastAmong_snoc, argOf_snoc, argOf2_snoc, argsOf_snoc, numOf_snoc, colsOf, partOf]
  · simp only [List.mem_cons, List.not_mem_nil, or_false] at hm
    rcases hm with rfl | rfl <;> simp [specmoments, momOf, given_snoc, lastAmong_snoc, argOf_snoc, argOf2_snoc, argsOf_snoc, numOf_snoc, colsOf, partOf]

theorem broaden_step (l : Options) (c : Char) (a : Option Str) (hk : kind broaden.opts c = some a.isSome) (hb : c ∉ ([] : List Char)) :
    broaden.step (brOf l) c (a.getD []) = .ok (brOf (l ++ [(c, a)])) := by
  rcases kind_cases (flags := ['v', 'o', '2', '3', 'n', 's', 'c', 'g', 'P', 'N', 'A', 'B']) (args := ['m', 'M', 'r', 'f', 'x', 'a', 'l', 'h', 'L']) (by decide +kernel) hk with ⟨hm, rfl⟩ | ⟨hm, x, rfl⟩
  · simp only [List.mem_cons, List.not_mem_nil, or_false] at hm
    rcases hm with rfl | rfl | rfl | rfl | rfl | rfl | rfl | rfl | rfl | rfl | rfl | rfl <;> first | (simp at hb; done) | simp [broaden, brOf, given_snoc, lastAmong_snoc, argOf_snoc, argOf2_snoc, argsOf_snoc, numOf_snoc, colsOf, partOf]
  · simp only [List.mem_cons, List.not_mem_nil, or_false] at hm
    rcases hm with rfl | rfl | rfl | rfl | rfl | rfl | rfl | rfl | rfl <;> simp [broaden, brOf, given_snoc, lastAmong_snoc, argOf_snoc, argOf2_snoc, argsOf_snoc, numOf_snoc, colsOf, partOf]

theorem bw_step (l : Options) (c : Char) (a : Option Str) (hk : kind bw.opts c = some a.isSome) (hb : c ∉ (['h'] : List Char)) :
    bw.step (bwOf l) c (a.getD []) = .ok (bwOf (l ++ [(c, a)])) := by
  rcases kind_cases (flags := ['h', 'v', 'V', 'p', 's', 'S', 'o']) (args := ['m', 'M', 'r', 'n', 't', 'q', 'x', 'd']) (by decide +kernel) hk with ⟨hm, rfl⟩ | ⟨hm, x, rfl⟩
  · simp only [List.mem_cons, List.not_mem_nil, or_false] at hm
    rcases hm with rfl | rfl | rfl | rfl | rfl | rfl | rfl <;> first | (simp at hb; done) | simp [bw, bwOf, given_snoc, lastAmong_snoc, argOf_snoc, argOf2_snoc, argsOf_snoc, numOf_snoc, colsOf, partOf]
  · simp only [List.mem_cons, List.not_mem_nil, or_false] at hm
    rcases hm with rfl | rfl | rfl | rfl | rfl | rfl | rfl | rfl <;> simp [bw, bwOf, given_snoc, lastAmong_snoc, argOf_snoc, argOf2_snoc, argsOf_snoc, numOf_snoc, colsOf, partOf]

theorem integ_step (l : Options) (c : Char) (a : Option Str) (hk : kind integ.opts c = some a.isSome) (hb : c ∉ (['h'] : List Char)) :
    integ.step (integOf l) c (a.getD []) = .ok (integOf (l ++ [(c, a)])) := by
  rcases kind_cases (flags := ['h', 'v', 'V', 'w', 'p', 'n', 'a', 'f']) (args := ['t', 'T']) (by decide +kernel) hk with ⟨hm, rfl⟩ | ⟨hm, x, rfl⟩
  · simp only [List.mem_cons, List.not_mem_nil, or_false] at hm
    rcases hm with rfl | rfl | rfl | rfl | rfl | rfl | rfl | rfl <;> first | (simp at hb; done) | simp [integ, integOf, given_snoc, lastAmong_snoc, argOf_snoc, argOf2_snoc, argsOf_snoc, numOf_snoc, colsOf, partOf]
  · simp only [List.mem_cons, List.not_mem_nil, or_false] at hm
    rcases hm with rfl | rfl <;> simp [integ, integOf, given_snoc, lastAmong_snoc, argOf_snoc, argOf2_snoc, argsOf_snoc, numOf_snoc, colsOf, partOf]

theorem hilb_step (l : Options) (c : Char) (a : Option Str) (hk : kind hilb.opts c = some a.isSome) (hb : c ∉ (['h', 'V'] : List Char)) :
    hilb.step (hilbOf l) c (a.getD []) = .ok (hilbOf (l ++ [(c, a)])) := by
  rcases kind_cases (flags := ['h', 'G', 'v', 'V']) (args := ['d', 's', 'B', 'o', 'x', 'y']) (by decide +kernel) hk with ⟨hm, rfl⟩ | ⟨hm, x, rfl⟩
  · simp only [List.mem_cons, List.not_mem_nil, or_false] at hm
    rcases hm with rfl | rfl | rfl | rfl <;> first | (simp at hb; done) | simp [hilb, hilbOf, given_snoc, lastAmong_snoc, argOf_snoc, argOf2_snoc, argsOf_snoc, numOf_snoc, colsOf, partOf]
  · simp only [List.mem_cons, List.not_mem_nil, or_false] at hm
    rcases hm with rfl | rfl | rfl | rfl | rfl | rfl <;> simp [hilb, hilbOf, given_snoc, lastAmong_snoc, argOf_snoc, argOf2_snoc, argsOf_snoc, numOf_snoc, colsOf, partOf]

theorem diag_step (l : Options) (c : Char) (a : Option Str) (hk : kind diag.opts c = some a.isSome) (hb : c ∉ (['h'] : List Char)) :
    diag.step (diagOf l) c (a.getD []) = .ok (diagOf (l ++ [(c, a)])) := by
  rcases kind_cases (flags := ['h', 't', 'T', 'b', 'B', 'v', 'V', 'q']) (args := ['o', 'O', 's']) (by decide +kernel) hk with ⟨hm, rfl⟩ | ⟨hm, x, rfl⟩
  · simp only [List.mem_cons, List.not_mem_nil, or_false] at hm
    rcases hm with rfl | rfl | rfl | rfl | rfl | rfl | rfl | rfl <;> first | (simp at hb; done) | simp [diag, diagOf, given_snoc, lastAmong_snoc, argOf_snoc, argOf2_snoc, argsOf_snoc, numOf_snoc, colsOf, partOf]
  · simp only [List.mem_cons, List.not_mem_nil, or_false] at hm
    rcases hm with rfl | rfl | rfl <;> simp [diag, diagOf, given_snoc, lastAmong_snoc, argOf_snoc, argOf2_snoc, argsOf_snoc, numOf_snoc, colsOf, partOf]

theorem unitary_step (l : Options) (c : Char) (a : Option Str) (hk : kind unitary.opts c = some a.isSome) (hb : c ∉ (['h'] : List Char)) :
    unitary.step (unitaryOf l) c (a.getD []) = .ok (unitaryOf (l ++ [(c, a)])) := by
  rcases kind_cases (flags := ['h', 'b', 'B', 'q', 'v', 'V', 't', 'l']) (args := ['s', 'o', 'c']) (by decide +kernel) hk with ⟨hm, rfl⟩ | ⟨hm, x, rfl⟩
  · simp only [List.mem_cons, List.not_mem_nil, or_false] at hm
    rcases hm with rfl | rfl | rfl | rfl | rfl | rfl | rfl | rfl <;> first | (simp at hb; done) | simp [unitary, unitaryOf, given_snoc, lastAmong_snoc, argOf_snoc, argOf2_snoc, argsOf_snoc, numOf_snoc, colsOf, partOf]
  · simp only [List.mem_cons, List.not_mem_nil, or_false] at hm
    rcases hm with rfl | rfl | rfl <;> simp [unitary, unitaryOf, given_snoc, lastAmong_snoc, argOf_snoc, argOf2_snoc, argsOf_snoc, numOf_snoc, colsOf, partOf]

theorem matrix_step (l : Options) (c : Char) (a : Option Str) (hk : kind matrix.opts c = some a.isSome) (hb : c ∉ (['h'] : List Char)) :
    matrix.step (calcOf l) c (a.getD []) = .ok (calcOf (l ++ [(c, a)])) := by
  rcases kind_cases (flags := ['h', 'v', 'p', 'P', 's']) (args := ['c']) (by decide +kernel) hk with ⟨hm, rfl⟩ | ⟨hm, x, rfl⟩
  · simp only [List.mem_cons, List.not_mem_nil, or_false] at hm
    rcases hm with rfl | rfl | rfl | rfl | rfl <;> first | (simp at hb; done) | simp [matrix, calcOf, given_snoc, lastAmong_snoc, argOf_snoc, argOf2_snoc, argsOf_snoc, numOf_snoc, colsOf, partOf]
  · simp only [List.mem_cons, List.not_mem_nil, or_false] at hm
    rcases hm with rfl <;> simp [matrix, calcOf, given_snoc, lastAmong_snoc, argOf_snoc, argOf2_snoc, argsOf_snoc, numOf_snoc, colsOf, partOf]

theorem h5write_step (l : Options) (c : Char) (a : Option Str) (hk : kind h5write.opts c = some a.isSome) (hb : c ∉ (['h'] : List Char)) :
    h5write.step (h5Of l) c (a.getD []) = .ok (h5Of (l ++ [(c, a)])) := by
  rcases kind_cases (flags := ['h', 's', 't']) (args := []) (by decide +kernel) hk with ⟨hm, rfl⟩ | ⟨hm, x, rfl⟩
  · simp only [List.mem_cons, List.not_mem_nil, or_false] at hm
    rcases hm with rfl | rfl | rfl <;> first | (simp at hb; done) | simp [h5write, h5Of, given_snoc, lastAmong_snoc, argOf_snoc, argOf2_snoc, argsOf_snoc, numOf_snoc, colsOf, partOf]
  · simp at hm

theorem intavg_step (l : Options) (c : Char) (a : Option Str) (hk : kind intavg.opts c = some a.isSome) (hb : c ∉ ['h']) :
    intavg.step ((fun _ : Options => ()) l) c (a.getD []) = .ok ((fun _ : Options => ()) (l ++ [(c, a)])) := by
  have hm := kind_mem hk
  simp [intavg] at hm
  rcases hm with rfl | rfl | rfl <;> simp_all [intavg]

theorem tdavg_step (l : Options) (c : Char) (a : Option Str) (hk : kind tdavg.opts c = some a.isSome) (hb : c ∉ ['h']) :
    tdavg.step (given 'c' l) c (a.getD []) = .ok (given 'c' (l ++ [(c, a)])) := by
  have hm := kind_mem hk
  simp [tdavg] at hm
  rcases hm with rfl | rfl | rfl | rfl <;> simp_all [tdavg, given_snoc]

end Verif.Cmd
