import Verif.Select.Spec
import Mathlib.Data.List.Nodup
import Mathlib.Data.List.Infix
/-! # Lemmas on the lists of spectra -/

namespace Verif.Select

open Verif.Text Verif.Config

/-! ## Words -/

theorem word_nil_iff {x cur : Str} (hc : ∀ c ∈ cur, isSpace c = false) :
    Word x cur ↔ x = cur ∧ x ≠ [] := by
  constructor
  · rintro ⟨hx, -, a, b, rfl, ha, hb⟩
    have ha' : a = [] := by
      rcases List.eq_nil_or_concat a with h | ⟨l, c, rfl⟩
      · exact h
      · have h1 := ha c (by simp)
        have h2 := hc c (by simp)
        simp_all
    have hb' : b = [] := by
      cases b with
      | nil => rfl
      | cons c b =>
        have h1 := hb c (by simp)
        have h2 := hc c (by simp)
        simp_all
    subst ha' hb'
    exact ⟨by simp, hx⟩
  · rintro ⟨rfl, hx⟩
    exact ⟨hx, hc, [], [], by simp, by simp, by simp⟩

theorem word_cons_iff {x cur s : Str} {c : Char} (hc : ∀ c ∈ cur, isSpace c = false) (hs : isSpace c = true) :
    Word x (cur ++ c :: s) ↔ (x = cur ∧ x ≠ []) ∨ Word x s := by
  constructor
  · rintro ⟨hx, hxs, a, b, h, ha, hb⟩
    rcases List.append_eq_append_iff.1 h with ⟨z, h1, h2⟩ | ⟨z, h1, h2⟩
    · -- `a = cur ++ z`
      cases z with
      | nil =>
        exfalso
        cases x with
        | nil => exact hx rfl
        | cons d x =>
          simp at h2
          have := hxs d (by simp)
          rw [← h2.1, hs] at this
          exact absurd this (by simp)
      | cons d z =>
        simp only [List.cons_append, List.cons.injEq] at h2
        right
        refine ⟨hx, hxs, z, b, h2.2, ?_, hb⟩
        intro e he
        apply ha e
        rw [h1]
        rcases List.eq_nil_or_concat z with h | ⟨l, f, rfl⟩
        · subst h; simp at he
        · simp at he; subst he
          rw [List.concat_eq_append, ← List.cons_append, ← List.append_assoc, List.getLast?_append]
          simp
    · -- `cur = a ++ z`
      have ha' : a = [] := by
        rcases List.eq_nil_or_concat a with h | ⟨l, d, rfl⟩
        · exact h
        · have e1 := ha d (by simp)
          have e2 := hc d (by rw [h1]; simp)
          simp_all
      subst ha'
      simp only [List.nil_append] at h1
      subst h1
      left
      rcases List.append_eq_append_iff.1 h2 with ⟨w, h3, h4⟩ | ⟨w, h3, h4⟩
      · cases w with
        | nil => exact ⟨by simpa using h3.symm, hx⟩
        | cons d w =>
          have e1 := hb d (by rw [h4]; simp)
          have e2 := hc d (by rw [h3]; simp)
          simp_all
      · cases w with
        | nil => exact ⟨by simpa using h3, hx⟩
        | cons d w =>
          simp only [List.cons_append, List.cons.injEq] at h4
          have e1 := hxs d (by rw [h3]; simp)
          rw [← h4.1, hs] at e1
          exact absurd e1 (by simp)
  · rintro (⟨rfl, hx⟩ | ⟨hx, hxs, a, b, rfl, ha, hb⟩)
    · exact ⟨hx, hc, [], c :: s, by simp, by simp, by simpa using hs⟩
    · refine ⟨hx, hxs, cur ++ c :: a, b, by simp, ?_, hb⟩
      intro e he
      rcases List.eq_nil_or_concat a with h | ⟨l, f, rfl⟩
      · subst h; simp at he; subst he; exact hs
      · apply ha e
        rw [List.concat_eq_append, ← List.cons_append, ← List.append_assoc, List.getLast?_append] at he
        simpa using he

theorem mem_tokensAux {x s cur : Str} (hc : ∀ c ∈ cur, isSpace c = false) :
    x ∈ tokensAux cur s ↔ Word x (cur ++ s) := by
  induction s generalizing cur with
  | nil =>
    rw [tokensAux, List.append_nil, word_nil_iff hc]
    by_cases h : cur = []
    · subst h; simp
    · rw [if_neg h]
      simp only [List.mem_singleton]
      exact ⟨fun e => ⟨e, e ▸ h⟩, fun e => e.1⟩
  | cons c s ih =>
    rw [tokensAux]
    by_cases hs : isSpace c = true
    · rw [if_pos hs, word_cons_iff hc hs]
      by_cases h : cur = []
      · rw [if_pos h, ih (by simp)]
        subst h; simp
      · rw [if_neg h, List.mem_cons, ih (by simp)]
        simp only [List.nil_append]
        constructor
        · rintro (rfl | e)
          · exact Or.inl ⟨rfl, h⟩
          · exact Or.inr e
        · rintro (⟨rfl, -⟩ | e)
          · exact Or.inl rfl
          · exact Or.inr e
    · rw [if_neg hs, ih]
      · simp
      · intro d hd
        rw [List.mem_append, List.mem_singleton] at hd
        rcases hd with hd | rfl
        · exact hc d hd
        · simpa using hs

theorem mem_tokens {x s : Str} : x ∈ tokens s ↔ Word x s := by
  rw [tokens, mem_tokensAux (by simp)]; rfl

/-! ## The constructor as a list of groups -/

structure Grp where
  toks : List Str
  pre : Pre
  k1 : Kind
  k2 : Kind
  bosonic : Bool
  spin : Int

def pairSl (run : Run) (sw : Sw) (g : Grp) (n1 n2 : Str) : List Entry :=
  if specName n1 n2 g.spin ∈ g.toks then
    (methods run sw g.pre).map fun m => ⟨g.pre, m, g.k1, n1, g.k2, n2, g.spin, specName n1 n2 g.spin, g.bosonic⟩
  else []

def pairOps (run : Run) (sw : Sw) (g : Grp) (n1 n2 : Str) : List (Kind × Str) :=
  if specName n1 n2 g.spin ∈ g.toks then
    (if methods run sw g.pre = [] then [] else [(g.k1, n1), (g.k2, n2)])
  else []

def grpSl (run : Run) (sw : Sw) (names : Kind → List Str) (g : Grp) : List Entry :=
  (names g.k1).flatMap fun n1 => (names g.k2).flatMap fun n2 => pairSl run sw g n1 n2

def grpOps (run : Run) (sw : Sw) (names : Kind → List Str) (g : Grp) : List (Kind × Str) :=
  (names g.k1).flatMap fun n1 => (names g.k2).flatMap fun n2 => pairOps run sw g n1 n2

theorem onePair_eq (run : Run) (sw : Sw) (g : Grp) (n1 n2 : Str) (st : St) :
    onePair run sw g.toks g.pre g.k1 g.k2 g.bosonic g.spin n1 n2 st =
      ⟨st.sl ++ pairSl run sw g n1 n2, st.ops ++ pairOps run sw g n1 n2⟩ := by
  unfold onePair pairSl pairOps
  by_cases h : specName n1 n2 g.spin ∈ g.toks
  · simp only [if_pos h]
    by_cases hm : methods run sw g.pre = []
    · simp only [if_pos hm]; simp
    · simp only [if_neg hm]
  · simp only [if_neg h]; simp

theorem foldl_st {α : Type} (f : α → St → St) (a : α → List Entry) (b : α → List (Kind × Str))
    (h : ∀ x st, f x st = ⟨st.sl ++ a x, st.ops ++ b x⟩) (l : List α) (st : St) :
    l.foldl (fun st x => f x st) st = ⟨st.sl ++ l.flatMap a, st.ops ++ l.flatMap b⟩ := by
  induction l generalizing st with
  | nil => simp
  | cons x l ih => rw [List.foldl_cons, ih, h]; simp

theorem loopover_eq (run : Run) (sw : Sw) (names : Kind → List Str) (g : Grp) (st : St) :
    loopover run sw names g.toks g.pre g.k1 g.k2 g.bosonic g.spin st =
      ⟨st.sl ++ grpSl run sw names g, st.ops ++ grpOps run sw names g⟩ := by
  unfold loopover grpSl grpOps
  refine foldl_st (fun n1 st => (names g.k2).foldl (fun st n2 =>
    onePair run sw g.toks g.pre g.k1 g.k2 g.bosonic g.spin n1 n2 st) st) _ _ ?_ (names g.k1) st
  intro n1 st
  exact foldl_st (fun n2 st => onePair run sw g.toks g.pre g.k1 g.k2 g.bosonic g.spin n1 n2 st) _ _
    (fun n2 st => onePair_eq run sw g n1 n2 st) (names g.k2) st

/-- All the calls of `loopover`. -/
def groups (cfg : Cfg) : List Grp :=
  let sts := tokens cfg.specs
  let stchit := tokens cfg.specchit
  [⟨sts, .corr, .s, .s, true, 0⟩, ⟨sts, .corr, .p, .p, true, 0⟩, ⟨sts, .corr, .g, .g, true, 0⟩,
   ⟨sts, .corr, .s, .g, true, 0⟩, ⟨sts, .corr, .g, .s, true, 0⟩,
   ⟨stchit, .chit, .s, .s, true, 0⟩, ⟨stchit, .chit, .s, .g, true, 0⟩,
   ⟨stchit, .chit, .g, .s, true, 0⟩, ⟨stchit, .chit, .g, .g, true, 0⟩,
   ⟨tokens cfg.spect, .spin, .t, .t, true, 0⟩, ⟨tokens cfg.specot, .orbspin, .ot, .ot, true, 0⟩] ++
  ((spins cfg.isfield).map fun sp => ⟨tokens cfg.specd, .spec, .d, .d, false, sp⟩) ++
  ((spins cfg.isfield).map fun sp => ⟨tokens cfg.specgt, .gt, .d, .d, false, sp⟩) ++
  ((spins cfg.isfield).map fun sp => ⟨tokens cfg.speci1t, .i1t, .d, .d, false, sp⟩) ++
  ((spins cfg.isfield).map fun sp => ⟨tokens cfg.speci2t, .i2t, .d, .d, false, sp⟩) ++
  [⟨tokens cfg.specq, .specq, .q, .q, false, 0⟩]

theorem create_fold (run : Run) (cfg : Cfg) (names : Kind → List Str) :
    create run cfg names = (groups cfg).foldl
      (fun st g => loopover run cfg.sw names g.toks g.pre g.k1 g.k2 g.bosonic g.spin st) ⟨[], []⟩ := by
  unfold create groups spins
  cases cfg.isfield <;> rfl

theorem create_eq (run : Run) (cfg : Cfg) (names : Kind → List Str) :
    create run cfg names =
      ⟨(groups cfg).flatMap (grpSl run cfg.sw names), (groups cfg).flatMap (grpOps run cfg.sw names)⟩ := by
  rw [create_fold]
  rw [foldl_st (fun g st => loopover run cfg.sw names g.toks g.pre g.k1 g.k2 g.bosonic g.spin st) _ _
    (fun g st => loopover_eq run cfg.sw names g st)]
  simp

theorem mem_methods {run : Run} {sw : Sw} {pre : Pre} {m : Meth} :
    m ∈ methods run sw pre ↔ Applies run sw pre m := by
  cases pre <;> cases run <;> cases m <;>
    first
    | (simp [methods, Applies]; done)
    | (rename_i a; cases a <;> simp [methods, Applies, enabled] <;> done)

theorem methods_nodup (run : Run) (sw : Sw) (pre : Pre) : (methods run sw pre).Nodup := by
  have h : ∀ b1 b2 b3 b4 b5 b6 b7 b8 b9 : Bool,
      ((if b1 then [Meth.freq .DMNRG] else []) ++ (if b2 then [Meth.freq .DMNRGmats] else []) ++
      (if b3 then [Meth.freq .CFS] else []) ++ (if b4 then [Meth.freq .CFSgt] else []) ++
      (if b5 then [Meth.freq .CFSls] else []) ++ (if b6 then [Meth.freq .FDM] else []) ++
      (if b7 then [Meth.freq .FDMgt] else []) ++ (if b8 then [Meth.freq .FDMls] else []) ++
      (if b9 then [Meth.freq .FDMmats] else [])).Nodup := by decide +kernel
  have h2 : ∀ b1 b2 : Bool, ((if b1 then [Meth.freq .FT] else []) ++ (if b2 then [Meth.freq .FTmats] else [])).Nodup := by
    decide +kernel
  cases pre <;> cases run <;>
    first
    | exact h sw.dmnrg sw.dmnrgmats sw.cfs sw.cfsgt sw.cfsls sw.fdm sw.fdmgt sw.fdmls sw.fdmmats
    | exact h2 sw.finite sw.finitemats
    | simp [methods]

/-- What the groups are: for every family the kinds that it combines, with the spin labels. -/
theorem mem_groups {cfg : Cfg} {g : Grp} :
    g ∈ groups cfg ↔ g.toks = tokens (cfg.list g.pre) ∧ Combines g.pre g.k1 g.k2 ∧
      SpinOK cfg.isfield g.pre g.spin ∧ g.bosonic = g.pre.boson := by
  obtain ⟨toks, pre, k1, k2, b, sp⟩ := g
  unfold groups spins
  cases hf : cfg.isfield <;> cases pre <;>
    simp [Cfg.list, Combines, SpinOK, Pre.resolved, Pre.boson] <;> tauto

theorem specName_iff {n1 n2 : Str} {sp : Int} {name : Str} (h : sp = 0 ∨ sp = 1 ∨ sp = -1) :
    name = specName n1 n2 sp ↔ NameOf n1 n2 sp name := by
  rcases h with rfl | rfl | rfl <;> simp [specName, NameOf]

theorem spinOK_cases {f : Bool} {pre : Pre} {sp : Int} (h : SpinOK f pre sp) : sp = 0 ∨ sp = 1 ∨ sp = -1 := by
  unfold SpinOK at h
  split at h <;> omega

theorem mem_grpSl {run : Run} {sw : Sw} {names : Kind → List Str} {g : Grp} {e : Entry} :
    e ∈ grpSl run sw names g ↔ e.n1 ∈ names g.k1 ∧ e.n2 ∈ names g.k2 ∧ e.name ∈ g.toks ∧
      e.meth ∈ methods run sw g.pre ∧ e.pre = g.pre ∧ e.k1 = g.k1 ∧ e.k2 = g.k2 ∧ e.spin = g.spin ∧
      e.name = specName e.n1 e.n2 g.spin ∧ e.bosonic = g.bosonic := by
  unfold grpSl pairSl
  simp only [List.mem_flatMap]
  constructor
  · rintro ⟨n1, h1, n2, h2, h⟩
    by_cases hn : specName n1 n2 g.spin ∈ g.toks
    · rw [if_pos hn, List.mem_map] at h
      obtain ⟨m, hm, rfl⟩ := h
      exact ⟨h1, h2, hn, hm, rfl, rfl, rfl, rfl, rfl, rfl⟩
    · rw [if_neg hn] at h; exact absurd h (by simp)
  · rintro ⟨h1, h2, h3, h4, h5, h6, h7, h8, h9, h10⟩
    refine ⟨e.n1, h1, e.n2, h2, ?_⟩
    rw [if_pos (h9 ▸ h3), List.mem_map]
    refine ⟨e.meth, h4, ?_⟩
    obtain ⟨⟩ := e
    simp_all

end Verif.Select
