import Verif.Seed.Props
import Verif.Inst.Props
/-! # A template with two subspaces -/

namespace Verif.Seed

open Verif.Text
open Verif.Invar (Label)
open Verif.DataFile

instance (w : Str) : Decidable (Blank w) := inferInstanceAs (Decidable (∀ c ∈ w, isSpace c = true))
instance (w : Str) : Decidable (Word w) := inferInstanceAs (Decidable (w ≠ [] ∧ ∀ c ∈ w, isSpace c = false))
instance (s : Str) : Decidable (DataFile.Sep s) := inferInstanceAs (Decidable (∀ c ∈ s.head?, isSpace c = true))
instance {α : Type} (t : Tok α) : Decidable t.OK := inferInstanceAs (Decidable (t.ws ≠ [] ∧ Blank t.ws))
instance {α : Type} (l : List (Tok α)) : Decidable (OneLine l) := inferInstanceAs (Decidable (∀ t ∈ l.tail, t.OK ∧ '\n' ∉ t.ws))
instance (j : Junk) : Decidable j.OK :=
  match j with
  | .blank ws => inferInstanceAs (Decidable (Blank ws ∧ '\n' ∉ ws))
  | .com lead t => inferInstanceAs (Decidable (Blank lead ∧ '\n' ∉ lead ∧ '\n' ∉ t))

theorem ln_ok {l : Ln} (h : (∀ j ∈ l.pre, j.OK) ∧ (Blank l.lead ∧ '\n' ∉ l.lead) ∧ (Blank l.trail ∧ '\n' ∉ l.trail) ∧ '\n' ∉ l.body ∧ l.body ≠ [] ∧
    (∀ c ∈ l.body.head?, isSpace c = false ∧ c ≠ '#') ∧ ∀ c ∈ l.body.getLast?, isSpace c = false) : l.OK :=
  ⟨h.1, h.2.1, h.2.2.1, h.2.2.2.1, h.2.2.2.2.1, h.2.2.2.2.2.1, h.2.2.2.2.2.2⟩

/-- Rational numbers that are integers are printed as such. -/
def exLit (_ : Nat) (x : ℚ) : Lit := ⟨decide (x < 0), natStr x.num.natAbs, none, none⟩

def exCtx : Ctx ℚ where
  P := exPar
  nmax := 0
  E := Inst.sampleEnv
  files := fun fn =>
    if fn = "ham.1".toList then some "{{U,0},{0,1}}".toList
    else if fn = "ham.2".toList then some "{{U+2}}".toList
    else if fn = "op1".toList then some "{{1,U-1}}".toList
    else none
  diag := fun n M => if n = 1 then some ([M 0 0], fun i j => if i = j then 1 else 0) else some ([M 1 1, M 0 0], fun i j => if i = j then 0 else 1)
  xi := [2, 7]
  zeta := [-1]
  fmt := fun p x => (exLit p x).text

theorem exPrints : Prints exCtx exLit := by
  intro p x
  refine ⟨rfl, ?_, ?_, ?_, ?_⟩
  · intro c hc; exact natStr_isDigit _ c hc
  · intro c hc; simp [exLit, Lit.frac] at hc
  · exact Or.inl (natStr_ne_nil _)
  · intro y hy; simp [exLit] at hy

def pl (s : String) : Ln := ⟨[], [], s.toList, []⟩

def exA : TSub ℚ where
  q := ⟨[.com [] " subspaces".toList, .blank [' ']], [], "0 2".toList, []⟩
  z := pl "1"
  d := pl "DIAG ham.2"
  lab := [⟨[' '], 0⟩, ⟨[' '], 2⟩]
  dim := 1
  gap := [' ']
  file := "ham.2".toList
  tail := []
  H := [[5]]
  val := [5]
  vec := fun i j => if i = j then 1 else 0

def exB : TSub ℚ where
  q := ⟨[], [' '], "-1 1".toList, [' ']⟩
  z := pl "2"
  d := pl "DIAG ham.1"
  lab := [⟨[' '], -1⟩, ⟨[' '], 1⟩]
  dim := 2
  gap := [' ']
  file := "ham.1".toList
  tail := []
  H := [[3, 0], [0, 1]]
  val := [1, 3]
  vec := fun i j => if i = j then 0 else 1

def exSrc1 : TMat ℚ := .file (pl "op1") [[1, 2]]
def exSrc2 : TMat ℚ := .inline [(pl "3 4", [⟨[], ⟨false, ['3'], none, none⟩⟩, ⟨[' '], ⟨false, ['4'], none, none⟩⟩])]

def exLab1 : LabT := [⟨[' '], 0⟩, ⟨[' '], 2⟩]
def exLab2 : LabT := [⟨[' '], -1⟩, ⟨[' '], 1⟩]

theorem exLab1_ok : LabLine exPar exLab1 := ⟨rfl, by decide, by decide⟩
theorem exLab2_ok : LabLine exPar exLab2 := ⟨rfl, by decide, by decide⟩
theorem exLab2_head : ∀ t ∈ exLab2.head?, t.OK ∧ '\n' ∉ t.ws := by decide
theorem pl_pair : (pl "0 2 -1 1").OK ∧ (pl "0 2 -1 1").body = labText (atStart exLab1) ++ labText exLab2 := ⟨ln_ok (by decide), by decide +kernel⟩
theorem pl_one : (pl "1").OK ∧ (∀ x ∈ (pl "1").body, isDigit x = true) ∧ natValue (pl "1").body = 1 ∧ 1 < 2 ^ 64 := ⟨ln_ok (by decide), by decide, by decide, by decide⟩

def exElem (src : TMat ℚ) : TElem ℚ := ⟨pl "0 2 -1 1", exLab1, exLab2, src⟩

def exT : Template ℚ where
  h := ⟨[.com [] " Input file".toList, .com [] "!9".toList, .com [] " the symtype QS".toList, .com [] " SCALE 2".toList], [], "1 0 2".toList, []⟩
  sites := ⟨[' '], 0⟩
  nsubs := ⟨[' '], 2⟩
  extra := []
  scale := 2
  subs := [exA, exB]
  chain := [⟨⟨pl "f 0 0", pl "1", [exElem exSrc1]⟩, ⟨[' '], 0⟩, ⟨[' '], 0⟩⟩]
  blocks := [.energy ⟨[.com [] " values".toList], [], ['e'], []⟩ (pl "0"), .oper 'd' "A_d".toList ⟨pl "dA_d", pl "1", [exElem exSrc2]⟩]
  endJunk := [.blank []]
  stop := some ([], "z".toList, ["1".toList, "anything".toList])
  before := [.txt " Input file".toList, .ver]
  symPre := " the ".toList
  symGap := [' ']
  after := [.txt " SCALE 2".toList]

theorem exA_ok : exA.OK exCtx where
  lns := ⟨ln_ok (by decide), ln_ok (by decide), ln_ok (by decide)⟩
  qBody := by decide +kernel
  lab := ⟨rfl, by decide, by decide⟩
  zBody := by decide
  dim := by decide
  dBody := by decide
  gap := by decide
  file := by decide
  tail := by decide
  eval := ⟨"{{U+2}}".toList, by decide +kernel, by decide +kernel⟩
  diag := rfl
  len := rfl
  sorted := by decide +kernel

theorem exB_ok : exB.OK exCtx where
  lns := ⟨ln_ok (by decide), ln_ok (by decide), ln_ok (by decide)⟩
  qBody := by decide +kernel
  lab := ⟨rfl, by decide, by decide⟩
  zBody := by decide
  dim := by decide
  dBody := by decide
  gap := by decide
  file := by decide
  tail := by decide
  eval := ⟨"{{U,0},{0,1}}".toList, by decide +kernel, by decide +kernel⟩
  diag := rfl
  len := rfl
  sorted := by decide +kernel

theorem exElem_ok {src : TMat ℚ} (h : src.OK exCtx 1 2) : (exElem src).OK exCtx [exA, exB] :=
  ⟨pl_pair.1, pl_pair.2, exLab1_ok, exLab2_ok, exLab2_head,
    exA, by simp, exB, by simp, rfl, rfl, h⟩

theorem exSrc1_ok : exSrc1.OK exCtx 1 2 := ⟨ln_ok (by decide), rfl, "{{1,U-1}}".toList, by decide +kernel, by decide +kernel⟩

theorem exSrc2_ok : exSrc2.OK exCtx 1 2 := by
  refine ⟨rfl, ?_⟩
  intro p hp
  simp only [List.mem_singleton] at hp
  subst hp
  refine ⟨ln_ok (by decide), by decide, rfl, by decide, ?_⟩
  intro t ht
  simp only [List.mem_cons, List.not_mem_nil, or_false] at ht
  rcases ht with rfl | rfl <;> exact ⟨by decide, by decide, by decide, by intro x hx; simp at hx⟩

theorem exOp_ok {h : Ln} {src : TMat ℚ} (hh : h.OK) (hs : src.OK exCtx 1 2) : (TOp.mk h (pl "1") [exElem src]).OK exCtx [exA, exB] := by
  refine ⟨hh, pl_one.1, pl_one.2.1, pl_one.2.2.1, pl_one.2.2.2, ?_, by simp [TOp.pairs]⟩
  intro e he
  simp only [List.mem_singleton] at he
  subst he
  exact exElem_ok hs

theorem exT_ok : exT.OK exCtx where
  dim := by decide
  coef := rfl
  nmax := by decide
  xi := by decide
  zeta := by decide
  h := ln_ok (by decide)
  hBody := by decide +kernel
  sites := ⟨sp_tok, by decide⟩
  nsubs := ⟨sp_tok, by decide⟩
  extra := by decide
  head := by decide +kernel
  before := by
    intro l hl
    simp only [exT, List.mem_cons, List.not_mem_nil, or_false] at hl
    rcases hl with rfl | rfl
    · exact ⟨by decide, by decide, by decide⟩
    · trivial
  after := by
    intro l hl
    simp only [exT, List.mem_cons, List.not_mem_nil, or_false] at hl
    subst hl
    exact ⟨by decide, by decide, by decide⟩
  ver := by simp [exT]
  symPre := by decide
  symGap := by decide
  symNl := by decide
  symWord := by decide
  count := rfl
  ne := by simp [exT]
  subs := by
    intro s hs
    simp only [exT, List.mem_cons, List.not_mem_nil, or_false] at hs
    rcases hs with rfl | rfl
    · exact exA_ok
    · exact exB_ok
  dup := by decide
  scale := by
    intro s hs
    simp only [exT, List.head?_cons, Option.mem_def, Option.some.injEq] at hs
    subst hs
    refine ⟨[.com [] " Input file".toList, .com [] "!9".toList, .com [] " the symtype QS".toList], [], " SCALE 2".toList, [' '], ⟨false, ['2'], none, none⟩, [],
      [.com [] " subspaces".toList, .blank [' ']], rfl, ⟨[' '], by decide, by decide, by decide, by decide⟩, by decide, ?_, by decide, by decide +kernel, ?_⟩
    · exact ⟨by decide, by decide, by decide, by intro x hx; simp at hx⟩
    · intro a b r hb
      simp only [List.mem_cons, Junk.com.injEq, reduceCtorEq, List.not_mem_nil, or_false] at hb
      obtain ⟨-, rfl⟩ := hb
      rintro ⟨w, hw, hb, he, -⟩
      cases w with
      | nil => exact hw rfl
      | cons x w =>
        have e1 : " subspaces".toList = ' ' :: 's' :: "ubspaces".toList := by decide
        have e2 : "SCALE".toList = 'S' :: "CALE".toList := by decide
        rw [e1, e2, List.cons_append] at he
        injection he with he1 he2
        cases w with
        | nil =>
          rw [List.nil_append, List.cons_append] at he2
          injection he2 with he3
          exact absurd he3 (by decide)
        | cons y w =>
          rw [List.cons_append] at he2
          injection he2 with he3
          have := hb y (by simp)
          rw [← he3] at this
          exact absurd this (by decide)
  pos := by decide +kernel
  subComs := by
    intro s hs
    simp only [exT, List.mem_cons, List.not_mem_nil, or_false] at hs
    rcases hs with rfl | rfl
    · intro c hc
      have : c = ([], " subspaces".toList) := by simpa [coms, exA, TSub.junk, pl] using hc
      subst this
      intro x hx
      simp at hx
    · intro c hc
      simp [coms, exB, TSub.junk, pl] at hc
  chainLen := by decide
  chain := by
    intro f hf
    simp only [exT, List.mem_singleton] at hf
    subst hf
    exact ⟨exOp_ok (ln_ok (by decide)) exSrc1_ok, by decide +kernel, ⟨sp_tok, by decide⟩, ⟨sp_tok, by decide⟩⟩
  chainComs := by
    refine ⟨?_, by simp [exT]⟩
    intro f hf
    simp only [exT, List.mem_singleton] at hf
    subst hf
    intro c hc
    simp [coms, junks, TOp.lns, TElem.lns, exElem, exSrc1, TMat.lns, pl] at hc
  blocks := by
    intro b hb
    simp only [exT, List.mem_cons, List.not_mem_nil, or_false] at hb
    rcases hb with rfl | rfl
    · exact ⟨ln_ok (by decide), ln_ok (by decide), rfl⟩
    · exact ⟨by simp [OperKind], exOp_ok (ln_ok (by decide)) exSrc2_ok, by decide⟩
  energy := ⟨_, _, by simp only [exT, List.mem_cons]; exact Or.inl rfl⟩
  endJunk := by decide
  stop := by
    intro lead l ls h
    simp only [exT, Option.some.injEq, Prod.mk.injEq] at h
    obtain ⟨rfl, rfl, rfl⟩ := h
    exact ⟨by decide, by decide, by decide, by decide, by decide⟩

/-- The template, and what becomes of it. -/
def exTemplate : String := "# Input file
#!9
# the symtype QS
# SCALE 2
1 0 2
# subspaces
 
0 2
1
DIAG ham.2
 -1 1 
2
DIAG ham.1
f 0 0
1
0 2 -1 1
op1
# values
e
0
dA_d
1
0 2 -1 1
3 4

z
1
anything
"

def exData : String := "# Input file
#!9
# the symtype QS
# SCALE 2
1 0 2
# subspaces
0 2
1
2
-1 1
2
0 1
f 0 0
1
0 2 -1 1
2 1
# values
e
1
dA_d
1
0 2 -1 1
4 3
z
0
2
0
-1
"

example : exT.text = exTemplate.toList := by decide +kernel

example : instantiate exCtx exTemplate.toList = some (exData.toList, 1) := by decide +kernel

example : ∃ out e D, instantiate exCtx exTemplate.toList = some (out, e) ∧ DataFile.read exCtx.P out = some D ∧ IsGround exT.subs e ∧ IsInstance exCtx exLit exT e D := by
  rw [← show exT.text = exTemplate.toList by decide +kernel]
  exact instantiate_read exT_ok exPrints

/-- The vectors of the second subspace are a complete set of eigenvectors: the hypotheses of `between_product` and
`between_hamiltonian`. -/
example : (∀ a < exB.dim, ∀ b < exB.dim, ∑ k ∈ Finset.range exB.dim, exB.vec k a * exB.vec k b = if a = b then 1 else 0) ∧
    (∀ i < exB.dim, ∀ j < exB.dim, ∑ a ∈ Finset.range exB.dim, exB.vec i a * exB.vec j a = if i = j then 1 else 0) ∧
    ∀ i < exB.dim, ∀ a < exB.dim, ∑ b ∈ Finset.range exB.dim, entry exB.H a b * exB.vec i b = exB.val.getD i 0 * exB.vec i a := by decide +kernel

/-- The first half of the file. -/
example : DataFile.read exPar (exData.toList.take 60) = none := by
  refine interrupted_write_partial (out := exData.toList) (e := 1) exT_ok exPrints rfl ?_ (x := -1) rfl (List.take_prefix _ _) (by decide +kernel)
  rw [show exT.text = exTemplate.toList by decide +kernel]
  decide +kernel

/-- The same template with a table of coefficients that ends one site too early. -/
example : instantiate { exCtx with xi := [] } exTemplate.toList = none := by
  cases h : instantiate { exCtx with xi := [] } exTemplate.toList with
  | none => rfl
  | some r => exact absurd (complete_coefficients h).1 (by decide)

end Verif.Seed
