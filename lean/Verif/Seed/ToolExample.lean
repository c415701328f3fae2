import Verif.Seed.ToolProps
/-! # A run of the program `instantiate` -/

namespace Verif.Seed

open Verif.Text
open Verif.DataFile (Par exPar)

section
variable {K : Type} [Field K] [LinearOrder K]

/-- Further files do not matter. -/
theorem Template.OK.mono {C : Ctx K} {T : Template K} (h : T.OK C) (f : Str → Option Str) (hf : ∀ n t, C.files n = some t → f n = some t) :
    T.OK { C with files := f } := by
  have hsub : ∀ s ∈ T.subs, s.OK { C with files := f } := by
    intro s hs
    have g := h.subs s hs
    obtain ⟨t, h1, h2⟩ := g.eval
    exact { g with eval := ⟨t, hf _ _ h1, h2⟩ }
  have hop : ∀ o : TOp K, o.OK C T.subs → o.OK { C with files := f } T.subs := by
    rintro o ⟨h1, h2, h3, h4, h5, h6, h7⟩
    refine ⟨h1, h2, h3, h4, h5, ?_, h7⟩
    intro e he
    obtain ⟨g1, g2, g3, g4, g5, s1, hs1, s2, hs2, g6, g7, g8⟩ := h6 e he
    refine ⟨g1, g2, g3, g4, g5, s1, hs1, s2, hs2, g6, g7, ?_⟩
    cases hsrc : e.src with
    | file l m =>
      rw [hsrc] at g8
      obtain ⟨a1, a2, t, a3, a4⟩ := g8
      exact ⟨a1, a2, t, hf _ _ a3, a4⟩
    | inline ls => rw [hsrc] at g8; exact g8
  exact
    { h with
      subs := hsub
      chain := fun x hx => ⟨hop _ (h.chain x hx).1, (h.chain x hx).2⟩
      blocks := by
        intro b hb
        have g := h.blocks b hb
        cases b with
        | energy a x => exact g
        | oper k n o => exact ⟨g.1, hop _ g.2.1, g.2.2⟩ }

end

def exParam : Str := "[param]\nNmax=0\n[extra]\nU=3\n".toList

def exFS : FS := fun n =>
  if n = "param".toList then some exParam
  else if n = "template/data.in".toList then some exT.text
  else if n = "template/ham.1".toList then some "{{U,0},{0,1}}".toList
  else if n = "template/ham.2".toList then some "{{U+2}}".toList
  else if n = "op1".toList then some "{{1,U-1}}".toList
  else if n = "data".toList then some "old".toList
  else if n = "vec.mine".toList then some "x".toList
  else none

def exWorld : World ℚ where
  par := fun _ _ => some exPar
  chain := fun _ _ => some [([2, 7], [-1], 1)]
  env := fun vars _ => { Inst.sampleEnv with vars := vars }
  real := fun s => if s = "3".toList then some 3 else none
  diag := exCtx.diag
  fmt := exCtx.fmt
  bin := fun _ _ => []

theorem exCtx_eq : ctx exWorld exPar 0 (sections exParam) ([2, 7], [-1], 1) exFS "template".toList =
    { exCtx with files := lookup exFS "template".toList } := by
  have : Secs.vars exWorld (sections exParam) = [("U".toList, 3)] := by decide +kernel
  unfold ctx
  rw [this]
  rfl

theorem exRun_ok : exT.OK (ctx exWorld exPar 0 (sections exParam) ([2, 7], [-1], 1) exFS "template".toList) := by
  rw [exCtx_eq]
  refine exT_ok.mono _ ?_
  intro n t h
  unfold exCtx at h
  dsimp only at h
  have l1 : lookup exFS "template".toList "ham.1".toList = some "{{U,0},{0,1}}".toList := by decide +kernel
  have l2 : lookup exFS "template".toList "ham.2".toList = some "{{U+2}}".toList := by decide +kernel
  have l3 : lookup exFS "template".toList "op1".toList = some "{{1,U-1}}".toList := by decide +kernel
  split at h
  · rename_i e; rw [e, l1]; exact h
  · split at h
    · rename_i e; rw [e, l2]; exact h
    · split at h
      · rename_i e; rw [e, l3]; exact h
      · cases h

/-- The hypotheses of `default_run` are met. -/
theorem exRun : ∃ out e D, (main exWorld [] exFS).2 = .energy e ∧ runOps (main exWorld [] exFS).1 exFS "data".toList = some out ∧
    DataFile.read exPar out = some D ∧ IsGround exT.subs e ∧
    IsInstance (ctx exWorld exPar 0 (sections exParam) ([2, 7], [-1], 1) exFS "template".toList) exLit exT e D := by
  obtain ⟨out, e, D, h1, h2, h3, h4, h5, -⟩ := default_run exWorld (args := []) (o := {}) rfl rfl rfl rfl (fs := exFS) (text := exParam)
    (v := "0".toList) (P := exPar) (c := ([2, 7], [-1], 1)) (nmax := 0) (by decide +kernel) rfl rfl (by decide +kernel) (by decide +kernel)
    (by decide +kernel) (T := exT) (by decide +kernel) exRun_ok (lit := exLit) exPrints
  exact ⟨out, e, D, h1, h2, h3, h4, h5⟩

/-- The old file is replaced; the user's own file is removed. -/
example : runOps (main exWorld [] exFS).1 exFS "data".toList = some exData.toList ∧ runOps (main exWorld [] exFS).1 exFS "vec.mine".toList = none ∧
    runOps (main exWorld [] exFS).1 exFS "op1".toList = exFS "op1".toList := by decide +kernel

/-- With all temporary files. -/
example : runOps (main exWorld ["--generate-temporaries".toList] exFS).1 exFS "data".toList = some exData.toList ∧
    runOps (main exWorld ["--generate-temporaries".toList] exFS).1 exFS "vec.mine".toList = some "x".toList ∧
    runOps (main exWorld ["--generate-temporaries".toList] exFS).1 exFS "param.extra".toList = some "[extra]\nU=3\n".toList ∧
    runOps (main exWorld ["--generate-temporaries".toList] exFS).1 exFS "ham.0.2".toList = some "5\n".toList := by decide +kernel

/-- A failure: the file with the template is missing. -/
example : runOps (main exWorld ["--template-dir".toList, "none".toList] exFS).1 exFS "data".toList = some "old".toList := by decide +kernel

/-- Command lines that are refused. -/
example : parseOpts ["--param".toList] {} = .bad ∧ parseOpts ["x".toList] {} = .bad ∧ parseOpts ["--diag-seed-only".toList, "-h".toList] {} = .help := by decide

end Verif.Seed
