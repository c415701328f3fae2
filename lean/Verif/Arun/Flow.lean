import Verif.Arun.Props
import Verif.Table.Props
/-!
# C134: `adapt` for both signs, and the program that reads its results
-/

namespace Verif.Arun
open Verif.Tools Verif.Text Verif.Param Verif.Adapt
open Verif.NrgChain (World FS Op after)

variable {W : World} {num : Str → Option ℝ} {fs fs' : FS} {n : ℕ} {args : List Str} {o : Options ℝ} {ops : List Op} {text : Str} {q : Settings} {p : Map} {sign : Sign}

/-- A number is printed as a word, and read back as the number `rnd x` (16 digits). -/
def Prints (W : World) (rnd : ℝ → ℝ) (x : ℝ) : Prop :=
  W.atof (W.fmt 16 (some x)) = some (rnd x) ∧ (∀ c ∈ W.fmt 16 (some x), isSpace c = false) ∧ W.fmt 16 (some x) ≠ [] ∧ (W.fmt 16 (some x)).head? ≠ some '#'

theorem fields_pair {a b : Str} (ha : ∀ c ∈ a, isSpace c = false) (hb : ∀ c ∈ b, isSpace c = false) (ha0 : a ≠ []) (hb0 : b ≠ []) :
    Table.fields (a ++ ' ' :: b) = [a, b] := by
  have e : a.reverse ≠ [] := by simpa using ha0
  unfold Table.fields
  rw [Table.fields_word ha, List.append_nil, Table.fieldsAux, if_pos (by decide), if_neg e, List.reverse_reverse]
  have h := Table.fields_word hb [] []
  rw [List.append_nil, List.append_nil] at h
  rw [h, Table.fieldsAux, if_neg (by simpa using hb0), List.reverse_reverse]

theorem rows_text {rnd : ℝ → ℝ} (t : Tab ℝ) (h : ∀ e ∈ t, Prints W rnd e.1 ∧ Prints W rnd e.2) :
    NrgChain.rows W (fileText W t) = some (t.map fun e => (some (rnd e.1), some (rnd e.2))) := by
  induction t with
  | nil => rfl
  | cons e t ih =>
    obtain ⟨⟨a1, a2, a3, a4⟩, b1, b2, b3, b4⟩ := h e (by simp)
    have hrest := ih fun y hy => h y (by simp [hy])
    have hn : '\n' ∉ W.fmt 16 (some e.1) ++ ' ' :: W.fmt 16 (some e.2) := by
      intro hm
      rcases List.mem_append.mp hm with h' | h'
      · have := a2 _ h'; revert this; decide
      · rcases List.mem_cons.mp h' with h'' | h''
        · revert h''; decide
        · have := b2 _ h''; revert this; decide
    have e1 : fileText W (e :: t) = (W.fmt 16 (some e.1) ++ ' ' :: W.fmt 16 (some e.2)) ++ '\n' :: fileText W t := by simp [fileText]
    unfold NrgChain.rows Table.dataLines at hrest ⊢
    rw [e1, show split '\n' ((W.fmt 16 (some e.1) ++ ' ' :: W.fmt 16 (some e.2)) ++ '\n' :: fileText W t) =
        (W.fmt 16 (some e.1) ++ ' ' :: W.fmt 16 (some e.2)) :: split '\n' (fileText W t) by unfold split; rw [splitAux_nodelim _ _ _ _ hn]; rfl]
    have hh : (W.fmt 16 (some e.1) ++ ' ' :: W.fmt 16 (some e.2)).head? ≠ some '#' := by
      rw [List.head?_append_of_ne_nil _ a3]
      exact a4
    rw [List.filter_cons, if_pos (by simpa using hh), List.mapM_cons, fields_pair a2 b2 a3 b3, hrest]
    simp [a1, b1]

theorem numbers_some (t : Tab ℝ) : NrgChain.numbers (t.map fun e => (some e.1, some e.2)) = some t := by
  induction t with
  | nil => rfl
  | cons e t ih => simp [NrgChain.numbers, ih]

theorem load_text {rnd : ℝ → ℝ} {fn : Str} {t : Tab ℝ} (hf : fs fn = some (fileText W t)) (h : ∀ e ∈ t, Prints W rnd e.1 ∧ Prints W rnd e.2) (h2 : 2 ≤ t.length) :
    NrgChain.loadG W fs fn = .ok (t.map fun e => (rnd e.1, rnd e.2)) := by
  unfold NrgChain.loadG
  rw [hf, Option.bind_some, rows_text t h]
  dsimp only
  have e1 : (t.map fun e => ((some (rnd e.1) : Option ℝ), (some (rnd e.2) : Option ℝ))) = (t.map fun e => (rnd e.1, rnd e.2)).map fun e => (some e.1, some e.2) := by simp
  rw [if_neg (by simp; omega), e1, numbers_some]

/-- **C134.** What `adapt` has written is what `nrgchain` reads: the table of the energies and, if it was computed, that of the mesh, up to the precision of the
output. -/
theorem adapt_read_by_nrgchain {rnd : ℝ → ℝ} (hc : cmdLine num args = .ok o) (h : program W num fs n args = (ops, .success))
    (hstep : ∀ text q, fs o.paramFn = some text → settings W (toolParams text "param".toList) = .ok q → 0 < q.par.outputStep ∧ 0 < q.par.dxFast)
    (hp : ∀ x, Prints W rnd x) :
    ∃ text q ρ ε t, fs o.paramFn = some text ∧ settings W (toolParams text "param".toList) = .ok q ∧ Hyb W fs q o.sign o.flat ρ ∧
      MeshOf W fs (after fs ops) q o.sign ρ ε ∧ Solution q (energyEq q.Lambda ρ ε) 1 (1 / q.Lambda) t ∧
      (∃ e, t.getLast? = some e ∧ (q.par.xmax ≤ e.1 ∨ q.par.maxAbs < |e.2|)) ∧
      (NrgChain.loadG W (after fs ops) (fFile o.sign) = .ok (t.map fun e => (rnd e.1, rnd e.2)) ∨ t = [(1, 1 / q.Lambda)]) ∧
      (q.adapt = true → q.loadg = false → ∃ g, Searched q ρ g ∧ NrgChain.loadG W (after fs ops) (gFile o.sign) = .ok (g.map fun e => (rnd e.1, rnd e.2))) := by
  obtain ⟨text, q, ρ, ε, t, h1, h2, h3, h4, h5, h6, h7, -⟩ := adapt_run hc h hstep
  refine ⟨text, q, ρ, ε, t, h1, h2, h3, h4, h5, h6, ?_, fun ha hl => ?_⟩
  · match t, h5.first with
    | [e], hf => exact Or.inr (by simpa using hf)
    | e :: e' :: t, _ => exact Or.inl (load_text h7 (fun e _ => ⟨hp _, hp _⟩) (by simp))
  · obtain ⟨g, gf, hgd, -, -, -, hs⟩ := h4.adapted ha
    obtain ⟨s1, s2⟩ := hs hl
    exact ⟨g, s1, load_text s2 (fun e _ => ⟨hp _, hp _⟩) hgd.len⟩

/-! ## The files that are read -/

theorem loadSide_congr {fn : Str} (h : fs fn = fs' fn) (pos : Bool) : NrgChain.loadSide W fs fn pos = NrgChain.loadSide W fs' fn pos := by
  unfold NrgChain.loadSide
  rw [h]

theorem loadG_congr {fn : Str} (h : fs fn = fs' fn) : NrgChain.loadG W fs fn = NrgChain.loadG W fs' fn := by
  unfold NrgChain.loadG
  rw [h]

theorem bind_lift {α β : Type} (x : α) (f : α → Act β) : bind (lift (.ok x)) f = f x := by
  unfold bind lift
  rfl

theorem run_congr {flat : Option ℝ} (h1 : ∀ q, settings W p = .ok q → fs q.dos = fs' q.dos) (h2 : fs (gFile sign) = fs' (gFile sign)) :
    run W fs n p sign flat = run W fs' n p sign flat := by
  unfold run
  cases hq : settings W p with
  | error e => rfl
  | ok q =>
    have e1 : ∀ flat, loadRho W fs q sign flat = loadRho W fs' q sign flat := by
      intro flat
      unfold loadRho sideTable
      rw [loadSide_congr (h1 q hq)]
    have e2 : ∀ rho st, mesh W fs n q sign rho st = mesh W fs' n q sign rho st := by
      intro rho st
      unfold mesh
      rw [loadG_congr h2]
    rw [bind_lift, bind_lift, e1]
    congr 1
    funext r
    cases linEval r.1 fresh 1 with
    | none => rfl
    | some v => dsimp only; rw [e2]

/-- **C134.** The result depends only on the parameter file, the table of the hybridisation function, and the file of the mesh of the same sign. -/
theorem adapt_reads (h : ∀ o, cmdLine num args = .ok o → fs o.paramFn = fs' o.paramFn ∧ fs (gFile o.sign) = fs' (gFile o.sign) ∧
      ∀ text q, fs o.paramFn = some text → settings W (toolParams text "param".toList) = .ok q → fs q.dos = fs' q.dos) :
    program W num fs n args = program W num fs' n args := by
  unfold program
  cases hc : cmdLine num args with
  | help => rfl
  | error => rfl
  | ok o =>
    obtain ⟨h1, h2, h3⟩ := h o hc
    dsimp only
    rw [← h1]
    cases hf : fs o.paramFn with
    | none => rfl
    | some text =>
      dsimp only
      rw [run_congr (fun q hq => h3 text q hf hq) h2]

/-! ## Both signs -/

theorem after_congr (ops : List Op) (fn : Str) (h : fs fn = fs' fn) : after fs ops fn = after fs' ops fn := by
  induction ops generalizing fs fs' with
  | nil => exact h
  | cons op ops ih =>
    refine ih (fs := op.run fs) (fs' := op.run fs') ?_
    cases op with
    | start g => unfold Op.run; dsimp only; rw [h]
    | put g t =>
      unfold Op.run
      dsimp only
      by_cases hg : fn = g
      · subst hg; rw [h]
      · rw [if_neg hg, if_neg hg, h]

/-- The names of the results. -/
def results : List Str := ["FSOL.dat".toList, "GSOL.dat".toList, "FSOLNEG.dat".toList, "GSOLNEG.dat".toList]

theorem file_result (s : Sign) : gFile s ∈ results ∧ fFile s ∈ results := by cases s <;> decide

theorem signs_apart {s s' : Sign} (h : s ≠ s') : gFile s ≠ gFile s' ∧ gFile s ≠ fFile s' ∧ fFile s ≠ gFile s' ∧ fFile s ≠ fFile s' := by
  cases s <;> cases s' <;> first | exact absurd rfl h | decide

/-- **C134.** The calculations for the two signs do not disturb each other: in either order they do the same and leave the same files, provided that the parameter files
and the tables of the hybridisation function are not themselves results. -/
theorem adapt_either_order {a b : List Str} {oa ob : Options ℝ} {na nb : ℕ} (ha : cmdLine num a = .ok oa) (hb : cmdLine num b = .ok ob) (hs : oa.sign ≠ ob.sign)
    (hpa : oa.paramFn ∉ results) (hpb : ob.paramFn ∉ results)
    (hd : ∀ o ∈ [oa, ob], ∀ text q, fs o.paramFn = some text → settings W (toolParams text "param".toList) = .ok q → q.dos ∉ results) :
    program W num (after fs (program W num fs na a).1) nb b = program W num fs nb b ∧
    program W num (after fs (program W num fs nb b).1) na a = program W num fs na a ∧
    after (after fs (program W num fs na a).1) (program W num fs nb b).1 = after (after fs (program W num fs nb b).1) (program W num fs na a).1 := by
  have fa : ∀ op ∈ (program W num fs na a).1, op.file = gFile oa.sign ∨ op.file = fFile oa.sign := fun op h => by
    obtain ⟨o, e, h'⟩ := program_files W num fs na a op h
    rw [ha] at e
    cases e
    exact h'
  have fb : ∀ op ∈ (program W num fs nb b).1, op.file = gFile ob.sign ∨ op.file = fFile ob.sign := fun op h => by
    obtain ⟨o, e, h'⟩ := program_files W num fs nb b op h
    rw [hb] at e
    cases e
    exact h'
  have keep : ∀ (ops : List Op) (s : Sign), (∀ op ∈ ops, op.file = gFile s ∨ op.file = fFile s) → ∀ (f : FS) fn, fn ≠ gFile s → fn ≠ fFile s → after f ops fn = f fn := by
    intro ops s h f fn h1 h2
    refine NrgChain.after_other f ops fn fun op hop he => ?_
    rcases h op hop with e | e
    · exact h1 (by rw [← he, e])
    · exact h2 (by rw [← he, e])
  have notres : ∀ fn, fn ∉ results → ∀ s, fn ≠ gFile s ∧ fn ≠ fFile s := fun fn h s =>
    ⟨fun e => h (by rw [e]; exact (file_result s).1), fun e => h (by rw [e]; exact (file_result s).2)⟩
  obtain ⟨s1, s2, s3, s4⟩ := signs_apart hs
  refine ⟨adapt_reads fun o ho => ?_, adapt_reads fun o ho => ?_, ?_⟩
  · rw [hb] at ho
    cases ho
    have e1 : after fs (program W num fs na a).1 ob.paramFn = fs ob.paramFn := keep _ _ fa _ _ (notres _ hpb _).1 (notres _ hpb _).2
    refine ⟨e1, keep _ _ fa _ _ s1.symm s3.symm, fun text q ht hq => ?_⟩
    rw [e1] at ht
    have hn := hd ob (by simp) text q ht hq
    exact keep _ _ fa _ _ (notres _ hn _).1 (notres _ hn _).2
  · rw [ha] at ho
    cases ho
    have e1 : after fs (program W num fs nb b).1 oa.paramFn = fs oa.paramFn := keep _ _ fb _ _ (notres _ hpa _).1 (notres _ hpa _).2
    refine ⟨e1, keep _ _ fb _ _ s1 s2, fun text q ht hq => ?_⟩
    rw [e1] at ht
    have hn := hd oa (by simp) text q ht hq
    exact keep _ _ fb _ _ (notres _ hn _).1 (notres _ hn _).2
  · funext fn
    by_cases h : fn = gFile ob.sign ∨ fn = fFile ob.sign
    · have h1 : fn ≠ gFile oa.sign ∧ fn ≠ fFile oa.sign := by
        rcases h with e | e <;> rw [e]
        · exact ⟨s1.symm, s3.symm⟩
        · exact ⟨s2.symm, s4.symm⟩
      rw [keep _ _ fa _ _ h1.1 h1.2]
      exact after_congr _ _ (keep _ _ fa _ _ h1.1 h1.2)
    · rw [not_or] at h
      rw [keep _ _ fb _ _ h.1 h.2]
      exact (after_congr _ _ (keep _ _ fb _ _ h.1 h.2)).symm

end Verif.Arun
