import Verif.Hw.Props
import Verif.Mx.Bad
/-!
# Failing runs of `h5write` and what is accepted (C139)
-/

namespace Verif.Hw
open Verif.Text
open Verif.Raw (File comps dump get Apart)
open Verif.Cmd (Line given Piece)

variable {K : Type}

theorem put_same (w : World K) {f : Str} {h : File (Val K)} (hw : w.h5 f = some h) : w.put f h = w := by
  obtain ⟨t, g⟩ := w
  unfold World.put
  congr 1
  funext x
  by_cases hx : x = f
  · rw [if_pos hx, hx]
    exact hw.symm
  · rw [if_neg hx]

/-- The proved part: without `-t` a run that fails changes nothing; with it at most the file that is named is changed. -/
theorem failure_partial (F : Mx.Fmt K) (l : Line) (hl : l.OK ['h', 's', 't']) (hh : given 'h' l.options = false) (w w' : World K) (e : End)
    (hr : run F l.words w = (e, w')) (he : e ≠ .done) :
    (given 't' l.options = false → w' = w) ∧ w'.texts = w.texts ∧ ∀ g, l.operands.head? ≠ some g → w'.h5 g = w.h5 g := by
  unfold run at hr
  cases hm : Cmd.h5write.main l.words with
  | error e' =>
    rw [hm] at hr
    injection hr with _ h1
    subst h1
    exact ⟨fun _ => rfl, rfl, fun _ _ => rfl⟩
  | ok r =>
    rw [hm] at hr
    dsimp only at hr
    obtain ⟨f, p, i, h1, h2⟩ := ((Cmd.h5write_command l hl).2 hh r).1 hm
    subst h2
    dsimp only at hr
    unfold work at hr
    have ht : (Cmd.h5Of l.options).truncate = given 't' l.options := rfl
    rw [ht] at hr
    have key : w' = w ∨ ∃ h, opened (given 't' l.options) w f = some h ∧ w' = w.put f h := by
      cases ho : opened (given 't' l.options) w f with
      | none =>
        rw [ho] at hr
        injection hr with _ h1
        exact .inl h1.symm
      | some h =>
        rw [ho] at hr
        dsimp only at hr
        cases hv : value F (Cmd.h5Of l.options).scalar w.texts i with
        | error e' =>
          rw [hv] at hr
          injection hr with _ h1
          exact .inr ⟨h, rfl, h1.symm⟩
        | ok v =>
          rw [hv] at hr
          dsimp only at hr
          cases hd : dump h p v with
          | none =>
            rw [hd] at hr
            injection hr with _ h1
            exact .inr ⟨h, rfl, h1.symm⟩
          | some g =>
            rw [hd] at hr
            injection hr with h0
            exact absurd h0.symm he
    rcases key with rfl | ⟨h, ho, rfl⟩
    · exact ⟨fun _ => rfl, rfl, fun _ _ => rfl⟩
    · refine ⟨?_, rfl, ?_⟩
      · intro hf
        rw [hf] at ho
        exact put_same w ho
      · intro g hg
        rw [h1] at hg
        have : g ≠ f := fun h => hg (by rw [h]; rfl)
        simp [World.put, this]

/-- With `-t` a run whose input can not be read empties the file: everything it contained is lost. -/
theorem truncate_destroys (F : Mx.Fmt K) (l : Line) (hl : l.OK ['h', 's', 't']) (hh : given 'h' l.options = false) (ht : given 't' l.options = true)
    (hs : given 's' l.options = false) {f p i : Str} (ho : l.operands = [f, p, i]) (w : World K) (hi : w.texts i = none) :
    run F l.words w = (.input .nofile, w.put f []) := by
  unfold run
  rw [((Cmd.h5write_command l hl).2 hh (Cmd.h5Of l.options, f, p, i)).2 ⟨f, p, i, ho, rfl⟩]
  dsimp only
  unfold work
  have h1 : opened (Cmd.h5Of l.options).truncate w f = some [] := by
    show opened (given 't' l.options) w f = _
    rw [ht]; rfl
  have h2 : value F (Cmd.h5Of l.options).scalar w.texts i = .error .nofile := by
    show value F (given 's' l.options) w.texts i = _
    rw [hs]
    simp [value, Mx.readMatrix, hi]
  rw [h1]
  dsimp only
  rw [h2]

/-! ## Examples -/

/-- A file with one matrix, and a text file. -/
def exWorld : World ℚ where
  texts := fun n => if n = "m.dat".toList then some "1 2\n3 4\n".toList else none
  h5 := fun n => if n = "a.h5".toList then some [(["x".toList], .scalar 7)] else none

def exLine (t : Bool) (i : String) : Line := ⟨(if t then [.flags ['t']] else []) ++ [.operand "a.h5".toList, .operand "/g/m".toList, .operand i.toList], none⟩

theorem exLine_ok (t : Bool) : (exLine t "m.dat").OK ['h', 's', 't'] ∧ (exLine t "n.dat").OK ['h', 's', 't'] := by
  have hf : Cmd.Flag ['h', 's', 't'] 't' := ⟨['h', 's'], [], rfl, by decide, by decide, by decide⟩
  have h1 : Piece.OK ['h', 's', 't'] (.flags ['t']) := ⟨by decide, by simpa using hf⟩
  have h2 : ∀ s : Str, s.head? ≠ some '-' → Piece.OK ['h', 's', 't'] (.operand s) := fun s h => .inl h
  have e1 := h2 "a.h5".toList (by decide)
  have e2 := h2 "/g/m".toList (by decide)
  have e3 := h2 "m.dat".toList (by decide)
  have e4 := h2 "n.dat".toList (by decide)
  constructor <;> (cases t <;> · intro p hp
                                 simp only [exLine, if_true, Bool.false_eq_true, if_false, List.nil_append, List.cons_append, List.mem_cons, List.not_mem_nil, or_false] at hp
                                 rcases hp with rfl | rfl | rfl | rfl <;> assumption)

/-- The matrix is added, and the old contents remain. -/
example : ∃ w', run (Mx.tenths ℚ) (exLine false "m.dat").words exWorld = (.done, w') ∧
    w'.h5 "a.h5".toList = some [(["x".toList], .scalar 7), (["g".toList, "m".toList], .matrix ⟨2, 2, [[1, 2], [3, 4]]⟩)] := by
  have hread : Mx.readText (Mx.tenths ℚ) "1 2\n3 4\n".toList = .ok ⟨2, 2, [[1, 2], [3, 4]]⟩ := by decide +kernel
  have hc : comps "/g/m".toList = ["g".toList, "m".toList] := by decide +kernel
  refine ⟨_, (h5write_success _ _ (exLine_ok false).1 (by decide) exWorld _).2 ⟨"a.h5".toList, "/g/m".toList, "m.dat".toList, [(["x".toList], .scalar 7)],
    .matrix ⟨2, 2, [[1, 2], [3, 4]]⟩, rfl, ?_, ?_, ?_, ?_, rfl⟩, ?_⟩
  · rw [if_neg (by decide)]
    rfl
  · exact ⟨_, _, rfl, hread, rfl⟩
  · rw [hc]; simp
  · intro e he
    rw [List.mem_singleton] at he
    subst he
    rw [hc]
    exact ⟨by decide, by decide⟩
  · dsimp only
    rw [if_pos rfl, hc]
    rfl

/-- `h5write -t` with the wrong name of the input: the old contents are lost. -/
theorem truncate_example : exWorld.h5 "a.h5".toList = some [(["x".toList], .scalar 7)] ∧
    ∃ w', run (Mx.tenths ℚ) (exLine true "n.dat").words exWorld = (.input .nofile, w') ∧ w'.h5 "a.h5".toList = some [] :=
  ⟨by decide +kernel, _, truncate_destroys _ _ (exLine_ok true).2 (by decide) (by decide) (by decide) rfl _ (by decide), rfl⟩

/-- Two numbers and a matrix, in any order. -/
example (ks : List Job) (hp : ks.Perm [⟨true, "a/x".toList, "-1.5".toList⟩, ⟨true, "a/y".toList, "2".toList⟩, ⟨false, "b".toList, "m.dat".toList⟩]) :
    ∃ w' h', session (Mx.tenths ℚ) "b.h5".toList ks { exWorld with h5 := fun _ => some [] } = some w' ∧ w'.h5 "b.h5".toList = some h' ∧
      get h' "a/x".toList = some (.scalar (-3 / 2)) := by
  have hread : Mx.readText (Mx.tenths ℚ) "1 2\n3 4\n".toList = .ok ⟨2, 2, [[1, 2], [3, 4]]⟩ := by decide +kernel
  have hx : Cmd.num "-1.5".toList = -3 / 2 := by decide +kernel
  obtain ⟨w', h', h1, h2, h3⟩ := h5write_any_order (Mx.tenths ℚ) "b.h5".toList (fun j => if j.scalar then .scalar (Cmd.num j.input) else .matrix ⟨2, 2, [[1, 2], [3, 4]]⟩)
    _ ks hp { exWorld with h5 := fun _ => some [] } rfl (by
      intro j hj
      simp only [List.mem_cons, List.not_mem_nil, or_false] at hj
      rcases hj with rfl | rfl | rfl
      · rfl
      · rfl
      · exact ⟨_, _, rfl, hread, rfl⟩) (by decide +kernel) (by
      simp only [List.pairwise_cons, List.mem_cons, List.not_mem_nil, or_false, forall_eq_or_imp, forall_eq, false_implies, implies_true, List.Pairwise.nil, and_true]
      unfold Apart
      decide +kernel)
  refine ⟨w', h', h1, h2, ?_⟩
  rw [h3 ⟨true, "a/x".toList, "-1.5".toList⟩ (by simp), if_pos rfl, hx]

/-- With `-s` any text is accepted as a number. -/
theorem text_as_scalar (F : Mx.Fmt K) (fs : Mx.Files) : Stores F true fs "pi".toList (.scalar 0) := by
  unfold Stores
  rw [if_pos rfl]
  congr 1
  decide +kernel

/-- A negative number is taken for an option and refused, unless `--` is written in front of the operands. -/
theorem negative_scalar (F : Mx.Fmt K) (w : World K) (f p : Str) (hf : f.head? = some '/') (hp : p.head? = some '/') :
    run F [['-', 's'], f, p, "-1.5".toList] w = (.command .option, w) := by
  have : Cmd.h5write.main [['-', 's'], f, p, "-1.5".toList] = .error .option := by
    obtain ⟨c, f, rfl⟩ : ∃ c f', f = c :: f' := by
      cases f with
      | nil => cases hf
      | cons c f => exact ⟨c, f, rfl⟩
    obtain ⟨d, p, rfl⟩ : ∃ c p', p = c :: p' := by
      cases p with
      | nil => cases hp
      | cons c f => exact ⟨c, f, rfl⟩
    simp only [List.head?_cons, Option.some.injEq] at hf hp
    subst hf hp
    rfl
  unfold run
  rw [this]

example (f p : Str) : Cmd.h5write.main [['-', 's'], ['-', '-'], f, p, "-1.5".toList] = .ok ({ scalar := true, truncate := false }, f, p, "-1.5".toList) := rfl

end Verif.Hw
