import Verif.Wrun.Model
import Verif.Bw.Weight
import Verif.Zrun.Props
/-!
# `bw`: lemmas
-/

namespace Verif.Wrun
open Verif.Text Verif.Bw
open Verif.Zrun (Files write)

/-! ## Writing -/

theorem writeAll_frame (fn : Str) : ∀ (l : List Saved) (texts : Files Table), (∀ f ∈ l, fileName f ≠ fn) → writeAll texts l fn = texts fn := by
  intro l
  induction l with
  | nil => intro texts _; rfl
  | cons f l ih =>
    intro texts h
    have := ih (write texts (fileName f) f.lines) fun g hg => h g (List.mem_cons_of_mem _ hg)
    rw [show writeAll texts (f :: l) = writeAll (write texts (fileName f) f.lines) l from rfl, this, write, if_neg fun e => h f (by simp) e.symm]

theorem writeAll_mem (fn : Str) : ∀ (l : List Saved) (texts : Files Table), (∃ f ∈ l, fileName f = fn) →
    ∃ f ∈ l, fileName f = fn ∧ ∀ texts', writeAll texts' l fn = some f.lines := by
  intro l
  induction l with
  | nil => rintro texts ⟨f, hf, _⟩; simp at hf
  | cons f l ih =>
    intro texts h
    by_cases hl : ∃ g ∈ l, fileName g = fn
    · obtain ⟨g, h1, h2, h3⟩ := ih texts hl
      exact ⟨g, List.mem_cons_of_mem _ h1, h2, fun t => h3 _⟩
    · have hf : fileName f = fn := by
        obtain ⟨g, hg, e⟩ := h
        rcases List.mem_cons.1 hg with rfl | hg
        · exact e
        · exact absurd ⟨g, hg, e⟩ hl
      refine ⟨f, by simp, hf, fun t => ?_⟩
      rw [show writeAll t (f :: l) = writeAll (write t (fileName f) f.lines) l from rfl,
        writeAll_frame fn l _ fun g hg e => hl ⟨g, hg, e⟩, write, if_pos hf.symm]

/-! ## Names -/

/-- Letters, then digits: only in one way. -/
theorem split_digits : ∀ (p q d e : Str), (∀ c ∈ p, isDigit c = false) → (∀ c ∈ q, isDigit c = false) → (∀ c ∈ d, isDigit c = true) →
    (∀ c ∈ e, isDigit c = true) → p ++ d = q ++ e → p = q ∧ d = e := by
  intro p
  induction p with
  | nil =>
    intro q d e _ hq hd _ h
    cases q with
    | nil => exact ⟨rfl, h⟩
    | cons c q =>
      have h1 := hq c (by simp)
      have h2 := hd c (by rw [List.nil_append] at h; rw [h]; simp)
      rw [h1] at h2
      simp at h2
  | cons a p ih =>
    intro q d e hp hq hd he h
    cases q with
    | nil =>
      have h1 := hp a (by simp)
      have h2 := he a (by rw [List.nil_append] at h; rw [← h]; simp)
      rw [h1] at h2
      simp at h2
    | cons c q =>
      simp only [List.cons_append, List.cons.injEq] at h
      obtain ⟨e1, e2⟩ := ih q d e (fun c hc => hp c (by simp [hc])) (fun c hc => hq c (by simp [hc])) hd he h.2
      exact ⟨by rw [h.1, e1], e2⟩

/-- The names without number. -/
def kinds : List String := ["a", "b", "inta", "intb", "intc", "deriva", "derivb", "derivc", "bpos", "bneg"]

theorem kinds_letters : ∀ k ∈ kinds, ∀ c ∈ k.toList, isDigit c = false := by decide +kernel

theorem number_digits (i : Nat) : ∀ c ∈ (if 0 < i then natStr i else []), isDigit c = true := by
  intro c hc
  split at hc
  · exact natStr_isDigit _ c hc
  · simp at hc

theorem number_inj {i j : Nat} (h : (if 0 < i then natStr i else []) = if 0 < j then natStr j else []) : i = j := by
  by_cases hi : 0 < i <;> by_cases hj : 0 < j
  · rw [if_pos hi, if_pos hj] at h; exact natStr_injective h
  · rw [if_pos hi, if_neg hj] at h; exact absurd h (natStr_ne_nil _)
  · rw [if_neg hi, if_pos hj] at h; exact absurd h.symm (natStr_ne_nil _)
  · omega

/-- Two files have the same name only if they are of the same kind and number. -/
theorem fileName_inj {f g : Saved} (hf : f.name ∈ kinds) (hg : g.name ∈ kinds) (h : fileName f = fileName g) : f.name = g.name ∧ f.iter = g.iter := by
  unfold fileName at h
  rw [← List.append_assoc, ← List.append_assoc] at h
  obtain ⟨h1, h2⟩ := split_digits _ _ _ _ (kinds_letters _ hf) (kinds_letters _ hg) (number_digits _) (number_digits _) (List.append_cancel_right h)
  exact ⟨String.toList_inj.1 h1, number_inj h2⟩

/-! ## What is written -/

/-- The files of iteration `i`. -/
def Part (o : Opt) (i : Nat) (f : Saved) : Prop :=
  f.iter = i ∧ ((f.name = "a" ∧ (o.savemore = true ∨ (i : Int) = o.iters)) ∨
    (o.saveall = true ∧ f.name ∈ ["inta", "intb", "intc", "deriva", "derivb", "derivc", "bpos", "bneg"]) ∨ (o.savemore = true ∧ f.name = "b"))

theorem iteration_out {o : Opt} {spec : List (ℝ × ℝ)} {i : Nat} {s s' : St} (h : iteration o spec i s = .ok s') :
    ∀ f ∈ s'.out, f ∈ s.out ∨ Part o i f := by
  unfold iteration at h
  dsimp only at h
  split at h
  · simp at h
  · rename_i b hb
    have key : ∀ A B C D E F G H I J : Saved, (A.name = "a" ∧ A.iter = i) → (B.name = "inta" ∧ B.iter = i) → (C.name = "intb" ∧ C.iter = i) →
        (D.name = "intc" ∧ D.iter = i) → (E.name = "deriva" ∧ E.iter = i) → (F.name = "derivb" ∧ F.iter = i) → (G.name = "derivc" ∧ G.iter = i) →
        (H.name = "bpos" ∧ H.iter = i) → (I.name = "bneg" ∧ I.iter = i) → (J.name = "b" ∧ J.iter = i) →
        ∀ f ∈ s.out ++ (if o.savemore = true ∨ (i : Int) = o.iters then [A] else []) ++ (if o.saveall = true then [B, C, D, E, F, G, H, I] else []) ++
          (if o.savemore = true then [J] else []), f ∈ s.out ∨ Part o i f := by
      intro A B C D E F G H I J hA hB hC hD hE hF hG hH hI hJ f hf
      simp only [List.mem_append] at hf
      rcases hf with ((hf | hf) | hf) | hf
      · exact Or.inl hf
      · split at hf
        · rename_i hc
          rw [List.mem_singleton] at hf; subst hf
          exact Or.inr ⟨hA.2, Or.inl ⟨hA.1, hc⟩⟩
        · simp at hf
      · split at hf
        · rename_i hc
          simp only [List.mem_cons, List.not_mem_nil, or_false] at hf
          right
          rcases hf with rfl | rfl | rfl | rfl | rfl | rfl | rfl | rfl
          · exact ⟨hB.2, Or.inr (Or.inl ⟨hc, by rw [hB.1]; decide⟩)⟩
          · exact ⟨hC.2, Or.inr (Or.inl ⟨hc, by rw [hC.1]; decide⟩)⟩
          · exact ⟨hD.2, Or.inr (Or.inl ⟨hc, by rw [hD.1]; decide⟩)⟩
          · exact ⟨hE.2, Or.inr (Or.inl ⟨hc, by rw [hE.1]; decide⟩)⟩
          · exact ⟨hF.2, Or.inr (Or.inl ⟨hc, by rw [hF.1]; decide⟩)⟩
          · exact ⟨hG.2, Or.inr (Or.inl ⟨hc, by rw [hG.1]; decide⟩)⟩
          · exact ⟨hH.2, Or.inr (Or.inl ⟨hc, by rw [hH.1]; decide⟩)⟩
          · exact ⟨hI.2, Or.inr (Or.inl ⟨hc, by rw [hI.1]; decide⟩)⟩
        · simp at hf
      · split at hf
        · rename_i hc
          rw [List.mem_singleton] at hf; subst hf
          exact Or.inr ⟨hJ.2, Or.inr (Or.inr ⟨hc, hJ.1⟩)⟩
        · simp at hf
    split at h
    · split at h
      · simp at h
      · simp only [Except.ok.injEq] at h
        rw [← h]
        exact key _ _ _ _ _ _ _ _ _ _ ⟨rfl, rfl⟩ ⟨rfl, rfl⟩ ⟨rfl, rfl⟩ ⟨rfl, rfl⟩ ⟨rfl, rfl⟩ ⟨rfl, rfl⟩ ⟨rfl, rfl⟩ ⟨rfl, rfl⟩ ⟨rfl, rfl⟩ ⟨rfl, rfl⟩
    · simp only [Except.ok.injEq] at h
      rw [← h]
      exact key _ _ _ _ _ _ _ _ _ _ ⟨rfl, rfl⟩ ⟨rfl, rfl⟩ ⟨rfl, rfl⟩ ⟨rfl, rfl⟩ ⟨rfl, rfl⟩ ⟨rfl, rfl⟩ ⟨rfl, rfl⟩ ⟨rfl, rfl⟩ ⟨rfl, rfl⟩ ⟨rfl, rfl⟩

theorem iterate_out {o : Opt} {spec : List (ℝ × ℝ)} : ∀ (k i : Nat) (s s' : St), iterate o spec i k s = .ok s' →
    ∀ f ∈ s'.out, f ∈ s.out ∨ ∃ j, i ≤ j ∧ j < i + k ∧ Part o j f := by
  intro k
  induction k with
  | zero => intro i s s' h f hf; simp only [iterate, Except.ok.injEq] at h; rw [h]; exact Or.inl hf
  | succ k ih =>
    intro i s s' h f hf
    simp only [iterate] at h
    cases hi : iteration o spec i s with
    | error e => rw [hi] at h; simp at h
    | ok s1 =>
      rw [hi] at h
      dsimp only at h
      rcases ih (i + 1) s1 s' h f hf with h1 | ⟨j, a, b, c⟩
      · rcases iteration_out hi f h1 with h2 | h2
        · exact Or.inl h2
        · exact Or.inr ⟨i, by omega, by omega, h2⟩
      · exact Or.inr ⟨j, by omega, by omega, c⟩

/-! ## The calculation, given the spectrum -/

/-- Everything after the files have been read. -/
noncomputable def core (o : Opt) (spec : List (ℝ × ℝ)) (fuel : Nat) : Except Err (List Saved) :=
  match defaults o with
  | .error x => .error x
  | .ok o =>
    match makeMesh o fuel with
    | .error x => .error x
    | .ok mesh =>
      match iterate o spec 1 o.iters.toNat ⟨mesh, spec.map fun _ => o.b0, if o.savemore then [save "b" (spec.map Prod.fst) (spec.map fun _ => o.b0) 0 o.trim] else []⟩ with
      | .error x => .error x
      | .ok s => .ok s.out

theorem defaults_same {o o' : Opt} (h : defaults o = .ok o') :
    o'.one = o.one ∧ o'.Nz = o.Nz ∧ o'.savemore = o.savemore ∧ o'.saveall = o.saveall ∧ o'.iters = o.iters := by
  unfold defaults at h
  dsimp only at h
  split at h
  · simp only [Except.ok.injEq] at h; rw [← h]; simp
  · by_cases hb : (if o.bmin < 0 then o.ratio - 1 else o.bmin) ≤ o.b0
    · rw [if_pos hb] at h; simp only [Except.ok.injEq] at h; rw [← h]; simp
    · rw [if_neg hb] at h; simp at h

theorem readAll_same {files : Option Nat → Option Bw.Bin} {o o' : Opt} (h1 : o'.one = o.one) (h2 : o'.Nz = o.Nz) : readAll files o' = readAll files o := by
  unfold readAll fileOf
  rw [h1, h2]

theorem main_core {o : Opt} (h1 : 0 < o.b0) (h2 : 1 ≤ o.Nz) {files : Option Nat → Option Bw.Bin} {spec : List (ℝ × ℝ)} (hr : readAll files o = .ok spec) (fuel : Nat) :
    main o files fuel = core o spec fuel := by
  unfold main core
  rw [show check o = .ok () from if_pos ⟨h1, h2⟩]
  dsimp only
  cases hd : defaults o with
  | error x => rfl
  | ok o' =>
    dsimp only
    obtain ⟨e1, e2, -⟩ := defaults_same hd
    rw [readAll_same e1 e2, hr]
    rfl

theorem iterate_other (o : Opt) (a : Bool) (z : Int) (spec : List (ℝ × ℝ)) : ∀ (k i : Nat) (s : St),
    iterate { o with one := a, Nz := z } spec i k s = iterate o spec i k s := by
  intro k
  induction k with
  | zero => intro i s; rfl
  | succ k ih =>
    intro i s
    simp only [iterate]
    rw [show iteration { o with one := a, Nz := z } spec i s = iteration o spec i s from rfl]
    cases iteration o spec i s with
    | error e => rfl
    | ok s' => exact ih _ _

theorem core_other (o : Opt) (a : Bool) (z : Int) (spec : List (ℝ × ℝ)) (fuel : Nat) : core { o with one := a, Nz := z } spec fuel = core o spec fuel := by
  have hd : defaults { o with one := a, Nz := z } = (defaults o).map fun o => { o with one := a, Nz := z } := by
    unfold defaults
    dsimp only
    split
    · rfl
    · by_cases hb : (if o.bmin < 0 then o.ratio - 1 else o.bmin) ≤ o.b0
      · rw [if_pos hb, if_pos hb]; rfl
      · rw [if_neg hb, if_neg hb]; rfl
  unfold core
  rw [hd]
  cases defaults o with
  | error e => rfl
  | ok o' =>
    dsimp only [Except.map]
    rw [show makeMesh { o' with one := a, Nz := z } fuel = makeMesh o' fuel from rfl]
    cases makeMesh o' fuel with
    | error e => rfl
    | ok m =>
      dsimp only
      rw [iterate_other]

theorem core_out {o : Opt} {spec : List (ℝ × ℝ)} {fuel : Nat} {out : List Saved} (h : core o spec fuel = .ok out) :
    ∀ f ∈ out, (o.savemore = true ∧ f.name = "b" ∧ f.iter = 0) ∨ ∃ j : Nat, 1 ≤ j ∧ (j : Int) ≤ o.iters ∧ Part o j f := by
  unfold core at h
  cases hd : defaults o with
  | error e => rw [hd] at h; simp at h
  | ok o' =>
    rw [hd] at h
    dsimp only at h
    obtain ⟨-, -, e1, e2, e3⟩ := defaults_same hd
    cases hm : makeMesh o' fuel with
    | error e => rw [hm] at h; simp at h
    | ok m =>
      rw [hm] at h
      dsimp only at h
      split at h
      · simp at h
      · rename_i s hs
        simp only [Except.ok.injEq] at h
        intro f hf
        rw [← h] at hf
        rcases iterate_out _ _ _ _ hs f hf with h1 | ⟨j, a, b, c⟩
        · dsimp only at h1
          split at h1
          · rename_i hsm
            rw [List.mem_singleton] at h1
            subst h1
            exact Or.inl ⟨by rw [← e1]; exact hsm, rfl, rfl⟩
          · simp at h1
        · refine Or.inr ⟨j, a, by rw [← e3]; omega, ?_⟩
          unfold Part at c ⊢
          rw [e1, e2, e3] at c
          exact c

/-! ## Reading -/

theorem each_mapM {bins : Files (Zrun.Bin ℝ)} (hw : ∀ n f, bins n = some f → f.extra < 8) (n : Str) : ∀ (ks : List (Option Nat)) (ls : List (List (ℝ × ℝ))),
    Zrun.each (Zrun.load 1 1 bins) (ks.map (source n)) = .ok ls → ks.mapM (Bw.load (input bins n)) = .ok ls := by
  intro ks
  induction ks with
  | nil =>
    intro ls h
    simp only [List.map_nil, Zrun.each, Except.ok.injEq] at h
    rw [← h]; rfl
  | cons k ks ih =>
    intro ls h
    simp only [List.map_cons, Zrun.each] at h
    cases hl : Zrun.load 1 1 bins (source n k) with
    | error e => rw [hl] at h; simp at h
    | ok a =>
      rw [hl] at h
      dsimp only at h
      cases he : Zrun.each (Zrun.load 1 1 bins) (ks.map (source n)) with
      | error e => rw [he] at h; simp at h
      | ok as =>
        rw [he] at h
        simp only [Except.ok.injEq] at h
        have h1 : Bw.load (input bins n) k = .ok a := by
          unfold Zrun.load at hl
          unfold Bw.load input
          cases hb : bins (source n k) with
          | none => rw [hb] at hl; simp at hl
          | some f =>
            rw [hb] at hl
            dsimp only at hl
            have := hw _ _ hb
            split at hl
            · simp at hl
            · rename_i hsz
              simp only [Except.ok.injEq] at hl
              simp only [Option.map_some]
              unfold Zrun.Bin.size at hsz
              rw [if_pos (by constructor <;> omega), hl]
        rw [List.mapM_cons, h1, ih as he, ← h]
        rfl

theorem spectrum_readAll {bins : Files (Zrun.Bin ℝ)} (hw : ∀ n f, bins n = some f → f.extra < 8) {o : Opt} {n : Str} {s : List (ℝ × ℝ)}
    (h : Zrun.spectrum o.one 1 1 o.Nz n bins = .ok s) : readAll (input bins n) o = .ok s := by
  unfold Zrun.spectrum at h
  cases he : Zrun.each (Zrun.load 1 1 bins) (Zrun.places o.one o.Nz n) with
  | error e => rw [he] at h; simp at h
  | ok ls =>
    rw [he] at h
    simp only [Except.ok.injEq] at h
    have hp : Zrun.places o.one o.Nz n = ((List.range o.Nz.toNat).map fun i : Nat => fileOf o (i + 1)).map (source n) := by
      unfold Zrun.places
      rw [List.map_map]
      refine List.map_congr_left fun i _ => ?_
      simp only [Function.comp, Zrun.place, fileOf, Bool.and_eq_true, decide_eq_true_eq]
      split <;> rfl
    rw [hp] at he
    unfold readAll
    rw [each_mapM hw n _ _ he]
    simp only [h]

end Verif.Wrun
