import Verif.NrgChain.Props
/-!
# The files written by a calculation of Wilson-chain coefficients, also if it fails or is interrupted
-/

namespace Verif.NrgChain
open Verif.Tools Verif.Text Verif.Param
open scoped Classical

variable {W : World} {fs : FS} {m : Mode} {p : Map} {s q : State} {ops : List Op} {c : Channel}

/-! ## The stages of any run -/

theorem call_ops (W : World) (fs : FS) (p : Map) (m : Mode) (s : State) :
    (fromParams W fs p m s).1 = (run W fs m { reset s with params := p }).1 ∧
    ∀ e, (fromParams W fs p m s).2 = .error e ↔ (run W fs m { reset s with params := p }).2 = .error e := by
  unfold fromParams
  generalize run W fs m { reset s with params := p } = a
  obtain ⟨o, r⟩ := a
  cases r with
  | error e => exact ⟨rfl, fun e' => Iff.of_eq (by simp [Act.bind])⟩
  | ok x => exact ⟨by simp [Act.bind], fun e' => Iff.of_eq (by simp [Act.bind])⟩

/-- The operations: those of the tables, and then those of the chain. -/
theorem run_ops (W : World) (fs : FS) (m : Mode) (s : State) : (∃ e, run W fs m s = ([], .error e)) ∨
    ∃ q r o1, setParameters W s = .ok q ∧ Same q r ∧ (r.tri = true ↔ Chain m q) ∧
      run W fs m s = (o1 ++ (if r.tri then tridiag W r else ([], .ok r)).1, (if r.tri then tridiag W r else ([], .ok r)).2) ∧
      (Calculates m q ∧ (∃ i, Input W fs (applyMode m q) i ∧ r = withTables i ∧ o1 = thetaOps W (star i).theta ++ (if i.save then saveTables W (withTables i) else [])) ∨
       ¬ Calculates m q ∧ o1 = [] ∧ loadTables W fs (applyMode m q) = .ok r) := by
  rw [run_eq]
  cases hq : setParameters W s with
  | error e => exact Or.inl ⟨e, rfl⟩
  | ok q =>
    dsimp only
    by_cases hl : (applyMode m q).load = true
    · rw [if_pos hl, lift_bind]
      cases hr : loadTables W fs (applyMode m q) with
      | error e => exact Or.inl ⟨e, rfl⟩
      | ok r =>
        obtain ⟨a, b, c, d, hr', -⟩ := loadTables_ok hr
        refine Or.inr ⟨q, r, [], rfl, (same_mode m q).trans (by rw [hr']; exact ⟨rfl, rfl, rfl, rfl, rfl, rfl, rfl, rfl, rfl⟩), by rw [← chain_iff, hr'], rfl, Or.inr ⟨?_, rfl, hr⟩⟩
        rw [← calc_iff, hl]; simp
    · have hl' : (applyMode m q).load = false := by simpa using hl
      rw [if_neg hl, calc_eq]
      cases hi : loadInput W fs (applyMode m q) with
      | error e => exact Or.inl ⟨e, rfl⟩
      | ok i =>
        have hin := loadInput_ok hi
        obtain ⟨k1, k2, -⟩ := same_input hin
        refine Or.inr ⟨q, withTables i, _, rfl, ((same_mode m q).trans k1).trans (same_withTables i), ?_, rfl, Or.inl ⟨(calc_iff m q).mp hl', i, hin, rfl, rfl⟩⟩
        rw [← chain_iff, ← k2]
        rfl

theorem bathOf_error {r : State} {e : Stop} (h : bathOf r = .error e) : e = .undefined ∨ e = .abort := by
  unfold bathOf at h
  split at h
  · cases h; exact Or.inl rfl
  · split at h
    · cases h; exact Or.inr rfl
    · cases h

theorem stopOf_error (e : Tools.Stop) : stopOf e = .exit ∨ stopOf e = .abort := by cases e <;> simp [stopOf]

theorem tridiag_error {r : State} {e : Stop} (h : (tridiag W r).2 = .error e) : e = .exit ∨ e = .abort ∨ e = .undefined := by
  obtain ⟨vx, vz, -, -, hr⟩ := tridiag_spec W r
  rcases hr with ⟨-, hr⟩ | ⟨e', hr, hcase⟩
  · rw [hr] at h; cases h
  · rw [hr] at h
    cases h
    rcases hcase with ⟨-, hb⟩ | ⟨-, b, e', -, -, rfl⟩ | ⟨b, l, e', -, -, -, -, -, -, rfl⟩
    · rcases bathOf_error hb with h | h <;> simp [h]
    · rcases stopOf_error e' with h | h <;> simp [h]
    · rcases stopOf_error e' with h | h <;> simp [h]

/-- **C98.** A call that throws an exception has written nothing. -/
theorem thrown_nothing_written (h : (fromParams W fs p m s).2 = .error .thrown) : (fromParams W fs p m s).1 = [] := by
  obtain ⟨h1, h2⟩ := call_ops W fs p m s
  rw [h1]
  have h3 := (h2 _).mp h
  rcases run_ops W fs m { reset s with params := p } with ⟨e, he⟩ | ⟨q, r, o1, -, -, -, hr, -⟩
  · rw [he]
  · exfalso
    rw [hr] at h3
    dsimp only at h3
    split at h3
    · rcases tridiag_error h3 with h | h | h <;> cases h
    · cases h3

theorem mem4 {α : Type} {x a b c d : α} (h : x = a ∨ x = b ∨ x = c ∨ x = d) : x ∈ [a, b, c, d] := by simpa using h

theorem mem2 {α : Type} {x a b : α} (h : x = a ∨ x = b) : x ∈ [a, b] := by simpa using h

/-- **C98.** Only these files are written: `theta.dat` and, if it was asked for, the tables, when the tables are computed; `xi.dat` and `zeta.dat` when
the chain is. -/
theorem files_written (W : World) (fs : FS) (p : Map) (m : Mode) (s : State) : ∀ o ∈ (fromParams W fs p m s).1,
    ∃ q, setParameters W { reset s with params := p } = .ok q ∧
      ((Calculates m q ∧ o.file = "theta.dat".toList) ∨
       (Calculates m q ∧ (m = .saveOnly ∨ q.save = true) ∧ o.file ∈ ["de_pos.dat".toList, "de_neg.dat".toList, "du_pos.dat".toList, "du_neg.dat".toList]) ∨
       (Chain m q ∧ o.file ∈ ["xi.dat".toList, "zeta.dat".toList])) := by
  intro o ho
  rw [(call_ops W fs p m s).1] at ho
  rcases run_ops W fs m { reset s with params := p } with ⟨e, he⟩ | ⟨q, r, o1, hq, -, htri, hr, hcase⟩
  · rw [he] at ho; simp at ho
  · refine ⟨q, hq, ?_⟩
    rw [hr] at ho
    rcases List.mem_append.mp ho with ho | ho
    · rcases hcase with ⟨hc, i, hin, -, rfl⟩ | ⟨-, rfl, -⟩
      · rcases List.mem_append.mp ho with ho | ho
        · left
          refine ⟨hc, ?_⟩
          simp only [thetaOps, List.mem_cons, List.not_mem_nil, or_false] at ho
          rcases ho with rfl | rfl <;> rfl
        · right; left
          split at ho
          · rename_i hs
            refine ⟨hc, ?_, ?_⟩
            · rw [(same_input hin).2.2] at hs
              cases m <;> simp [applyMode] at hs ⊢
              exact hs
            · exact mem4 (save_files W _ o ho)
          · simp at ho
      · simp at ho
    · right; right
      split at ho
      · rename_i ht
        refine ⟨htri.mp ht, ?_⟩
        exact mem2 (tridiag_files W _ o ho)
      · simp at ho

/-! ## Interruption -/

theorem prefix_pass (l : List (ℝ × ℝ)) (o : List Op) (h : o <+: l.flatMap (pass W)) :
    ∃ k ≤ l.length, o = (l.take k).flatMap (pass W) ∨ ∃ x, l[k]? = some x ∧ o = (l.take k).flatMap (pass W) ++ [.put xiFile (line W 16 (some x.1))] := by
  induction l generalizing o with
  | nil => exact ⟨0, le_refl _, Or.inl (by simpa using h)⟩
  | cons x l ih =>
    rw [List.flatMap_cons] at h
    match o, h with
    | [], _ => exact ⟨0, Nat.zero_le _, Or.inl rfl⟩
    | [a], h =>
      refine ⟨0, Nat.zero_le _, Or.inr ⟨x, rfl, ?_⟩⟩
      obtain ⟨r, hr⟩ := h
      simp [pass] at hr
      simp [hr.1]
    | a :: b :: o, h =>
      obtain ⟨r, hr⟩ := h
      simp only [pass, List.cons_append, List.nil_append, List.cons.injEq] at hr
      obtain ⟨rfl, rfl, hr⟩ := hr
      obtain ⟨k, hk, hcase⟩ := ih o ⟨r, hr⟩
      refine ⟨k + 1, by simpa using hk, ?_⟩
      rcases hcase with rfl | ⟨y, hy, rfl⟩
      · left; simp [pass]
      · right; exact ⟨y, by simpa using hy, by simp [pass]⟩

theorem prefix_append {α : Type} {a b o : List α} (h : o <+: a ++ b) : o <+: a ∨ ∃ o', o = a ++ o' ∧ o' <+: b := by
  obtain ⟨r, hr⟩ := h
  rcases List.append_eq_append_iff.mp hr with ⟨c, h1, h2⟩ | ⟨c, h1, h2⟩
  · left; exact ⟨c, h1.symm⟩
  · right; exact ⟨c, h1, ⟨r, h2.symm⟩⟩

theorem zip_take (k : ℕ) (vx vz : List ℝ) : (vx.zip vz).take k = (vx.take k).zip (vz.take k) := by
  induction k generalizing vx vz with
  | zero => rfl
  | succ k ih => cases vx <;> cases vz <;> simp [ih]

theorem fileOf_succ (W : World) (v : List ℝ) (k : ℕ) (x : ℝ) (h : v[k]? = some x) : fileOf W (v.take (k + 1)) = fileOf W (v.take k) ++ line W 16 (some x) := by
  rw [List.take_succ, h]
  simp [fileOf, line]

theorem chain_prefix (fs : FS) (vx vz : List ℝ) (hlen : vx.length = vz.length) (o : List Op)
    (ho : o <+: .start xiFile :: .start zetaFile :: (vx.zip vz).flatMap (pass W)) : o = [] ∨
      ∃ k ≤ vx.length, after fs o xiFile = some (fileOf W (vx.take k)) ∧
        (after fs o zetaFile = some (fileOf W (vz.take k)) ∨ (k = 0 ∧ after fs o zetaFile = fs zetaFile) ∨
         ∃ j, k = j + 1 ∧ after fs o zetaFile = some (fileOf W (vz.take j))) := by
  have ne : ¬ zetaFile = xiFile := by decide
  match o, ho with
  | [], _ => exact Or.inl rfl
  | [a], ho =>
    obtain ⟨r', hr'⟩ := ho
    simp only [List.cons_append, List.nil_append, List.cons.injEq] at hr'
    obtain ⟨rfl, -⟩ := hr'
    refine Or.inr ⟨0, Nat.zero_le _, by simp [after, Op.run, fileOf], Or.inr (Or.inl ⟨rfl, ?_⟩)⟩
    change Op.run fs (.start xiFile) zetaFile = _
    simp only [Op.run]
    rw [if_neg ne]
  | a :: b :: o', ho =>
    obtain ⟨r', hr'⟩ := ho
    simp only [List.cons_append, List.cons.injEq] at hr'
    obtain ⟨rfl, rfl, hr'⟩ := hr'
    obtain ⟨k, hk, hcase⟩ := prefix_pass (W := W) (vx.zip vz) o' ⟨r', hr'⟩
    rw [List.length_zip, ← hlen, min_self] at hk
    right
    rcases hcase with rfl | ⟨x, hx, rfl⟩
    · have := after_chain (W := W) fs (vx.take k) (vz.take k) (by simp [hlen]) [] (by simp)
      rw [List.append_nil, ← zip_take] at this
      exact ⟨k, hk, this.1.trans (by simp [texts]), Or.inl (this.2.trans (by simp [texts]))⟩
    · have := after_chain (W := W) fs (vx.take k) (vz.take k) (by simp [hlen]) [.put xiFile (line W 16 (some x.1))] (by simp)
      rw [← zip_take] at this
      obtain ⟨h1, h2⟩ := List.getElem?_zip_eq_some.mp hx
      refine ⟨k + 1, ?_, this.1.trans ?_, Or.inr (Or.inr ⟨k, rfl, this.2.trans ?_⟩)⟩
      · have := (List.getElem?_eq_some_iff.mp h1).1
        omega
      · rw [fileOf_succ W vx k x.1 h1]
        simp [texts]
      · have ne' : ¬ xiFile = zetaFile := by decide
        simp [texts, ne']

/-- **C98.** At every moment, also if the process is killed or fails, `xi.dat` is the earlier file or holds the first coefficients of the chain, one
per line, and `zeta.dat` the same number of them or one fewer. If the call returns, these are the coefficients that are returned. -/
theorem interrupted (W : World) (fs : FS) (p : Map) (m : Mode) (s : State) :
    ∃ vx vz : List ℝ, vx.length = vz.length ∧ (∀ c, (fromParams W fs p m s).2 = .ok c → ∀ q, setParameters W { reset s with params := p } = .ok q → Chain m q → vx = c.xi ∧ vz = c.zeta) ∧
    ∀ o, o <+: (fromParams W fs p m s).1 →
      (after fs o "xi.dat".toList = fs "xi.dat".toList ∧ after fs o "zeta.dat".toList = fs "zeta.dat".toList) ∨
      ∃ k ≤ vx.length, after fs o "xi.dat".toList = some (fileOf W (vx.take k)) ∧
        (after fs o "zeta.dat".toList = some (fileOf W (vz.take k)) ∨ (k = 0 ∧ after fs o "zeta.dat".toList = fs "zeta.dat".toList) ∨
         ∃ j, k = j + 1 ∧ after fs o "zeta.dat".toList = some (fileOf W (vz.take j))) := by
  have hops := (call_ops W fs p m s).1
  rw [hops]
  rcases run_ops W fs m { reset s with params := p } with ⟨e, he⟩ | ⟨q, r, o1, hq, -, htri, hr, hcase⟩
  · refine ⟨[], [], rfl, fun c hc q hq hch => ?_, fun o ho => ?_⟩
    · have := ((call_ops W fs p m s).2 e).mpr (by rw [he])
      rw [this] at hc
      cases hc
    · rw [he] at ho
      have : o = [] := by simpa using ho
      subst this
      exact Or.inl ⟨rfl, rfl⟩
  · have hno : ∀ o, o <+: o1 → ∀ x ∈ o, x.file ≠ xiFile ∧ x.file ≠ zetaFile := by
      intro o ho x hx
      have hx1 : x ∈ o1 := ho.subset hx
      rcases hcase with ⟨-, i, -, -, rfl⟩ | ⟨-, rfl, -⟩
      · rcases List.mem_append.mp hx1 with hx1 | hx1
        · simp only [thetaOps, List.mem_cons, List.not_mem_nil, or_false] at hx1
          rcases hx1 with rfl | rfl <;> exact ⟨by simp only [Op.file]; decide, by simp only [Op.file]; decide⟩
        · split at hx1
          · rcases save_files W _ x hx1 with h | h | h | h <;> rw [h] <;> exact ⟨by decide, by decide⟩
          · simp at hx1
      · simp at hx1
    have hold : ∀ o, o <+: o1 → after fs o xiFile = fs xiFile ∧ after fs o zetaFile = fs zetaFile := fun o ho =>
      ⟨after_other fs o _ fun x hx => (hno o ho x hx).1, after_other fs o _ fun x hx => (hno o ho x hx).2⟩
    by_cases ht : r.tri = true
    · rw [if_pos ht] at hr
      obtain ⟨vx, vz, hlen, htops, hres⟩ := tridiag_spec W r
      refine ⟨vx, vz, hlen, fun c hc q' hq' hch => ?_, fun o ho => ?_⟩
      · obtain ⟨t, ht', rfl⟩ := call_run (show fromParams W fs p m s = ((fromParams W fs p m s).1, .ok c) by rw [← hc])
        rw [hr] at ht'
        have hr2 := (Prod.mk.inj ht').2
        rcases hres with ⟨-, hres⟩ | ⟨e, hres, -⟩
        · rw [hres] at hr2
          cases hr2
          exact ⟨rfl, rfl⟩
        · rw [hres] at hr2; cases hr2
      · rw [hr] at ho
        rcases prefix_append ho with ho | ⟨o', ho', ho⟩
        · exact Or.inl (hold o ho)
        · obtain ⟨hb1, hb2⟩ := hold o1 (List.prefix_refl _)
          rw [ho', after_append]
          rw [htops] at ho
          rcases chain_prefix (after fs o1) vx vz hlen o' ho with rfl | ⟨k, hk, k1, k2⟩
          · exact Or.inl ⟨hb1, hb2⟩
          · refine Or.inr ⟨k, hk, k1, ?_⟩
            rcases k2 with k2 | ⟨k2, k3⟩ | k2
            · exact Or.inl k2
            · exact Or.inr (Or.inl ⟨k2, k3.trans hb2⟩)
            · exact Or.inr (Or.inr k2)
    · have ht' : r.tri = false := by simpa using ht
      rw [if_neg ht] at hr
      refine ⟨[], [], rfl, fun c hc q' hq' hch => ?_, fun o ho => ?_⟩
      · rw [hq] at hq'
        cases hq'
        exact absurd (htri.mpr hch) ht
      · rw [hr] at ho
        exact Or.inl (hold o (by simpa using ho))

end Verif.NrgChain
