import Verif.NrgChain.Lemmas
import Mathlib.Data.List.GetD
import Verif.Adapt.ToolProps
/-!
# The parts of a calculation
-/

namespace Verif.NrgChain
open Verif.Tools Verif.Text Verif.Param
open scoped Classical

theorem good_iff (t : Tab ℝ) : Increasing t ↔ Good t := ⟨fun h => ⟨h.1, h.2⟩, fun h => ⟨h.len, h.inc⟩⟩

theorem except_bind_ok {ε α β : Type} {a : Except ε α} {f : α → Except ε β} {y : β} (h : (a >>= f) = .ok y) :
    ∃ x, a = .ok x ∧ f x = .ok y := by
  cases a with
  | error e => cases h
  | ok x => exact ⟨x, rfl, h⟩

theorem initSide_ok {t ti : Tab ℝ} (h : initSide t = .ok ti) : Good t ∧ ∃ total, trapez t = some (ti, total) := by
  unfold initSide at h
  cases h1 : trapez t with
  | none => rw [h1] at h; cases h
  | some p =>
    rw [h1] at h
    dsimp only at h
    split at h
    · rename_i hg
      cases h
      exact ⟨(good_iff t).mp hg, p.2, rfl⟩
    · cases h

theorem checked_ok {t u : Tab ℝ} (h : checked t = .ok u) : u = t ∧ Good t := by
  unfold checked at h
  split at h
  · rename_i hg; cases h; exact ⟨rfl, (good_iff t).mp hg⟩
  · cases h

/-- What `calc_tables` has read. -/
structure Input (W : World) (fs : FS) (s i : State) : Prop where
  form : ∃ rp rn ip inn gp gn fp fn, i = { s with rhoP := rp, rhoN := rn, intP := ip, intN := inn, gP := gp, gN := gn, fP := fp, fN := fn }
  goodP : Good i.rhoP
  goodN : Good i.rhoN
  intP : ∃ total, trapez i.rhoP = some (i.intP, total)
  intN : ∃ total, trapez i.rhoN = some (i.intN, total)
  flat : s.band = flatBand → i.rhoP = flatTab ∧ i.rhoN = flatTab ∧ i.gP = s.gP ∧ i.gN = s.gN
  read : s.band ≠ flatBand → loadRho W fs s true = .ok i.rhoP ∧ loadRho W fs s false = .ok i.rhoN ∧
    loadG W fs "FSOL.dat".toList = .ok i.fP ∧ loadG W fs "FSOLNEG.dat".toList = .ok i.fN ∧ Good i.fP ∧ Good i.fN
  readG : s.band ≠ flatBand → s.adapt = true → loadG W fs "GSOL.dat".toList = .ok i.gP ∧ loadG W fs "GSOLNEG.dat".toList = .ok i.gN ∧ Good i.gP ∧ Good i.gN

theorem loadInput_ok {W : World} {fs : FS} {s i : State} (h : loadInput W fs s = .ok i) : Input W fs s i := by
  unfold loadInput at h
  by_cases hb : s.band ≠ flatBand
  · rw [if_pos hb] at h
    obtain ⟨rp, h1, h⟩ := except_bind_ok h
    obtain ⟨rn, h2, h⟩ := except_bind_ok h
    obtain ⟨g, h3, h⟩ := except_bind_ok h
    obtain ⟨fp, h4, h⟩ := except_bind_ok h
    obtain ⟨fn, h5, h⟩ := except_bind_ok h
    obtain ⟨fp', h6, h⟩ := except_bind_ok h
    obtain ⟨fn', h7, h⟩ := except_bind_ok h
    obtain ⟨ip, h8, h⟩ := except_bind_ok h
    obtain ⟨inn, h9, h⟩ := except_bind_ok h
    cases h
    obtain ⟨rfl, g1⟩ := checked_ok h6
    obtain ⟨rfl, g2⟩ := checked_ok h7
    obtain ⟨g3, t1⟩ := initSide_ok h8
    obtain ⟨g4, t2⟩ := initSide_ok h9
    refine ⟨⟨_, _, _, _, _, _, _, _, rfl⟩, g3, g4, t1, t2, fun e => absurd e hb, fun _ => ⟨h1, h2, h4, h5, g1, g2⟩, fun _ ha => ?_⟩
    unfold loadGs at h3
    rw [if_pos ha] at h3
    obtain ⟨a, k1, h3⟩ := except_bind_ok h3
    obtain ⟨b, k2, h3⟩ := except_bind_ok h3
    obtain ⟨a', k3, h3⟩ := except_bind_ok h3
    obtain ⟨b', k4, h3⟩ := except_bind_ok h3
    cases h3
    obtain ⟨rfl, q1⟩ := checked_ok k3
    obtain ⟨rfl, q2⟩ := checked_ok k4
    exact ⟨k1, k2, q1, q2⟩
  · have hb' : s.band = flatBand := not_not.mp hb
    rw [if_neg hb] at h
    obtain ⟨ip, h8, h⟩ := except_bind_ok h
    obtain ⟨inn, h9, h⟩ := except_bind_ok h
    cases h
    obtain ⟨g3, t1⟩ := initSide_ok h8
    obtain ⟨g4, t2⟩ := initSide_ok h9
    exact ⟨⟨flatTab, flatTab, ip, inn, s.gP, s.gN, s.fP, s.fN, rfl⟩, g3, g4, t1, t2, fun _ => ⟨rfl, rfl, rfl, rfl⟩, fun e => absurd hb' e, fun e => absurd hb' e⟩

/-- The tables, given the input. -/
noncomputable def withTables (i : State) : State :=
  { i with
    theta := (star i).theta,
    deP := (List.range (i.mMAX + 1)).map fun m : ℕ => some (energyAt i i.fP (i.z + m + 1)),
    deN := (List.range (i.mMAX + 1)).map fun m : ℕ => some (energyAt i i.fN (i.z + m + 1)),
    duP := (List.range (i.mMAX + 1)).map fun m : ℕ => ((star i).du m).1,
    duN := (List.range (i.mMAX + 1)).map fun m : ℕ => ((star i).du m).2 }

def thetaOps (W : World) (x : ℝ) : List Op := [.start thetaFile, .put thetaFile (W.fmt 16 (some x) ++ ['\n'])]

theorem tables_eq (W : World) (i : State) : tables W i = (thetaOps W (star i).theta, if (star i).rejected then .error .exit else .ok (withTables i)) := rfl

/-- The checksum is one whenever it is a number. -/
theorem never_rejected (Gp Gn ep en : ℝ → ℝ) (z : ℝ) (M : ℕ) : ¬ (starTables Gp Gn ep en z M).rejected := by
  set S := starTables Gp Gn ep en z M with hS
  have hdu : ∀ m, S.du0 m = (dDiv (dSqrt (S.df m).1) (dSqrt S.theta), dDiv (dSqrt (S.df m).2) (dSqrt S.theta)) := fun m => rfl
  by_cases hn : ∃ m ≤ M, (S.df m).1 < 0 ∨ (S.df m).2 < 0
  · rintro ⟨c, hc, _⟩
    have : S.checksum = none := by
      have e : S.checksum = (List.range (M + 1)).foldl
        (fun (acc : Option ℝ) m => do let c ← acc; let a ← (S.du0 m).1; let b ← (S.du0 m).2; pure (c + (a * a + b * b))) (some 0) := rfl
      rw [e]
      obtain ⟨m, hm, h⟩ := hn
      have key : ∀ (l : List ℕ) (acc : Option ℝ), acc = none ∨ m ∈ l → l.foldl
          (fun (acc : Option ℝ) m => do let c ← acc; let a ← (S.du0 m).1; let b ← (S.du0 m).2; pure (c + (a * a + b * b))) acc = none := by
        intro l
        induction l with
        | nil => intro acc h; rcases h with h | h; exact h; simp at h
        | cons a l ih =>
          intro acc hacc
          rw [List.foldl_cons]
          apply ih
          rcases hacc with h' | h'
          · left; rw [h']; rfl
          · rcases List.mem_cons.mp h' with rfl | h'
            · left
              rw [hdu]
              rcases h with h | h
              · simp only [dSqrt, if_pos h]; cases acc <;> rfl
              · simp only [dSqrt, if_pos h]
                cases acc with
                | none => rfl
                | some c =>
                  simp only [Option.bind_eq_bind, Option.bind_some]
                  cases dDiv (if (S.df m).1 < 0 then none else some (Real.sqrt (S.df m).1)) (if S.theta < 0 then none else some (Real.sqrt S.theta)) <;> rfl
            · exact Or.inr h'
      exact key _ _ (Or.inr (by simp; omega))
    change S.checksum = some c at hc
    rw [this] at hc
    cases hc
  · push Not at hn
    by_cases ht : 0 < S.theta
    · exact (star_normalised Gp Gn ep en z M ht hn).choose_spec.choose_spec.2.2
    · rintro ⟨c, hc, _⟩
      have e : S.checksum = (List.range (M + 1)).foldl
        (fun (acc : Option ℝ) m => do let c ← acc; let a ← (S.du0 m).1; let b ← (S.du0 m).2; pure (c + (a * a + b * b))) (some 0) := rfl
      have hnone : ∀ m, (S.du0 m).1 = none := by
        intro m
        rw [hdu]
        have h0 : dSqrt S.theta = none ∨ dSqrt S.theta = some 0 := by
          unfold dSqrt
          split
          · exact Or.inl rfl
          · right; rw [Real.sqrt_eq_zero_of_nonpos (not_lt.mp ht)]
        cases hq : dSqrt (S.df m).1 with
        | none => rfl
        | some a => rcases h0 with h0 | h0 <;> simp [dDiv, h0]
      have := foldl_none_of_mem S.du0 (List.range (M + 1)) (some 0) (Or.inr ⟨0, by simp, hnone 0⟩)
      change S.checksum = some c at hc
      rw [e, this] at hc
      cases hc

/-- A coupling that is a number: then all are, and the squares are the weights of the intervals. -/
theorem du_number (Gp Gn ep en : ℝ → ℝ) (z : ℝ) (M : ℕ) (k : ℕ) (hk : k ≤ M) (a : ℝ)
    (h : ((starTables Gp Gn ep en z M).du k).1 = some a ∨ ((starTables Gp Gn ep en z M).du k).2 = some a) :
    0 < (starTables Gp Gn ep en z M).theta ∧
      ∀ m ≤ M, 0 ≤ ((starTables Gp Gn ep en z M).df m).1 ∧ 0 ≤ ((starTables Gp Gn ep en z M).df m).2 := by
  set S := starTables Gp Gn ep en z M with hS
  have hdu : ∀ m, S.du0 m = (dDiv (dSqrt (S.df m).1) (dSqrt S.theta), dDiv (dSqrt (S.df m).2) (dSqrt S.theta)) := fun m => rfl
  have hdd : ∀ m, S.du m = (dDiv (S.du0 m).1 (S.checksum.bind dSqrt), dDiv (S.du0 m).2 (S.checksum.bind dSqrt)) := fun m => rfl
  have hcs : ∃ c, S.checksum = some c := by
    rcases h with h | h
    · rw [hdd] at h
      cases hq : S.checksum with
      | some c => exact ⟨c, rfl⟩
      | none => rw [hq] at h; cases h1 : (S.du0 k).1 <;> simp [dDiv, h1] at h
    · rw [hdd] at h
      cases hq : S.checksum with
      | some c => exact ⟨c, rfl⟩
      | none => rw [hq] at h; cases h1 : (S.du0 k).2 <;> simp [dDiv, h1] at h
  obtain ⟨c, hc⟩ := hcs
  have e : S.checksum = (List.range (M + 1)).foldl
    (fun (acc : Option ℝ) m => do let c ← acc; let a ← (S.du0 m).1; let b ← (S.du0 m).2; pure (c + (a * a + b * b))) (some 0) := rfl
  have key : ∀ (l : List ℕ) (acc : Option ℝ) (c : ℝ), l.foldl
      (fun (acc : Option ℝ) m => do let c ← acc; let a ← (S.du0 m).1; let b ← (S.du0 m).2; pure (c + (a * a + b * b))) acc = some c →
      ∀ m ∈ l, ∃ x y, S.du0 m = (some x, some y) := by
    intro l
    induction l using List.reverseRecOn with
    | nil => intro acc c _ m hm; simp at hm
    | append_singleton l a ih =>
      intro acc c h m hm
      rw [List.foldl_append, List.foldl_cons, List.foldl_nil] at h
      generalize hq : l.foldl (fun (acc : Option ℝ) m => do let c ← acc; let a ← (S.du0 m).1; let b ← (S.du0 m).2; pure (c + (a * a + b * b))) acc = q at h
      cases q with
      | none => cases h
      | some c' =>
        rcases List.mem_append.mp hm with hm | hm
        · exact ih acc c' hq m hm
        · obtain rfl := List.mem_singleton.mp hm
          cases h1 : (S.du0 m).1 with
          | none => rw [h1] at h; cases h
          | some x =>
            cases h2 : (S.du0 m).2 with
            | none => rw [h1, h2] at h; cases h
            | some y => exact ⟨x, y, Prod.ext h1 h2⟩
  rw [e] at hc
  have all : ∀ m ≤ M, ∃ x y, S.du0 m = (some x, some y) := fun m hm => key _ _ _ hc m (by simp; omega)
  have sq : ∀ x v, dDiv (dSqrt x) (dSqrt S.theta) = some v → 0 ≤ x ∧ 0 < S.theta := by
    intro x v hv
    by_cases hx : x < 0
    · simp [dDiv, dSqrt, hx] at hv
    · by_cases hth : S.theta < 0
      · simp [dDiv, dSqrt, hth, hx] at hv
      · refine ⟨not_lt.mp hx, ?_⟩
        rcases (not_lt.mp hth).lt_or_eq with h0 | h0
        · exact h0
        · exfalso
          simp [dDiv, dSqrt, hx, ← h0] at hv
  refine ⟨?_, fun m hm => ?_⟩
  · obtain ⟨x, y, hxy⟩ := all k hk
    rw [hdu] at hxy
    exact (sq _ _ (Prod.mk.inj hxy).1).2
  · obtain ⟨x, y, hxy⟩ := all m hm
    rw [hdu] at hxy
    exact ⟨(sq _ _ (Prod.mk.inj hxy).1).1, (sq _ _ (Prod.mk.inj hxy).2).1⟩

theorem calc_eq (W : World) (fs : FS) (s : State) : calcTables W fs s =
    match loadInput W fs s with
    | .error e => ([], .error e)
    | .ok i => (thetaOps W (star i).theta ++ (if i.save then saveTables W (withTables i) else []), .ok (withTables i)) := by
  unfold calcTables
  rw [lift_bind]
  cases loadInput W fs s with
  | error e => rfl
  | ok i =>
    dsimp only
    have hr : ¬ (star i).rejected := never_rejected _ _ _ _ _ _
    rw [tables_eq, if_neg hr, bind_of_ok]
    have : (withTables i).save = i.save := rfl
    rw [this]
    cases i.save <;> rfl

/-- How the tridiagonalisation ends, and what it writes. -/
theorem tridiag_spec (W : World) (s : State) :
    ∃ vx vz : List ℝ, vx.length = vz.length ∧ (tridiag W s).1 = .start xiFile :: .start zetaFile :: (vx.zip vz).flatMap (pass W) ∧
      (((∃ b l, bathOf s = .ok b ∧ lanczosAt b (s.Nmax + 1) = .ok l ∧ vx = xis s l ∧ vz = zetas s l) ∧
          (tridiag W s).2 = .ok { s with xi := vx, zeta := vz }) ∨
       (∃ e, (tridiag W s).2 = .error e ∧
          ((vx = [] ∧ bathOf s = .error e) ∨ (vx = [] ∧ ∃ b e', bathOf s = .ok b ∧ lanczosAt b 0 = .error e' ∧ e = stopOf e') ∨
           ∃ b l e', bathOf s = .ok b ∧ lanczosAt b vx.length = .ok l ∧ vx = xis s l ∧ vz = zetas s l ∧ vx.length ≤ s.Nmax ∧
             lanczosAt b (vx.length + 1) = .error e' ∧ e = stopOf e'))) := by
  have hsplit : tridiag W s = (.start xiFile :: .start zetaFile :: ((lift (bathOf s)).bind fun b =>
      match lanczosInit b with
      | .error e => ([], .error (stopOf e))
      | .ok l => (chainLoop W s b (s.Nmax + 1) 0 l [] []).bind fun r => ([], .ok { s with xi := r.1, zeta := r.2 })).1,
      ((lift (bathOf s)).bind fun b =>
      match lanczosInit b with
      | .error e => ([], .error (stopOf e))
      | .ok l => (chainLoop W s b (s.Nmax + 1) 0 l [] []).bind fun r => ([], .ok { s with xi := r.1, zeta := r.2 })).2) := rfl
  rw [hsplit]
  rw [lift_bind]
  cases hb : bathOf s with
  | error e => exact ⟨[], [], rfl, rfl, Or.inr ⟨e, rfl, Or.inl ⟨rfl, rfl⟩⟩⟩
  | ok b =>
    dsimp only
    cases hl : lanczosInit b with
    | error e' => exact ⟨[], [], rfl, rfl, Or.inr ⟨_, rfl, Or.inr (Or.inl ⟨rfl, b, e', rfl, hl, rfl⟩)⟩⟩
    | ok l =>
      dsimp only
      obtain ⟨v1, v2⟩ := at_lengths b 0 l hl
      have hx : xis s l = [] := by rw [xis, List.eq_nil_of_length_eq_zero v1]; rfl
      have hz : zetas s l = [] := by rw [zetas, List.eq_nil_of_length_eq_zero v2]; rfl
      obtain ⟨j, l', hj, hl', ho, hr⟩ := loop_spec W s b (s.Nmax + 1) 0 l hl
      rw [hx, hz] at ho hr
      rw [Nat.zero_add] at hl'
      obtain ⟨w1, w2⟩ := at_lengths b j l' hl'
      have hlen : (xis s l').length = (zetas s l').length := by simp [xis, zetas, w1, w2]
      have hlx : (xis s l').length = j := by simp [xis, w1]
      refine ⟨xis s l', zetas s l', hlen, ?_, ?_⟩
      · have : ((chainLoop W s b (s.Nmax + 1) 0 l [] []).bind fun r => ([], .ok { s with xi := r.1, zeta := r.2 })).1 =
            (chainLoop W s b (s.Nmax + 1) 0 l [] []).1 := by
          unfold Act.bind
          split
          · rfl
          · simp
        rw [this, ho]
        simp
      · rcases hr with ⟨r1, r2⟩ | ⟨r1, e, r2, r3⟩
        · left
          refine ⟨⟨b, l', rfl, by rw [← r1]; exact hl', rfl, rfl⟩, ?_⟩
          unfold Act.bind
          rw [r2]
        · right
          refine ⟨stopOf e, ?_, Or.inr (Or.inr ⟨b, l', e, rfl, by rw [hlx]; exact hl', rfl, rfl, by omega, ?_, rfl⟩)⟩
          · unfold Act.bind
            rw [r3]
          · rw [hlx]
            simpa using r2

theorem run_eq (W : World) (fs : FS) (m : Mode) (s : State) : run W fs m s =
    match setParameters W s with
    | .error e => ([], .error e)
    | .ok p => (if (applyMode m p).load then lift (loadTables W fs (applyMode m p)) else calcTables W fs (applyMode m p)).bind fun s =>
        if s.tri then tridiag W s else ([], .ok s) := by
  unfold run
  rw [lift_bind]
  cases setParameters W s <;> rfl

theorem loadTables_ok {W : World} {fs : FS} {s t : State} (h : loadTables W fs s = .ok t) :
    ∃ a b c d, t = { s with deP := a, deN := b, duP := c, duN := d } ∧ loadTable W fs dePFile = .ok a ∧ loadTable W fs deNFile = .ok b ∧
      loadTable W fs duPFile = .ok c ∧ loadTable W fs duNFile = .ok d := by
  unfold loadTables at h
  obtain ⟨a, h1, h⟩ := except_bind_ok h
  obtain ⟨b, h2, h⟩ := except_bind_ok h
  obtain ⟨c, h3, h⟩ := except_bind_ok h
  obtain ⟨d, h4, h⟩ := except_bind_ok h
  cases h
  exact ⟨a, b, c, d, rfl, h1, h2, h3, h4⟩

theorem bathOf_ok {s : State} {b : Bath} (h : bathOf s = .ok b) : b.M = s.mMAX ∧ ∀ k ≤ s.mMAX,
    s.deP[k]? = some (some (b.ep k)) ∧ s.deN[k]? = some (some (b.em k)) ∧ s.duP[k]? = some (some (b.u0.p k)) ∧ s.duN[k]? = some (some (b.u0.m k)) := by
  unfold bathOf at h
  split at h
  · cases h
  · rename_i h1
    push Not at h1
    split at h
    · cases h
    · rename_i h2
      push Not at h2
      cases h
      refine ⟨rfl, fun k hk => ?_⟩
      obtain ⟨q1, q2, q3, q4⟩ := h2 k hk
      have get : ∀ l : List (Option ℝ), s.mMAX < l.length → l.getD k none ≠ none → l[k]? = some (some ((l.getD k none).getD 0)) := by
        intro l hl hn
        have hlt : k < l.length := by omega
        rw [List.getD_eq_getElem _ _ hlt] at hn ⊢
        rw [List.getElem?_eq_getElem hlt]
        cases hq : l[k] with
        | none => exact absurd hq hn
        | some v => rfl
      exact ⟨get _ h1.1 q1, get _ h1.2.1 q2, get _ h1.2.2.1 q3, get _ h1.2.2.2 q4⟩

theorem setParameters_form {W : World} {s p : State} (h : setParameters W s = .ok p) :
    ∃ L z a b r x N M c bd sv ld tr, p = { s with
      Lambda := L, z := z, adapt := a, bandrescale := b, rescalexi := r, xmax := x, Nmax := N, mMAX := M, preccpp := c, band := bd, save := sv,
      load := ld, tri := tr } ∧ 1 < L ∧ 0 < z ∧ z ≤ 1 ∧ 0 < M := by
  unfold setParameters at h
  split at h
  · dsimp only at h
    split at h
    · cases h
    · split at h
      · cases h
      · split at h
        · cases h
        · split at h
          · cases h
          · split at h
            · cases h
            · split at h
              · cases h
              · cases h
                rename_i h1 h2 h3 h4 _ _ _
                exact ⟨_, _, _, _, _, _, _, _, _, _, _, _, _, rfl, by tauto, by tauto, by tauto, by tauto⟩
  · cases h

end Verif.NrgChain
