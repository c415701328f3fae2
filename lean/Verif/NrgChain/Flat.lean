import Verif.NrgChain.Effects
/-!
# The flat band, and baths with particle-hole symmetry
-/

namespace Verif.NrgChain
open Verif.Tools Verif.Text Verif.Param MeasureTheory
open scoped Classical

variable {W : World} {fs : FS} {m : Mode} {p : Map} {s q : State} {ops : List Op} {c : Channel}

/-! ## Particle-hole symmetry -/

theorem zeta_dot {b : Bath} {n : ℕ} {u : ℕ → Wvec} {xi zeta : ℕ → ℝ} (h : Tridiagonal b n u xi zeta) {i : ℕ} (hi : i < n) :
    zeta i = dot b.M (b.H (u i)) (u i) := by
  have z0 : ∀ v, dot b.M ⟨fun _ => 0, fun _ => 0⟩ v = 0 := fun v => by simp [dot]
  cases i with
  | zero =>
    have e : b.H (u 0) = comb (zeta 0) (u 0) (xi 0) (u 1) 0 ⟨fun _ => 0, fun _ => 0⟩ := by
      have hf := fun k => h.first k hi
      unfold comb
      rw [show b.H (u 0) = ⟨(b.H (u 0)).p, (b.H (u 0)).m⟩ from rfl]
      congr 1
      · funext k; rw [(hf k).1]; simp
      · funext k; rw [(hf k).2]; simp
    rw [e, dot_comb, z0, h.orthonormal 0 0 (by omega) (by omega), h.orthonormal 1 0 (by omega) (by omega)]
    simp
  | succ i =>
    have e : b.H (u (i + 1)) = comb (xi i) (u i) (zeta (i + 1)) (u (i + 1)) (xi (i + 1)) (u (i + 2)) := by
      have hf := fun k => h.next i k hi
      unfold comb
      rw [show b.H (u (i + 1)) = ⟨(b.H (u (i + 1))).p, (b.H (u (i + 1))).m⟩ from rfl]
      congr 1
      · funext k; rw [(hf k).1]
      · funext k; rw [(hf k).2]
    rw [e, dot_comb, h.orthonormal i (i + 1) (by omega) (by omega), h.orthonormal (i + 1) (i + 1) (by omega) (by omega),
      h.orthonormal (i + 2) (i + 1) (by omega) (by omega)]
    simp

/-- **C97.** If the levels of the bath come in pairs at opposite energies with equal couplings, the on-site energies of the chain vanish. -/
theorem symmetric_zeta {b : Bath} {n : ℕ} {u : ℕ → Wvec} {xi zeta : ℕ → ℝ} (h : Tridiagonal b n u xi zeta)
    (he : ∀ k ≤ b.M, b.em k = b.ep k) (h0 : ∀ k ≤ b.M, (u 0).m k = (u 0).p k) : ∀ i < n, zeta i = 0 := by
  have zero : ∀ i < n, (∀ k ≤ b.M, (u i).m k * (u i).m k = (u i).p k * (u i).p k) → zeta i = 0 := by
    intro i hi hk
    rw [zeta_dot h hi]
    unfold dot
    refine Finset.sum_eq_zero fun k hkM => ?_
    have hkM' : k ≤ b.M := by simpa [Nat.lt_succ_iff] using hkM
    have := hk k hkM'
    simp only [Bath.H]
    rw [he k hkM']
    linear_combination (-(b.ep k)) * this
  have sq : ∀ i, ((-1 : ℝ) ^ i) * ((-1) ^ i) = 1 := fun i => by rw [← mul_pow]; norm_num
  have zero' : ∀ i < n, (∀ k ≤ b.M, (u i).m k = (-1) ^ i * (u i).p k) → zeta i = 0 := fun i hi hk => zero i hi fun k hkM => by
    rw [hk k hkM]
    linear_combination ((u i).p k * (u i).p k) * sq i
  have key : ∀ i, i < n → (∀ k ≤ b.M, (u i).m k = (-1) ^ i * (u i).p k) ∧ (∀ k ≤ b.M, (u (i + 1)).m k = (-1) ^ (i + 1) * (u (i + 1)).p k) := by
    intro i
    induction i with
    | zero =>
      intro hi
      have h1 : ∀ k ≤ b.M, (u 0).m k = (-1) ^ 0 * (u 0).p k := fun k hk => by rw [h0 k hk]; simp
      refine ⟨h1, fun k hk => ?_⟩
      have hz := zero' 0 hi h1
      obtain ⟨e1, e2⟩ := h.first k hi
      rw [hz] at e1 e2
      simp only [Bath.H] at e1 e2
      rw [he k hk, h0 k hk] at e2
      have hx := (h.hopping_pos 0 hi).ne'
      apply mul_left_cancel₀ hx
      linear_combination -e2 - e1
    | succ i ih =>
      intro hi
      obtain ⟨k1, k2⟩ := ih (by omega)
      refine ⟨k2, fun k hk => ?_⟩
      have hz := zero' (i + 1) hi k2
      obtain ⟨e1, e2⟩ := h.next i k hi
      rw [hz] at e1 e2
      simp only [Bath.H] at e1 e2
      rw [he k hk, k1 k hk, k2 k hk] at e2
      have hx := (h.hopping_pos (i + 1) hi).ne'
      apply mul_left_cancel₀ hx
      linear_combination -e2 + (-1) ^ i * e1
  exact fun i hi => zero' i hi (key i hi).1

/-! ## The flat band -/

theorem factor_lt_one {L : ℝ} (hL : 1 < L) : 0 < (1 - 1 / L) / Real.log L ∧ (1 - 1 / L) / Real.log L < 1 := by
  have hL0 : 0 < L := by linarith
  have hlog := Real.log_pos hL
  have h1 : 1 / L < 1 := by rw [div_lt_one hL0]; exact hL
  refine ⟨div_pos (by linarith) hlog, ?_⟩
  rw [div_lt_one hlog]
  have := Real.log_lt_sub_one_of_pos (show 0 < 1 / L by positivity) h1.ne
  rw [Real.log_div one_ne_zero hL0.ne', Real.log_one] at this
  linarith

/-- The energies of the flat band. -/
noncomputable def flatE (L x : ℝ) : ℝ := if x ≤ 2 then 2 - x + (1 - L ^ (1 - x)) / Real.log L else (1 - 1 / L) / Real.log L * L ^ (2 - x)

/-- The mesh of the flat band. -/
noncomputable def flatEps (L x : ℝ) : ℝ := if x ≤ 2 then 1 else L ^ (2 - x)

theorem flatE_lower {L : ℝ} (hL : 1 < L) {x : ℝ} (hx : 1 ≤ x) (h2 : x ≤ 2) : L ^ (1 - x) ≤ flatE L x := by
  have hmesh : ∀ x, Adapt.meshFn L (fun _ => 1) 0 x = if x ≤ 2 then 1 else L ^ (2 - x) := fun x => by simp [Adapt.meshFn]
  have h := Adapt.energy_in_interval hL (ρ := fun _ => 1) (ε := Adapt.meshFn L (fun _ => 1) 0) (f := Adapt.flatF L) (X := 2) continuous_const (by intro; norm_num)
    (Adapt.mesh_continuous hL continuous_const rfl 0) (fun x hx => by rw [hmesh, if_pos hx]) ?_ (Adapt.flat_solution hL one_ne_zero 2) ⟨hx, h2⟩
  · have h1 := h.1
    rw [Adapt.flat_energy hL, hmesh] at h1
    unfold flatE
    refine le_trans ?_ h1
    split_ifs with h3
    · have : x = 1 := by linarith
      rw [this]
      simp
    · rw [show 2 - (x + 1) = 1 - x by ring]
  · intro a b hab
    have := epsMesh_antitone L hL hab
    rw [hmesh, hmesh]
    unfold epsMesh at this
    simpa using this

theorem flatE_strict {L : ℝ} (hL : 1 < L) {z : ℝ} (h0 : 0 < z) (h1 : z ≤ 1) (k : ℕ) : flatE L (z + (k + 1 : ℕ) + 1) < flatE L (z + k + 1) := by
  obtain ⟨c0, c1⟩ := factor_lt_one hL
  have hL0 : 0 < L := by linarith
  have e1 : flatE L (z + (k + 1 : ℕ) + 1) = (1 - 1 / L) / Real.log L * L ^ (-(z + k)) := by
    unfold flatE
    have : (0 : ℝ) ≤ k := Nat.cast_nonneg k
    rw [if_neg (by push_cast; linarith)]
    congr 2
    push_cast
    ring
  rw [e1]
  rcases Nat.eq_zero_or_pos k with rfl | hk
  · have := flatE_lower hL (x := z + (0 : ℕ) + 1) (by push_cast; linarith) (by push_cast; linarith)
    refine lt_of_lt_of_le ?_ this
    rw [show 1 - (z + ((0 : ℕ) : ℝ) + 1) = -(z + ((0 : ℕ) : ℝ)) by ring]
    exact mul_lt_of_lt_one_left (Real.rpow_pos_of_pos hL0 _) c1
  · have hk' : (1 : ℝ) ≤ k := by exact_mod_cast hk
    unfold flatE
    rw [if_neg (by linarith)]
    apply mul_lt_mul_of_pos_left _ c0
    exact Real.rpow_lt_rpow_of_exponent_lt hL (by linarith)

theorem flatE_anti {L : ℝ} (hL : 1 < L) {z : ℝ} (h0 : 0 < z) (h1 : z ≤ 1) : StrictAnti fun k : ℕ => flatE L (z + k + 1) :=
  strictAnti_nat_of_succ_lt fun k => flatE_strict hL h0 h1 k

theorem flatE_pos {L : ℝ} (hL : 1 < L) {z : ℝ} (h0 : 0 < z) (h1 : z ≤ 1) (k : ℕ) : 0 < flatE L (z + k + 1) := by
  refine lt_trans ?_ (flatE_strict hL h0 h1 k)
  unfold flatE
  have : (0 : ℝ) ≤ k := Nat.cast_nonneg k
  rw [if_neg (by push_cast; linarith)]
  exact mul_pos (factor_lt_one hL).1 (Real.rpow_pos_of_pos (by linarith) _)

theorem flatEps_lt {L : ℝ} (hL : 1 < L) {z : ℝ} (h0 : 0 < z) (k : ℕ) : flatEps L (z + k + 2) < flatEps L (z + k + 1) := by
  have : (0 : ℝ) ≤ k := Nat.cast_nonneg k
  unfold flatEps
  rw [if_neg (by linarith)]
  split_ifs
  · exact Real.rpow_lt_one_of_one_lt_of_neg hL (by linarith)
  · exact Real.rpow_lt_rpow_of_exponent_lt hL (by linarith)

theorem flat_init : ∃ ti total, trapez flatTab = some (ti, total) ∧ initSide flatTab = .ok ti := by
  obtain ⟨⟨ti, total⟩, h⟩ := Option.isSome_iff_exists.mp ((trapez_spec flatTab).1.mpr flatTab_good.len)
  refine ⟨ti, total, h, ?_⟩
  unfold initSide
  rw [h]
  dsimp only
  rw [if_pos ((good_iff _).mpr flatTab_good)]

/-- What the flat band leads to, before the chain. -/
theorem flat_stage (hq : setParameters W s = .ok q) (hf : q.band = "flat".toList) (ha : q.adapt = false) (hl : q.load = false) :
    ∃ r o1, run W fs .calculate s = (o1 ++ (if r.tri then tridiag W r else ([], .ok r)).1, (if r.tri then tridiag W r else ([], .ok r)).2) ∧ Same q r ∧
      r.tri = q.tri ∧ r.theta = 1 - q.Lambda ^ (-(q.z + q.mMAX)) ∧
      ∃ b, bathOf r = .ok b ∧ b.M = q.mMAX ∧ ∀ k ≤ q.mMAX, b.ep k = flatE q.Lambda (q.z + k + 1) ∧ b.em k = flatE q.Lambda (q.z + k + 1) ∧
        0 < b.u0.p k ∧ b.u0.m k = b.u0.p k ∧
        b.u0.p k * b.u0.p k * (1 - q.Lambda ^ (-(q.z + q.mMAX))) = (flatEps q.Lambda (q.z + k + 1) - flatEps q.Lambda (q.z + k + 2)) / 2 := by
  obtain ⟨hL, hz0, hz1, hM0⟩ : 1 < q.Lambda ∧ 0 < q.z ∧ q.z ≤ 1 ∧ 0 < q.mMAX := by
    obtain ⟨L, z, a, b, r, x, N, M, c, bd, sv, ld, tr, rfl, k⟩ := setParameters_form hq
    exact k
  obtain ⟨ti, total, hti, hin⟩ := flat_init
  let i : State := { q with rhoP := flatTab, rhoN := flatTab, intP := ti, intN := ti }
  have hload : loadInput W fs q = .ok i := by
    unfold loadInput
    have hf' : ¬ q.band ≠ flatBand := not_not.mpr hf
    rw [if_neg hf', hin]
    rfl
  have hG : ∀ a b, intFn flatTab ti b - intFn flatTab ti a = (b - a) / 2 := by
    intro a b
    rw [intFn_sub flatTab_good hti]
    simp only [flatTab_interp]
    rw [intervalIntegral.integral_const, smul_eq_mul]
    ring
  have heps : ∀ x, epsMesh i.Lambda (gAt i i.gP) x = flatEps q.Lambda x ∧ epsMesh i.Lambda (gAt i i.gN) x = flatEps q.Lambda x := by
    intro x
    unfold epsMesh gAt flatEps
    have ha' : i.adapt = false := ha
    simp only [ha', Bool.false_eq_true, if_false, one_mul]
    exact ⟨rfl, rfl⟩
  have hstar : ∀ k, (star i).df k = ((flatEps q.Lambda (q.z + k + 1) - flatEps q.Lambda (q.z + k + 2)) / 2, (flatEps q.Lambda (q.z + k + 1) - flatEps q.Lambda (q.z + k + 2)) / 2) := by
    intro k
    have : (star i).df k = (intFn flatTab ti (epsMesh i.Lambda (gAt i i.gP) (q.z + k + 1)) - intFn flatTab ti (epsMesh i.Lambda (gAt i i.gP) (q.z + k + 2)),
      intFn flatTab ti (epsMesh i.Lambda (gAt i i.gN) (q.z + k + 1)) - intFn flatTab ti (epsMesh i.Lambda (gAt i i.gN) (q.z + k + 2))) := rfl
    rw [this, hG, hG, (heps _).1, (heps _).1, (heps _).2, (heps _).2]
  have hM1 : (0 : ℝ) < q.mMAX := by exact_mod_cast hM0
  have htheta : (star i).theta = 1 - q.Lambda ^ (-(q.z + q.mMAX)) := by
    have : (star i).theta = (intFn flatTab ti (epsMesh i.Lambda (gAt i i.gP) (q.z + 1)) - intFn flatTab ti (epsMesh i.Lambda (gAt i i.gP) (q.z + q.mMAX + 2))) +
      (intFn flatTab ti (epsMesh i.Lambda (gAt i i.gN) (q.z + 1)) - intFn flatTab ti (epsMesh i.Lambda (gAt i i.gN) (q.z + q.mMAX + 2))) := rfl
    rw [this, hG, hG, (heps _).1, (heps _).1, (heps _).2, (heps _).2]
    unfold flatEps
    rw [if_pos (by linarith), if_neg (by linarith), show 2 - (q.z + (q.mMAX : ℝ) + 2) = -(q.z + q.mMAX) by ring]
    ring
  have hpos : 0 < (star i).theta := by
    rw [htheta]
    have := Real.rpow_lt_one_of_one_lt_of_neg hL (show -(q.z + (q.mMAX : ℝ)) < 0 by linarith)
    linarith
  have hdf : ∀ k, 0 < ((star i).df k).1 ∧ 0 < ((star i).df k).2 := by
    intro k
    rw [hstar]
    have := flatEps_lt hL hz0 k
    exact ⟨by dsimp only; linarith, by dsimp only; linarith⟩
  obtain ⟨up, un, hu, -, -⟩ := star_normalised _ _ _ _ i.z i.mMAX hpos fun k _ => ⟨(hdf k).1.le, (hdf k).2.le⟩
  have hu' : ∀ k ≤ q.mMAX, (star i).du k = (some (up k), some (un k)) ∧ 0 ≤ up k ∧ 0 ≤ un k ∧ up k * up k * (star i).theta = ((star i).df k).1 ∧
    un k * un k * (star i).theta = ((star i).df k).2 := hu
  have hE : ∀ k : ℕ, energyAt i i.fP (q.z + k + 1) = flatE q.Lambda (q.z + k + 1) ∧ energyAt i i.fN (q.z + k + 1) = flatE q.Lambda (q.z + k + 1) := by
    intro k
    have hk : (0 : ℝ) ≤ k := Nat.cast_nonneg k
    have : ∀ f, energyAt i f (q.z + k + 1) = flatE q.Lambda (q.z + k + 1) := by
      intro f
      unfold energyAt
      rw [if_pos (show i.band = flatBand from hf)]
      exact epsFlat_eq hL (by linarith)
    exact ⟨this _, this _⟩
  have hlen : ∀ f : ℕ → Option ℝ, ((List.range (q.mMAX + 1)).map f).length = q.mMAX + 1 := fun f => by simp
  have hget : ∀ (f : ℕ → Option ℝ) k, k ≤ q.mMAX → ((List.range (q.mMAX + 1)).map f).getD k none = f k := by
    intro f k hk
    rw [List.getD_eq_getElem?_getD, List.getElem?_map, List.getElem?_range (by omega)]
    rfl
  have hb : ∃ b, bathOf (withTables i) = .ok b := by
    unfold bathOf
    have e1 : (withTables i).deP = (List.range (q.mMAX + 1)).map fun m : ℕ => some (energyAt i i.fP (i.z + m + 1)) := rfl
    have e2 : (withTables i).deN = (List.range (q.mMAX + 1)).map fun m : ℕ => some (energyAt i i.fN (i.z + m + 1)) := rfl
    have e3 : (withTables i).duP = (List.range (q.mMAX + 1)).map fun m : ℕ => ((star i).du m).1 := rfl
    have e4 : (withTables i).duN = (List.range (q.mMAX + 1)).map fun m : ℕ => ((star i).du m).2 := rfl
    have e5 : (withTables i).mMAX = q.mMAX := rfl
    rw [if_neg, if_neg]
    · exact ⟨_, rfl⟩
    · rintro ⟨k, hk, h⟩
      rw [e5] at hk
      rw [e1, e2, e3, e4, hget _ k hk, hget _ k hk, hget _ k hk, hget _ k hk, (hu' k hk).1] at h
      simp at h
    · rw [e1, e2, e3, e4, e5, hlen, hlen, hlen, hlen]
      omega
  obtain ⟨b, hb⟩ := hb
  obtain ⟨hbM, hent⟩ := bathOf_ok hb
  refine ⟨withTables i, thetaOps W (star i).theta ++ (if i.save then saveTables W (withTables i) else []), ?_, ⟨rfl, rfl, rfl, rfl, rfl, rfl, rfl, rfl, rfl⟩, rfl, htheta, b, hb, hbM, fun k hk => ?_⟩
  · rw [run_eq, hq]
    dsimp only
    rw [show (applyMode .calculate q) = q from rfl, if_neg (by rw [hl]; simp), calc_eq, hload]
    rfl
  · obtain ⟨g1, g2, g3, g4⟩ := hent k hk
    have get : ∀ (f : ℕ → Option ℝ), ((List.range (q.mMAX + 1)).map f)[k]? = some (f k) := by
      intro f
      rw [List.getElem?_map, List.getElem?_range (by omega)]
      rfl
    have e1 := Option.some.inj (Option.some.inj ((get fun m : ℕ => some (energyAt i i.fP (q.z + m + 1))).symm.trans g1))
    have e2 := Option.some.inj (Option.some.inj ((get fun m : ℕ => some (energyAt i i.fN (q.z + m + 1))).symm.trans g2))
    have e3 := Option.some.inj ((get fun m : ℕ => ((star i).du m).1).symm.trans g3)
    have e4 := Option.some.inj ((get fun m : ℕ => ((star i).du m).2).symm.trans g4)
    obtain ⟨u1, u2, u3, u4, u5⟩ := hu' k hk
    rw [u1] at e3 e4
    have e3' := Option.some.inj e3
    have e4' := Option.some.inj e4
    rw [e3'] at u2 u4
    rw [e4'] at u3 u5
    have hd := hdf k
    have eqd : ((star i).df k).2 = ((star i).df k).1 := by rw [hstar k]
    have hpk : 0 < b.u0.p k := by
      rcases u2.lt_or_eq with h | h
      · exact h
      · rw [← h] at u4; simp at u4; linarith [hd.1]
    refine ⟨by rw [← e1]; exact (hE k).1, by rw [← e2]; exact (hE k).2, hpk, ?_, ?_⟩
    · have : b.u0.m k * b.u0.m k = b.u0.p k * b.u0.p k := by
        apply mul_right_cancel₀ hpos.ne'
        rw [u4, u5, eqd]
      nlinarith [mul_self_eq_mul_self_iff.mp this, mul_self_eq_mul_self_iff.mp this |>.elim id fun h => by linarith]
    · rw [← htheta, u4, hstar k]

theorem flat_card {b : Bath} {L z : ℝ} (hL : 1 < L) (h0 : 0 < z) (h1 : z ≤ 1)
    (h : ∀ k ≤ b.M, b.ep k = flatE L (z + k + 1) ∧ b.em k = flatE L (z + k + 1) ∧ 0 < b.u0.p k ∧ b.u0.m k = b.u0.p k) : (energies b).card = 2 * (b.M + 1) := by
  have inj : Function.Injective fun k : ℕ => flatE L (z + k + 1) := (flatE_anti hL h0 h1).injective
  have f1 : (Finset.range (b.M + 1)).filter (fun k => b.u0.p k ≠ 0) = Finset.range (b.M + 1) := by
    refine Finset.filter_true_of_mem fun k hk => (h k (by simpa [Nat.lt_succ_iff] using hk)).2.2.1.ne'
  have f2 : (Finset.range (b.M + 1)).filter (fun k => b.u0.m k ≠ 0) = Finset.range (b.M + 1) := by
    refine Finset.filter_true_of_mem fun k hk => ?_
    have := h k (by simpa [Nat.lt_succ_iff] using hk)
    rw [this.2.2.2]
    exact this.2.2.1.ne'
  have g1 : (Finset.range (b.M + 1)).image b.ep = (Finset.range (b.M + 1)).image fun k : ℕ => flatE L (z + k + 1) :=
    Finset.image_congr fun k hk => (h k (by simpa [Nat.lt_succ_iff] using hk)).1
  have g2 : ((Finset.range (b.M + 1)).image fun k => - b.em k) = (Finset.range (b.M + 1)).image fun k : ℕ => - flatE L (z + k + 1) :=
    Finset.image_congr fun k hk => by change - b.em k = - flatE L (z + k + 1); rw [(h k (by simpa [Nat.lt_succ_iff] using hk)).2.1]
  have e : energies b = (Finset.range (b.M + 1)).image (fun k : ℕ => flatE L (z + k + 1)) ∪ (Finset.range (b.M + 1)).image fun k : ℕ => - flatE L (z + k + 1) := by
    unfold energies
    rw [← g1, ← g2]
    congr 1
    · congr 1
    · congr 1
  rw [e, Finset.card_union_of_disjoint, Finset.card_image_of_injective _ inj, Finset.card_image_of_injective _ fun a c hac => inj (neg_injective hac)]
  · simp; ring
  · rw [Finset.disjoint_left]
    intro x hx hy
    obtain ⟨a, -, rfl⟩ := Finset.mem_image.mp hx
    obtain ⟨c, -, hc⟩ := Finset.mem_image.mp hy
    have := flatE_pos hL h0 h1 a
    have := flatE_pos hL h0 h1 c
    linarith

/-- **C97.** The flat band: a chain that is no longer than the star allows is computed, without on-site energies; a longer one is refused. -/
theorem flat_band (hq : setParameters W { reset s with params := p } = .ok q) (hf : q.band = "flat".toList) (ha : q.adapt = false) (hl : q.load = false)
    (ht : q.tri = true) :
    (q.Nmax + 1 < 2 * (q.mMAX + 1) → ∃ ops c, fromParams W fs p .calculate s = (ops, .ok c) ∧ c.theta = 1 - q.Lambda ^ (-(q.z + q.mMAX)) ∧
      c.zeta = List.replicate (q.Nmax + 1) 0) ∧
    (2 * (q.mMAX + 1) ≤ q.Nmax + 1 → (fromParams W fs p .calculate s).2 = .error .exit) := by
  obtain ⟨hL, hz0, hz1, hM0⟩ : 1 < q.Lambda ∧ 0 < q.z ∧ q.z ≤ 1 ∧ 0 < q.mMAX := by
    obtain ⟨L, z, a, b, r, x, N, M, c, bd, sv, ld, tr, rfl, k⟩ := setParameters_form hq
    exact k
  obtain ⟨r, o1, hrun, hsame, htri, hth, b, hb, hbM, hent⟩ := flat_stage (fs := fs) hq hf ha hl
  rw [htri, ht, if_pos rfl] at hrun
  have hcard : (energies b).card = 2 * (q.mMAX + 1) := by
    rw [flat_card hL hz0 hz1 fun k hk => ?_, hbM]
    obtain ⟨k1, k2, k3, k4, -⟩ := hent k (by omega)
    exact ⟨k1, k2, k3, k4⟩
  obtain ⟨vx, vz, hlen, htops, hres⟩ := tridiag_spec W r
  have hlanc := chain_length b
  constructor
  · intro hN
    rcases hres with ⟨⟨b', l, hb', hl', hx, hz⟩, hres⟩ | ⟨e, hres, hcase⟩
    · refine ⟨o1 ++ (tridiag W r).1, ({ r with xi := vx, zeta := vz } : State).channel, ?_, hth, ?_⟩
      · unfold fromParams
        rw [hrun, hres, bind_of_ok]
        simp
      · obtain ⟨b2, hb2, -, u, xi, zeta, k1, k2, k3, -, k5⟩ := tridiag_chain hsame hres
        rw [hb] at hb2
        cases hb2
        rw [k5]
        have := symmetric_zeta k1 (fun k hk => by obtain ⟨a1, a2, -⟩ := hent k (by omega); rw [a1, a2]) (fun k hk => by
          have hk3 := k3 k
          have := (hent k (by omega)).2.2.2.1
          rw [← hk3.1, ← hk3.2] at this
          exact mul_right_cancel₀ (Real.sqrt_pos.mpr k2).ne' this)
        apply List.ext_getElem
        · simp
        · intro n h1 h2
          simp only [List.getElem_map, List.getElem_range, List.getElem_replicate]
          rw [this n (by simpa using h1), zero_mul]
    · exfalso
      rcases hcase with ⟨-, h⟩ | ⟨-, b', e', hb', he', -⟩ | ⟨b', l, e', hb', -, -, -, hle, he', -⟩
      · rw [hb] at h; cases h
      · rw [hb] at hb'
        cases hb'
        obtain ⟨x, hx⟩ := (hlanc 0).mpr (by omega)
        rw [hx] at he'
        cases he'
      · rw [hb] at hb'
        cases hb'
        rw [hsame.Nmax] at hle
        obtain ⟨x, hx⟩ := (hlanc (vx.length + 1)).mpr (by omega)
        rw [hx] at he'
        cases he'
  · intro hN
    rw [(call_ops W fs p .calculate s).2, hrun]
    dsimp only
    have hpos : 0 < dot b.M b.u0 b.u0 := by
      have h0 := (hent 0 (Nat.zero_le _)).2.2.1
      rcases (dot_self_nonneg b.M b.u0).lt_or_eq with h | h
      · exact h
      · have := (dot_self_zero b.M b.u0 h.symm 0 (Nat.zero_le _)).1
        linarith
    rcases hres with ⟨⟨b', l, hb', hl', hx, hz⟩, hres⟩ | ⟨e, hres, hcase⟩
    · exfalso
      rw [hb] at hb'
      cases hb'
      have := (hlanc (r.Nmax + 1)).mp ⟨l, hl'⟩
      rw [hsame.Nmax] at this
      omega
    · rw [hres]
      rcases hcase with ⟨-, h⟩ | ⟨-, b', e', hb', he', rfl⟩ | ⟨b', l, e', hb', -, -, -, hle, he', rfl⟩
      · rw [hb] at h; cases h
      · rw [hb] at hb'
        cases hb'
        rw [chain_stop b hpos _ _ he']
        rfl
      · rw [hb] at hb'
        cases hb'
        rw [chain_stop b hpos _ _ he']
        rfl

end Verif.NrgChain
