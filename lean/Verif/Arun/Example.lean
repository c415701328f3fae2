import Verif.Arun.Flow
import Mathlib.Analysis.Complex.ExponentialBounds
/-!
# Runs of `adapt` for a flat band
-/

namespace Verif.Arun
open Verif.Tools Verif.Text Verif.Param Verif.Adapt
open Verif.NrgChain (World FS Op after)
open scoped Classical

variable {S : Type}

/-- The last round of the subdivision: the estimate of the error decides. -/
theorem attempt_last {F : Rhs ℝ S} {R : ℝ → ℝ → ℝ} {I : S → Prop} (h : Agrees F R I) {s : S} (hs : I s) (mc : Int) (x y dx me : ℝ) :
    ∃ e me' s', 0 ≤ e ∧ I s' ∧ ∀ al, attempt F al mc x y none dx me s =
      if al < e then .ok ⟨dx, rk R x y dx, me', s'⟩ else if mc < 1 then .error .noSub else .ok ⟨dx, rk R x y dx, me', s'⟩ := by
  obtain ⟨s1, a1, i1⟩ := rk_agrees h (h.clear s hs) x y dx
  obtain ⟨dh, s2, a2, i2⟩ := heun_agrees h i1 x y dx
  refine ⟨|dh - rk R x y dx|, max me |dh - rk R x y dx|, s2, abs_nonneg _, i2, fun al => ?_⟩
  unfold attempt
  rw [a1]
  dsimp only
  rw [a2]
  cases F.flag s1 <;> dsimp only <;> cases F.flag s2 <;> rfl

/-- The world of the example: `a` is the value of the word `a`, and `m` that of `m`. -/
noncomputable def exW (a m : ℝ) : World where
  atof t := if t = "4".toList then some 4 else if t = "2".toList then some 2 else if t = "1".toList then some 1 else if t = "m".toList then some m else some a
  atoi _ := 0
  fmt _ _ := "1".toList

/-- The parameters of the example, with the end `xmax`. -/
noncomputable def exQ (a m xmax : ℝ) : Settings where
  Lambda := 4
  par := ⟨lam 4, a, 0, xmax, 5, 1, 1, 1 / 10 ^ 4, m⟩
  adapt := false
  loadg := false
  boundary := none
  bandrescale := 1
  eps := 1 / 10 ^ 4
  factor0 := 1 + 1 / 10 ^ 7
  maxIter := 10
  dos := "Delta.dat".toList

def exText : Str := "[param]\nLambda=4\nxmax=2\noutputstep=1\ndx_fine=1\nmax_subdiv=0\nallowed_error=a\nmax_abs=m\n".toList
def exLong : Str := "[param]\nLambda=4\noutputstep=1\ndx_fine=1\nmax_subdiv=0\nallowed_error=a\nmax_abs=m\n".toList

theorem real_none (W : World) {m : Map} {k : String} {d : ℝ} (h : m.get k.toList = none) : W.real m k d = some d := by
  unfold World.real
  rw [h]

theorem real_some (W : World) {m : Map} {k : String} {d : ℝ} {v : Str} (h : m.get k.toList = some v) : W.real m k d = W.atof v := by
  unfold World.real
  rw [h]

def exMap : Map := toolParams exText "param".toList
def exMapL : Map := toolParams exLong "param".toList

theorem ex_vals (a m : ℝ) : (exW a m).atof "4".toList = some 4 ∧ (exW a m).atof "2".toList = some 2 ∧ (exW a m).atof "1".toList = some 1 ∧
    (exW a m).atof "m".toList = some m ∧ (exW a m).atof "a".toList = some a := by
  unfold exW
  refine ⟨?_, ?_, ?_, ?_, ?_⟩ <;> dsimp only
  · rw [if_pos rfl]
  · rw [if_neg (by decide), if_pos rfl]
  · rw [if_neg (by decide), if_neg (by decide), if_pos rfl]
  · rw [if_neg (by decide), if_neg (by decide), if_neg (by decide), if_pos rfl]
  · rw [if_neg (by decide), if_neg (by decide), if_neg (by decide), if_neg (by decide)]

theorem ex_settings {a m : ℝ} (hm : 0 < m) : settings (exW a m) exMap = .ok (exQ a m 2) ∧ settings (exW a m) exMapL = .ok (exQ a m 30) := by
  obtain ⟨h4, h2, h1, hvm, hva⟩ := ex_vals a m
  have key : ∀ x : ℝ, 1 < x → paramsOK (exQ a m x).Lambda (1 / 2 ^ 52) (exQ a m x).par = true := by
    intro x hx
    unfold paramsOK exQ
    simp only [Bool.and_eq_true, decide_eq_true_eq]
    exact ⟨⟨⟨⟨⟨by norm_num, hx⟩, by norm_num⟩, by norm_num⟩, by norm_num⟩, hm⟩
  have r1 : readSettings (exW a m) exMap = some (exQ a m 2) := by
    unfold readSettings
    rw [real_some _ (k := "Lambda") (v := "4".toList) (by decide +kernel), real_none _ (k := "boundary") (by decide +kernel), real_none _ (k := "bandrescale") (by decide +kernel),
      real_some _ (k := "xmax") (v := "2".toList) (by decide +kernel), real_none _ (k := "xfine") (by decide +kernel), real_some _ (k := "outputstep") (v := "1".toList) (by decide +kernel),
      real_some _ (k := "dx_fine") (v := "1".toList) (by decide +kernel), real_none _ (k := "dx_fast") (by decide +kernel), real_some _ (k := "allowed_error") (v := "a".toList) (by decide +kernel),
      real_some _ (k := "max_abs") (v := "m".toList) (by decide +kernel), real_none _ (k := "secant_eps") (by decide +kernel), real_none _ (k := "secant_factor") (by decide +kernel),
      h4, h2, h1, hvm, hva, show toolBool exMap "adapt".toList false = false by decide +kernel, show toolBool exMap "loadg".toList false = false by decide +kernel,
      show toolBool exMap "hardgap".toList false = false by decide +kernel, show int (exW a m) exMap "secant_max_iter" 10 = 10 by
        unfold int; rw [show exMap.get "secant_max_iter".toList = none by decide +kernel],
      show int (exW a m) exMap "max_subdiv" 10 = 0 by unfold int; rw [show exMap.get "max_subdiv".toList = some "0".toList by decide +kernel]; rfl,
      show NrgChain.str exMap "dos" "Delta.dat".toList = "Delta.dat".toList by decide +kernel]
    rfl
  have r2 : readSettings (exW a m) exMapL = some (exQ a m 30) := by
    unfold readSettings
    rw [real_some _ (k := "Lambda") (v := "4".toList) (by decide +kernel), real_none _ (k := "boundary") (by decide +kernel), real_none _ (k := "bandrescale") (by decide +kernel),
      real_none _ (k := "xmax") (by decide +kernel), real_none _ (k := "xfine") (by decide +kernel), real_some _ (k := "outputstep") (v := "1".toList) (by decide +kernel),
      real_some _ (k := "dx_fine") (v := "1".toList) (by decide +kernel), real_none _ (k := "dx_fast") (by decide +kernel), real_some _ (k := "allowed_error") (v := "a".toList) (by decide +kernel),
      real_some _ (k := "max_abs") (v := "m".toList) (by decide +kernel), real_none _ (k := "secant_eps") (by decide +kernel), real_none _ (k := "secant_factor") (by decide +kernel),
      h4, h1, hvm, hva, show toolBool exMapL "adapt".toList false = false by decide +kernel, show toolBool exMapL "loadg".toList false = false by decide +kernel,
      show toolBool exMapL "hardgap".toList false = false by decide +kernel, show int (exW a m) exMapL "secant_max_iter" 10 = 10 by
        unfold int; rw [show exMapL.get "secant_max_iter".toList = none by decide +kernel],
      show int (exW a m) exMapL "max_subdiv" 10 = 0 by unfold int; rw [show exMapL.get "max_subdiv".toList = some "0".toList by decide +kernel]; rfl,
      show NrgChain.str exMapL "dos" "Delta.dat".toList = "Delta.dat".toList by decide +kernel]
    rfl
  unfold settings
  rw [r1, r2]
  exact ⟨if_pos (key 2 (by norm_num)), if_pos (key 30 (by norm_num))⟩

/-- The table of the flat band. -/
theorem ex_rho : ∃ r : Tab ℝ × Tab ℝ, ∀ (W : World) (fs : FS) (a m x : ℝ), loadRho W fs (exQ a m x) .pos (some 1) = .ok r := by
  refine ⟨⟨[(1 / 10 ^ 99 * (1 / 1), 1 * 1), (1 / 10000000000 * (1 / 1), 1 * 1), (1 * (1 / 1), 1 * 1)], (trapez [((1 : ℝ) / 10 ^ 99 * (1 / 1), (1 : ℝ) * 1), (1 / 10000000000 * (1 / 1), 1 * 1), (1 * (1 / 1), 1 * 1)]).get!.1⟩, fun W fs a m x => ?_⟩
  have hst : sideTable W fs (exQ a m x) .pos (some 1) = .ok [(1 / 10000000000, 1), (1, 1)] := by
    unfold sideTable flatRho
    dsimp only
    rw [if_pos one_pos]
  unfold loadRho
  rw [hst]
  dsimp only
  rw [if_neg (by unfold exQ; norm_num)]
  unfold initRho addZeroPoint
  dsimp only
  rw [if_pos (by norm_num)]
  simp only [rescaleXY, List.map, exQ, trapez]
  rw [if_pos]
  · rfl
  refine ⟨by simp, fun i hi => ?_⟩
  have : i = 0 ∨ i = 1 := by simp at hi; omega
  rcases this with rfl | rfl
  · change (1 : ℝ) / 10 ^ 99 * (1 / 1) < 1 / 10000000000 * (1 / 1)
    norm_num
  · change (1 : ℝ) / 10000000000 * (1 / 1) < 1 * (1 / 1)
    norm_num

/-- The equation for the energies of a flat band with `Λ = 4`. -/
theorem ex_eq (y : ℝ) : energyEq 4 (fun _ => 1) (meshFn 4 (fun _ => 1) 0) 1 y = Real.log 4 * y ∧
    energyEq 4 (fun _ => 1) (meshFn 4 (fun _ => 1) 0) (1 + 1 / 2) y = Real.log 4 * y - 1 / 4 ∧
    energyEq 4 (fun _ => 1) (meshFn 4 (fun _ => 1) 0) (1 + 1) y = Real.log 4 * y - 3 / 4 := by
  have p1 : (4 : ℝ) ^ (1 / 2 : ℝ) = 2 := by
    rw [show (4 : ℝ) = 2 ^ (2 : ℝ) by norm_num, ← Real.rpow_mul (by norm_num)]
    norm_num
  have p2 : (4 : ℝ) ^ (-(1 / 2) : ℝ) = 1 / 2 := by rw [Real.rpow_neg (by norm_num), p1]; norm_num
  have p3 : (4 : ℝ) ^ (-1 : ℝ) = 1 / 4 := by rw [Real.rpow_neg (by norm_num), Real.rpow_one]; norm_num
  have m1 : ∀ x : ℝ, x ≤ 2 → meshFn 4 (fun _ => 1) 0 x = 1 := fun x hx => by unfold meshFn; rw [if_pos hx]; norm_num
  have m2 : ∀ x : ℝ, 2 < x → meshFn 4 (fun _ => 1) 0 x = 4 ^ (2 - x) := fun x hx => by unfold meshFn; rw [if_neg (not_le.mpr hx)]; norm_num
  unfold energyEq
  simp only [mul_one, intervalIntegral.integral_const, smul_eq_mul]
  refine ⟨?_, ?_, ?_⟩
  · rw [m1 (1 + 1) (by norm_num), m1 1 (by norm_num)]
    simp
  · rw [m1 (1 + 1 / 2) (by norm_num), m2 (1 + 1 / 2 + 1) (by norm_num), show (2 : ℝ) - (1 + 1 / 2 + 1) = -(1 / 2) by norm_num, show (2 : ℝ) - (1 + 1 / 2) = 1 / 2 by norm_num, p1, p2]
    norm_num
  · rw [m1 (1 + 1) (by norm_num), m2 (1 + 1 + 1) (by norm_num), show (2 : ℝ) - (1 + 1 + 1) = -1 by norm_num, show (2 : ℝ) - (1 + 1) = 0 by norm_num, p3, Real.rpow_zero]
    norm_num

/-- One step of length 1. -/
theorem ex_step : 0 < rk (energyEq 4 (fun _ => 1) (meshFn 4 (fun _ => 1) 0)) 1 (1 / 4) 1 ∧
    rk (energyEq 4 (fun _ => 1) (meshFn 4 (fun _ => 1) 0)) 1 (1 / 4) 1 ≤ 1 / 4 * Real.log 4 := by
  have hl : Real.log 4 = 2 * Real.log 2 := by
    rw [show (4 : ℝ) = 2 ^ 2 by norm_num, Real.log_pow]
    norm_num
  have b1 : (1.386 : ℝ) < Real.log 4 := by rw [hl]; linarith [Real.log_two_gt_d9]
  have b2 : Real.log 4 < 1.387 := by rw [hl]; linarith [Real.log_two_lt_d9]
  unfold rk
  simp only [(ex_eq _).1, (ex_eq _).2.1, (ex_eq _).2.2, one_mul]
  generalize Real.log 4 = l at b1 b2 ⊢
  have l0 : 0 < l := by linarith
  obtain ⟨k1, e1⟩ : ∃ k, k = l * (1 / 4) := ⟨_, rfl⟩
  obtain ⟨k2, e2⟩ : ∃ k, k = l * (1 / 4 + k1 / 2) - 1 / 4 := ⟨_, rfl⟩
  obtain ⟨k3, e3⟩ : ∃ k, k = l * (1 / 4 + k2 / 2) - 1 / 4 := ⟨_, rfl⟩
  obtain ⟨k4, e4⟩ : ∃ k, k = l * (1 / 4 + k3) - 3 / 4 := ⟨_, rfl⟩
  rw [← e1, ← e2, ← e3, ← e4]
  have k1a : 0.3465 ≤ k1 := by rw [e1]; linarith
  have k1b : k1 ≤ 0.34675 := by rw [e1]; linarith
  have k2a : 0.336 ≤ k2 := by rw [e2]; nlinarith
  have k2b : k2 ≤ 0.338 := by rw [e2]; nlinarith
  have k3a : 0.329 ≤ k3 := by rw [e3]; nlinarith
  have k3b : k3 ≤ 0.332 := by rw [e3]; nlinarith
  have k4a : 0.05 ≤ k4 := by rw [e4]; nlinarith
  have k4b : k4 ≤ 0.06 := by rw [e4]; nlinarith
  exact ⟨by linarith, by linarith⟩

/-- The first value. -/
noncomputable def exY : ℝ := 1 / 4 + rk (energyEq 4 (fun _ => 1) (meshFn 4 (fun _ => 1) 0)) 1 (1 / 4) 1

theorem ex_calcF : ∃ r : Tab ℝ × Tab ℝ, ∃ e : ℝ, (∀ (W : World) (fs : FS) (a m x : ℝ), loadRho W fs (exQ a m x) .pos (some 1) = .ok r) ∧ 0 ≤ e ∧ ∃ s s1 : LinState ℝ, 
    linEval r.1 fresh 1 = some (1, s) ∧ linEval r.1 s 1 = some (1, s1) ∧ ∃ fin, ∀ a m x k, 
    (a < e → (2 ≤ x ∨ m < exY) → (x ≤ 2 ∨ m < exY) → calcF (exQ a m x).par (rhsF (lam 4) ⟨none, none⟩ r.1 r.2) 4 ⟨s1, fresh, fresh, fresh⟩ (k + 1) = .done [(1, 1 / 4), (2, exY)] fin) ∧
    (e ≤ a → calcF (exQ a m x).par (rhsF (lam 4) ⟨none, none⟩ r.1 r.2) 4 ⟨s1, fresh, fresh, fresh⟩ (k + 1) = .fail [(1, 1 / 4)] .noSub) := by
  obtain ⟨r, hr⟩ := ex_rho
  obtain ⟨hg, ⟨total, hti⟩, hyb⟩ := loadRho_ok (hr (exW 0 0) (fun _ => none) 0 0 0)
  obtain ⟨ρ, hρ⟩ := interp_exists hg
  have hc : ρ = fun _ => 1 := by
    funext w
    rw [((hyb ρ hρ).const 1 rfl).2 w]
    norm_num [exQ]
  subst hc
  obtain ⟨v, s, a1, v1, i1⟩ := linEval_spec hg (inv_fresh r.1) 1
  obtain ⟨v', s1, a2, v2, i2⟩ := linEval_spec hg i1 1
  rw [v1.unique hg (hρ 1)] at a1
  rw [v2.unique hg (hρ 1)] at a2
  have hA := agreesF (Λ := 4) (m := ⟨none, none⟩) (g := fun _ => 1) (b := 0) ⟨fun _ => rfl, rfl⟩ hg hti hρ
  obtain ⟨e, me, s2, e0, i3, hat⟩ := attempt_last hA (s := ⟨s1, fresh, fresh, fresh⟩) ⟨i2, fun t _ => inv_fresh t, inv_fresh _, inv_fresh _⟩ 0 1 (1 / 4) 1 0
  obtain ⟨-, hb⟩ := ex_step
  refine ⟨r, e, hr, e0, s, s1, a1, a2, ⟨2, exY, me, s2⟩, fun a m x k => ⟨fun ha hx hx' => ?_, fun ha => ?_⟩⟩
  · have ht : timestep (exQ a m x).par (rhsF (lam 4) ⟨none, none⟩ r.1 r.2) true 1 ⟨1, 1 / 4, 0, ⟨s1, fresh, fresh, fresh⟩⟩ = .ok ⟨2, exY, me, s2⟩ := by
      have h1 := hat a
      rw [if_pos ha] at h1
      have h2 : tryStep (rhsF (lam 4) ⟨none, none⟩ r.1 r.2) (exQ a m x).par.allowed (2 * (exQ a m x).par.maxSubdiv) 1 (1 / 4) (exQ a m x).par.maxSubdiv.toNat 1 0 ⟨s1, fresh, fresh, fresh⟩ = _ := h1
      unfold timestep
      dsimp only
      rw [h2]
      dsimp only
      rw [if_neg]
      · unfold exY
        norm_num
      · rintro ⟨-, h⟩
        change 1 / 100000 < rk _ 1 (1 / 4) 1 / 1 - 1 / 4 * Real.log 4 at h
        rw [div_one] at h
        linarith
    have hi : ∀ c, intTo (exQ a m x).par (rhsF (lam 4) ⟨none, none⟩ r.1 r.2) true 1 2 (c + 1) ⟨1, 1 / 4, 0, ⟨s1, fresh, fresh, fresh⟩⟩ = .ok ⟨2, exY, me, s2⟩ := by
      intro c
      unfold intTo
      dsimp only
      rw [if_neg (by norm_num), show (2 : ℝ) - 1 = 1 by norm_num, ht]
      dsimp only
      rw [if_neg (by norm_num)]
    have hro : Adapt.round (exQ a m x).par (rhsF (lam 4) ⟨none, none⟩ r.1 r.2) true ⟨⟨1, 1 / 4, 0, ⟨s1, fresh, fresh, fresh⟩⟩, 1, 1⟩ = .ok ⟨⟨2, exY, me, s2⟩, 1, 2⟩ := by
      unfold Adapt.round
      dsimp only
      have e2 : (1 : ℝ) + (exQ a m x).par.outputStep = 2 := by change (1 : ℝ) + 1 = 2; norm_num
      rw [e2, show maxCnt = 999999 + 1 from rfl, hi]
      dsimp only
      rw [if_neg (by change ¬ (5 : ℝ) < 2; norm_num)]
    unfold calcF loop
    have hro' : Adapt.round (exQ a m x).par (rhsF (lam 4) ⟨none, none⟩ r.1 r.2) true ⟨⟨1, 1 / 4, 0, ⟨s1, fresh, fresh, fresh⟩⟩, (exQ a m x).par.dxFine, 1⟩ = .ok ⟨⟨2, exY, me, s2⟩, 1, 2⟩ := hro
    rw [hro']
    dsimp only
    rw [if_neg]
    · rfl
    · rw [Bool.and_eq_true, decide_eq_true_eq, decide_eq_true_eq]
      rintro ⟨h1, h2⟩
      change (2 : ℝ) < x at h1
      change |exY| ≤ m at h2
      have h3 := le_abs_self exY
      rcases hx' with h | h <;> linarith
  · have ht : timestep (exQ a m x).par (rhsF (lam 4) ⟨none, none⟩ r.1 r.2) true 1 ⟨1, 1 / 4, 0, ⟨s1, fresh, fresh, fresh⟩⟩ = .error .noSub := by
      have h1 := hat a
      rw [if_neg (not_lt.mpr ha), if_pos (by decide)] at h1
      have h2 : tryStep (rhsF (lam 4) ⟨none, none⟩ r.1 r.2) (exQ a m x).par.allowed (2 * (exQ a m x).par.maxSubdiv) 1 (1 / 4) (exQ a m x).par.maxSubdiv.toNat 1 0 ⟨s1, fresh, fresh, fresh⟩ = _ := h1
      unfold timestep
      dsimp only
      rw [h2]
    have hro : Adapt.round (exQ a m x).par (rhsF (lam 4) ⟨none, none⟩ r.1 r.2) true ⟨⟨1, 1 / 4, 0, ⟨s1, fresh, fresh, fresh⟩⟩, (exQ a m x).par.dxFine, 1⟩ = .error .noSub := by
      unfold Adapt.round
      dsimp only
      have e2 : (1 : ℝ) + (exQ a m x).par.outputStep = 2 := by change (1 : ℝ) + 1 = 2; norm_num
      have e3 : (exQ a m x).par.dxFine = 1 := rfl
      rw [e2, e3]
      unfold intTo
      dsimp only
      rw [if_neg (by norm_num), show (2 : ℝ) - 1 = 1 by norm_num, ht]
    unfold calcF loop
    rw [hro]

theorem flat_cmd {num : Str → Option ℝ} (h1 : num "1".toList = some 1) : cmdLine num ["--flat=1".toList] = .ok ⟨.pos, "param".toList, some 1⟩ := by
  unfold cmdLine cmdLoop
  rw [if_neg (by decide), if_neg (by decide), if_pos (by decide), if_neg (by decide), show List.drop 7 "--flat=1".toList = "1".toList by decide, h1]
  rfl

theorem flat_run {W : World} {num : Str → Option ℝ} {fs : FS} {text : Str} {q : Settings} {r : Tab ℝ × Tab ℝ} {s : LinState ℝ} {n : ℕ} (h1 : num "1".toList = some 1)
    (hf : fs "param".toList = some text) (hq : settings W (toolParams text "param".toList) = .ok q) (ha : q.adapt = false) (hr : loadRho W fs q .pos (some 1) = .ok r)
    (hs : linEval r.1 fresh 1 = some (1, s)) :
    program W num fs n ["--flat=1".toList] = ((energies W n q .pos r.1 r.2 none s).1, exitOf (energies W n q .pos r.1 r.2 none s).2) := by
  have hc := flat_cmd h1
  unfold program
  rw [hc]
  dsimp only
  rw [hf]
  dsimp only
  unfold run
  rw [hq, bind_lift, hr, bind_lift, hs]
  dsimp only
  have hm : mesh W fs n q .pos r.1 s = lift (.ok (none, s)) := by
    unfold mesh
    rw [if_pos ha]
    rfl
  rw [hm, bind_lift]

end Verif.Arun
