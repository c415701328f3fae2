import Verif.Hrun.Value
import Verif.Cmd.Props
/-!
# The program `hilb`: C124
-/

namespace Verif.Hrun
open Verif.Text
open Verif.DataFile
open Verif.Table (Dec.value pairLE)
open Verif.Cmd
open Verif.Tools.Hilb

/-- **C124.** A file with numbers is taken as a density of states exactly if it has at least three points with different abscissae; they are put in order. -/
theorem loadDos_spec {pre : Str} {items : List Item} (hp : Blank pre) (h : Items items) (l : List (ℚ × ℚ)) :
    loadDos (numText pre items) = .ok l ↔ Usable (rows2 (nums items)) ∧ Ordered (rows2 (nums items)) l := by
  have e : dosLoop ((numText pre items).length + 1) (numText pre items) = rows2 (nums items) := by
    have := dosLoop_items ((numText pre items).length + 1) (l := items) (r := []) (pre := pre) (by
      have := length_items h
      simp only [numText, List.length_append, itemsText] at *
      omega) hp h (stops_nil _)
    simpa [numText, itemsText] using this
  unfold loadDos
  rw [e]
  generalize rows2 (nums items) = pts
  have hperm := List.perm_insertionSort pairLE pts
  constructor
  · intro hl
    split at hl
    · simp at hl
    · rename_i a t ht
      split_ifs at hl with h1 h2 h3
      rw [increasing_iff] at h3
      have hl' : a :: t = l := by simpa using hl
      rw [ht] at hperm
      refine ⟨⟨by rw [← hperm.length_eq]; omega, ?_⟩, hl' ▸ hperm, hl' ▸ h3⟩
      rw [← (hperm.map Prod.fst).nodup_iff, List.Nodup, List.pairwise_map]
      exact h3.imp fun h => ne_of_lt h
  · rintro ⟨⟨h1, h2⟩, h3⟩
    rw [ordered_unique h3]
    have hlen : 3 ≤ l.length := by rw [h3.1.length_eq]; exact h1
    cases l with
    | nil => simp at hlen
    | cons a t =>
      simp only
      rw [if_pos (first_lt_last h3.2 (by omega)), if_neg (by omega), if_pos ((increasing_iff _).2 h3.2)]

theorem loadAll_spec {fs : Files} {dos : List Str} {d : Option (List (ℚ × ℚ))} (h : Loaded fs dos d) (d0 : Option (List (ℚ × ℚ))) :
    loadAll fs dos d0 = .ok (if dos = [] then d0 else d) := by
  obtain ⟨h1, h2⟩ := h
  induction dos generalizing d0 with
  | nil => rfl
  | cons f t ih =>
    obtain ⟨pts, ⟨pre, items, hf, hp, hi, rfl⟩, hu⟩ := h1 f (by simp)
    rw [loadAll, hf]
    simp only
    rw [(loadDos_spec hp hi _).2 ⟨hu, sorted_of hu.2⟩]
    simp only [reduceCtorEq, if_false]
    rcases h2 with h2 | ⟨g, pts, l, hg, ⟨pre', items', hg1, hp', hi', rfl⟩, ho, rfl⟩
    · simp at h2
    · cases t with
      | nil =>
        have : f = g := by simpa using hg
        subst this
        rw [hf] at hg1
        have e := Option.some.inj hg1
        rw [loadAll]
        have hu' : loadDos (numText pre items) = .ok l := by
          rw [e]
          refine (loadDos_spec hp' hi' l).2 ⟨?_, ho⟩
          have := ((loadDos_spec hp hi _).2 ⟨hu, sorted_of hu.2⟩)
          rw [e] at this
          exact ((loadDos_spec hp' hi' _).1 this).1
        rw [(loadDos_spec hp hi _).2 ⟨hu, sorted_of hu.2⟩] at hu'
        rw [Except.ok.inj hu']
      | cons f' t' =>
        rw [ih _ (fun q hq => h1 q (by simp [hq])) (.inr ⟨g, _, l, by simpa using hg, ⟨pre', items', hg1, hp', hi', rfl⟩, ho, rfl⟩)]
        simp

/-- The tables that are loaded are in increasing order. -/
theorem loaded_ordered {fs : Files} {dos : List Str} {pts : List (ℚ × ℚ)} (h : Loaded fs dos (some pts)) :
    3 ≤ pts.length ∧ pts.Pairwise fun a b => a.1 < b.1 := by
  obtain ⟨h1, ⟨-, h2⟩ | ⟨f, p, l, hf, hT, ho, e⟩⟩ := h
  · simp at h2
  · obtain ⟨p', hT', hu⟩ := h1 f (List.mem_of_getLast? hf)
    obtain ⟨pre, items, a1, a2, a3, rfl⟩ := hT
    obtain ⟨pre', items', b1, b2, b3, rfl⟩ := hT'
    have e' : pts = l := by simpa using e
    subst e'
    rw [a1] at b1
    have e1 := Option.some.inj b1
    have := (loadDos_spec b2 b3 _).2 ⟨hu, sorted_of hu.2⟩
    rw [← e1] at this
    have hu' := ((loadDos_spec a2 a3 _).1 this).1
    exact ⟨by rw [ho.1.length_eq]; exact hu'.1, ho.2⟩

/-- **C124.** The number computed for a point, for any density of states. -/
theorem hilbert_value {S : Spline} (hS : Contract S) {set : HilbSet} {d : Option (List (ℚ × ℚ))}
    (hd : ∀ pts, d = some pts → 3 ≤ pts.length ∧ pts.Pairwise fun a b => a.1 < b.1) {rho : ℝ → ℝ} {B : ℝ} (hr : Density S set d rho B) (x y : ℝ)
    (hy : (argument set x y).im ≠ 0) : ∃ g : ℂ, hilbert S d set x y = some (g.re, g.im) ∧ Approx rho B (argument set x y) g := by
  cases hr with
  | @circle D h hw hs =>
    have hD : (0 : ℝ) < D := by exact_mod_cast h
    obtain ⟨g, e, ha⟩ := transform_approx hD (semi_onBand hD) hy
    refine ⟨g, ?_, ha⟩
    unfold hilbert
    rw [hw, hs]
    simp only
    have e1 : semicircle ((1 / D : ℚ) : ℝ) = semi D := by
      funext w
      rw [← semicircle_eq hD]
      push_cast
      rfl
    rw [e1]
    exact e
  | @table pts lo hi rho h1 h2 hin hout =>
    obtain ⟨hl, hp⟩ := hd pts rfl
    have hreal : ∀ q : List (ℚ × ℚ), q.Pairwise (fun a b => a.1 < b.1) → (reals q).Pairwise fun a b => a.1 < b.1 := by
      intro q hq
      unfold reals
      rw [List.pairwise_map]
      exact hq.imp fun h => by simpa using h
    have hz : (pts.map fun p => (p.1, (0 : ℚ))).Pairwise fun a b => a.1 < b.1 := by
      rw [List.pairwise_map]; exact hp
    have hlt : lo.1 < hi.1 := by
      cases pts with
      | nil => simp at hl
      | cons a t =>
        have := first_lt_last hp (by omega)
        have e1 : a = lo := by simpa using h1
        have e2 : (a :: t).getLast (by simp) = hi := by
          rw [List.getLast?_eq_getLast_of_ne_nil (by simp)] at h2
          exact Option.some.inj h2
        rw [e2] at this
        rw [← e1]
        exact this
    have hlt' : (lo.1 : ℝ) < hi.1 := by exact_mod_cast hlt
    have hB : 0 < bandwidth (lo.1 : ℝ) hi.1 := by
      unfold bandwidth
      rcases lt_trichotomy (lo.1 : ℝ) 0 with h | h | h
      · exact lt_max_of_lt_left (abs_pos.2 h.ne)
      · exact lt_max_of_lt_right (abs_pos.2 (by linarith))
      · exact lt_max_of_lt_left (abs_pos.2 h.ne')
    have er : interpolated (S (reals pts)) lo.1 hi.1 = rho := by
      funext w
      unfold interpolated
      split_ifs with h
      · exact (hin w h.1 h.2).symm
      · refine (hout w ?_).symm
        by_contra hn
        push Not at hn
        exact h hn
    have e0 : interpolated (S (reals (pts.map fun p => (p.1, 0)))) lo.1 hi.1 = fun _ => 0 := by
      funext w
      unfold interpolated
      rw [hS.zero _ (by simpa [reals] using hl) (hreal _ hz) (by simp only [reals, List.map_map, List.mem_map]; rintro p ⟨q, _, rfl⟩; simp)]
      simp
    have hband := interpolated_onBand (S (reals pts)) (hS.cont _ (by simpa [reals] using hl) (hreal _ hp)) lo.1 hi.1
    rw [er] at hband
    obtain ⟨g, e, ha⟩ := transform_approx hB hband hy
    refine ⟨g, ?_, ha⟩
    unfold hilbert
    simp only [h1, h2, Option.getD_some]
    rw [er, e0]
    exact e

/-! ## The program -/

theorem any_mem {a b : List Str} (h : ∀ f ∈ a, f ∉ b) : a.any (fun f => decide (f ∈ b)) = false := by
  simpa [List.any_eq_false] using h

theorem trunc_not {fs : Files} {l : List Str} {f : Str} (h : f ∉ l) : trunc fs l f = fs f := if_neg h

theorem numText_eq (pre : Str) (items : List Item) : numText pre items = pre ++ (itemsText items ++ []) := by simp [numText, itemsText]

theorem loaded_none {fs : Files} {dos : List Str} {d : Option (List (ℚ × ℚ))} (h : Loaded fs dos d) : loadAll fs dos none = .ok d := by
  rw [loadAll_spec h none]
  split_ifs with hd
  · rcases h.2 with ⟨-, e⟩ | ⟨f, _, _, hf, _⟩
    · rw [e]
    · rw [hd] at hf; simp at hf
  · rfl

variable {S : Spline} {fs : Files} {l : Line} {d : Option (List (ℚ × ℚ))} {rho : ℝ → ℝ} {B : ℝ}

/-- **C124.** `hilb [options] <x> <y>`. -/
theorem hilb_one (hS : Contract S) (h : l.OK ['h', 'G', 'd', ':', 'v', 'V', 's', ':', 'B', ':', 'o', ':', 'x', ':', 'y', ':'])
    (h1 : given 'h' l.options = false) (h2 : given 'V' l.options = false) {x y : Lit} (hx : x.OK) (hy : y.OK) (ho : l.operands = [x.text, y.text])
    (hdo : ∀ f ∈ argsOf 'd' l.options, f ∉ argsOf 'o' l.options) (hd : Loaded fs (argsOf 'd' l.options) d) (hr : Density S (hilbOf l.options) d rho B)
    (him : (argument (hilbOf l.options) (Dec.value x.val : ℚ) (Dec.value y.val : ℚ)).im ≠ 0) :
    ∃ g, main S fs l.words = .ok (.one (argsOf 'o' l.options).getLast? (some (printed (given 'G' l.options) g))) ∧
      Approx rho B (argument (hilbOf l.options) (Dec.value x.val : ℚ) (Dec.value y.val : ℚ)) g := by
  obtain ⟨g, e, ha⟩ := hilbert_value hS (fun pts hp => loaded_ordered (hp ▸ hd)) hr _ _ him
  refine ⟨g, ?_, ha⟩
  unfold main
  rw [(hilb_command l h h1 h2 _).2 (.inr (.inl ⟨_, _, ho, rfl⟩))]
  simp only [work]
  rw [show (hilbOf l.options).dos = argsOf 'd' l.options from rfl, show (hilbOf l.options).outs = argsOf 'o' l.options from rfl, any_mem hdo, loaded_none hd]
  simp only [Bool.false_eq_true, if_false]
  rw [num_lit hx, num_lit hy, e]
  rfl

/-- **C124.** `hilb [options] <inputfile>`: one line for each row of the file, with its label. -/
theorem hilb_stream (hS : Contract S) (h : l.OK ['h', 'G', 'd', ':', 'v', 'V', 's', ':', 'B', ':', 'o', ':', 'x', ':', 'y', ':'])
    (h1 : given 'h' l.options = false) (h2 : given 'V' l.options = false) {f : Str} (ho : l.operands = [f])
    (hdo : ∀ f ∈ argsOf 'd' l.options, f ∉ argsOf 'o' l.options) (hd : Loaded fs (argsOf 'd' l.options) d) (hr : Density S (hilbOf l.options) d rho B)
    {pre : Str} {items : List Item} (hp : Blank pre) (hi : Items items) (hf : fs f = some (numText pre items)) (hfo : f ∉ argsOf 'o' l.options)
    (him : ∀ q ∈ rows3 (nums items), (argument (hilbOf l.options) (q.2.1 : ℚ) (q.2.2 : ℚ)).im ≠ 0) :
    ∃ out, main S fs l.words = .ok (.stream (argsOf 'o' l.options).getLast? out) ∧
      List.Forall₂ (fun q r => r.1 = q.1 ∧ ∃ g, r.2 = some (printed (given 'G' l.options) g) ∧ Approx rho B (argument (hilbOf l.options) (q.2.1 : ℚ) (q.2.2 : ℚ)) g)
        (rows3 (nums items)) out := by
  refine ⟨(rows3 (nums items)).map fun q => (q.1, shown (given 'G' l.options) (hilbert S d (hilbOf l.options) (q.2.1 : ℚ) (q.2.2 : ℚ))), ?_, ?_⟩
  · unfold main
    rw [(hilb_command l h h1 h2 _).2 (.inl ⟨_, ho, rfl⟩)]
    simp only [work]
    rw [show (hilbOf l.options).dos = argsOf 'd' l.options from rfl, show (hilbOf l.options).outs = argsOf 'o' l.options from rfl, any_mem hdo, loaded_none hd]
    simp only [Bool.false_eq_true, if_false]
    rw [trunc_not hfo, hf]
    simp only
    have hlen : items.length < 3 * ((numText pre items).length + 1) := by
      have := length_items hi
      simp only [numText, List.length_append, itemsText] at *
      omega
    generalize (numText pre items).length + 1 = n at *
    rw [numText_eq, streamLoop_items _ n hlen hp hi (stops_nil _)]
    rfl
  · rw [List.forall₂_map_right_iff, List.forall₂_same]
    intro q hq
    obtain ⟨g, e, ha⟩ := hilbert_value hS (fun pts hp => loaded_ordered (hp ▸ hd)) hr _ _ (him q hq)
    refine ⟨rfl, g, ?_, ha⟩
    rw [e]
    rfl

/-- **C124.** `hilb [options] <resigma> <imsigma> <reaw> <imaw>`: for the rows of both files up to the first one whose labels differ, the Green's function at `ω - Σ(ω)`,
times `-1/π` without `-G`; the program fails afterwards if there is such a row. -/
theorem hilb_files (hS : Contract S) (h : l.OK ['h', 'G', 'd', ':', 'v', 'V', 's', ':', 'B', ':', 'o', ':', 'x', ':', 'y', ':'])
    (h1 : given 'h' l.options = false) (h2 : given 'V' l.options = false) {a b c e : Str} (ho : l.operands = [a, b, c, e])
    (hdo : ∀ f ∈ argsOf 'd' l.options, f ∉ argsOf 'o' l.options) (hd : Loaded fs (argsOf 'd' l.options) d) (hr : Density S (hilbOf l.options) d rho B)
    {pre pre' : Str} {items items' : List Item} (hp : Blank pre) (hi : Items items) (ha : fs a = some (numText pre items))
    (hp' : Blank pre') (hi' : Items items') (hb : fs b = some (numText pre' items')) (hao : a ∉ argsOf 'o' l.options) (hbo : b ∉ argsOf 'o' l.options)
    (hac : a ≠ c ∧ a ≠ e) (hbc : b ≠ c ∧ b ≠ e) (hce : c ≠ e)
    (him : ∀ q ∈ sideBySide (rows2 (nums items)) (rows2 (nums items')), (inverse (hilbOf l.options) q).im ≠ 0) :
    ∃ gs : List ℂ, List.Forall₂ (fun q g => Approx rho B (inverse (hilbOf l.options) q) g) ((sideBySide (rows2 (nums items)) (rows2 (nums items'))).takeWhile agree) gs ∧
      main S fs l.words = .ok (.files
        c (List.zipWith (fun q g => (q.1, some (factor (given 'G' l.options) * g.re))) ((sideBySide (rows2 (nums items)) (rows2 (nums items'))).takeWhile agree) gs)
        e (List.zipWith (fun q g => (q.2.1, some (factor (given 'G' l.options) * g.im))) ((sideBySide (rows2 (nums items)) (rows2 (nums items'))).takeWhile agree) gs)
        (!(sideBySide (rows2 (nums items)) (rows2 (nums items'))).all agree)) := by
  have hmain : main S fs l.words = .ok (.files c ((((sideBySide (rows2 (nums items)) (rows2 (nums items'))).takeWhile agree)).map fun q =>
        (q.1, (greens S d (hilbOf l.options) q).map Prod.fst)) e ((((sideBySide (rows2 (nums items)) (rows2 (nums items'))).takeWhile agree)).map fun q =>
        (q.2.1, (greens S d (hilbOf l.options) q).map Prod.snd)) (!(sideBySide (rows2 (nums items)) (rows2 (nums items'))).all agree)) := by
    unfold main
    rw [(hilb_command l h h1 h2 _).2 (.inr (.inr (.inl ⟨_, _, _, _, ho, rfl⟩)))]
    simp only [work]
    rw [show (hilbOf l.options).dos = argsOf 'd' l.options from rfl, show (hilbOf l.options).outs = argsOf 'o' l.options from rfl, any_mem hdo, loaded_none hd]
    simp only [Bool.false_eq_true, if_false]
    have ta : trunc (trunc fs (argsOf 'o' l.options)) [c, e] a = some (numText pre items) := by
      rw [trunc_not (by simp [hac.1, hac.2]), trunc_not hao, ha]
    have tb : trunc (trunc fs (argsOf 'o' l.options)) [c, e] b = some (numText pre' items') := by
      rw [trunc_not (by simp [hbc.1, hbc.2]), trunc_not hbo, hb]
    rw [trunc_not hao, trunc_not hbo, ha, hb, if_neg (by simp), if_neg hce, ta, tb]
    simp only [Option.getD_some]
    have hlen : items.length < 2 * ((numText pre items).length + 1) := by
      have := length_items hi
      simp only [numText, List.length_append, itemsText] at *
      omega
    generalize (numText pre items).length + 1 = n at *
    rw [numText_eq, numText_eq, hilbLoop_items n hlen hp hi (stops_nil _) hp' hi' (stops_nil _)]
    rfl
  rw [hmain]
  have key : ∀ qs : List Row, (∀ q ∈ qs, (inverse (hilbOf l.options) q).im ≠ 0) → ∃ gs : List ℂ,
      List.Forall₂ (fun q g => Approx rho B (inverse (hilbOf l.options) q) g) qs gs ∧
      (qs.map fun q => (q.1, (greens S d (hilbOf l.options) q).map Prod.fst)) = List.zipWith (fun q g => (q.1, some (factor (given 'G' l.options) * g.re))) qs gs ∧
      (qs.map fun q => (q.2.1, (greens S d (hilbOf l.options) q).map Prod.snd)) = List.zipWith (fun q g => (q.2.1, some (factor (given 'G' l.options) * g.im))) qs gs := by
    intro qs hq
    induction qs with
    | nil => exact ⟨[], .nil, rfl, rfl⟩
    | cons q qs ih =>
      obtain ⟨gs, i1, i2, i3⟩ := ih fun q hq' => hq q (by simp [hq'])
      obtain ⟨g, e1, ha⟩ := hilbert_value hS (fun pts hp => loaded_ordered (hp ▸ hd)) hr _ _ (hq q (by simp))
      have e2 : greens S d (hilbOf l.options) q = some (factor (given 'G' l.options) * g.re, factor (given 'G' l.options) * g.im) := by
        obtain ⟨l1, l2, x, y⟩ := q
        simp only [greens]
        simp only at e1
        rw [e1]
        simp only [Option.map_some, show (hilbOf l.options).G = given 'G' l.options from rfl, factor]
        cases given 'G' l.options
        · simp only [Bool.false_eq_true, if_false]
          congr 2 <;> ring
        · simp
      refine ⟨g :: gs, .cons ha i1, ?_, ?_⟩
      · rw [List.map_cons, List.zipWith_cons_cons, i2, e2]; rfl
      · rw [List.map_cons, List.zipWith_cons_cons, i3, e2]; rfl
  obtain ⟨gs, k1, k2, k3⟩ := key _ fun q hq => him q ((List.takeWhile_sublist _).subset hq)
  exact ⟨gs, k1, by rw [k2, k3]⟩

end Verif.Hrun
