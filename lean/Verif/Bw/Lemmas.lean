import Verif.Bw.Model
import Verif.Broad.ToolProps
/-!
# Adaptive broadening: helper lemmas
-/

namespace Verif.Bw
open Verif.Tools MeasureTheory

/-! ## The mesh -/

/-- A mesh on which the iteration can work. -/
structure MeshOK (m : List ℝ) : Prop where
  inc : m.Pairwise (· < ·)
  nz : ∀ x ∈ m, x ≠ 0
  left : ∃ x y r, m = x :: y :: r ∧ y < 0
  right : ∃ x y r, m.reverse = x :: y :: r ∧ 0 < y

theorem between_mem {lo hi x y : ℝ} (h : y ∈ between lo hi x) : lo < y ∧ y < hi := by
  unfold between at h
  split at h
  · rename_i hh
    simp at h; subst h; exact hh
  · simp at h

theorem between_sorted (lo hi x : ℝ) : (between lo hi x).Pairwise (· < ·) := by
  unfold between; split <;> simp

theorem between_sorted' (lo hi x : ℝ) : (between lo hi x).Pairwise (· > ·) := by
  unfold between; split <;> simp

theorem step_mem {c : Bool} {lo hi x y : ℝ} (h : y ∈ (if c then between lo hi x else [])) : lo < y ∧ y < hi := by
  cases c
  · simp at h
  · exact between_mem (by simpa using h)

theorem step_sorted (c : Bool) (lo hi x : ℝ) : (if c then between lo hi x else []).Pairwise (· < ·) := by
  cases c
  · simp
  · simpa using between_sorted lo hi x

theorem step_sorted' (c : Bool) (lo hi x : ℝ) : (if c then between lo hi x else []).Pairwise (· > ·) := by
  cases c
  · simp
  · simpa using between_sorted' lo hi x

/-- A point, points between it and the next, and what follows the next. -/
theorem join_inc {x y : ℝ} {l r : List ℝ} (hl : ∀ z ∈ l, x < z ∧ z < y) (hs : l.Pairwise (· < ·)) (hxy : x < y)
    (hr : (y :: r).Pairwise (· < ·)) : (x :: (l ++ y :: r)).Pairwise (· < ·) := by
  have hr' := List.pairwise_cons.1 hr
  rw [List.pairwise_cons, List.pairwise_append]
  refine ⟨?_, hs, hr, ?_⟩
  · intro z hz
    rcases List.mem_append.1 hz with h | h
    · exact (hl z h).1
    · rcases List.mem_cons.1 h with rfl | h
      · exact hxy
      · exact hxy.trans (hr'.1 z h)
  · intro z hz w hw
    rcases List.mem_cons.1 hw with rfl | h
    · exact (hl z hz).2
    · exact (hl z hz).2.trans (hr'.1 w h)

theorem join_dec {x y : ℝ} {l r : List ℝ} (hl : ∀ z ∈ l, y < z ∧ z < x) (hs : l.Pairwise (· > ·)) (hxy : y < x)
    (hr : (y :: r).Pairwise (· > ·)) : (x :: (l ++ y :: r)).Pairwise (· > ·) := by
  have hr' := List.pairwise_cons.1 hr
  rw [List.pairwise_cons, List.pairwise_append]
  refine ⟨?_, hs, hr, ?_⟩
  · intro z hz
    rcases List.mem_append.1 hz with h | h
    · exact (hl z h).2
    · rcases List.mem_cons.1 h with rfl | h
      · exact hxy
      · exact lt_trans (hr'.1 z h) hxy
  · intro z hz w hw
    rcases List.mem_cons.1 hw with rfl | h
    · exact (hl z hz).1
    · exact lt_trans (hr'.1 w h) (hl z hz).1

theorem negLoop_spec (dyn : ℝ) (l : List (ℝ × ℝ)) : ∀ (p2 p1 : ℝ × ℝ), p1.1 < 0 →
    ((p1 :: l).map Prod.fst).Pairwise (· < ·) →
    (p1.1 :: negLoop dyn p2 p1 l).Pairwise (· < ·) ∧ (∀ x ∈ negLoop dyn p2 p1 l, x < 0) ∧
      ∀ p ∈ l, p.1 < 0 → p.1 ∈ negLoop dyn p2 p1 l := by
  induction l with
  | nil => intro p2 p1 _ _; simp [negLoop]
  | cons p l ih =>
    intro p2 p1 h1 hs
    have hs' : ((p :: l).map Prod.fst).Pairwise (· < ·) := (List.pairwise_cons.1 hs).2
    have h2 : p1.1 < p.1 := (List.pairwise_cons.1 hs).1 p.1 (by simp)
    by_cases hp : p.1 < 0
    · obtain ⟨i1, i2, i3⟩ := ih p1 p hp hs'
      simp only [negLoop, if_pos hp]
      refine ⟨join_inc (fun z hz => step_mem hz) (step_sorted ..) h2 i1, ?_, ?_⟩
      · intro x hx
        rcases List.mem_append.1 hx with h | h
        · exact (step_mem h).2.trans hp
        · rcases List.mem_cons.1 h with rfl | h
          · exact hp
          · exact i2 x h
      · intro r hr hn
        rcases List.mem_cons.1 hr with rfl | hr
        · simp
        · simp [i3 r hr hn]
    · simp only [negLoop, if_neg hp]
      refine ⟨by simp, by simp, ?_⟩
      intro r hr hn
      rcases List.mem_cons.1 hr with rfl | hr
      · exact absurd hn hp
      · have : p.1 < r.1 := (List.pairwise_cons.1 hs').1 r.1 (List.mem_map_of_mem hr)
        exact absurd (this.trans hn) hp

theorem posLoop_spec (dyn : ℝ) (l : List (ℝ × ℝ)) : ∀ (p2 p1 : ℝ × ℝ), 0 < p1.1 →
    ((p1 :: l).map Prod.fst).Pairwise (· > ·) →
    (p1.1 :: posLoop dyn p2 p1 l).Pairwise (· > ·) ∧ (∀ x ∈ posLoop dyn p2 p1 l, 0 < x) ∧
      ∀ p ∈ l, 0 < p.1 → p.1 ∈ posLoop dyn p2 p1 l := by
  induction l with
  | nil => intro p2 p1 _ _; simp [posLoop]
  | cons p l ih =>
    intro p2 p1 h1 hs
    have hs' : ((p :: l).map Prod.fst).Pairwise (· > ·) := (List.pairwise_cons.1 hs).2
    have h2 : p.1 < p1.1 := (List.pairwise_cons.1 hs).1 p.1 (by simp)
    by_cases hp : 0 < p.1
    · obtain ⟨i1, i2, i3⟩ := ih p1 p hp hs'
      simp only [posLoop, if_pos hp]
      refine ⟨join_dec (fun z hz => step_mem hz) (step_sorted' ..) h2 i1, ?_, ?_⟩
      · intro x hx
        rcases List.mem_append.1 hx with h | h
        · exact hp.trans (step_mem h).1
        · rcases List.mem_cons.1 h with rfl | h
          · exact hp
          · exact i2 x h
      · intro r hr hn
        rcases List.mem_cons.1 hr with rfl | hr
        · simp
        · simp [i3 r hr hn]
    · simp only [posLoop, if_neg hp]
      refine ⟨by simp, by simp, ?_⟩
      intro r hr hn
      rcases List.mem_cons.1 hr with rfl | hr
      · exact absurd hn hp
      · have : r.1 < p.1 := (List.pairwise_cons.1 hs').1 r.1 (List.mem_map_of_mem hr)
        exact absurd (hn.trans this) hp

theorem map_fst_zip {α β : Type} (l : List α) (r : List β) (h : l.length = r.length) : (l.zip r).map Prod.fst = l := by
  rw [List.map_fst_zip]; omega

theorem dropLast_gt {l : List ℝ} (h : l.Pairwise (· > ·)) : l.dropLast.Pairwise (· > ·) :=
  h.sublist (List.dropLast_sublist l)

/-- The refined mesh. -/
theorem refine_spec (dyn : ℝ) {m a : List ℝ} (hm : MeshOK m) (ha : m.length = a.length) (h6 : 6 ≤ m.length) :
    ∃ m', refine dyn m a = .ok m' ∧ MeshOK m' ∧ (∀ x ∈ m, x ∈ m') ∧ m'.head? = m.head? ∧ m'.getLast? = m.getLast? ∧
      m.length ≤ m'.length := by
  obtain ⟨x0, x1, xr, hx, hx1⟩ := hm.left
  obtain ⟨y0, y1, yr, hy, hy1⟩ := hm.right
  have hz : (m.zip a).map Prod.fst = m := map_fst_zip m a ha
  have hzr : (m.zip a).reverse.map Prod.fst = m.reverse := by rw [List.map_reverse, hz]
  unfold refine
  rw [if_pos ⟨ha, h6⟩]
  rcases hl : m.zip a with _ | ⟨p0, _ | ⟨p1, r⟩⟩
  · rw [hl] at hz; simp [← hz] at h6
  · rw [hl] at hz; simp [← hz] at h6
  rw [← hl]
  rcases hr : (m.zip a).reverse with _ | ⟨q0, _ | ⟨q1, s⟩⟩
  · rw [hr] at hzr; simp [hy] at hzr
  · rw [hr] at hzr; simp [hy] at hzr
  rw [hl]
  dsimp only
  have e1 : p0.1 :: p1.1 :: r.map Prod.fst = m := by rw [← hz, hl]; rfl
  have e2 : q0.1 :: q1.1 :: s.map Prod.fst = m.reverse := by rw [← hzr, hr]; rfl
  have f1 : p1.1 < 0 := by
    rw [hx] at e1; injection e1 with _ e; injection e with e _; rw [e]; exact hx1
  have f2 : 0 < q1.1 := by
    rw [hy] at e2; injection e2 with _ e; injection e with e _; rw [e]; exact hy1
  have hinc := hm.inc
  have hdec : (m.reverse).Pairwise (· > ·) := by rw [List.pairwise_reverse]; exact hinc
  have g1 : p0.1 < p1.1 := by
    rw [← e1] at hinc; exact (List.pairwise_cons.1 hinc).1 _ (by simp)
  have g2 : q1.1 < q0.1 := by
    rw [← e2] at hdec; exact (List.pairwise_cons.1 hdec).1 _ (by simp)
  have hs1 : ((p1 :: r).map Prod.fst).Pairwise (· < ·) := by
    rw [← e1] at hinc; exact (List.pairwise_cons.1 hinc).2
  have hs2 : ((q1 :: s.dropLast).map Prod.fst).Pairwise (· > ·) := by
    rw [← e2] at hdec
    have h3 := (List.pairwise_cons.1 hdec).2
    refine h3.sublist ?_
    simp only [List.map_cons]
    exact List.Sublist.cons_cons _ ((List.dropLast_sublist s).map Prod.fst)
  obtain ⟨n1, n2, n3⟩ := negLoop_spec dyn r p0 p1 f1 hs1
  obtain ⟨k1, k2, k3⟩ := posLoop_spec dyn s.dropLast q0 q1 f2 hs2
  generalize hN : p0.1 :: between p0.1 p1.1 (-Real.sqrt (p0.1 * p1.1)) ++ p1.1 :: negLoop dyn p0 p1 r = N
  generalize hP : q0.1 :: between q1.1 q0.1 (Real.sqrt (q0.1 * q1.1)) ++ q1.1 :: posLoop dyn q0 q1 s.dropLast = P
  have N1 : N.Pairwise (· < ·) := by
    rw [← hN]; exact join_inc (fun z hz => between_mem hz) (between_sorted ..) g1 n1
  have P1 : P.Pairwise (· > ·) := by
    rw [← hP]; exact join_dec (fun z hz => between_mem hz) (between_sorted' ..) g2 k1
  have N2 : ∀ x ∈ N, x < 0 := by
    intro x hx
    rw [← hN] at hx
    rcases List.mem_append.1 hx with h | h
    · rcases List.mem_cons.1 h with rfl | h
      · exact g1.trans f1
      · exact (between_mem h).2.trans f1
    · rcases List.mem_cons.1 h with rfl | h
      · exact f1
      · exact n2 x h
  have P2 : ∀ x ∈ P, 0 < x := by
    intro x hx
    rw [← hP] at hx
    rcases List.mem_append.1 hx with h | h
    · rcases List.mem_cons.1 h with rfl | h
      · exact f2.trans g2
      · exact f2.trans (between_mem h).1
    · rcases List.mem_cons.1 h with rfl | h
      · exact f2
      · exact k2 x h
  have M1 : (N ++ P.reverse).Pairwise (· < ·) := by
    rw [List.pairwise_append]
    refine ⟨N1, by rw [List.pairwise_reverse]; exact P1, ?_⟩
    intro x hx y hy
    exact (N2 x hx).trans (P2 y (List.mem_reverse.1 hy))
  have hsort : (N ++ P).insertionSort (· ≤ ·) = N ++ P.reverse := by
    have hp : ((N ++ P).insertionSort (· ≤ ·)).Perm (N ++ P.reverse) :=
      (List.perm_insertionSort _ _).trans ((List.reverse_perm P).symm.append_left N)
    exact hp.eq_of_pairwise' (List.pairwise_insertionSort _ _) (M1.imp fun h => le_of_lt h)
  rw [hsort]
  have hmem : ∀ x ∈ m, x ∈ N ++ P.reverse := by
    intro x hxm
    rcases lt_or_gt_of_ne (hm.nz x hxm) with h | h
    · apply List.mem_append_left
      rw [← hN]
      rw [← e1] at hxm
      rcases List.mem_cons.1 hxm with rfl | hxm
      · simp
      rcases List.mem_cons.1 hxm with rfl | hxm
      · simp
      obtain ⟨p, hp, rfl⟩ := List.mem_map.1 hxm
      simp [n3 p hp h]
    · apply List.mem_append_right
      rw [List.mem_reverse, ← hP]
      have hxr : x ∈ m.reverse := List.mem_reverse.2 hxm
      rw [← e2] at hxr
      rcases List.mem_cons.1 hxr with rfl | hxr
      · simp
      rcases List.mem_cons.1 hxr with rfl | hxr
      · simp
      obtain ⟨p, hp, rfl⟩ := List.mem_map.1 hxr
      -- the point of the other end is negative
      have hne : p ∈ s.dropLast := by
        rcases List.eq_nil_or_concat' s with rfl | ⟨s', t, rfl⟩
        · simp at hp
        · rw [List.dropLast_concat]
          rcases List.mem_append.1 hp with h5 | h5
          · exact h5
          · exfalso
            rw [List.mem_singleton] at h5
            subst h5
            have e3 := congrArg List.reverse e2
            rw [List.reverse_reverse, ← e1] at e3
            simp only [List.map_append, List.map_cons, List.map_nil, List.reverse_cons, List.reverse_append, List.reverse_nil,
              List.nil_append, List.cons_append] at e3
            injection e3 with e4 _
            rw [e4] at h
            linarith
      simp [k3 p hne h]
  refine ⟨_, rfl, ⟨M1, ?_, ?_, ?_⟩, hmem, ?_, ?_, ?_⟩
  · intro x hx
    rcases List.mem_append.1 hx with h | h
    · exact (N2 x h).ne
    · exact (P2 x (List.mem_reverse.1 h)).ne'
  · have : ∃ x y t, N = x :: y :: t := by
      rw [← hN]
      rcases between p0.1 p1.1 (-Real.sqrt (p0.1 * p1.1)) with _ | ⟨z, zs⟩
      · exact ⟨_, _, _, rfl⟩
      · exact ⟨_, _, _, rfl⟩
    obtain ⟨x, y, t, e⟩ := this
    exact ⟨x, y, t ++ P.reverse, by rw [e]; rfl, N2 y (by rw [e]; simp)⟩
  · have : ∃ x y t, P = x :: y :: t := by
      rw [← hP]
      rcases between q1.1 q0.1 (Real.sqrt (q0.1 * q1.1)) with _ | ⟨z, zs⟩
      · exact ⟨_, _, _, rfl⟩
      · exact ⟨_, _, _, rfl⟩
    obtain ⟨x, y, t, e⟩ := this
    exact ⟨x, y, t ++ N.reverse, by rw [List.reverse_append, List.reverse_reverse, e]; rfl, P2 y (by rw [e]; simp)⟩
  · rw [← hN, ← e1]; rfl
  · rw [List.getLast?_eq_head?_reverse, List.getLast?_eq_head?_reverse, List.reverse_append, List.reverse_reverse, ← hP, ← e2]; rfl
  · exact (List.subperm_of_subset (hm.inc.imp fun h => ne_of_lt h) hmem).length_le

/-! ## The initial mesh -/

theorem up_mono {max ratio : ℝ} (n k : Nat) (z : ℝ) (r : List ℝ × ℝ) (h : up max ratio n z = some r) :
    up max ratio (n + k) z = some r := by
  induction n generalizing z r with
  | zero => simp [up] at h
  | succ n ih =>
    rw [show n + 1 + k = (n + k) + 1 by omega]
    simp only [up] at h ⊢
    split at h
    · rename_i hz
      rw [if_pos hz]
      cases hu : up max ratio n (z * ratio) with
      | none => rw [hu] at h; simp at h
      | some r' => rw [hu] at h; rw [ih _ _ hu]; exact h
    · rename_i hz
      rw [if_neg hz]; exact h

theorem up_ends {max ratio : ℝ} (hr : 1 < ratio) (z : ℝ) (hz : 0 < z) : ∃ n r, up max ratio n z = some r := by
  obtain ⟨k, hk⟩ := pow_unbounded_of_one_lt (max / z) hr
  have hk' : max ≤ z * ratio ^ k := by
    rw [div_lt_iff₀ hz] at hk; linarith [mul_comm z (ratio ^ k)]
  clear hk
  induction k generalizing z with
  | zero =>
    refine ⟨1, ([], z), ?_⟩
    simp only [up]
    rw [if_neg (by simpa using hk')]
  | succ k ih =>
    obtain ⟨n, r, h⟩ := ih (z * ratio) (by positivity) (by rw [pow_succ] at hk'; nlinarith)
    by_cases hz' : z < max
    · exact ⟨n + 1, (z :: r.1, r.2), by simp only [up]; rw [if_pos hz', h]; rfl⟩
    · exact ⟨1, ([], z), by simp only [up]; rw [if_neg hz']⟩

/-- The points of the loop: powers of the ratio times the start. -/
theorem up_spec {max ratio : ℝ} (hr : 1 < ratio) (n : Nat) : ∀ (z : ℝ) (r : List ℝ × ℝ), 0 < z → up max ratio n z = some r →
    r.1 = (List.range r.1.length).map (fun k : Nat => z * ratio ^ k) ∧ r.2 = z * ratio ^ r.1.length ∧
      (∀ k, k < r.1.length → z * ratio ^ k < max) ∧ max ≤ r.2 := by
  induction n with
  | zero => intro z r _ h; simp [up] at h
  | succ n ih =>
    intro z r hz h
    simp only [up] at h
    split at h
    · rename_i hz'
      cases hu : up max ratio n (z * ratio) with
      | none => rw [hu] at h; simp at h
      | some r' =>
        rw [hu] at h
        obtain rfl := Option.some.inj h
        obtain ⟨i1, i2, i3, i4⟩ := ih _ _ (by positivity) hu
        dsimp only
        have e : ∀ k : Nat, z * ratio ^ (k + 1) = z * ratio * ratio ^ k := fun k => by rw [pow_succ]; ring
        refine ⟨?_, ?_, ?_, i4⟩
        · rw [List.length_cons, List.range_succ_eq_map, List.map_cons, List.map_map, pow_zero, mul_one]
          congr 1
          rw [i1, List.length_map, List.length_range]
          refine List.map_congr_left fun k _ => ?_
          simp only [Function.comp]
          exact (e k).symm
        · rw [i2, List.length_cons, e]
        · intro k hk
          cases k with
          | zero => simpa using hz'
          | succ k => rw [e]; exact i3 k (by simpa using hk)
    · rename_i hz'
      obtain rfl := Option.some.inj h
      simp only [List.length_nil, List.range_zero, List.map_nil, pow_zero, mul_one]
      exact ⟨trivial, trivial, by intro k hk; omega, not_lt.1 hz'⟩

/-- Both signs of increasing positive numbers, sorted. -/
theorem both_signs {zs : List ℝ} (hi : zs.Pairwise (· < ·)) (hp : ∀ z ∈ zs, 0 < z) :
    (zs.flatMap fun z => [z, -z]).insertionSort (· ≤ ·) = (zs.reverse.map fun z => -z) ++ zs ∧
      ((zs.reverse.map fun z => -z) ++ zs).Pairwise (· < ·) := by
  have h1 : (zs.flatMap fun z => [z, -z]).Perm ((zs.reverse.map fun z => -z) ++ zs) := by
    have h0 : (zs.flatMap fun z => [z, -z]).Perm ((zs.map fun z => -z) ++ zs) := by
      clear hi hp
      induction zs with
      | nil => simp
      | cons z zs ih =>
        simp only [List.flatMap_cons, List.map_cons]
        refine (ih.append_left ([z, -z])).trans ?_
        rw [List.perm_iff_count]
        intro a
        simp only [List.count_append, List.count_cons, List.count_nil, List.cons_append]
        omega
    exact h0.trans (((List.reverse_perm zs).symm.map _).append_right zs)
  have h2 : ((zs.reverse.map fun z => -z) ++ zs).Pairwise (· < ·) := by
    rw [List.pairwise_append]
    refine ⟨?_, hi, ?_⟩
    · rw [List.pairwise_map, List.pairwise_reverse]; exact hi.imp fun h => by linarith
    · intro a ha b hb
      obtain ⟨z, hz, rfl⟩ := List.mem_map.1 ha
      have := hp z (List.mem_reverse.1 hz)
      have := hp b hb
      linarith
  exact ⟨((List.perm_insertionSort _ _).trans h1).eq_of_pairwise' (List.pairwise_insertionSort _ _)
    (h2.imp fun h => le_of_lt h), h2⟩

theorem pow_points {z ratio : ℝ} (hz : 0 < z) (hr : 1 < ratio) (n : Nat) :
    ((List.range n).map (fun k : Nat => z * ratio ^ k) ++ [z * ratio ^ (n + 1)]).Pairwise (· < ·) ∧
      ∀ x ∈ (List.range n).map (fun k : Nat => z * ratio ^ k) ++ [z * ratio ^ (n + 1)], 0 < x := by
  have hr0 : (0:ℝ) < ratio := by linarith
  have hlt : ∀ {i j : Nat}, i < j → z * ratio ^ i < z * ratio ^ j := fun h =>
    mul_lt_mul_of_pos_left (pow_lt_pow_right₀ hr h) hz
  constructor
  · rw [List.pairwise_append]
    refine ⟨?_, by simp, ?_⟩
    · rw [List.pairwise_map]
      exact List.pairwise_lt_range.imp fun h => hlt h
    · intro a ha b hb
      obtain ⟨k, hk, rfl⟩ := List.mem_map.1 ha
      rw [List.mem_singleton] at hb
      subst hb
      exact hlt (by have := List.mem_range.1 hk; omega)
  · intro x hx
    rcases List.mem_append.1 hx with h | h
    · obtain ⟨k, _, rfl⟩ := List.mem_map.1 h; positivity
    · rw [List.mem_singleton] at h; subst h; positivity

/-- What `make_mesh` makes. -/
theorem makeMesh_spec {o : Opt} (h1 : 0 < o.min) (h2 : o.min < o.max) (h3 : 1 < o.ratio) :
    ∃ N n, ∀ fuel, N ≤ fuel → ∃ m, makeMesh o fuel = .ok m ∧ MeshOK m ∧ 1 ≤ n ∧
      (∀ k, k < n → o.min * o.ratio ^ k < o.max) ∧ o.max ≤ o.min * o.ratio ^ n ∧ m.length = 2 * (n + 1) ∧
      (∀ x, x ∈ m ↔ (∃ k, k < n ∧ |x| = o.min * o.ratio ^ k) ∨ |x| = o.min * o.ratio ^ (n + 1)) := by
  obtain ⟨N, ⟨zs, zl⟩, hu⟩ := up_ends (max := o.max) h3 o.min h1
  obtain ⟨u1, u2, u3, u4⟩ := up_spec h3 N o.min _ h1 hu
  dsimp only at u1 u2 u3 u4
  have hr0 : (0:ℝ) < o.ratio := by linarith
  refine ⟨N, zs.length, fun fuel hf => ?_⟩
  have hu' : up o.max o.ratio fuel o.min = some (zs, zl) := by
    obtain ⟨k, rfl⟩ := Nat.exists_eq_add_of_le hf
    exact up_mono N k _ _ hu
  generalize hn : zs.length = n at *
  have hn1 : 1 ≤ n := by
    by_contra hc
    have : n = 0 := by omega
    subst this
    rw [u2] at u4
    simp only [pow_zero, mul_one] at u4
    linarith
  obtain ⟨pp1, pp2⟩ := pow_points h1 h3 n
  have hzl : zl * o.ratio = o.min * o.ratio ^ (n + 1) := by rw [u2, pow_succ]; ring
  rw [← u1, ← hzl] at pp1 pp2
  obtain ⟨b1, b2⟩ := both_signs pp1 pp2
  refine ⟨_, by unfold makeMesh; rw [if_pos ⟨h2, h3⟩, hu']; dsimp only; rw [b1], ⟨b2, ?_, ?_, ?_⟩, hn1, u3, by rw [← u2]; exact u4, ?_, ?_⟩
  · intro x hx
    rcases List.mem_append.1 hx with h | h
    · obtain ⟨z, hz, rfl⟩ := List.mem_map.1 h
      have := pp2 z (List.mem_reverse.1 hz); linarith
    · exact (pp2 x h).ne'
  · rcases List.eq_nil_or_concat' zs with rfl | ⟨zs', t, rfl⟩
    · simp at hn; omega
    · refine ⟨-(zl * o.ratio), -t, _, by simp; rfl, ?_⟩
      have := pp2 t (by simp)
      linarith
  · rcases List.eq_nil_or_concat' zs with rfl | ⟨zs', t, rfl⟩
    · simp at hn; omega
    · refine ⟨zl * o.ratio, t, _, by simp; rfl, ?_⟩
      exact pp2 t (by simp)
  · simp [hn]; omega
  · intro x
    have hpos : ∀ y, y ∈ zs ++ [zl * o.ratio] ↔ (∃ k, k < n ∧ y = o.min * o.ratio ^ k) ∨ y = o.min * o.ratio ^ (n + 1) := by
      intro y
      rw [List.mem_append, List.mem_singleton, hzl, u1]
      simp only [List.mem_map, List.mem_range]
      constructor
      · rintro (⟨k, hk, rfl⟩ | h)
        · exact Or.inl ⟨k, hk, rfl⟩
        · exact Or.inr h
      · rintro (⟨k, hk, rfl⟩ | h)
        · exact Or.inl ⟨k, hk, rfl⟩
        · exact Or.inr h
    rw [List.mem_append, List.mem_map]
    have hx : (|x| ∈ zs ++ [zl * o.ratio]) ↔
        (∃ a ∈ (zs ++ [zl * o.ratio]).reverse, -a = x) ∨ x ∈ zs ++ [zl * o.ratio] := by
      constructor
      · intro h
        rcases abs_choice x with e | e
        · rw [e] at h; exact Or.inr h
        · rw [e] at h; exact Or.inl ⟨_, List.mem_reverse.2 h, by ring⟩
      · rintro (⟨a, ha, rfl⟩ | h)
        · rw [abs_neg, abs_of_pos (pp2 a (List.mem_reverse.1 ha))]; exact List.mem_reverse.1 ha
        · rw [abs_of_pos (pp2 x h)]; exact h
    rw [← hx, hpos]

/-! ## Widths -/

theorem calcB_range {o : Opt} (hq : 0 < o.q) (hb : 0 < o.b0) (d1 d2 : List ℝ) : ∀ v ∈ calcB o d1 d2, 0 < v ∧ v ≤ o.b0 := by
  intro v hv
  unfold calcB at hv
  obtain ⟨⟨x, y⟩, _, rfl⟩ := List.mem_map.1 hv
  dsimp only
  have hx := abs_nonneg x
  have hy := abs_nonneg y
  have e1 : o.q * (1 / (o.q + |x|)) ≤ 1 := by
    rw [mul_one_div, div_le_one (by linarith)]; linarith
  have e2 : o.q * (1 / (o.q + |y|)) ≤ 1 := by
    rw [mul_one_div, div_le_one (by linarith)]; linarith
  have e3 : 0 < o.q * (1 / (o.q + |x|)) := by positivity
  have e4 : 0 < o.q * (1 / (o.q + |y|)) := by positivity
  have e5 : o.q * (1 / (o.q + |x|) + 1 / (o.q + |y|)) = o.q * (1 / (o.q + |x|)) + o.q * (1 / (o.q + |y|)) := by ring
  rw [e5]
  constructor
  · apply mul_pos hb; linarith
  · calc o.b0 * ((o.q * (1 / (o.q + |x|)) + o.q * (1 / (o.q + |y|))) / 2) ≤ o.b0 * 1 :=
        mul_le_mul_of_nonneg_left (by linarith) hb.le
      _ = o.b0 := mul_one _

theorem table_good {m f : List ℝ} (hm : MeshOK m) (hf : m.length = f.length) : Good (m.zip f) := by
  have hl : (m.zip f).length = m.length := by simp [hf]
  obtain ⟨x, y, r, hx, _⟩ := hm.left
  refine ⟨by rw [hl, hx]; simp, ?_⟩
  intro i hi
  have hi' : i + 1 < m.length := by rw [← hl]; exact hi
  have e : ∀ j, j < m.length → Tab.x (m.zip f) j = m.getD j 0 := by
    intro j hj
    unfold Tab.x
    rw [List.getD_eq_getElem _ _ (by rw [hl]; exact hj), List.getD_eq_getElem _ _ hj, List.getElem_zip]
  rw [e i (by omega), e (i + 1) hi', List.getD_eq_getElem _ _ (by omega), List.getD_eq_getElem _ _ hi']
  exact List.pairwise_iff_getElem.1 hm.inc i (i + 1) (by omega) hi' (by omega)

theorem table_f {m f : List ℝ} (hf : m.length = f.length) (P : ℝ → Prop) (h : ∀ v ∈ f, P v) (i : Nat) (hi : i < m.length) :
    P (Tab.f (m.zip f) i) := by
  unfold Tab.f
  rw [List.getD_eq_getElem _ _ (by simp [← hf, hi]), List.getElem_zip]
  exact h _ (List.getElem_mem _)

/-- The value of the interpolant is in the range of the table. -/
theorem interp_range {m f : List ℝ} (hm : MeshOK m) (hf : m.length = f.length) {lo hi : ℝ} (h : ∀ v ∈ f, lo < v ∧ v ≤ hi)
    {x v : ℝ} (hv : IsInterp (m.zip f) x v) : lo < v ∧ v ≤ hi := by
  have hg := table_good hm hf
  have hl : (m.zip f).length = m.length := by simp [hf]
  have hlen := hg.len
  have key : ∀ i, i < m.length → lo < Tab.f (m.zip f) i ∧ Tab.f (m.zip f) i ≤ hi := fun i hi =>
    table_f hf (fun v => lo < v ∧ v ≤ _) h i hi
  rcases hv with ⟨_, e⟩ | ⟨_, e⟩ | ⟨i, hi', h1, h2, e⟩
  · rw [e]; exact key 0 (by omega)
  · rw [e]; exact key _ (by omega)
  · have k1 := key i (by omega)
    have k2 := key (i + 1) (by omega)
    have hd := hg.inc i hi'
    have hd' : 0 < Tab.x (m.zip f) (i + 1) - Tab.x (m.zip f) i := by linarith
    constructor
    · by_contra hc
      have hc := not_lt.1 hc
      rcases lt_or_eq_of_le h1 with h1 | h1
      · nlinarith
      · rw [← h1] at e
        nlinarith
    · by_contra hc
      have hc := not_le.1 hc
      nlinarith

theorem recalcLoop_spec {bmin b0 : ℝ} {tp tn : Tab ℝ} (hp : Good tp) (hn : Good tn)
    (rp : ∀ x v, IsInterp tp x v → 0 < v ∧ v ≤ b0) (rn : ∀ x v, IsInterp tn x v → 0 < v ∧ v ≤ b0) (ws : List ℝ) :
    ∀ sp sn, Inv tp sp → Inv tn sn → ∃ vs, recalcLoop bmin tp tn sp sn ws = .ok (vs.map fun v => max bmin v) ∧
      List.Forall₂ (fun w v => IsInterp (if w < 0 then tn else tp) w v) ws vs := by
  induction ws with
  | nil => intro sp sn _ _; exact ⟨[], rfl, .nil⟩
  | cons w ws ih =>
    intro sp sn h1 h2
    have hmax : ∀ v, (if bmin < v then v else bmin) = max bmin v := by
      intro v
      split
      · rename_i h; exact (max_eq_right h.le).symm
      · rename_i h; exact (max_eq_left (not_lt.1 h)).symm
    by_cases hw : w < 0
    · obtain ⟨v, s', e1, e2, e3⟩ := linEval_spec hn h2 w
      obtain ⟨vs, i1, i2⟩ := ih sp s' h1 e3
      refine ⟨v :: vs, ?_, .cons (by simpa [hw] using e2) i2⟩
      simp only [recalcLoop, if_pos hw, e1, Option.map_some, if_pos (rn w v e2).1, i1, hmax, List.map_cons]
    · obtain ⟨v, s', e1, e2, e3⟩ := linEval_spec hp h1 w
      obtain ⟨vs, i1, i2⟩ := ih s' sn e3 h2
      refine ⟨v :: vs, ?_, .cons (by simpa [hw] using e2) i2⟩
      simp only [recalcLoop, if_neg hw, e1, Option.map_some, if_pos (rp w v e2).1, i1, hmax, List.map_cons]

/-! ## Lengths -/

theorem integLoop_length (l : List (ℝ × ℝ)) : ∀ s p, (integLoop s p l).length = l.length := by
  induction l with
  | nil => intro s p; rfl
  | cons q l ih => intro s p; simp [integLoop, ih]

theorem integrate_length {m a : List ℝ} (h : m.length = a.length) : (integrate m a).length = m.length := by
  unfold integrate
  split
  · rename_i e
    have := congrArg List.length e
    rw [List.length_zip, List.length_nil] at this
    rw [List.length_nil]
    omega
  · rename_i p l e
    have := congrArg List.length e
    rw [List.length_zip, List.length_cons] at this
    rw [List.length_cons, integLoop_length]
    omega

theorem deriv_length {m f : List ℝ} (h : m.length = f.length) (h1 : 1 ≤ m.length) : (deriv m f).length = m.length := by
  simp [deriv, consec]; omega

theorem broaden_length (o : Opt) (spec : List (ℝ × ℝ)) (m b : List ℝ) : (broaden o spec m b).length = m.length := by
  simp [broaden]

end Verif.Bw
