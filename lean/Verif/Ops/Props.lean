import Verif.Ops.Spec
import Verif.Dm.Spec
import Verif.Symm.Classes
import Verif.Subspaces.Lemmas
import Verif.Mat.Props
/-!
# C37: operators in the new basis
-/

namespace Verif.Ops
open Verif.Invar Verif.Symm Verif.Mat Verif.Dm Verif.Subspaces Finset
variable {K : Type} [Field K] [StarRing K]

theorem mapM_getElem? {α β} (f : α → Option β) : ∀ (l : List α) (r : List β), l.mapM f = some r →
    r.length = l.length ∧ ∀ i : ℕ, r[i]? = (l[i]?).bind f
  | [], r, h => by
    simp at h; subst h; simp
  | a :: l, r, h => by
    simp only [List.mapM_cons, Option.pure_def, Option.bind_eq_bind, Option.bind_eq_some_iff] at h
    obtain ⟨b, hb, bs, hbs, h⟩ := h
    obtain ⟨hl, hi⟩ := mapM_getElem? f l bs hbs
    cases h
    refine ⟨by simp [hl], fun i => ?_⟩
    cases i with
    | zero => simp [hb]
    | succ i => simpa using hi i

/-- Splitting succeeds and produces exactly the blocks of the eigenvector matrix. -/
theorem splitInBlocks_holds (V : Mat K) (nr : ℕ) (d : Dims) (hc : V.c = d.sum) (h0 : 0 < nr) (hn : nr ≤ V.r)
    (hd : V.r ≤ V.c) : ∃ E, splitInBlocks V nr d = some E ∧ E.nr = nr ∧ HoldsRows E V d := by
  have hsub : ∀ b ∈ List.range d.length, ∃ B : Mat K, (do
      let p ← part d b
      submatrix V 0 nr p.1 p.2 : Option (Mat K)) = some B := by
    intro b hb
    have hb' : b < d.length := by simpa using hb
    rw [part_eq hb']
    have h1 := take_sum_le d (b + 1)
    have h2 := take_sum_mono d (i := b) (j := b + 1) (by omega)
    refine ⟨⟨nr - 0, (d.take (b + 1)).sum - (d.take b).sum, fun i j => V.e (0 + i) ((d.take b).sum + j)⟩, ?_⟩
    exact if_pos ⟨by omega, hn, h2, by rw [hc]; exact h1⟩
  obtain ⟨U, hU⟩ := Option.isSome_iff_exists.mp (by
    have : ∀ l : List ℕ, (∀ b ∈ l, b ∈ List.range d.length) → (l.mapM fun b => (do
      let p ← part d b
      submatrix V 0 nr p.1 p.2 : Option (Mat K))).isSome := by
      intro l
      induction l with
      | nil => intro _; simp
      | cons a l ih =>
        intro h
        obtain ⟨B, hB⟩ := hsub a (h a (by simp))
        obtain ⟨Bs, hBs⟩ := Option.isSome_iff_exists.mp (ih fun b hb => h b (by simp [hb]))
        simp only [List.mapM_cons, hB, hBs]
        simp
    exact this _ (fun _ h => h))
  obtain ⟨hl, hi⟩ := mapM_getElem? _ _ _ hU
  refine ⟨⟨U, nr⟩, ?_, rfl, ⟨hn, hc, by simpa using hl, ?_⟩⟩
  · unfold splitInBlocks
    rw [if_pos ⟨h0, by omega⟩, hU]
    rfl
  · intro i B hB
    have hB' : U[i]? = some B := hB
    rw [hi i] at hB'
    have hid : i < d.length := by
      by_contra hne
      rw [List.getElem?_eq_none (by simpa using hne)] at hB'
      simp at hB'
    rw [List.getElem?_range hid] at hB'
    simp only [Option.bind_some] at hB'
    rw [part_eq hid] at hB'
    have hB2 : submatrix V 0 nr (d.take i).sum (d.take (i + 1)).sum = some B := hB'
    unfold submatrix at hB2
    split at hB2
    · cases hB2
      refine ⟨by simp, ?_, ?_⟩
      · rw [List.getElem?_eq_getElem hid, take_succ_sum hid]; simp
      · intro a _ k _; simp
    · cases hB2

/-- Truncation keeps the first rows. -/
theorem truncate_holds (E : Eig K) (V : Mat K) (d : Dims) (h : HoldsRows E V d) (nr : ℕ) (hn : nr ≤ E.nr) :
    ∃ E', truncateRows E nr = some E' ∧ E'.nr = nr ∧ HoldsRows E' V d := by
  have hall : ∀ B ∈ E.U, nr ≤ B.r := by
    intro B hB
    obtain ⟨i, hi⟩ := List.getElem?_of_mem hB
    rw [(h.blocks i B hi).1]; exact hn
  have hm : ∀ l : List (Mat K), (∀ B ∈ l, nr ≤ B.r) →
      (l.mapM fun B => if nr ≤ B.r then some (⟨nr, B.c, B.e⟩ : Mat K) else none)
        = some (l.map fun B => ⟨nr, B.c, B.e⟩) := by
    intro l
    induction l with
    | nil => intro _; rfl
    | cons a l ih =>
      intro hl
      simp only [List.mapM_cons, ih fun B hB => hl B (by simp [hB]), if_pos (hl a (by simp)), List.map_cons]
      rfl
  refine ⟨⟨E.U.map fun B => ⟨nr, B.c, B.e⟩, nr⟩, ?_, rfl, ⟨hn.trans h.rows, h.cols, by simpa using h.count, ?_⟩⟩
  · unfold truncateRows
    rw [hm _ hall]; rfl
  · intro i B hB
    simp only [List.getElem?_map, Option.map_eq_some_iff] at hB
    obtain ⟨B0, hB0, rfl⟩ := hB
    obtain ⟨h1, h2, h3⟩ := h.blocks i B0 hB0
    exact ⟨rfl, h2, fun a ha k hk => h3 a (by simp only at ha; omega) k hk⟩

theorem sum_inBlock {M : Type} [AddCommMonoid M] (d : Dims) (i : ℕ) (hi : 1 ≤ i) (f : ℕ → M) :
    (∑ x ∈ range d.sum, if InBlock d i x then f x else 0)
      = ∑ k ∈ range ((d.take i).sum - (d.take (i - 1)).sum), f ((d.take (i - 1)).sum + k) := by
  rw [← Finset.sum_filter, ← Finset.sum_Ico_eq_sum_range]
  apply Finset.sum_congr _ fun _ _ => rfl
  ext x
  have h1 := take_sum_le d i
  rw [Finset.mem_filter, Finset.mem_range, Finset.mem_Ico]
  exact ⟨fun h => h.2, fun h => ⟨lt_of_lt_of_le h.2 h1, h⟩⟩

theorem block_size {d : Dims} {i n : ℕ} (hi : 1 ≤ i) (h : d[i - 1]? = some n) :
    (d.take i).sum - (d.take (i - 1)).sum = n := by
  obtain ⟨hl, he⟩ := List.getElem?_eq_some_iff.mp h
  have := take_succ_sum hl
  rw [show i - 1 + 1 = i by omega] at this
  omega

/-- The contribution of one line in terms of the full matrices. -/
theorem line_conjugate {V1 Vp : Mat K} {d1 dp : Dims} (hc1 : V1.c = d1.sum) (hcp : Vp.c = dp.sum)
    {i1 ip n1 np : ℕ} (h1 : 1 ≤ i1) (hp : 1 ≤ ip) (hd1 : d1[i1 - 1]? = some n1) (hdp : dp[ip - 1]? = some np)
    (f : K) (g : ℕ → ℕ → K) (a b : ℕ) :
    conjugate V1 (fun x y => if InBlock d1 i1 x ∧ InBlock dp ip y then
        f * g (x - (d1.take (i1 - 1)).sum) (y - (dp.take (ip - 1)).sum) else 0) Vp a b
      = ∑ j ∈ range n1, ∑ k ∈ range np,
          V1.e a ((d1.take (i1 - 1)).sum + j) * (f * g j k) * star (Vp.e b ((dp.take (ip - 1)).sum + k)) := by
  unfold conjugate
  rw [hc1, hcp]
  have hx : ∀ x, (∑ y ∈ range dp.sum, V1.e a x * (if InBlock d1 i1 x ∧ InBlock dp ip y then
        f * g (x - (d1.take (i1 - 1)).sum) (y - (dp.take (ip - 1)).sum) else 0) * star (Vp.e b y))
      = if InBlock d1 i1 x then ∑ k ∈ range np,
          V1.e a x * (f * g (x - (d1.take (i1 - 1)).sum) k) * star (Vp.e b ((dp.take (ip - 1)).sum + k)) else 0 := by
    intro x
    by_cases hb : InBlock d1 i1 x
    · rw [if_pos hb, ← block_size hp hdp]
      have := sum_inBlock dp ip hp fun y => V1.e a x * (f * g (x - (d1.take (i1 - 1)).sum)
        (y - (dp.take (ip - 1)).sum)) * star (Vp.e b y)
      simp only [Nat.add_sub_cancel_left] at this
      rw [← this]
      apply Finset.sum_congr rfl
      intro y _
      by_cases hy : InBlock dp ip y <;> simp [hb, hy]
    · simp [hb]
  rw [Finset.sum_congr rfl fun x _ => hx x, sum_inBlock d1 i1 h1, block_size h1 hd1]
  simp only [Nat.add_sub_cancel_left]

theorem conjugate_add (V1 Vp : Mat K) (O P : ℕ → ℕ → K) (a b : ℕ) :
    conjugate V1 (fun x y => O x y + P x y) Vp a b = conjugate V1 O Vp a b + conjugate V1 P Vp a b := by
  unfold conjugate
  rw [← Finset.sum_add_distrib]
  refine Finset.sum_congr rfl fun x _ => ?_
  rw [← Finset.sum_add_distrib]
  refine Finset.sum_congr rfl fun y _ => ?_
  ring

theorem conjugate_smul (V1 Vp : Mat K) (O : ℕ → ℕ → K) (s : K) (a b : ℕ) :
    conjugate V1 (fun x y => s * O x y) Vp a b = s * conjugate V1 O Vp a b := by
  unfold conjugate
  rw [Finset.mul_sum]
  refine Finset.sum_congr rfl fun x _ => ?_
  rw [Finset.mul_sum]
  refine Finset.sum_congr rfl fun y _ => ?_
  ring

theorem conjugate_zero (V1 Vp : Mat K) (a b : ℕ) : conjugate V1 (fun _ _ => 0) Vp a b = 0 := by
  simp [conjugate]

/-- One line of the table. -/
theorem recalcLine_spec (S : Symmetry) (E1 Ep : Eig K) (V1 Vp : Mat K) (d1 dp : Dims)
    (h1 : HoldsRows E1 V1 d1) (hp : HoldsRows Ep Vp dp) (cold : Elements K) (I1 Ip : Label) (t : Recalc K)
    (hl1 : d1.length = S.combs) (hlp : dp.length = S.combs)
    (ht : LineOK S I1 Ip t) (ho : OldOK S d1 dp cold t) (cn : Mat K) (hr : cn.r = E1.nr) (hc : cn.c = Ep.nr) :
    ∃ M, recalcLine S E1 Ep d1 dp cold I1 Ip cn t = some M ∧ M.r = E1.nr ∧ M.c = Ep.nr ∧
      ∀ a < E1.nr, ∀ b < Ep.nr, M.e a b = cn.e a b + conjugate V1 (fun x y =>
        if InBlock d1 t.i1 x ∧ InBlock dp t.ip y then
          t.factor * optEntry (cold.lookup (t.IN1, t.INp)) (x - (d1.take (t.i1 - 1)).sum)
            (y - (dp.take (t.ip - 1)).sum)
        else 0) Vp a b := by
  have hi1 : t.i1 - 1 < d1.length := by have := ht.i1; omega
  have hip : t.ip - 1 < dp.length := by have := ht.ip; omega
  have hcontr := line_conjugate h1.cols hp.cols ht.i1.1 ht.ip.1 (List.getElem?_eq_getElem hi1)
    (List.getElem?_eq_getElem hip) t.factor (optEntry (cold.lookup (t.IN1, t.INp)))
  simp only [hcontr]
  unfold recalcLine
  rw [if_pos ⟨ht.i1.1, ht.i1.2, ht.ip.1, ht.ip.2⟩]
  unfold OldOK at ho
  cases hcold : cold.lookup (t.IN1, t.INp) with
  | none =>
    refine ⟨cn, ?_, hr, hc, fun a _ b _ => by simp [optEntry]⟩
    rw [if_pos (⟨ht.anc1.symm, ht.ancp.symm⟩ : some t.IN1 = _ ∧ some t.INp = _)]
    simp only [rmax, List.getElem?_eq_getElem hi1, List.getElem?_eq_getElem hip, Option.bind_eq_bind, Option.bind_some]
    split <;> simp
  | some O =>
    rw [hcold] at ho
    by_cases hz : d1[t.i1 - 1] = 0 ∨ dp[t.ip - 1] = 0
    · refine ⟨cn, ?_, hr, hc, fun a _ b _ => by rcases hz with hz | hz <;> simp [hz]⟩
      rw [if_pos (⟨ht.anc1.symm, ht.ancp.symm⟩ : some t.IN1 = _ ∧ some t.INp = _)]
      simp only [rmax, List.getElem?_eq_getElem hi1, List.getElem?_eq_getElem hip, Option.bind_eq_bind,
        Option.bind_some, if_pos hz]
      split <;> simp
    · rw [List.getElem?_eq_getElem hi1, List.getElem?_eq_getElem hip] at ho
      push Not at hz
      obtain ⟨ha1, hap, hO1, hOp⟩ := ho O rfl (by simpa using hz.1) (by simpa using hz.2)
      rw [if_neg (by simp [ha1, hap]), if_pos (⟨ht.anc1.symm, ht.ancp.symm⟩ : some t.IN1 = _ ∧ some t.INp = _)]
      have hO1' : d1[t.i1 - 1] = O.r := Option.some.inj hO1
      have hOp' : dp[t.ip - 1] = O.c := Option.some.inj hOp
      rw [← List.getElem?_eq_getElem hi1] at hO1
      rw [← List.getElem?_eq_getElem hip] at hOp
      simp only [rmax, hO1, hOp, Option.bind_eq_bind, Option.bind_some, hO1', hOp']
      rw [if_neg (by rw [← hO1', ← hOp']; push Not; exact hz)]
      have hb1 : ∃ U1, E1.U[t.i1 - 1]? = some U1 := ⟨_, List.getElem?_eq_getElem (by rw [h1.count]; exact hi1)⟩
      have hbp : ∃ Up, Ep.U[t.ip - 1]? = some Up := ⟨_, List.getElem?_eq_getElem (by rw [hp.count]; exact hip)⟩
      obtain ⟨U1, hU1⟩ := hb1
      obtain ⟨Up, hUp⟩ := hbp
      obtain ⟨hr1, hc1, he1⟩ := h1.blocks _ _ hU1
      obtain ⟨hrp, hcp, hep⟩ := hp.blocks _ _ hUp
      have e1 : blockAt E1 t.i1 = some U1 := by
        unfold blockAt; rw [if_neg (by have := ht.i1; omega)]; exact hU1
      have ep : blockAt Ep t.ip = some Up := by
        unfold blockAt; rw [if_neg (by have := ht.ip; omega)]; exact hUp
      rw [hO1] at hc1; rw [hOp] at hcp
      have hc1 : O.r = U1.c := Option.some.inj hc1
      have hcp : O.c = Up.c := Option.some.inj hcp
      simp only [e1, ep, Option.bind_some]
      obtain ⟨M, hM, hMr, hMc, hMe⟩ := transform_spec cn U1 O Up t.factor (by omega) (by omega) (by omega) (by omega)
      refine ⟨M, hM, by omega, by omega, fun a ha b hb => ?_⟩
      rw [hMe a (by omega) b (by omega)]
      congr 1
      rw [Finset.mul_sum, Finset.sum_comm]
      refine Finset.sum_congr rfl fun l hl => ?_
      rw [Finset.sum_mul, Finset.mul_sum]
      refine Finset.sum_congr rfl fun k hk => ?_
      rw [Finset.mem_range] at hl hk
      rw [he1 a (by omega) k (by omega), hep b (by omega) l (by omega)]
      simp only [optEntry]
      ring

theorem fold_lines (S : Symmetry) (E1 Ep : Eig K) (V1 Vp : Mat K) (d1 dp : Dims)
    (h1 : HoldsRows E1 V1 d1) (hp : HoldsRows Ep Vp dp) (cold : Elements K) (I1 Ip : Label)
    (hl1 : d1.length = S.combs) (hlp : dp.length = S.combs) :
    ∀ (table : List (Recalc K)) (_ : ∀ t ∈ table, LineOK S I1 Ip t ∧ OldOK S d1 dp cold t) (cn : Mat K)
      (_ : cn.r = E1.nr) (_ : cn.c = Ep.nr),
    ∃ M, table.foldlM (recalcLine S E1 Ep d1 dp cold I1 Ip) cn = some M ∧ M.r = E1.nr ∧ M.c = Ep.nr ∧
      ∀ a < E1.nr, ∀ b < Ep.nr, M.e a b = cn.e a b + conjugate V1 (assembled d1 dp cold table) Vp a b
  | [], _, cn, hr, hc => ⟨cn, rfl, hr, hc, fun a _ b _ => by
      have : assembled d1 dp cold ([] : List (Recalc K)) = fun _ _ => 0 := by
        funext x y; simp [assembled]
      rw [this, conjugate_zero, add_zero]⟩
  | t :: table, ht, cn, hr, hc => by
    obtain ⟨M, hM, hMr, hMc, hMe⟩ := recalcLine_spec S E1 Ep V1 Vp d1 dp h1 hp cold I1 Ip t hl1 hlp
      (ht t (by simp)).1 (ht t (by simp)).2 cn hr hc
    obtain ⟨N, hN, hNr, hNc, hNe⟩ := fold_lines S E1 Ep V1 Vp d1 dp h1 hp cold I1 Ip hl1 hlp table
      (fun t' h => ht t' (by simp [h])) M hMr hMc
    refine ⟨N, ?_, hNr, hNc, fun a ha b hb => ?_⟩
    · simp only [List.foldlM_cons, hM]
      exact hN
    · rw [hNe a ha b hb, hMe a ha b hb, add_assoc, ← conjugate_add]
      congr 2

/-- C37.  Recalculating an operator succeeds and gives the block-assembled
operator conjugated by the eigenvectors: `V1 O Vp^†`. -/
theorem recalcGeneral_conjugates (S : Symmetry) (diag : DiagU K) (sub : List (Label × Dims)) (cold : Elements K)
    (I1 Ip Iop : Label) (table : List (Recalc K)) (htri : triangle S.fields I1 Ip Iop = true)
    (E1 Ep : Eig K) (d1 dp : Dims) (V1 Vp : Mat K)
    (hE1 : diag.lookup I1 = some E1) (hEp : diag.lookup Ip = some Ep)
    (hd1 : sub.lookup I1 = some d1) (hdp : sub.lookup Ip = some dp)
    (hl1 : d1.length = S.combs) (hlp : dp.length = S.combs)
    (h1 : HoldsRows E1 V1 d1) (hp : HoldsRows Ep Vp dp)
    (ht : ∀ t ∈ table, LineOK S I1 Ip t) (ho : ∀ t ∈ table, OldOK S d1 dp cold t) :
    ∃ M, recalcGeneral S diag sub cold I1 Ip table Iop = some (some M) ∧ M.r = E1.nr ∧ M.c = Ep.nr ∧
      ∀ a < E1.nr, ∀ b < Ep.nr, M.e a b = conjugate V1 (assembled d1 dp cold table) Vp a b := by
  unfold recalcGeneral
  rw [if_neg (by simp [htri])]
  simp only [hE1, hEp, hd1, hdp, Option.bind_eq_bind, Option.bind_some]
  by_cases hz : E1.nr = 0 ∨ Ep.nr = 0
  · rw [if_pos hz]
    exact ⟨zero E1.nr Ep.nr, rfl, rfl, rfl, fun a ha b hb => by omega⟩
  · rw [if_neg hz]
    obtain ⟨M, hM, hr, hc, he⟩ := fold_lines S E1 Ep V1 Vp d1 dp h1 hp cold I1 Ip hl1 hlp table
      (fun t h => ⟨ht t h, ho t h⟩) (zero E1.nr Ep.nr) rfl rfl
    refine ⟨M, by rw [hM]; rfl, hr, hc, fun a ha b hb => ?_⟩
    rw [he a ha b hb]
    simp [zero]

/-- C37.  Nothing is computed between subspaces that the operator does not couple. -/
theorem recalcGeneral_uncoupled (S : Symmetry) (diag : DiagU K) (sub : List (Label × Dims)) (cold : Elements K)
    (I1 Ip : Label) (table : List (Recalc K)) (Iop : Label) (h : triangle S.fields I1 Ip Iop = false) :
    recalcGeneral S diag sub cold I1 Ip table Iop = some none := by
  simp [recalcGeneral, h]

/-- Non-vacuity: a spin-1/2 operator does not couple two singlets. -/
example : triangle fields_QS [1, 1] [0, 1] [1, 2] = false := by decide

theorem conjugate_congr (V1 Vp : Mat K) (O P : ℕ → ℕ → K) (a b : ℕ)
    (h : ∀ x < V1.c, ∀ y < Vp.c, O x y = P x y) : conjugate V1 O Vp a b = conjugate V1 P Vp a b := by
  unfold conjugate
  refine Finset.sum_congr rfl fun x hx => Finset.sum_congr rfl fun y hy => ?_
  rw [h x (Finset.mem_range.mp hx) y (Finset.mem_range.mp hy)]

/-- C37.  Recalculating all states and then trimming to the kept ones gives the
same matrix as recalculating after the truncation. -/
theorem recalc_then_trim (S : Symmetry) (diag diag' : DiagU K) (sub : List (Label × Dims)) (cold : Elements K)
    (I1 Ip Iop : Label) (table : List (Recalc K)) (htri : triangle S.fields I1 Ip Iop = true)
    (E1 Ep E1' Ep' : Eig K) (d1 dp : Dims) (V1 Vp : Mat K) (n1 np : ℕ)
    (hE1 : diag.lookup I1 = some E1) (hEp : diag.lookup Ip = some Ep)
    (hE1' : diag'.lookup I1 = some E1') (hEp' : diag'.lookup Ip = some Ep')
    (ht1 : truncateRows E1 n1 = some E1') (htp : truncateRows Ep np = some Ep')
    (hn1 : n1 ≤ E1.nr) (hnp : np ≤ Ep.nr)
    (hd1 : sub.lookup I1 = some d1) (hdp : sub.lookup Ip = some dp)
    (hl1 : d1.length = S.combs) (hlp : dp.length = S.combs)
    (h1 : HoldsRows E1 V1 d1) (hp : HoldsRows Ep Vp dp) (hz : E1.nr ≠ 0 ∧ Ep.nr ≠ 0)
    (ht : ∀ t ∈ table, LineOK S I1 Ip t) (ho : ∀ t ∈ table, OldOK S d1 dp cold t) :
    ∃ M M' T, recalcGeneral S diag sub cold I1 Ip table Iop = some (some M) ∧
      recalcGeneral S diag' sub cold I1 Ip table Iop = some (some M') ∧
      trim M n1 np = some T ∧ T.Eqv M' := by
  obtain ⟨F1, hF1, hF1n, hF1h⟩ := truncate_holds E1 V1 d1 h1 n1 hn1
  obtain ⟨Fp, hFp, hFpn, hFph⟩ := truncate_holds Ep Vp dp hp np hnp
  rw [ht1] at hF1; cases hF1
  rw [htp] at hFp; cases hFp
  obtain ⟨M, hM, hMr, hMc, hMe⟩ := recalcGeneral_conjugates S diag sub cold I1 Ip Iop table htri E1 Ep d1 dp V1 Vp
    hE1 hEp hd1 hdp hl1 hlp h1 hp ht ho
  obtain ⟨M', hM', hMr', hMc', hMe'⟩ := recalcGeneral_conjugates S diag' sub cold I1 Ip Iop table htri E1' Ep' d1 dp V1 Vp
    hE1' hEp' hd1 hdp hl1 hlp hF1h hFph ht ho
  have hT : ∃ T, trim M n1 np = some T ∧ T.r = n1 ∧ T.c = np ∧ ∀ i < n1, ∀ j < np, T.e i j = M.e i j := by
    unfold trim
    rw [if_neg (by omega), if_pos (by omega)]
    split
    · exact ⟨M, rfl, by omega, by omega, fun _ _ _ _ => rfl⟩
    · refine ⟨⟨n1 - 0, np - 0, fun i j => M.e (0 + i) (0 + j)⟩, if_pos (by omega), by simp, by simp, ?_⟩
      intro i _ j _; simp
  obtain ⟨T, hT, hTr, hTc, hTe⟩ := hT
  refine ⟨M, M', T, hM, hM', hT, by omega, by omega, fun i hi j hj => ?_⟩
  rw [hTe i (by omega) j (by omega), hMe i (by omega) j (by omega), hMe' i (by omega) j (by omega)]

theorem assembled_linear (d1 dp : Dims) (A B C : Elements K) (α β : K) (table : List (Recalc K)) (x y : ℕ)
    (hlin : ∀ key x y, optEntry (C.lookup key) x y = α * optEntry (A.lookup key) x y + β * optEntry (B.lookup key) x y) :
    assembled d1 dp C table x y = α * assembled d1 dp A table x y + β * assembled d1 dp B table x y := by
  unfold assembled
  induction table with
  | nil => simp
  | cons t table ih =>
    simp only [List.map_cons, List.sum_cons]
    rw [ih]
    split
    · rw [hlin]; ring
    · ring

/-- C37.  The result is linear in the operator. -/
theorem recalcGeneral_linear (S : Symmetry) (diag : DiagU K) (sub : List (Label × Dims)) (A B C : Elements K) (α β : K)
    (I1 Ip Iop : Label) (table : List (Recalc K)) (htri : triangle S.fields I1 Ip Iop = true)
    (E1 Ep : Eig K) (d1 dp : Dims) (V1 Vp : Mat K)
    (hE1 : diag.lookup I1 = some E1) (hEp : diag.lookup Ip = some Ep)
    (hd1 : sub.lookup I1 = some d1) (hdp : sub.lookup Ip = some dp)
    (hl1 : d1.length = S.combs) (hlp : dp.length = S.combs)
    (h1 : HoldsRows E1 V1 d1) (hp : HoldsRows Ep Vp dp)
    (ht : ∀ t ∈ table, LineOK S I1 Ip t)
    (hA : ∀ t ∈ table, OldOK S d1 dp A t) (hB : ∀ t ∈ table, OldOK S d1 dp B t) (hC : ∀ t ∈ table, OldOK S d1 dp C t)
    (hlin : ∀ key x y, optEntry (C.lookup key) x y = α * optEntry (A.lookup key) x y + β * optEntry (B.lookup key) x y) :
    ∃ MA MB MC, recalcGeneral S diag sub A I1 Ip table Iop = some (some MA) ∧
      recalcGeneral S diag sub B I1 Ip table Iop = some (some MB) ∧
      recalcGeneral S diag sub C I1 Ip table Iop = some (some MC) ∧
      ∀ a < E1.nr, ∀ b < Ep.nr, MC.e a b = α * MA.e a b + β * MB.e a b := by
  obtain ⟨MA, hMA, _, _, hA⟩ := recalcGeneral_conjugates S diag sub A I1 Ip Iop table htri E1 Ep d1 dp V1 Vp
    hE1 hEp hd1 hdp hl1 hlp h1 hp ht hA
  obtain ⟨MB, hMB, _, _, hB⟩ := recalcGeneral_conjugates S diag sub B I1 Ip Iop table htri E1 Ep d1 dp V1 Vp
    hE1 hEp hd1 hdp hl1 hlp h1 hp ht hB
  obtain ⟨MC, hMC, _, _, hC⟩ := recalcGeneral_conjugates S diag sub C I1 Ip Iop table htri E1 Ep d1 dp V1 Vp
    hE1 hEp hd1 hdp hl1 hlp h1 hp ht hC
  refine ⟨MA, MB, MC, hMA, hMB, hMC, fun a ha b hb => ?_⟩
  rw [hC a ha b hb, hA a ha b hb, hB a ha b hb, ← conjugate_smul, ← conjugate_smul, ← conjugate_add]
  apply conjugate_congr
  intro x _ y _
  exact assembled_linear d1 dp A B C α β table x y hlin

theorem ancestor_range {S : Symmetry} {I A : Label} {i : ℕ} (h : S.ancestor I i = some A) : i < S.combs := by
  by_contra hne
  have : S.table[i]? = none := List.getElem?_eq_none (by simpa [Symmetry.combs] using hne)
  simp [Symmetry.ancestor, this] at h

theorem singletTable_mem (S : Symmetry) (I : Label) (t : List (Recalc K)) (h : singletTable S I = some t) :
    ∀ (i : ℕ), t[i]? = ((List.range S.combs)[i]?).bind fun i => (S.ancestor I i).map fun A => ⟨i + 1, i + 1, A, A, 1⟩ := by
  intro i
  unfold singletTable at h
  rw [(mapM_getElem? _ _ _ h).2 i]
  congr 1
  funext j
  cases S.ancestor I j <;> rfl

/-- In the product basis the identity is assembled to the identity. -/
theorem assembled_identity (S : Symmetry) (I : Label) (d : Dims) (hl : d.length = S.combs) (cold : Elements K)
    (hid : OldIdentity S I d cold) (t : List (Recalc K)) (ht : singletTable S I = some t) (x y : ℕ) (hx : x < d.sum)
    (hy : y < d.sum) : assembled d d cold t x y = if x = y then 1 else 0 := by
  obtain ⟨j, hj, hjx⟩ := exists_block d x hx
  have hlen : t.length = S.combs := by
    unfold singletTable at ht
    simpa using (mapM_getElem? _ _ _ ht).1
  have hget := singletTable_mem S I t ht
  have hterm : ∀ i, i < t.length → ∃ A, S.ancestor I i = some A ∧ t[i]? = some ⟨i + 1, i + 1, A, A, 1⟩ := by
    intro i hi
    have h := hget i
    rw [List.getElem?_range (by omega)] at h
    simp only [Option.bind_some] at h
    cases hA : S.ancestor I i with
    | none => rw [hA] at h; simp at h; omega
    | some A => rw [hA] at h; exact ⟨A, rfl, by simpa using h⟩
  unfold assembled
  -- the sum over the lines as a sum over the blocks
  have hmap : (t.map fun t => if InBlock d t.i1 x ∧ InBlock d t.ip y then
      t.factor * optEntry (cold.lookup (t.IN1, t.INp)) (x - (d.take (t.i1 - 1)).sum) (y - (d.take (t.ip - 1)).sum)
        else 0) = (List.range S.combs).map fun i => if i = j ∧ x = y then 1 else 0 := by
    apply List.ext_getElem?
    intro i
    rw [List.getElem?_map, List.getElem?_map]
    by_cases hi : i < t.length
    · obtain ⟨A, hA, hti⟩ := hterm i hi
      rw [hti, List.getElem?_range (by omega)]
      simp only [Option.map_some, Nat.add_sub_cancel, one_mul, Option.some.injEq]
      have hid' : i < d.length := by omega
      by_cases hb : InBlock d (i + 1) x ∧ InBlock d (i + 1) y
      · rw [if_pos hb]
        obtain ⟨⟨hx1, hx2⟩, ⟨hy1, hy2⟩⟩ := hb
        simp only [Nat.add_sub_cancel] at hx1 hy1
        have hij : i = j := block_unique d x i j ⟨hx1, hx2⟩ hjx
        rw [take_succ_sum hid'] at hx2 hy2
        obtain ⟨_, O, hO, _, _, hOe⟩ := hid i d[i] A (List.getElem?_eq_getElem hid') hA (by omega)
        rw [hO]
        simp only [optEntry]
        rw [hOe _ (by omega) _ (by omega)]
        by_cases hxy : x = y
        · simp [hxy, hij]
        · rw [if_neg (by omega), if_neg (by simp [hxy])]
      · rw [if_neg hb, if_neg]
        rintro ⟨rfl, rfl⟩
        exact hb ⟨⟨by simpa using hjx.1, hjx.2⟩, ⟨by simpa using hjx.1, hjx.2⟩⟩
    · rw [List.getElem?_eq_none (by omega), List.getElem?_eq_none (by simp; omega)]; rfl
  rw [hmap]
  change ∑ i ∈ Finset.range S.combs, _ = _
  rw [Finset.sum_eq_single j]
  · simp
  · intro b _ hb; simp [hb]
  · intro hj'; simp at hj'; omega

/-- C37.  The identity operator stays the identity if the eigenvectors are
orthonormal: recalculating the identity as a singlet operator gives `1`. -/
theorem recalcSinglet_identity (S : Symmetry) (diag : DiagU K) (sub : List (Label × Dims)) (cold : Elements K)
    (I singlet : Label) (htri : triangle S.fields I I singlet = true)
    (E : Eig K) (d : Dims) (V : Mat K) (hE : diag.lookup I = some E) (hd : sub.lookup I = some d)
    (hl : d.length = S.combs) (h : HoldsRows E V d)
    (hortho : ∀ a < E.nr, ∀ b < E.nr, ∑ x ∈ range V.c, V.e a x * star (V.e b x) = if a = b then 1 else 0)
    (hanc : ∀ i < S.combs, (S.ancestor I i).isSome) (hid : OldIdentity S I d cold) :
    ∃ M, recalcSinglet1 S diag sub cold singlet I = some (some M) ∧ M.r = E.nr ∧ M.c = E.nr ∧
      ∀ a < E.nr, ∀ b < E.nr, M.e a b = if a = b then 1 else 0 := by
  obtain ⟨t, ht⟩ : ∃ t, singletTable (K := K) S I = some t := by
    have : ∀ l : List ℕ, (∀ i ∈ l, i < S.combs) → ∃ t : List (Recalc K), (l.mapM fun i => do
        let a ← S.ancestor I i
        pure (⟨i + 1, i + 1, a, a, 1⟩ : Recalc K)) = some t := by
      intro l
      induction l with
      | nil => intro _; exact ⟨[], rfl⟩
      | cons i l ih =>
        intro h
        obtain ⟨t, ht⟩ := ih fun j hj => h j (by simp [hj])
        obtain ⟨A, hA⟩ := Option.isSome_iff_exists.mp (hanc i (h i (by simp)))
        exact ⟨⟨i + 1, i + 1, A, A, 1⟩ :: t, by simp only [List.mapM_cons, ht, hA]; rfl⟩
    exact this _ fun i hi => by simpa using hi
  have hlines : ∀ l ∈ t, ∃ i A, S.ancestor I i = some A ∧ l = ⟨i + 1, i + 1, A, A, 1⟩ := by
    intro l hl
    obtain ⟨i, hi⟩ := List.getElem?_of_mem hl
    rw [singletTable_mem S I t ht i] at hi
    simp only [Option.bind_eq_some_iff, Option.map_eq_some_iff] at hi
    obtain ⟨j, _, A, hA, rfl⟩ := hi
    exact ⟨j, A, hA, rfl⟩
  obtain ⟨M, hM, hr, hc, he⟩ := recalcGeneral_conjugates S diag sub cold I I singlet t htri E E d d V V hE hE hd hd
    hl hl h h (by
      intro l hl
      obtain ⟨i, A, hA, rfl⟩ := hlines l hl
      have := ancestor_range hA
      exact ⟨⟨by simp, this⟩, ⟨by simp, this⟩, by simpa using hA, by simpa using hA⟩) (by
      intro l hl' O hO h1 h2
      obtain ⟨i, A, hA, rfl⟩ := hlines l hl'
      have hi := ancestor_range hA
      simp only [Nat.add_sub_cancel] at h1 h2 hO ⊢
      have hil : i < d.length := by omega
      rw [List.getElem?_eq_getElem hil] at h1 ⊢
      obtain ⟨ha, O', hO', hr, hc, _⟩ := hid i d[i] A (List.getElem?_eq_getElem hil) hA (by simpa using h1)
      rw [hO] at hO'
      cases hO'
      exact ⟨ha, ha, by rw [hr], by rw [hc]⟩)
  refine ⟨M, ?_, hr, hc, fun a ha b hb => ?_⟩
  · unfold recalcSinglet1; rw [ht]; exact hM
  · rw [he a ha b hb, conjugate_congr V V _ (fun x y => if x = y then 1 else 0) a b, ← hortho a ha b hb]
    · unfold conjugate
      refine Finset.sum_congr rfl fun x hx => ?_
      simp only [mul_ite, mul_one, mul_zero, ite_mul, zero_mul]
      rw [Finset.sum_ite_eq]
      rw [if_pos hx]
    · intro x hx y hy
      exact assembled_identity S I d hl cold hid t ht x y (by rw [← h.cols]; exact hx) (by rw [← h.cols]; exact hy)

/-- Lines of a `recalc_f` table whose blocks exist and have equal sizes. -/
def LineFOK (d1 dp : Dims) (t : RecalcF K) : Prop :=
  1 ≤ t.i1 ∧ 1 ≤ t.ip ∧ ∃ n, d1[t.i1 - 1]? = some n ∧ dp[t.ip - 1]? = some n

theorem lineF_conjugate {V1 Vp : Mat K} {d1 dp : Dims} (hc1 : V1.c = d1.sum) (hcp : Vp.c = dp.sum) (t : RecalcF K)
    {n : ℕ} (h1 : 1 ≤ t.i1) (hp : 1 ≤ t.ip) (hd1 : d1[t.i1 - 1]? = some n) (hdp : dp[t.ip - 1]? = some n) (a b : ℕ) :
    conjugate V1 (fun x y => if InBlock d1 t.i1 x ∧ InBlock dp t.ip y ∧
        x - (d1.take (t.i1 - 1)).sum = y - (dp.take (t.ip - 1)).sum then t.factor else 0) Vp a b
      = t.factor * ∑ k ∈ range n, V1.e a ((d1.take (t.i1 - 1)).sum + k) *
          star (Vp.e b ((dp.take (t.ip - 1)).sum + k)) := by
  have := line_conjugate hc1 hcp h1 hp hd1 hdp t.factor (fun i j => if i = j then (1 : K) else 0) a b
  rw [conjugate_congr V1 Vp _ (fun x y => if InBlock d1 t.i1 x ∧ InBlock dp t.ip y then
        t.factor * (if x - (d1.take (t.i1 - 1)).sum = y - (dp.take (t.ip - 1)).sum then (1 : K) else 0) else 0) a b, this]
  · rw [Finset.mul_sum]
    refine Finset.sum_congr rfl fun j hj => ?_
    simp only [mul_ite, mul_one, mul_zero, ite_mul, zero_mul]
    rw [Finset.sum_ite_eq, if_pos hj]
    ring
  · intro x _ y _
    by_cases hA : InBlock d1 t.i1 x ∧ InBlock dp t.ip y
    · rw [if_pos hA]
      by_cases hB : x - (d1.take (t.i1 - 1)).sum = y - (dp.take (t.ip - 1)).sum
      · rw [if_pos ⟨hA.1, hA.2, hB⟩, if_pos hB, mul_one]
      · rw [if_neg (fun h => hB h.2.2), if_neg hB, mul_zero]
    · rw [if_neg hA, if_neg (fun h => hA ⟨h.1, h.2.1⟩)]

theorem fold_linesF (E1 Ep : Eig K) (V1 Vp : Mat K) (d1 dp : Dims) (h1 : HoldsRows E1 V1 d1) (hp : HoldsRows Ep Vp dp) :
    ∀ (table : List (RecalcF K)) (_ : ∀ t ∈ table, LineFOK d1 dp t) (cn : Mat K)
      (_ : cn.r = E1.nr) (_ : cn.c = Ep.nr),
    ∃ M, table.foldlM (fun f t => do
        let U1 ← blockAt E1 t.i1
        let Up ← blockAt Ep t.ip
        product f t.factor U1 Up) cn = some M ∧ M.r = E1.nr ∧ M.c = Ep.nr ∧
      ∀ a < E1.nr, ∀ b < Ep.nr, M.e a b = cn.e a b + conjugate V1 (assembledF d1 dp table) Vp a b
  | [], _, cn, hr, hc => ⟨cn, rfl, hr, hc, fun a _ b _ => by
      have : assembledF d1 dp ([] : List (RecalcF K)) = fun _ _ => 0 := by
        funext x y; simp [assembledF]
      rw [this, conjugate_zero, add_zero]⟩
  | t :: table, ht, cn, hr, hc => by
    obtain ⟨hi1, hip, n, hd1, hdp⟩ := ht t (by simp)
    obtain ⟨hl1, _⟩ := List.getElem?_eq_some_iff.mp hd1
    obtain ⟨hlp, _⟩ := List.getElem?_eq_some_iff.mp hdp
    obtain ⟨U1, hU1⟩ : ∃ U1, E1.U[t.i1 - 1]? = some U1 := ⟨_, List.getElem?_eq_getElem (by rw [h1.count]; exact hl1)⟩
    obtain ⟨Up, hUp⟩ : ∃ Up, Ep.U[t.ip - 1]? = some Up := ⟨_, List.getElem?_eq_getElem (by rw [hp.count]; exact hlp)⟩
    obtain ⟨hr1, hc1, he1⟩ := h1.blocks _ _ hU1
    obtain ⟨hrp, hcp, hep⟩ := hp.blocks _ _ hUp
    rw [hd1] at hc1; rw [hdp] at hcp
    have hc1 : n = U1.c := Option.some.inj hc1
    have hcp : n = Up.c := Option.some.inj hcp
    have e1 : blockAt E1 t.i1 = some U1 := by
      unfold blockAt; rw [if_neg (by omega)]; exact hU1
    have ep : blockAt Ep t.ip = some Up := by
      unfold blockAt; rw [if_neg (by omega)]; exact hUp
    obtain ⟨M, hM, hMr, hMc, hMe⟩ := product_spec cn U1 Up t.factor (by omega) (by omega) (by omega)
    obtain ⟨N, hN, hNr, hNc, hNe⟩ := fold_linesF E1 Ep V1 Vp d1 dp h1 hp table
      (fun t' h => ht t' (by simp [h])) M (by omega) (by omega)
    refine ⟨N, ?_, hNr, hNc, fun a ha b hb => ?_⟩
    · simp only [List.foldlM_cons, e1, ep, Option.bind_eq_bind, Option.bind_some, hM]
      exact hN
    · rw [hNe a ha b hb, hMe a (by omega) b (by omega), add_assoc]
      congr 1
      have hline := lineF_conjugate h1.cols hp.cols t hi1 hip hd1 hdp a b
      have hs : ∑ k ∈ range U1.c, U1.e a k * star (Up.e b k) = ∑ k ∈ range n,
          V1.e a ((d1.take (t.i1 - 1)).sum + k) * star (Vp.e b ((dp.take (t.ip - 1)).sum + k)) := by
        rw [← hc1]
        refine Finset.sum_congr rfl fun k hk => ?_
        rw [Finset.mem_range] at hk
        rw [he1 a (by omega) k (by omega), hep b (by omega) k (by omega)]
      rw [hs, ← hline, ← conjugate_add]
      congr 1

/-- C37.  `recalc_f` gives the operator of the added site conjugated by the
eigenvectors. -/
theorem recalcF_conjugates (diag : DiagU K) (I1 Ip : Label) (table : List (RecalcF K)) (E1 Ep : Eig K) (V1 Vp : Mat K)
    (d1 dp : Dims) (hE1 : diag.lookup I1 = some E1) (hEp : diag.lookup Ip = some Ep)
    (h1 : HoldsRows E1 V1 d1) (hp : HoldsRows Ep Vp dp) (ht : ∀ t ∈ table, LineFOK d1 dp t) :
    ∃ M, recalcF diag I1 Ip table = some M ∧ M.r = E1.nr ∧ M.c = Ep.nr ∧
      ∀ a < E1.nr, ∀ b < Ep.nr, M.e a b = conjugate V1 (assembledF d1 dp table) Vp a b := by
  obtain ⟨M, hM, hr, hc, he⟩ := fold_linesF E1 Ep V1 Vp d1 dp h1 hp table ht (zero E1.nr Ep.nr) rfl rfl
  refine ⟨M, ?_, hr, hc, fun a ha b hb => ?_⟩
  · unfold recalcF
    simp only [hE1, hEp, Option.bind_eq_bind, Option.bind_some]
    exact hM
  · rw [he a ha b hb]; simp [zero]

/-- C37.  `recalc1_global` adds the conjugated operator of the added site to
what was there. -/
theorem recalcGlobal_conjugates (E : Eig K) (table : List (RecalcF K)) (V : Mat K) (d : Dims) (h : HoldsRows E V d)
    (ht : ∀ t ∈ table, LineFOK d d t) (m : Mat K) (hr : m.r = E.nr) (hc : m.c = E.nr) :
    ∃ M, recalcGlobal E table m = some M ∧ M.r = E.nr ∧ M.c = E.nr ∧
      ∀ a < E.nr, ∀ b < E.nr, M.e a b = m.e a b + conjugate V (assembledF d d table) V a b :=
  fold_linesF E E V V d d h h table ht m hr hc

theorem sum_blocks {M : Type} [AddCommMonoid M] (d : Dims) (f : ℕ → M) : ∀ m ≤ d.length,
    ∑ x ∈ range (d.take m).sum, f x = ∑ i ∈ range m, ∑ k ∈ range (d.getD i 0), f ((d.take i).sum + k)
  | 0, _ => by simp
  | m + 1, hm => by
    rw [Finset.sum_range_succ, ← sum_blocks d f m (by omega), take_succ_sum (by omega : m < d.length),
      Finset.sum_range_add, List.getD_eq_getElem?_getD, List.getElem?_eq_getElem (by omega : m < d.length)]
    rfl

/-- Orthonormal eigenvectors, cut into blocks and truncated, are what the
density-matrix sweeps (C26, C27) assume of the stored eigenvectors. -/
theorem holdsRows_eigOK (S : Symmetry) (prev : BackShell) (J : Label) (E : Eig K) (s : BackSub) (V : Mat K)
    (hdims : subspaceDims S (keptSizes prev) J = some s.rmax) (hl : s.rmax.length = S.combs) (h : HoldsRows E V s.rmax)
    (hortho : ∀ a < E.nr, ∀ b < E.nr, ∑ x ∈ range V.c, V.e a x * star (V.e b x) = if a = b then 1 else 0) :
    EigOK S prev J E s where
  dims := hdims
  count := by rw [h.count, hl]
  shape := fun i B hB => ⟨(h.blocks i B hB).1, (h.blocks i B hB).2.1⟩
  ortho := by
    intro a ha b hb
    rw [← hortho a ha b hb, h.cols]
    have := sum_blocks s.rmax (fun x => V.e a x * star (V.e b x)) s.rmax.length le_rfl
    rw [List.take_length, hl] at this
    rw [this]
    refine Finset.sum_congr rfl fun i hi => ?_
    rw [Finset.mem_range] at hi
    obtain ⟨B, hB⟩ : ∃ B, E.U[i]? = some B := ⟨_, List.getElem?_eq_getElem (by rw [h.count]; omega)⟩
    obtain ⟨hr, hc, he⟩ := h.blocks i B hB
    have e1 : E.U.getD i empty = B := by rw [List.getD_eq_getElem?_getD, hB]; rfl
    have e2 : s.rmax.getD i 0 = B.c := by rw [List.getD_eq_getElem?_getD, hc]; rfl
    rw [e1, e2]
    refine Finset.sum_congr rfl fun k hk => ?_
    rw [Finset.mem_range] at hk
    rw [he a (by omega) k hk, he b (by omega) k hk]

/-! ### A concrete case: one level and one site, symmetry QS, subspace `(Q, 2S+1) = (0, 1)` -/

private def exS : Symmetry := ⟨fields_QS, tab_QS_1ch⟩
private def exD : Dims := [1, 0, 1, 1]
/-- Rotation matrix; its rows are the eigenvectors. -/
private def exV : Mat ℚ := ⟨3, 3, fun i j => ([[3/5, -4/5, 0], [4/5, 3/5, 0], [0, 0, 1]].getD i []).getD j 0⟩
private def exId : Elements ℚ :=
  [(([1, 1], [1, 1]), ⟨1, 1, fun _ _ => 1⟩), (([0, 2], [0, 2]), ⟨1, 1, fun _ _ => 1⟩),
   (([-1, 1], [-1, 1]), ⟨1, 1, fun _ _ => 1⟩)]
/-- The number of electrons on the old sites. -/
private def exN : Elements ℚ :=
  [(([1, 1], [1, 1]), ⟨1, 1, fun _ _ => 2⟩), (([0, 2], [0, 2]), ⟨1, 1, fun _ _ => 1⟩),
   (([-1, 1], [-1, 1]), ⟨1, 1, fun _ _ => 0⟩)]

/-- The hypotheses of the theorems hold for two of the three eigenvectors … -/
example : ∃ E, splitInBlocks exV 3 exD = some E ∧ HoldsRows E exV exD ∧
    ∃ E', truncateRows E 2 = some E' ∧ HoldsRows E' exV exD ∧
      (∀ a < E'.nr, ∀ b < E'.nr, ∑ x ∈ range exV.c, exV.e a x * star (exV.e b x) = if a = b then 1 else 0) ∧
      OldIdentity exS [0, 1] exD exId ∧ triangle exS.fields [0, 1] [0, 1] [0, 1] = true ∧
      ∀ i < exS.combs, (exS.ancestor [0, 1] i).isSome := by
  obtain ⟨E, h1, h2, h3⟩ := splitInBlocks_holds exV 3 exD rfl (by decide) (by decide) (by decide)
  obtain ⟨E', g1, g2, g3⟩ := truncate_holds E exV exD h3 2 (by omega)
  refine ⟨E, h1, h3, E', g1, g3, by rw [g2]; decide +kernel, ?_, by decide, by decide⟩
  intro i n A hd hA hn
  match i with
  | 0 | 1 | 2 | 3 =>
    simp only [exD, List.getElem?_cons_zero, List.getElem?_cons_succ, Option.some.injEq] at hd
    subst hd
    first
      | exact absurd rfl hn
      | (cases hA
         refine ⟨by decide, ⟨1, 1, fun _ _ => 1⟩, by rfl, rfl, rfl, fun a ha b hb => ?_⟩
         rw [if_pos (by omega)])
  | n + 4 => simp [exD] at hd

/-- … and the matrix of the electron number in the new basis is that of
`V N V^†`. -/
example : ((splitInBlocks exV 3 exD).bind (truncateRows · 2)).bind (fun E =>
      (recalcSinglet1 exS [([0, 1], E)] [([0, 1], exD)] exN [0, 1] [0, 1]).map
        (Option.map fun M => (M.r, M.c, [M.e 0 0, M.e 0 1, M.e 1 0, M.e 1 1])))
    = some (some (2, 2, [34/25, 12/25, 12/25, 41/25])) := by decide +kernel

end Verif.Ops
