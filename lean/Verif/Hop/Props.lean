import Verif.Hop.Lemmas
/-!
# Properties of the Hamiltonian tables: C57
-/

namespace Verif.Hop
open Verif.Invar Verif.Symm Verif.Subspaces

/-- **C57, structure of the hopping tables.** In every Hamiltonian table of every
built-in symmetry, each hopping entry couples two different, existing site
combinations whose labels differ by exactly one of the electron operators that
the program keeps for that channel and matrix index; the channel and the matrix
index are in range. -/
theorem hops_connected (H : Ham) (hH : H ∈ hams) (T : HamTable) (hT : T ∈ H.variants) (g : HopGroup)
    (hg : g ∈ T.hops) (i j : Nat) (hp : (i, j) ∈ g.pairs) :
    g.ch < H.builtin.channels ∧ g.fnr < perchannel H.builtin.symtype ∧ H.Index i ∧ H.Index j ∧ i ≠ j ∧
      ∃ b ∈ H.blocks, b.ch = g.ch ∧ b.fnr = g.fnr ∧ H.ConnectedBy b i j := by
  obtain ⟨h1, h2, h3⟩ := hopsOk_of_mem hH hT hg
  exact ⟨h1, h2, h3 (i, j) hp⟩

/-- The tables cover all built-in symmetries. -/
theorem hams_cover : hams.map Ham.builtin = builtins := hams_builtins

example : ham_QS_2ch ∈ hams := by simp [hams]
example : ham_QS_2ch_plain ∈ ham_QS_2ch.variants ∧ ∃ g ∈ ham_QS_2ch_plain.hops, (1, 3) ∈ g.pairs := by
  decide +kernel

theorem pairKey_eq {p q : Nat × Nat} (h : p = q ∨ p = (q.2, q.1)) : pairKey p = pairKey q := by
  rcases h with rfl | rfl
  · rfl
  · simp [pairKey, min_comm, max_comm]

/-- **C57, uniqueness.** For a given macro, channel and matrix index there is one
list of entries, and no unordered pair of combinations occurs in it twice (neither
repeated nor reversed). -/
theorem hops_distinct (H : Ham) (hH : H ∈ hams) (T : HamTable) (hT : T ∈ H.variants) :
    (T.hops.map fun g => (g.mac, g.ch, g.fnr)).Nodup ∧
    ∀ g ∈ T.hops, g.pairs.Pairwise fun p q => p ≠ q ∧ p ≠ (q.2, q.1) := by
  have h := List.all_eq_true.1 hams_distinctOk H hH
  have h := List.all_eq_true.1 h T hT
  rw [Bool.and_eq_true, decide_eq_true_eq] at h
  refine ⟨h.1, fun g hg => ?_⟩
  have h2 := (insertAll_spec 20 _ _ (List.all_eq_true.1 h.2 g hg)).1
  rw [List.Nodup, List.pairwise_map] at h2
  exact h2.imp fun hk => ⟨fun e => hk (pairKey_eq (Or.inl e)), fun e => hk (pairKey_eq (Or.inr e))⟩

/-- What a hopping entry has to do in a new subspace with label `I`: nothing if one of
its two blocks is empty, otherwise add a matrix with exactly the dimensions of the
block `(i, j)` of the Hamiltonian. -/
def HopFits (dims : Dims) (i j : Nat) (o : HopOutcome) : Prop :=
  ∃ m n, dims[i - 1]? = some m ∧ dims[j - 1]? = some n ∧
    o = if m = 0 ∨ n = 0 then .skipped else .added m n

/-- The general fact behind the next theorems: an entry fits, provided the operator
block is stored for these two ancestors. -/
theorem offdiagFunction_fits (H : Ham) (hH : H ∈ hams) (T : HamTable) (hT : T ∈ H.variants) (g : HopGroup)
    (hg : g ∈ T.hops) (i j : Nat) (hp : (i, j) ∈ g.pairs) (diag : Sizes)
    (hd : ∀ p ∈ diag, Valid (types H.builtin.sym.fields) p.1) (I : Label)
    (hI : Valid (types H.builtin.sym.fields) I) :
    ∃ anc dims opch, H.builtin.sym.ancestors I = some anc ∧ subspaceDims H.builtin.sym diag I = some dims ∧
      recalcIrreduc H diag = some opch ∧
      ∃ a b, anc[i - 1]? = some a ∧ anc[j - 1]? = some b ∧
        (recalcFCoupled H a b = true → HopFits dims i j (offdiagFunction opch anc dims i j g.ch g.fnr) ∧
          (offdiagContributes dims i j = some true →
            offdiagFunction opch anc dims i j g.ch g.fnr = offdiagImpl opch anc dims i j g.ch g.fnr)) := by
  obtain ⟨-, -, hi, hj, hne, b, hb, hch, hfnr, hconn⟩ := hops_connected H hH T hT g hg i j hp
  obtain ⟨ri, hri⟩ := index_row hi
  obtain ⟨rj, hrj⟩ := index_row hj
  have hv := rowsValid_of_ham hH
  obtain ⟨opch, ho, -⟩ := recalcIrreduc_spec hH diag hd
  have ha := ancestors_eq _ hv I hI
  have hdm := subspaceDims_eq _ hv diag I hI
  refine ⟨_, _, opch, ha, hdm, ho, anc H.builtin.sym I ri, anc H.builtin.sym I rj, by simp [hri], by simp [hrj],
    fun hcp => ?_⟩
  obtain ⟨hlen, hget⟩ := dims_get hH hI hdm
  generalize hdims : (List.map (fun r => if triangle H.builtin.sym.fields I (anc H.builtin.sym I r) r.2 = true
    then sizeSubspace diag (anc H.builtin.sym I r) else 0) H.builtin.sym.table) = dims at *
  have gi := hget _ _ hri
  have gj := hget _ _ hrj
  generalize hm : (if triangle H.builtin.sym.fields I (anc H.builtin.sym I ri) ri.2 = true
    then sizeSubspace diag (anc H.builtin.sym I ri) else 0) = m at gi
  generalize hn : (if triangle H.builtin.sym.fields I (anc H.builtin.sym I rj) rj.2 = true
    then sizeSubspace diag (anc H.builtin.sym I rj) else 0) = n at gj
  have hcon := contributes_eq hi.1 hj.1 hne gi gj
  refine ⟨⟨m, n, gi, gj, ?_⟩, fun h => by simp only [offdiagFunction, h]⟩
  simp only [offdiagFunction, hcon]
  by_cases hz : m = 0 ∨ n = 0
  · have : (decide (0 < m) && decide (0 < n)) = false := by
      rcases hz with rfl | rfl <;> simp
    rw [this, if_pos hz]
  · have hz2 : (decide (0 < m) && decide (0 < n)) = true := by
      simp only [Bool.and_eq_true, decide_eq_true_eq]; omega
    rw [hz2, if_neg hz]
    have hm' : m = sizeSubspace diag (anc H.builtin.sym I ri) := by
      split at hm
      · exact hm.symm
      · omega
    have hn' : n = sizeSubspace diag (anc H.builtin.sym I rj) := by
      split at hn
      · exact hn.symm
      · omega
    have hf := findF_recalc hH hd ho hb (anc_connected hH hb hconn hI hri hrj) (by omega) (by omega) hcp
    have hr : 1 ≤ i ∧ i ≤ dims.length ∧ 1 ≤ j ∧ j ≤ dims.length := by
      rw [hlen]; exact ⟨hi.1, hi.2, hj.1, hj.2⟩
    have e1 : (H.builtin.sym.table.map (anc H.builtin.sym I))[i - 1]? = some (anc H.builtin.sym I ri) := by
      simp [hri]
    have e2 : (H.builtin.sym.table.map (anc H.builtin.sym I))[j - 1]? = some (anc H.builtin.sym I rj) := by
      simp [hrj]
    simp only [offdiagImpl, if_pos hr, e1, e2, gi, gj, ← hch, ← hfnr, hf, hm', hn', and_self, if_true]

/-- **C57, construction of the Hamiltonian.** For every built-in symmetry except
`QJ`, `QST` and `SPSU2T`, every table, every retained spectrum and every new
subspace: after the recalculation of the electron operators each hopping entry
either belongs to an empty block, or finds a stored matrix of exactly the size of
its block.  The construction of the Hamiltonian never fails on a missing or
wrongly sized matrix. -/
theorem make_matrix_complete (H : Ham) (hH : H ∈ hams)
    (hex : H.builtin.symtype ≠ "QJ" ∧ H.builtin.symtype ≠ "QST" ∧ H.builtin.symtype ≠ "SPSU2T")
    (T : HamTable) (hT : T ∈ H.variants) (g : HopGroup) (hg : g ∈ T.hops) (i j : Nat)
    (hp : (i, j) ∈ g.pairs) (diag : Sizes) (hd : ∀ p ∈ diag, Valid (types H.builtin.sym.fields) p.1)
    (I : Label) (hI : Valid (types H.builtin.sym.fields) I) (nonzero : Bool) :
    ∃ anc dims opch, H.builtin.sym.ancestors I = some anc ∧ subspaceDims H.builtin.sym diag I = some dims ∧
      recalcIrreduc H diag = some opch ∧ HopFits dims i j (hopEntry H nonzero opch anc dims g (i, j)) := by
  have hpl : ∀ H ∈ hams, H.builtin.symtype ≠ "QJ" ∧ H.builtin.symtype ≠ "QST" ∧ H.builtin.symtype ≠ "SPSU2T" →
      H.guard = .plain ∧ H.invarF = none := by decide +kernel
  obtain ⟨h1, h2⟩ := hpl H hH hex
  obtain ⟨anc, dims, opch, ha, hdm, ho, a, b, -, -, hfit⟩ :=
    offdiagFunction_fits H hH T hT g hg i j hp diag hd I hI
  refine ⟨anc, dims, opch, ha, hdm, ho, ?_⟩
  simp only [hopEntry, h1]
  exact (hfit (by simp [recalcFCoupled, h2])).1

/-- A concrete case: two subspaces with 3 and 5 states, one channel `QS`. -/
example : ∃ anc dims opch, ham_QS_1ch.builtin.sym.ancestors [1, 2] = some anc ∧
    subspaceDims ham_QS_1ch.builtin.sym [([1, 1], 3), ([2, 2], 5)] [1, 2] = some dims ∧
    recalcIrreduc ham_QS_1ch [([1, 1], 3), ([2, 2], 5)] = some opch ∧
    hopEntry ham_QS_1ch true opch anc dims ⟨.offdiag, 0, 0, []⟩ (1, 2) = .added 5 3 :=
  ⟨_, _, _, rfl, rfl, rfl, by decide +kernel⟩

/-- **C57, hopping between orbitals of the site.** Entries that add a multiple of
the identity to block `(i, j)` always find two blocks of the same size (or an
empty one). -/
theorem site_hops_fit (H : Ham) (hH : H ∈ hams) (T : HamTable) (hT : T ∈ H.variants) (i j : Nat)
    (hp : (i, j) ∈ T.siteHops) (diag : Sizes) (I : Label) (hI : Valid (types H.builtin.sym.fields) I) :
    ∃ dims m n, subspaceDims H.builtin.sym diag I = some dims ∧ dims[i - 1]? = some m ∧ dims[j - 1]? = some n ∧
      siteHop dims i j = if i > j ∨ m = 0 ∨ n = 0 then .skipped else .added m n := by
  have h := List.all_eq_true.1 hams_siteOk H hH
  have h := List.all_eq_true.1 h T hT
  have h := List.all_eq_true.1 h (i, j) hp
  simp only [Bool.and_eq_true, decide_eq_true_eq, beq_iff_eq] at h
  obtain ⟨hi, hj, he⟩ := h
  obtain ⟨ri, hri⟩ := index_row hi
  obtain ⟨rj, hrj⟩ := index_row hj
  have h0 : ri.1 = rj.1 := by
    have i0 : i ≠ 0 := by have := hi.1; omega
    have j0 : j ≠ 0 := by have := hj.1; omega
    simpa [Ham.inLabel, i0, j0, hri, hrj] using he
  have hanc : anc H.builtin.sym I ri = anc H.builtin.sym I rj := by simp [anc, h0]
  have hdm := subspaceDims_eq _ (rowsValid_of_ham hH) diag I hI
  obtain ⟨hlen, hget⟩ := dims_get hH hI hdm
  generalize hdims : (List.map (fun r => if triangle H.builtin.sym.fields I (anc H.builtin.sym I r) r.2 = true
    then sizeSubspace diag (anc H.builtin.sym I r) else 0) H.builtin.sym.table) = dims at *
  have gi := hget _ _ hri
  have gj := hget _ _ hrj
  refine ⟨dims, _, _, hdm, gi, gj, ?_⟩
  have hr : 1 ≤ i ∧ i ≤ dims.length ∧ 1 ≤ j ∧ j ≤ dims.length := by
    rw [hlen]; exact ⟨hi.1, hi.2, hj.1, hj.2⟩
  simp only [siteHop, if_pos hr, gi, gj, hanc]
  by_cases hij : i > j
  · simp [hij]
  · simp only [if_neg hij, hij, false_or]
    cases triangle H.builtin.sym.fields I (anc H.builtin.sym I rj) ri.2 <;>
      cases triangle H.builtin.sym.fields I (anc H.builtin.sym I rj) rj.2 <;>
      simp <;> rcases Nat.eq_zero_or_pos (sizeSubspace diag (anc H.builtin.sym I rj)) with h | h <;> simp [h] <;>
      omega

example : siteHop [2, 3, 3, 0] 2 3 = .added 3 3 ∧ siteHop [2, 3, 3, 0] 1 3 = .assertFailed := by decide
example : ham_QS_2ch_plain.siteHops.length = 12 := by decide +kernel

/-- **C57, tables of the electron operators.** In the recalculation of the electron
operators every table row `(i1, ip)` multiplies blocks of the two sets of
eigenvectors that belong to the same ancestor: either one of them is empty (and the
row is skipped), or the inner dimensions agree. -/
theorem recalc_rows_fit (H : Ham) (hH : H ∈ hams) (b : FBlock) (hb : b ∈ H.blocks) (i1 ip : Nat)
    (hp : (i1, ip) ∈ b.rows) (diagprev : Sizes) (Ip I1 : Label)
    (hI : Valid (types H.builtin.sym.fields) Ip)
    (hc : combine (types H.builtin.sym.fields) b.shift Ip = some I1) :
    b.ch < H.builtin.channels ∧ b.fnr < perchannel H.builtin.symtype ∧
    ∃ d1 dp m n, subspaceDims H.builtin.sym diagprev I1 = some d1 ∧
      subspaceDims H.builtin.sym diagprev Ip = some dp ∧ 1 ≤ i1 ∧ 1 ≤ ip ∧
      d1[i1 - 1]? = some m ∧ dp[ip - 1]? = some n ∧ (m = 0 ∨ n = 0 ∨ m = n) := by
  obtain ⟨vs, h1, h2, h3⟩ := rowsOk_of_mem hH hb
  obtain ⟨hi, hj, x, y, hx, hy, hxy⟩ := h3 (i1, ip) hp
  obtain ⟨r1, hr1⟩ := index_row hi
  obtain ⟨rp, hrp⟩ := index_row hj
  have hv := rowsValid_of_ham hH
  have v1 := (hv r1 (List.mem_of_getElem? hr1)).1
  have vp := (hv rp (List.mem_of_getElem? hrp)).1
  have i0 : i1 ≠ 0 := by have := hi.1; omega
  have j0 : ip ≠ 0 := by have := hj.1; omega
  simp only [Ham.inLabel, i0, j0, if_false] at hx hy
  rw [show H.builtin.sym.table[ip - 1]? = some rp from hrp] at hx
  rw [show H.builtin.sym.table[i1 - 1]? = some r1 from hr1] at hy
  simp only [Option.map_some, Option.some.injEq] at hx hy
  subst hx hy
  obtain ⟨c, hc1, hc2, hc3⟩ := combine_valid vs hI
  rw [hc] at hc1
  cases hc1
  refine ⟨h1, h2, _, _, _, _, subspaceDims_eq _ hv diagprev I1 hc2, subspaceDims_eq _ hv diagprev Ip hI, hi.1, hj.1,
    (dims_get hH hc2 (subspaceDims_eq _ hv diagprev I1 hc2)).2 _ _ hr1,
    (dims_get hH hI (subspaceDims_eq _ hv diagprev Ip hI)).2 _ _ hrp, ?_⟩
  have hanc : anc H.builtin.sym I1 r1 = anc H.builtin.sym Ip rp := by
    obtain ⟨a, ha1, ha2, ha3⟩ := combine_valid v1 hc2
    obtain ⟨a', hb1, hb2, hb3⟩ := combine_valid vp hI
    have hxy' := compose_comm ((combine_eq_some_iff vs v1).1 hxy)
    simp only [anc, ha1, hb1, Option.getD_some]
    exact compose_unique ha3 (compose_assoc hxy' hb3 hc3)
  rw [hanc]
  split <;> split <;> simp

example : ∃ b ∈ ham_QS_1ch.blocks, (2, 1) ∈ b.rows := by decide +kernel

/-! ### Occupation numbers -/

/-- **C57, occupation lists.** Every occupation list has exactly one entry for
every site combination. -/
theorem occupations_complete (H : Ham) (hH : H ∈ hams) (T : HamTable) (hT : T ∈ H.variants) (g : OccGroup)
    (hg : g ∈ T.occupations) : g.entries.map Prod.fst = List.range' 1 H.builtin.sym.combs := by
  have h := List.all_eq_true.1 hams_occIndexOk H hH
  have h := List.all_eq_true.1 h T hT
  have h := List.all_eq_true.1 h g hg
  simpa using h

/-- **C57, occupations and charge.** In every symmetry with a total charge, the
occupation of a site combination, summed over channels and spins, is its charge plus
the number of channels (charges are counted from half filling). `T.total` is twice the
occupation. -/
theorem occupations_match_charge (H : Ham) (hH : H ∈ hams)
    (hQ : (H.builtin.sym.fields.head?.map Field.name) = some "Q") (T : HamTable) (hT : T ∈ H.variants)
    (hne : T.occupations ≠ []) (i : Nat) (In QN : Label) (hr : H.builtin.sym.table[i - 1]? = some (In, QN))
    (hi : 1 ≤ i) : T.total i = 2 * (QN.headD 0 + H.builtin.channels) := by
  have h := List.all_eq_true.1 hams_chargeOk H hH
  simp only [chargeOk, hasCharge, hQ, beq_self_eq_true, Bool.not_true, Bool.false_or] at h
  have h := List.all_eq_true.1 h T hT
  have he : T.occupations.isEmpty = false := by simpa using hne
  rw [he, Bool.false_or] at h
  have hm : ((In, QN), i - 1) ∈ H.builtin.sym.table.zipIdx := by
    rw [List.mem_zipIdx_iff_getElem?]; exact hr
  have h := List.all_eq_true.1 h _ hm
  simp only [beq_iff_eq] at h
  rwa [show i - 1 + 1 = i by omega] at h

example : (ham_QS_2ch.builtin.sym.fields.head?.map Field.name) = some "Q" := by decide

/-- **C57, occupations and channel charges.** In the symmetries with one charge per
channel (`DBLQSZ`, `SL3`) the occupation of every channel is its charge plus one. -/
theorem occupations_match_channel_charge (H : Ham) (hH : H ∈ hams)
    (hQ : H.builtin.symtype = "DBLQSZ" ∨ H.builtin.symtype = "SL3") (T : HamTable) (hT : T ∈ H.variants) :
    T.occupations.map OccGroup.ch = List.range H.builtin.channels ∧
    ∀ g ∈ T.occupations, ∀ (i : Nat) (In QN : Label), 1 ≤ i →
      H.builtin.sym.table[i - 1]? = some (In, QN) → ∃ q, QN[g.ch]? = some q ∧ g.occ i = 2 * (q + 1) := by
  have h := List.all_eq_true.1 hams_channelChargeOk H hH
  have hc : hasChannelCharges H = true := by
    rcases hQ with h | h <;> simp [hasChannelCharges, h]
  simp only [channelChargeOk, hc, Bool.not_true, Bool.false_or] at h
  have h := List.all_eq_true.1 h T hT
  rw [Bool.and_eq_true] at h
  refine ⟨by simpa using h.1, fun g hg i In QN hi hr => ?_⟩
  have h := List.all_eq_true.1 h.2 g hg
  have hm : ((In, QN), i - 1) ∈ H.builtin.sym.table.zipIdx := by
    rw [List.mem_zipIdx_iff_getElem?]; exact hr
  have h := List.all_eq_true.1 h _ hm
  simp only [beq_iff_eq, show i - 1 + 1 = i by omega] at h
  obtain ⟨q, hq, he⟩ := Option.map_eq_some_iff.1 h.symm
  exact ⟨q, hq, he.symm⟩

example : ham_DBLQSZ_2ch ∈ hams ∧ ham_DBLQSZ_2ch.builtin.symtype = "DBLQSZ" := by simp [hams, ham_DBLQSZ_2ch]

theorem digit_occ {H : Ham} (hH : H ∈ hams) {T : HamTable} (hT : T ∈ H.variants) {g : OccGroup}
    (hg : g ∈ T.occupations) {i : Nat} (hi : H.Index i) : ((digit g.code i : Nat) : Int) = g.occ i := by
  have h := List.all_eq_true.1 hams_smallOk H hH
  have h := List.all_eq_true.1 h T hT
  have h := List.all_eq_true.1 h g hg
  exact digit_code g _ (occupations_complete H hH T hT g hg) h i hi.1 hi.2

theorem totalC_eq {H : Ham} (hH : H ∈ hams) {T : HamTable} (hT : T ∈ H.variants) {i : Nat} (hi : H.Index i) :
    ((totalC (codes T) i : Nat) : Int) = T.total i := by
  have key : ∀ l : List OccGroup, (∀ g ∈ l, g ∈ T.occupations) →
      ((((l.map OccGroup.code).map fun c => digit c i).sum : Nat) : Int) = (l.map (·.occ i)).sum := by
    intro l hl
    induction l with
    | nil => rfl
    | cons g l ih =>
      have := digit_occ hH hT (hl g (by simp)) hi
      simp only [List.map_cons, List.sum_cons]
      push_cast
      rw [ih fun x hx => hl x (by simp [hx]), this]
  exact key _ fun g hg => hg

/-- **C57, one electron.** Whenever the table has occupations, an ordinary hopping
entry couples combinations whose total occupations differ by exactly one electron:
the site loses the electron that the stored operator creates on the chain; for
annihilation operators and for anomalous (pairing) entries the site gains one. -/
theorem hop_moves_one_electron (H : Ham) (hH : H ∈ hams) (T : HamTable) (hT : T ∈ H.variants)
    (hne : T.occupations ≠ []) (g : HopGroup) (hg : g ∈ T.hops) (i j : Nat) (hp : (i, j) ∈ g.pairs) :
    T.total j - T.total i = if g.mac.isAnomalous || g.mac.annihilates then -2 else 2 := by
  have h := List.all_eq_true.1 hams_oneElectronOk H hH
  have h := List.all_eq_true.1 h T hT
  have he : T.occupations.isEmpty = false := by simpa using hne
  rw [he, Bool.false_or, forceAll_eq, Bool.and_eq_true] at h
  have h := List.all_eq_true.1 h.1 g hg
  have h := List.all_eq_true.1 h (i, j) hp
  obtain ⟨-, -, hi, hj, -⟩ := hops_connected H hH T hT g hg i j hp
  rw [← totalC_eq hH hT hi, ← totalC_eq hH hT hj]
  split at h <;> rename_i hc
  · simp only [beq_iff_eq] at h; rw [if_pos hc]; omega
  · simp only [beq_iff_eq] at h; rw [if_neg hc]; omega

/-- The rows of the recalculation tables of a creation operator create one electron
on the site, those of an annihilation operator remove one. -/
theorem recalc_rows_create_one_electron (H : Ham) (hH : H ∈ hams) (T : HamTable) (hT : T ∈ H.variants)
    (hne : T.occupations ≠ []) (b : FBlock) (hb : b ∈ H.blocks) (i1 ip : Nat) (hp : (i1, ip) ∈ b.rows) :
    T.total i1 - T.total ip = if b.annihilates then -2 else 2 := by
  have h := List.all_eq_true.1 hams_oneElectronOk H hH
  have h := List.all_eq_true.1 h T hT
  have he : T.occupations.isEmpty = false := by simpa using hne
  rw [he, Bool.false_or, forceAll_eq, Bool.and_eq_true] at h
  have h := List.all_eq_true.1 h.2 b hb
  have h := List.all_eq_true.1 h (i1, ip) hp
  obtain ⟨-, -, -, h3⟩ := rowsOk_of_mem hH hb
  obtain ⟨hi, hj, -⟩ := h3 (i1, ip) hp
  rw [← totalC_eq hH hT hi, ← totalC_eq hH hT hj]
  split at h <;> rename_i hc
  · simp only [beq_iff_eq] at h; rw [if_pos hc]; dsimp only at h ⊢; omega
  · simp only [beq_iff_eq] at h; rw [if_neg hc]; dsimp only at h ⊢; omega

/-- The occupation lists of `T'` are sharp in the basis of the table, and the entries
of `T` are not the ones of the exception below.  In the bases of definite reflection
parity (`…LR`) the occupation of one channel is not sharp; in the spin-polarised
`SPU1` basis the occupation of one spin is not sharp. -/
def Sharp (H : Ham) (T T' : HamTable) : Prop :=
  T'.occupations ≠ [] ∧
  H.builtin.symtype ∉ ["QSLR", "QSZLR", "SPSU2LR", "SPU1LR"] ∧
  ¬ (H.builtin.symtype = "SPU1" ∧ T'.variant = .polarized) ∧
  ¬ (H.builtin.symtype = "U1" ∧ T.variant = .nonpolarized ∧ T'.variant ≠ .nonpolarized)

theorem resolved_of_sharp {H : Ham} {T T' : HamTable} (h : Sharp H T T') : resolved H T T' = true := by
  obtain ⟨h1, h2, h3, h4⟩ := h
  simp only [resolved, Bool.and_eq_true, Bool.not_eq_true', Bool.and_eq_false_iff, beq_eq_false_iff_ne,
    decide_eq_false_iff_not, List.isEmpty_eq_false_iff, List.contains_eq_mem]
  refine ⟨h1, h2, ?_, ?_⟩
  · by_cases h : H.builtin.symtype = "SPU1"
    · exact Or.inr fun h' => h3 ⟨h, h'⟩
    · exact Or.inl h
  · by_cases h : H.builtin.symtype = "U1"
    · by_cases h' : T.variant = .nonpolarized
      · exact Or.inr (Or.inr (by simpa using fun h'' => h4 ⟨h, h', h''⟩))
      · exact Or.inr (Or.inl h')
    · exact Or.inl h

theorem change_codes {H : Ham} (hH : H ∈ hams) {T : HamTable} (hT : T ∈ H.variants) {i j : Nat}
    (hi : H.Index i) (hj : H.Index j) :
    (codes T).map (fun c => (digit c j : Int) - (digit c i : Int)) = T.change i j := by
  simp only [codes, HamTable.change, List.map_map]
  apply List.map_congr_left
  intro g hg
  simp only [Function.comp]
  rw [digit_occ hH hT hg hi, digit_occ hH hT hg hj]

/-- **C57, conservation.** Channel and spin are conserved: for every entry that is
not meant to mix channels or spins, the electron removed from the site (channel by
channel, and spin by spin where the occupations are resolved) is the electron that the
stored operator creates according to its own recalculation table; anomalous entries add
that electron to the site instead. -/
theorem hop_moves_same_electron (H : Ham) (hH : H ∈ hams) (T : HamTable) (hT : T ∈ H.variants)
    (T' : HamTable) (hT' : T' ∈ H.variants) (hs : Sharp H T T') (g : HopGroup) (hg : g ∈ T.hops)
    (hmix : g.mac.isMixing = false) (i j : Nat) (hp : (i, j) ∈ g.pairs) (b : FBlock) (hb : b ∈ H.blocks)
    (hch : b.ch = g.ch) (hfnr : b.fnr = g.fnr) (hconn : H.ConnectedBy b i j) (i1 ip : Nat)
    (hr : (i1, ip) ∈ b.rows) :
    (if g.mac.isAnomalous then T'.change j i else T'.change i j) = T'.change ip i1 := by
  have h := List.all_eq_true.1 hams_sameElectronOk H hH
  have h := List.all_eq_true.1 h T' hT'
  rw [forceAll_eq] at h
  have h := List.all_eq_true.1 h T hT
  rw [resolved_of_sharp hs, Bool.not_true, Bool.false_or, Bool.and_eq_true] at h
  have hb1 := List.all_eq_true.1 (List.all_eq_true.1 h.1 b hb) (i1, ip) hr
  have hh := List.all_eq_true.1 h.2 g hg
  rw [hmix, Bool.false_or] at hh
  have hh := List.all_eq_true.1 (List.all_eq_true.1 hh (i, j) hp) b hb
  rw [(connected_iff H b i j).2 hconn, hch, hfnr] at hh
  simp only [beq_self_eq_true, Bool.and_self, Bool.not_true, Bool.false_or] at hh
  obtain ⟨-, -, hi, hj, -⟩ := hops_connected H hH T hT g hg i j hp
  obtain ⟨-, -, -, h3⟩ := rowsOk_of_mem hH hb
  obtain ⟨hi1, hip, -⟩ := h3 (i1, ip) hr
  simp only [changeC, beq_iff_eq] at hb1 hh
  rw [change_codes hH hT' hip hi1] at hb1
  split at hh <;> rename_i hc
  · rw [if_pos hc, hb1]
    simp only [changeC, beq_iff_eq] at hh
    rw [← hh, change_codes hH hT' hj hi]
  · rw [if_neg hc, hb1]
    simp only [changeC, beq_iff_eq] at hh
    rw [← hh, change_codes hH hT' hi hj]

example : Sharp ham_QSZ_2ch ham_QSZ_2ch_polarized ham_QSZ_2ch_polarized := by
  refine ⟨?_, ?_, ?_, ?_⟩ <;> decide +kernel

/-! ### Violations and the three special classes -/

/-- **C57 is violated by `U1` without spin polarisation.** An entry that moves a
spin-down electron off the site (occupation lists of the same class) is combined with
the stored operator whose recalculation table creates a spin-up electron. -/
theorem u1_nonpolarized_swaps_spin :
    ham_U1_1ch_polarized.occupations.map OccGroup.spin = [.up, .down] ∧
    ∃ g ∈ ham_U1_1ch_nonpolarized.hops, ∃ p ∈ g.pairs, ∃ b ∈ ham_U1_1ch.blocks,
      b.ch = g.ch ∧ b.fnr = g.fnr ∧ connected ham_U1_1ch b p.1 p.2 = true ∧ g.mac.isMixing = false ∧
      ham_U1_1ch_polarized.change p.1 p.2 = [0, 2] ∧
      ∀ r ∈ b.rows, ham_U1_1ch_polarized.change r.2 r.1 = [2, 0] := by
  decide +kernel

/-- The outcome of one hopping entry for a retained spectrum and a new label. -/
def runHop (H : Ham) (nonzero : Bool) (diag : Sizes) (I : Label) (i j ch fnr : Nat) : Option HopOutcome := do
  let anc ← H.builtin.sym.ancestors I
  let dims ← subspaceDims H.builtin.sym diag I
  let opch ← recalcIrreduc H diag
  pure (hopEntry H nonzero opch anc dims ⟨.offdiag, ch, fnr, []⟩ (i, j))

/-- **C57 is violated by `SPSU2T`.** With one state in each of the subspaces
`(SS, T) = (2, 0)` and `(1, 0)` the table entry `(5, 33)` of the new subspace `(2, 2)`
looks up an operator block that is not stored (two orbital singlets are not coupled by
an operator with `T = 1`), and the construction of the Hamiltonian throws. -/
theorem spsu2t_matrix_not_found :
    (∃ g ∈ ham_SPSU2T_3ch_plain.hops, g.mac = .offdiag ∧ g.ch = 0 ∧ g.fnr = 0 ∧ (5, 33) ∈ g.pairs) ∧
    (subspaceDims ham_SPSU2T_3ch.builtin.sym [([2, 0], 1), ([1, 0], 1)] [2, 2]).map
      (fun d => (d[4]?, d[32]?)) = some (some 1, some 1) ∧
    ∀ nonzero, runHop ham_SPSU2T_3ch nonzero [([2, 0], 1), ([1, 0], 1)] [2, 2] 5 33 0 0 = some .notFound := by
  decide +kernel

/-- **C57 is violated by `QJ`: hopping terms are dropped.** For the entry `(1, 2)` of
the doublet operator and the new subspace `(Q, JJ) = (0, 2)`, both blocks are
non-empty and the matrix is stored with the right size, but the coupling test is
applied to other subspaces and the entry is skipped. -/
theorem qj_hop_dropped :
    (∃ g ∈ ham_QJ_3ch_plain.hops, g.ch = 0 ∧ g.fnr = 0 ∧ (1, 2) ∈ g.pairs) ∧
    (subspaceDims ham_QJ_3ch.builtin.sym [([3, 2], 4), ([2, 1], 5)] [0, 2]).map
      (fun d => (d[0]?, d[1]?)) = some (some 4, some 5) ∧
    triangle fields_QJ [3, 2] [2, 1] [1, 2] = true ∧
    (do let opch ← recalcIrreduc ham_QJ_3ch [([3, 2], 4), ([2, 1], 5)]
        let e ← findF opch 0 0 [3, 2] [2, 1]
        pure (e.rows, e.cols)) = some (4, 5) ∧
    runHop ham_QJ_3ch true [([3, 2], 4), ([2, 1], 5)] [0, 2] 1 2 0 0 = some .skipped := by
  decide +kernel

/-- **C57 is violated by `QJ`: uncoupled subspaces.** The entry `(2, 10)` of the
quadruplet operator and the new subspace `(0, 3)`: the two ancestors `(2, 2)` and
`(1, 1)` are not coupled by an operator with `JJ = 4`, but the test on the wrong
subspaces succeeds and a matrix is added for them. -/
theorem qj_uncoupled_added :
    (∃ g ∈ ham_QJ_3ch_plain.hops, g.ch = 1 ∧ g.fnr = 0 ∧ (2, 10) ∈ g.pairs) ∧
    (ham_QJ_3ch.builtin.sym.ancestors [0, 3]).map (fun d => (d[1]?, d[9]?)) = some (some [2, 2], some [1, 1]) ∧
    triangle fields_QJ [2, 2] [1, 1] [1, 4] = false ∧
    ∀ nonzero, runHop ham_QJ_3ch nonzero [([2, 2], 4), ([1, 1], 5)] [0, 3] 2 10 1 0 = some (.added 4 5) := by
  decide +kernel

/-- **C57 is violated by `QJ`: undefined behaviour.** The entries of the last
combination read beyond the end of the vector of ancestors, for every retained
spectrum and every label. -/
theorem qj_out_of_bounds (diag : Sizes) (hd : ∀ p ∈ diag, Valid (types fields_QJ) p.1) (I : Label)
    (hI : Valid (types fields_QJ) I) (nonzero : Bool) :
    ∃ g ∈ ham_QJ_3ch_plain.hops, ∃ p ∈ g.pairs,
      runHop ham_QJ_3ch nonzero diag I p.1 p.2 g.ch g.fnr = some .outOfBounds := by
  have hH : ham_QJ_3ch ∈ hams := by simp [hams]
  have hx : ∃ g ∈ ham_QJ_3ch_plain.hops, ∃ p ∈ g.pairs, p.2 = 64 := by decide +kernel
  obtain ⟨g, hg, p, hp, h64⟩ := hx
  refine ⟨g, hg, p, hp, ?_⟩
  obtain ⟨opch, ho, -⟩ := recalcIrreduc_spec hH diag hd
  have ha := ancestors_eq ham_QJ_3ch.builtin.sym (rowsValid_of_ham hH) I hI
  have hdm := subspaceDims_eq ham_QJ_3ch.builtin.sym (rowsValid_of_ham hH) diag I hI
  have hl : ham_QJ_3ch.builtin.sym.table.length = 64 := by decide +kernel
  have hn : (ham_QJ_3ch.builtin.sym.table.map (anc ham_QJ_3ch.builtin.sym I))[p.2]? = none := by
    rw [h64]; simp [hl]
  simp only [runHop, ha, hdm, ho, Option.bind_eq_bind, Option.bind_some, Option.pure_def, Option.some.injEq]
  have hgd : ham_QJ_3ch.guard = .qj := rfl
  simp only [hopEntry, hgd, offdiagQJ, hn]
  cases (ham_QJ_3ch.builtin.sym.table.map (anc ham_QJ_3ch.builtin.sym I))[p.1]? <;> rfl

example : ∀ p ∈ ([([3, 2], 4), ([2, 1], 5)] : Sizes), Valid (types fields_QJ) p.1 := by
  simp [Valid, types, fields_QJ, Valid1]

/-- **C57 for `QST`, partial.** A hopping entry of `QST` fits, provided that its factor
vanishes (`nonzero = false`) whenever the two ancestors are not coupled by an operator
with `T = 1` — that is, when both have `T = 0`.  Missing: the value of the factor itself is
not modelled here. -/
theorem qst_hops_partial (T : HamTable) (hT : T ∈ ham_QST_3ch.variants) (g : HopGroup) (hg : g ∈ T.hops)
    (i j : Nat) (hp : (i, j) ∈ g.pairs) (diag : Sizes) (hd : ∀ p ∈ diag, Valid (types fields_QST) p.1)
    (I : Label) (hI : Valid (types fields_QST) I) (nonzero : Bool) :
    ∃ anc dims opch a b, ham_QST_3ch.builtin.sym.ancestors I = some anc ∧
      subspaceDims ham_QST_3ch.builtin.sym diag I = some dims ∧ recalcIrreduc ham_QST_3ch diag = some opch ∧
      anc[i - 1]? = some a ∧ anc[j - 1]? = some b ∧
      ((nonzero = true → triangle fields_QST a b [1, 2, 1] = true) →
        hopEntry ham_QST_3ch nonzero opch anc dims g (i, j) = .skipped ∨
        HopFits dims i j (hopEntry ham_QST_3ch nonzero opch anc dims g (i, j))) := by
  have hH : ham_QST_3ch ∈ hams := by simp [hams]
  obtain ⟨anc, dims, opch, ha, hdm, ho, a, b, h1, h2, hfit⟩ :=
    offdiagFunction_fits ham_QST_3ch hH T hT g hg i j hp diag hd I hI
  refine ⟨anc, dims, opch, a, b, ha, hdm, ho, h1, h2, fun hz => ?_⟩
  have hgd : ham_QST_3ch.guard = .qst := rfl
  simp only [hopEntry, hgd, offdiagQST]
  cases hcn : offdiagContributes dims i j with
  | none =>
    exfalso
    obtain ⟨-, -, hi, hj, hne, -⟩ := hops_connected _ hH T hT g hg i j hp
    obtain ⟨ri, hri⟩ := index_row hi
    obtain ⟨rj, hrj⟩ := index_row hj
    have hget := (dims_get hH hI hdm).2
    rw [contributes_eq hi.1 hj.1 hne (hget _ _ hri) (hget _ _ hrj)] at hcn
    cases hcn
  | some c =>
    cases c with
    | false => exact Or.inl rfl
    | true =>
      cases nonzero with
      | false => exact Or.inl rfl
      | true =>
        obtain ⟨hf, he⟩ := hfit (hz rfl)
        right
        dsimp only
        rw [if_pos rfl, ← he hcn]
        exact hf

end Verif.Hop
