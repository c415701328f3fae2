import Verif.Seed.Assemble
/-!
# Instantiation of a template of the file `data`

The program `instantiate` turns a template into the file that the main program reads.
-/

namespace Verif.Seed

open Verif.Text
open Verif.Invar (Label)
open Verif.DataFile

variable {K : Type} [Field K] [LinearOrder K] [IsStrictOrderedRing K] {C : Ctx K} {lit : Nat → K → Lit}

omit [IsStrictOrderedRing K] [Field K] [LinearOrder K] in
theorem length_flatMap_ge {α : Type} (g : α → List Str) (l : List α) (h : ∀ x ∈ l, 1 ≤ (g x).length) : l.length ≤ (l.flatMap g).length := by
  induction l with
  | nil => simp
  | cons x l ih =>
    have h1 := h x (by simp)
    have h2 := ih fun y hy => h y (by simp [hy])
    rw [List.flatMap_cons, List.length_append, List.length_cons]
    omega

omit [IsStrictOrderedRing K] [Field K] [LinearOrder K] in
theorem lines_flatMap (l : List Str) (h : ∀ x ∈ l, '\n' ∉ x) : Param.lines (l.flatMap fun x => x ++ ['\n']) = l := by
  induction l with
  | nil => rfl
  | cons x l ih =>
    rw [List.flatMap_cons, List.append_assoc, List.singleton_append, Param.lines_cons _ _ (h x (by simp)), ih fun y hy => h y (by simp [hy])]

omit [IsStrictOrderedRing K] [Field K] [LinearOrder K] in
theorem junk_nl {j : Junk} (h : j.OK) : '\n' ∉ j.line := by
  cases j with
  | blank ws => exact h.2
  | com a b =>
    obtain ⟨-, h2, h3⟩ := h
    simp [Junk.line, h2, h3]

omit [IsStrictOrderedRing K] [Field K] [LinearOrder K] in
theorem ln_nl {l : Ln} (h : l.OK) : ∀ x ∈ l.lines, '\n' ∉ x := by
  intro x hx
  rcases List.mem_append.1 hx with hx | hx
  · obtain ⟨j, hj, rfl⟩ := List.mem_map.1 hx
    exact junk_nl (h.pre j hj)
  · simp at hx
    subst hx
    simp [h.lead.2, h.nl, h.trail.2]

omit [IsStrictOrderedRing K] in
theorem lns_nl {ls : List Ln} (h : ∀ l ∈ ls, l.OK) : ∀ x ∈ lnLines ls, '\n' ∉ x := by
  intro x hx
  obtain ⟨l, hl, hx⟩ := List.mem_flatMap.1 hx
  exact ln_nl (h l hl) x hx

omit [IsStrictOrderedRing K] in
theorem block_lns {subs : List (TSub K)} {b : TBlock K} (h : b.OK C subs) : ∀ l ∈ b.lns, l.OK := by
  cases b with
  | energy a x =>
    intro l hl
    rcases List.mem_cons.1 hl with rfl | hl
    · exact h.1
    · simp at hl; subst hl; exact h.2.1
  | oper k n o => exact op_lns h.2.1

omit [IsStrictOrderedRing K] in
theorem template_nl {T : Template K} (h : T.OK C) : ∀ x ∈ T.lines, '\n' ∉ x := by
  intro x hx
  unfold Template.lines at hx
  rcases List.mem_append.1 hx with hx | hx
  · exact ln_nl h.h x hx
  rcases List.mem_append.1 hx with hx | hx
  · obtain ⟨s, hs, hx⟩ := List.mem_flatMap.1 hx
    have hl := (h.subs s hs).lns
    unfold TSub.lines at hx
    rcases List.mem_append.1 hx with hx | hx
    · exact ln_nl hl.1 x hx
    rcases List.mem_append.1 hx with hx | hx
    · exact ln_nl hl.2.1 x hx
    · exact ln_nl hl.2.2 x hx
  rcases List.mem_append.1 hx with hx | hx
  · obtain ⟨f, hf, hx⟩ := List.mem_flatMap.1 hx
    exact lns_nl (op_lns (h.chain f hf).1) x hx
  rcases List.mem_append.1 hx with hx | hx
  · obtain ⟨b, hb, hx⟩ := List.mem_flatMap.1 hx
    exact lns_nl (block_lns (h.blocks b hb)) x hx
  rcases List.mem_append.1 hx with hx | hx
  · obtain ⟨j, hj, rfl⟩ := List.mem_map.1 hx
    exact junk_nl (h.endJunk j hj)
  · cases hs : T.stop with
    | none => rw [hs] at hx; simp [stopLines] at hx
    | some p =>
      obtain ⟨lead, l, ls⟩ := p
      rw [hs] at hx
      obtain ⟨-, h2, h3, h4, -⟩ := h.stop lead l ls hs
      rcases List.mem_cons.1 hx with rfl | hx
      · simp [h2, h3]
      · exact h4 x hx

/-- The text that is built from a template is a well-formed data file. -/
theorem build_file {T : Template K} (hT : T.OK C) (hp : Prints C lit) :
    ∃ (F : File) (e : K), build C T.text = some (F.text, e) ∧ F.OK C.P ∧ IsGround T.subs e ∧ IsInstance C lit T e F.val ∧
      F.trailer = ['\n'] ∧ ∃ pre, F.blocks = pre ++ [⟨['\n'], .coef 'z' [] [[vecT lit C.nmax C.xi], [vecT lit C.nmax C.zeta]]⟩] ∧ ∀ x ∈ pre, x.body.letter ≠ 'z' := by
  have h0 := hT.dim
  have hS := hT.subs
  have hx := hT.pos
  have hf : (0 : K) < 1 / T.scale := one_div_pos.2 hx
  have hsj : ∀ s ∈ T.subs, ∀ j ∈ s.junk, j.OK := by
    intro s hs j hj
    have hl := (hS s hs).lns
    unfold TSub.junk at hj
    rcases List.mem_append.1 hj with hj | hj
    · exact hl.1.pre j hj
    rcases List.mem_append.1 hj with hj | hj
    · exact hl.2.1.pre j hj
    · exact hl.2.2.pre j hj
  -- the lowest energy
  obtain ⟨e, he1, he2⟩ := smallest_ground hf T.subs hT.ne (fun s hs => ⟨(hS s hs).sorted, by
    intro hv
    have h1 := (hS s hs).len
    have h2 := (hS s hs).dim.1
    rw [hv] at h1
    simp at h1
    omega⟩)
  -- the seed
  let d : Seed K := ⟨1 / T.scale, e * (1 / T.scale), T.subs.map (TSub.run (1 / T.scale))⟩
  have hg : d.ground = e := by
    show e * (1 / T.scale) / (1 / T.scale) = e
    exact mul_div_cancel_right₀ e hf.ne'
  let o1 : Str := [] ++ comText T.h.pre ++ (natStr 1 ++ ' ' :: (natStr C.nmax ++ ' ' :: (natStr T.nsubs.v ++ ['\n'])))
  let rest1 : List Str := (T.chain.flatMap fun f => lnLines f.op.lns) ++
    ((T.blocks.flatMap fun b => lnLines b.lns) ++ (T.endJunk.map Junk.line ++ stopLines T.stop))
  let o2 : Str := o1 ++ comText (T.subs.flatMap TSub.junk)
  have hseed : readSeed C T.nsubs.v ⟨T.subs.flatMap TSub.lines ++ rest1, scaleAfter T.h.pre none, o1⟩ =
      some (d, ⟨rest1, scaleAfter (T.subs.flatMap TSub.junk) (scaleAfter T.h.pre none), o2⟩) := by
    unfold readSeed
    rw [← hT.count, seedLoop_all T.subs hT.ne hS hT.dup hx rest1 _ _ o1]
    · dsimp only
      rw [he1]
    · intro s hs
      rw [← scaleAfter_append]
      refine scaleAfter_last ?_ (hT.scale s hs) none
      intro j hj
      rcases List.mem_append.1 hj with hj | hj
      · exact hT.h.pre j hj
      · exact hsj s (List.mem_of_mem_head? hs) j hj
  -- the rest
  let o3 : Str := o2 ++ d.subs.flatMap (subText C d.low)
  have hc1 := length_flatMap_ge (fun f : TChain K => lnLines f.op.lns) T.chain (by intro f _; simp [lnLines, TOp.lns, Ln.lines]; omega)
  have hc2 := length_flatMap_ge (fun b : TBlock K => lnLines b.lns) T.blocks (by
    intro b _
    cases b <;> simp [lnLines, TBlock.lns, TOp.lns, Ln.lines] <;> omega)
  obtain ⟨m, hm⟩ : ∃ m, rest1.length + 1 = m + 1 + T.blocks.length + T.chain.length := by
    refine ⟨rest1.length - T.blocks.length - T.chain.length, ?_⟩
    have : rest1.length = (T.chain.flatMap fun f => lnLines f.op.lns).length + ((T.blocks.flatMap fun b => lnLines b.lns).length + (T.endJunk.map Junk.line ++ stopLines T.stop).length) := by
      simp only [rest1, List.length_append]
    omega
  have hper : T.chain.length = perchannel C.P.sym := by rw [← chainOps_eq]; exact hT.chainLen
  obtain ⟨sc1, s1, t1, c1⟩ := tail_chain (d := d) (f := 1 / T.scale) rfl hT.dup hS T.chain hT.chain (m + 1 + T.blocks.length) 0 false (perchannel C.P.sym)
    (by omega) ((T.blocks.flatMap fun b => lnLines b.lns) ++ (T.endJunk.map Junk.line ++ stopLines T.stop))
    (scaleAfter (T.subs.flatMap TSub.junk) (scaleAfter T.h.pre none)) o3
  obtain ⟨sc2, s2, t2, c2⟩ := tail_blocks (d := d) (f := 1 / T.scale) rfl hT.dup hS T.blocks hT.blocks (m + 1) (0 + T.chain.length) false (perchannel C.P.sym)
    (T.endJunk.map Junk.line ++ stopLines T.stop) sc1 (o3 ++ s1)
  obtain ⟨st, t3, t4⟩ := tail_end (C := C) (d := d) T.endJunk hT.endJunk T.stop hT.stop m (0 + T.chain.length) (false || T.blocks.any isEnergy)
    (perchannel C.P.sym) sc2 (o3 ++ s1 ++ s2)
  have hany : T.blocks.any isEnergy = true := by
    obtain ⟨a, b, hab⟩ := hT.energy
    exact List.any_eq_true.2 ⟨_, hab, rfl⟩
  obtain ⟨zx, z1, z2, z3, z4⟩ := coef_out hp hT.xi hT.nmax
  obtain ⟨zz, y1, y2, y3, y4⟩ := coef_out hp hT.zeta hT.nmax
  have hz : zText C = some ("z\n".toList ++ (zx ++ zz)) := by
    unfold zText
    rw [if_neg (by rw [hT.coef]; simp), z1, y1]
  have hbuild : build C T.text = some (o3 ++ s1 ++ s2 ++ comText T.endJunk ++ ("z\n".toList ++ (zx ++ zz)), e) := by
    unfold build Template.text
    rw [lines_flatMap _ (template_nl hT)]
    unfold Template.lines
    rw [stnext_ln _ hT.h]
    dsimp only
    rw [hT.hBody, readHeader_line hT.sites hT.nsubs hT.extra]
    dsimp only [St.put]
    rw [if_pos rfl]
    change (match readSeed C T.nsubs.v ⟨T.subs.flatMap TSub.lines ++ rest1, scaleAfter T.h.pre none, o1⟩ with | none => none | some (d, s1) => _) = _
    rw [hseed]
    dsimp only
    change (match tailLoop C d (perchannel C.P.sym) (rest1.length + 1) 0 false ⟨rest1, _, o3⟩ with | none => none | some (w, e, s2) => _) = _
    rw [hm, t1, t2, t3]
    dsimp only
    rw [if_pos ⟨by omega, by rw [hany]; rfl⟩, hz]
    dsimp only
    rw [t4, hg]
  -- the file
  rw [hg] at c2
  obtain ⟨com2, cs, q1, q2, q3, q4, q5⟩ := chain_all hp h0 hS (1 / T.scale) (e * (1 / T.scale)) c1 hT.chain hT.chainComs.1 hT.chainComs.2
  obtain ⟨bs, r1, r2, r3, r4, r5⟩ := block_out hp h0 hS (1 / T.scale) (e * (1 / T.scale)) e c2 hT.blocks
  let S : List SubT := T.subs.map (subT lit (1 / T.scale) (e * (1 / T.scale)))
  let zb : BlockT := ⟨['\n'], .coef 'z' [] [[vecT lit C.nmax C.xi], [vecT lit C.nmax C.zeta]]⟩
  let com1 : List ComT := (coms (T.subs.flatMap TSub.junk)).map comT
  let B : List BlockT := bs ++ ((coms T.endJunk).map comB ++ [zb])
  have hB : ∀ {α : Type} (g : Body → Option α), (∀ l, g (.comment l) = none) → lastOf g B = (g zb.body).or (lastOf g bs) := by
    intro α g hgc
    show lastOf g (bs ++ ((coms T.endJunk).map comB ++ [zb])) = _
    rw [lastOf_append, lastOf_append, lastOf_one, lastOf_com _ hgc, Option.or_none]
  let F : File :=
    { before := T.before, symPre := T.symPre, symGap := T.symGap, sym := C.P.sym, after := T.after, ws := [], channels := 1,
      Nmax := ⟨[' '], C.nmax⟩, nsubs := ⟨[' '], T.nsubs.v⟩, com1 := com1, subs := S, com2 := com2, opch := [cs], blocks := B, trailer := ['\n'] }
  have hcs : cs ≠ [] := by
    have h1 := q4.length_eq
    have h2 := perchannel_pos C.P.sym
    intro h3
    rw [h3] at h1
    simp at h1
    rw [h1] at hper
    simp at hper
    omega
  have hlab : ∀ s ∈ T.subs, s.lab ≠ [] := fun s hs => lab_ne (hS s hs).lab h0
  have hcoefz : lastOf (coefOf 'z') B = some [[(C.xi.take (C.nmax + 1)).map fun x => (lit 16 x).val], [(C.zeta.take (C.nmax + 1)).map fun x => (lit 16 x).val]] := by
    rw [hB _ fun _ => rfl, ← z4, ← y4]
    rfl
  have htext : o3 ++ s1 ++ s2 ++ comText T.endJunk ++ ("z\n".toList ++ (zx ++ zz)) = F.text := by
    -- the lines after the header
    have hs : Rot (d.subs.flatMap (subText C d.low)) (S.flatMap SubT.text) := by
      show Rot ((T.subs.map (TSub.run (1 / T.scale))).flatMap (subText C (e * (1 / T.scale)))) ((T.subs.map (subT lit (1 / T.scale) (e * (1 / T.scale)))).flatMap SubT.text)
      rw [List.flatMap_map, List.flatMap_map]
      have : ∀ l : List (TSub K), (∀ s ∈ l, s.OK C) → Rot (l.flatMap fun s => subText C (e * (1 / T.scale)) (s.run (1 / T.scale)))
          (l.flatMap fun s => (subT lit (1 / T.scale) (e * (1 / T.scale)) s).text) := by
        intro l hl
        induction l with
        | nil => exact .nil
        | cons s l ih =>
          rw [List.flatMap_cons, List.flatMap_cons]
          exact (rot_sub hp h0 (hl s (by simp)) _ _).append (ih fun x hx => hl x (by simp [hx]))
      exact this T.subs hS
    have hzr : Rot ("z\n".toList ++ (zx ++ zz)) zb.text := by
      have := (Rot.line ['z']).append (z2.append y2)
      simpa [zb, BlockT.text, Body.letter, Body.line, Body.text] using this
    have hall := (rot_com (T.subs.flatMap TSub.junk)).append (hs.append (q1.append (r1.append ((rot_comB T.endJunk).append hzr))))
    have hhead : comText T.h.pre = T.before.flatMap HLine.text ++ ((HLine.txt (symLine T C.P.sym)).text ++ T.after.flatMap HLine.text) := by
      have := congrArg List.flatten hT.head
      rw [← List.flatMap_def] at this
      unfold comText
      rw [this, List.flatten_append, List.flatten_cons, ← List.flatMap_def, ← List.flatMap_def]
    have hL : o3 ++ s1 ++ s2 ++ comText T.endJunk ++ ("z\n".toList ++ (zx ++ zz)) =
        (comText T.h.pre ++ (natStr 1 ++ ' ' :: (natStr C.nmax ++ ' ' :: natStr T.nsubs.v))) ++
          ('\n' :: (comText (T.subs.flatMap TSub.junk) ++ (d.subs.flatMap (subText C d.low) ++ (s1 ++ (s2 ++ (comText T.endJunk ++ ("z\n".toList ++ (zx ++ zz)))))))) := by
      simp [o3, o2, o1]
    rw [hL, hall, hhead]
    simp [File.text, File.headText, File.subsText, File.opchText, F, natText, File.symLine, symLine, com1, B, List.flatMap_append]
  have hlet : ∀ x ∈ bs ++ (coms T.endJunk).map comB, x.body.letter ≠ 'z' := by
    intro x hx hz
    rcases List.mem_append.1 hx with hx | hx
    · have hn : coefOf 'z' x.body = none := by
        have := r5 'z'
        unfold lastOf at this
        rw [List.findSome?_eq_none_iff] at this
        exact this x (List.mem_reverse.2 hx)
      obtain ⟨-, -, -, -, hok⟩ := r2 x hx
      cases hxb : x.body with
      | comment l => rw [hxb] at hz; exact absurd (show '#' = 'z' from hz) (by decide)
      | energy l y => rw [hxb] at hz; exact absurd (show 'e' = 'z' from hz) (by decide)
      | oper k n o =>
        rw [hxb] at hz hok
        have : k = 'z' := hz
        subst this
        exact absurd hok.1 (by unfold OperKind; decide)
      | coef k l t =>
        rw [hxb] at hz hn
        have : k = 'z' := hz
        subst this
        simp [coefOf] at hn
    · obtain ⟨c, -, rfl⟩ := List.mem_map.1 hx
      exact absurd (show '#' = 'z' from hz) (by decide)
  refine ⟨F, e, by rw [hbuild, htext], ?_, he2, ?_, rfl, bs ++ (coms T.endJunk).map comB, by simp [F, B, zb], hlet⟩
  · exact
      { before := hT.before, after := hT.after, ver := hT.ver, symPre := hT.symPre, symGap := hT.symGap, symNl := hT.symNl, symWord := hT.symWord,
        sym := rfl, dim := h0, coefs := by rw [hT.coef]; exact Nat.one_pos, ws := by intro c hc; simp [F] at hc,
        channels := ⟨le_refl _, by simp [F]⟩, Nmax := ⟨sp_tok, by have := hT.nmax; simp only [F]; omega⟩, nsubs := ⟨sp_tok, hT.nsubs.2⟩,
        com1 := by
          refine comT_ok ?_ ?_
          · intro j hj
            obtain ⟨s, hs, hj⟩ := List.mem_flatMap.1 hj
            exact hsj s hs j hj
          · intro c hc
            obtain ⟨j, hj, hjc⟩ := List.mem_filterMap.1 hc
            obtain ⟨s, hs, hj⟩ := List.mem_flatMap.1 hj
            exact hT.subComs s hs c (List.mem_filterMap.2 ⟨j, hj, hjc⟩)
        subsLen := by simp [F, S, hT.count]
        subsNe := by simpa [F, S] using hT.ne
        subs := by
          intro s hs
          obtain ⟨x, hx, rfl⟩ := List.mem_map.1 hs
          exact subT_ok hp (hS x hx) _ _
        subsNl := by
          show Nl (S.flatMap SubT.text)
          cases hq : T.subs with
          | nil => exact absurd hq hT.ne
          | cons s l =>
            refine Or.inl ?_
            show ((T.subs.map _).flatMap SubT.text).head? = _
            rw [hq, List.map_cons, List.flatMap_cons]
            unfold SubT.text subT
            dsimp only
            rw [labText_onNew (hlab s (by rw [hq]; simp))]
            rfl
        subsDup := by
          have : (S.map fun s => labVal s.lab) = T.subs.map fun s => labVal s.lab := by
            show (T.subs.map _).map _ = _
            rw [List.map_map]
            exact List.map_congr_left fun s _ => subT_lab _ _ s
          show (S.map fun s => labVal s.lab).Nodup
          rw [this]
          exact hT.dup
        com2 := q2
        opchLen := rfl
        opch := by
          intro c hc
          simp [F] at hc
          subst hc
          exact ⟨by rw [← q4.length_eq, hT.chainLen], q3⟩
        opchNl := by
          show Nl ([cs].flatMap fun c => c.flatMap ChainT.text)
          cases hq : cs with
          | nil => exact absurd hq hcs
          | cons c l =>
            refine Or.inl ?_
            have := q5 c (by rw [hq]; simp)
            rw [List.flatMap_singleton, List.flatMap_cons]
            cases hw : c.text with
            | nil => rw [hw] at this; simp at this
            | cons x t => rw [hw] at this; simpa using this
        blocks := by
          intro b hb
          rcases List.mem_append.1 hb with hb | hb
          · exact r2 b hb
          rcases List.mem_append.1 hb with hb | hb
          · exact comB_ok hT.endJunk b hb
          · simp at hb
            subst hb
            refine ⟨rfl, nl_tok.2, by simp [zb, Body.line], Or.inl rfl, Or.inl ⟨rfl, rfl⟩, ?_⟩
            intro s hs
            simp only [List.mem_cons, List.not_mem_nil, or_false] at hs
            rcases hs with rfl | rfl
            · refine ⟨by rw [hT.coef]; rfl, ?_⟩
              intro v hv
              simp at hv; subst hv
              exact z3
            · refine ⟨by rw [hT.coef]; rfl, ?_⟩
              intro v hv
              simp at hv; subst hv
              exact y3
        trailer := ⟨Or.inl rfl, nl_tok.2⟩
        chain := by
          refine Or.inr ⟨_, _, _, _, hcoefz, rfl, ?_⟩
          have := hT.xi
          simp only [F, List.length_map, List.length_take]
          omega }
  · refine ⟨?_, ?_, ⟨cs.map fun x => x.op.val, rfl, ?_⟩, ?_, ?_, hcoefz, ?_⟩
    · show Header.mk _ _ _ _ = _
      simp [F, hT.count]
    · show S.map SubT.val = _
      show (T.subs.map _).map _ = _
      rw [List.map_map]
      refine List.map_congr_left fun s _ => ?_
      unfold SubT.val VecT.val subT
      rw [Function.comp_apply]
      dsimp only
      rw [labVal_onNew, (rowToks_v _).1, List.map_map]
      refine congrArg _ (List.map_congr_left fun x _ => ?_)
      rw [Function.comp_apply]
      congr 2
      rw [mul_one_div, mul_one_div, sub_div]
    · rw [List.forall₂_map_right_iff]
      exact q4
    · intro k n
      show Option.Rel _ _ (lastOf (operOf k n) B)
      rw [hB _ fun _ => rfl]
      exact r3 k n
    · show lastOf energyOf B = _
      rw [hB _ fun _ => rfl, r4, if_pos hany]
      rfl
    · intro k hk
      show lastOf (coefOf k) B = none
      rw [hB _ fun _ => rfl, r5]
      show ((if 'z' = k then _ else none) : Option _).or none = none
      rw [if_neg (fun h => hk h.symm)]
      rfl

/-- **C93.** Every well-formed template is instantiated, and the main program reads the result: it finds the energies of the
diagonalised Hamiltonians, measured from the lowest one and divided by the scale of the template, the operators between the eigenstates, the
energy of the ground state, and the coefficients of the Wilson chain. -/
theorem instantiate_read {T : Template K} (hT : T.OK C) (hp : Prints C lit) :
    ∃ out e D, instantiate C T.text = some (out, e) ∧ DataFile.read C.P out = some D ∧ IsGround T.subs e ∧ IsInstance C lit T e D := by
  obtain ⟨F, e, h1, h2, h3, h4, -⟩ := build_file hT hp
  have hr := data_roundtrip h2
  refine ⟨F.text, e, F.val, ?_, hr, h3, h4⟩
  unfold instantiate
  rw [h1]
  dsimp only
  rw [hr]

/-- **C93.** Energies are not negative, and the lowest one is zero. -/
theorem energies_nonneg {T : Template K} (hT : T.OK C) {e : K} (he : IsGround T.subs e) :
    (∃ s ∈ T.subs, ∃ x ∈ s.val, (x - e) / T.scale = 0) ∧ ∀ s ∈ T.subs, ∀ x ∈ s.val, 0 ≤ (x - e) / T.scale := by
  obtain ⟨⟨s, hs, hx⟩, h2⟩ := he
  exact ⟨⟨s, hs, e, hx, by simp⟩, fun s hs x hx => div_nonneg (sub_nonneg.2 (h2 s hs x hx)) hT.pos.le⟩

omit [LinearOrder K] [IsStrictOrderedRing K] in
/-- **C93.** The transformed operators represent the products of the operators, provided that the eigenvectors of the subspace
in between are a complete set. -/
theorem between_product (s1 s2 s3 : TSub K) (A B : Nat → Nat → K)
    (hV : ∀ a < s2.dim, ∀ b < s2.dim, ∑ k ∈ Finset.range s2.dim, s2.vec k a * s2.vec k b = if a = b then 1 else 0) (i j : Nat) :
    ∑ k ∈ Finset.range s2.dim, between s1 s2 A i k * between s2 s3 B k j =
      between s1 s3 (fun a c => ∑ b ∈ Finset.range s2.dim, A a b * B b c) i j := by
  unfold between
  calc ∑ k ∈ Finset.range s2.dim, (∑ a ∈ Finset.range s1.dim, ∑ b ∈ Finset.range s2.dim, s1.vec i a * A a b * s2.vec k b) *
        (∑ b' ∈ Finset.range s2.dim, ∑ c ∈ Finset.range s3.dim, s2.vec k b' * B b' c * s3.vec j c)
      = ∑ k ∈ Finset.range s2.dim, ∑ a ∈ Finset.range s1.dim, ∑ b ∈ Finset.range s2.dim, ∑ b' ∈ Finset.range s2.dim, ∑ c ∈ Finset.range s3.dim,
          (s1.vec i a * A a b * s2.vec k b) * (s2.vec k b' * B b' c * s3.vec j c) := by
        refine Finset.sum_congr rfl fun k _ => ?_
        rw [Finset.sum_mul]
        refine Finset.sum_congr rfl fun a _ => ?_
        rw [Finset.sum_mul]
        refine Finset.sum_congr rfl fun b _ => ?_
        rw [Finset.mul_sum]
        exact Finset.sum_congr rfl fun b' _ => by rw [Finset.mul_sum]
    _ = ∑ a ∈ Finset.range s1.dim, ∑ b ∈ Finset.range s2.dim, ∑ b' ∈ Finset.range s2.dim, ∑ c ∈ Finset.range s3.dim,
          (s1.vec i a * A a b) * (B b' c * s3.vec j c) * ∑ k ∈ Finset.range s2.dim, s2.vec k b * s2.vec k b' := by
        rw [Finset.sum_comm]
        refine Finset.sum_congr rfl fun a _ => ?_
        rw [Finset.sum_comm]
        refine Finset.sum_congr rfl fun b _ => ?_
        rw [Finset.sum_comm]
        refine Finset.sum_congr rfl fun b' _ => ?_
        rw [Finset.sum_comm]
        refine Finset.sum_congr rfl fun c _ => ?_
        rw [Finset.mul_sum]
        exact Finset.sum_congr rfl fun k _ => by ring
    _ = ∑ a ∈ Finset.range s1.dim, ∑ c ∈ Finset.range s3.dim, s1.vec i a * (∑ b ∈ Finset.range s2.dim, A a b * B b c) * s3.vec j c := by
        refine Finset.sum_congr rfl fun a _ => ?_
        rw [← Finset.sum_comm]
        have : ∀ b ∈ Finset.range s2.dim, ∑ b' ∈ Finset.range s2.dim, ∑ c ∈ Finset.range s3.dim,
            (s1.vec i a * A a b) * (B b' c * s3.vec j c) * ∑ k ∈ Finset.range s2.dim, s2.vec k b * s2.vec k b' =
              ∑ c ∈ Finset.range s3.dim, (s1.vec i a * A a b) * (B b c * s3.vec j c) := by
          intro b hb
          rw [Finset.sum_eq_single b]
          · refine Finset.sum_congr rfl fun c _ => ?_
            rw [hV b (Finset.mem_range.1 hb) b (Finset.mem_range.1 hb), if_pos rfl, mul_one]
          · intro b' hb' hne
            refine Finset.sum_eq_zero fun c _ => ?_
            rw [hV b (Finset.mem_range.1 hb) b' (Finset.mem_range.1 hb'), if_neg (Ne.symm hne), mul_zero]
          · intro h; exact absurd hb h
        rw [Finset.sum_comm, Finset.sum_congr rfl this, Finset.sum_comm]
        refine Finset.sum_congr rfl fun c _ => ?_
        rw [Finset.mul_sum, Finset.sum_mul]
        exact Finset.sum_congr rfl fun b _ => by ring

omit [LinearOrder K] [IsStrictOrderedRing K] in
/-- **C93.** In this basis the Hamiltonian of a subspace is diagonal, with the energies on the diagonal. -/
theorem between_hamiltonian (s : TSub K) {E : Nat → K} (hE : ∀ i < s.dim, ∀ a < s.dim, ∑ b ∈ Finset.range s.dim, entry s.H a b * s.vec i b = E i * s.vec i a)
    (hV : ∀ i < s.dim, ∀ j < s.dim, ∑ a ∈ Finset.range s.dim, s.vec i a * s.vec j a = if i = j then 1 else 0) {i j : Nat} (hi : i < s.dim) (hj : j < s.dim) :
    between s s (entry s.H) i j = if i = j then E i else 0 := by
  unfold between
  have : ∀ a ∈ Finset.range s.dim, ∑ b ∈ Finset.range s.dim, s.vec i a * entry s.H a b * s.vec j b = E j * (s.vec i a * s.vec j a) := by
    intro a ha
    have h1 := hE j hj a (Finset.mem_range.1 ha)
    calc ∑ b ∈ Finset.range s.dim, s.vec i a * entry s.H a b * s.vec j b = s.vec i a * ∑ b ∈ Finset.range s.dim, entry s.H a b * s.vec j b := by
          rw [Finset.mul_sum]
          exact Finset.sum_congr rfl fun b _ => by ring
      _ = E j * (s.vec i a * s.vec j a) := by rw [h1]; ring
  rw [Finset.sum_congr rfl this, ← Finset.mul_sum, hV i hi j hj]
  by_cases h : i = j
  · subst h; simp
  · simp [h]

/-- **C93.** If writing of the file is interrupted, the main program does not accept what has been written, provided that the last number is
missing. -/
theorem interrupted_write_partial {T : Template K} (hT : T.OK C) (hp : Prints C lit) (htri : C.P.tricpp = false) {out : Str} {e : K}
    (h : instantiate C T.text = some (out, e)) {x : K} (hx : C.zeta[C.nmax]? = some x) {p : Str} (hpre : p <+: out)
    (hlen : p.length + ((lit 16 x).text ++ ['\n']).length ≤ out.length) : DataFile.read C.P p = none := by
  obtain ⟨F, e', h1, h2, -, -, h5, pre, h6, h7⟩ := build_file hT hp
  have hout : out = F.text := by
    unfold instantiate at h
    rw [h1] at h
    dsimp only at h
    rw [data_roundtrip h2] at h
    dsimp only at h
    injection h with h
    exact (congrArg Prod.fst h).symm
  have hv : vecT lit C.nmax C.zeta = ⟨⟨['\n'], C.nmax⟩, (C.zeta.take C.nmax).map (fun x => ⟨['\n'], lit 16 x⟩) ++ [⟨['\n'], lit 16 x⟩]⟩ := by
    unfold vecT
    rw [List.take_succ, hx]
    simp
  rw [hv] at h6
  rw [hout] at hpre hlen
  exact truncation_detected_partial (xi := [vecT lit C.nmax C.xi]) (zs := []) (line := []) h2 htri h6 h7 hpre (by rw [h5]; exact hlen)

omit [IsStrictOrderedRing K] in
/-- **C93.** Whatever the template: if a file is written, the tables of coefficients reach to the end of the chain. -/
theorem complete_coefficients {template out : Str} {e : K} (h : instantiate C template = some (out, e)) : C.nmax < C.xi.length ∧ C.nmax < C.zeta.length := by
  have hz : ∃ z, zText C = some z := by
    unfold instantiate at h
    cases hb : build C template with
    | none => rw [hb] at h; cases h
    | some r =>
      unfold build at hb
      split at hb
      · cases hb
      · split at hb
        · cases hb
        · split at hb
          · split at hb
            · cases hb
            · split at hb
              · cases hb
              · split at hb
                · cases hz : zText C with
                  | none => rw [hz] at hb; cases hb
                  | some z => exact ⟨z, rfl⟩
                · cases hb
          · cases hb
  obtain ⟨z, hz⟩ := hz
  unfold zText at hz
  split at hz
  · cases hz
  · constructor
    · by_contra hn
      rw [coefText, if_pos (by omega)] at hz
      cases hz
    · by_contra hn
      rw [show coefText C C.zeta = none by rw [coefText, if_pos (by omega)]] at hz
      cases h1 : coefText C C.xi <;> rw [h1] at hz <;> cases hz

end Verif.Seed
