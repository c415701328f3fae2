import Verif.Qrun.Lemmas
import Verif.Cmd.Props
import Verif.Kk.Props
/-!
# The programs `tdavg`, `integ` and `kk`
-/

namespace Verif.Qrun
open Verif.Text
open Verif.Table (LineT fileText values Dec.value)
open Verif.Tools (TdRow TdBlock mergeMeshes)
open Verif.Cmd (Line given integOf)

/-! ## `tdavg` -/

theorem interp_eq {n : Nat} {b : TdBlock ℚ} {F G : Nat → ℚ → ℚ} (hF : Tools.Interpolates n b F) (hG : Tools.Interpolates n b G) {k : Nat} (hk : k < n) (T : ℚ) :
    F k T = G k T := by
  obtain ⟨t, h1, h2⟩ := hF k hk
  obtain ⟨u, h3, h4⟩ := hG k hk
  obtain rfl := Tools.tabulates_unique h1 h3
  exact Tools.interp_unique h1.1 (h2 T) (h4 T)

/-- Interpolations by data set instead of by number. -/
theorem interp_choice {n : Nat} (d : List (TdBlock ℚ)) (hd : ∀ b ∈ d, Tools.GoodBlock n b) :
    ∃ G : TdBlock ℚ → Nat → ℚ → ℚ, ∀ b ∈ d, Tools.Interpolates n b (G b) := by
  classical
  refine ⟨fun b => if h : Tools.GoodBlock n b then (Tools.interpolates_exists h).choose else fun _ _ => 0, fun b hb => ?_⟩
  dsimp only
  rw [dif_pos (hd b hb)]
  exact (Tools.interpolates_exists (hd b hb)).choose_spec

theorem sum_number {n : Nat} (d : List (TdBlock ℚ)) {G : TdBlock ℚ → Nat → ℚ → ℚ} (hG : ∀ b ∈ d, Tools.Interpolates n b (G b))
    {F : Nat → Nat → ℚ → ℚ} (hF : Interpolates n d F) {k : Nat} (hk : k < n) (T : ℚ) :
    (d.map fun b => G b k T).sum / (d.length : ℚ) = meanOver d.length F k T := by
  unfold meanOver
  congr 2
  apply List.ext_getElem (by simp)
  intro i h1 h2
  have hi : i < d.length := by simpa using h1
  simp only [List.getElem_map, List.getElem_range]
  exact interp_eq (hG _ (List.getElem_mem hi)) (hF i hi) hk T

theorem mesh_file (d : List (TdBlock ℚ)) : IsMesh d (mergeMeshes (d.map fun b => b.map Prod.fst)) := by
  obtain ⟨h1, h2, h3⟩ := Tools.mesh_spec (d.map fun b => b.map Prod.fst)
  refine ⟨h3.imp fun h => h.1, ?_, ?_⟩
  · intro x hx
    obtain ⟨l, hl, hxl⟩ := h1 x hx
    obtain ⟨b, hb, rfl⟩ := List.mem_map.1 hl
    obtain ⟨r, hr, e⟩ := List.mem_map.1 hxl
    exact ⟨b, hb, r, hr, e⟩
  · intro b hb r hr
    exact h2 _ (List.mem_map.2 ⟨b, hb, rfl⟩) _ (List.mem_map.2 ⟨r, hr, rfl⟩)

/-- Without reference. -/
theorem average_none {fs : Files} {name : Str} {n : Nat} (hn : n ≠ 0) {f : FileT} (hf : f.OK n) (hd : f.distinct) (hfile : fs name = some f.text)
    {F : Nat → Nat → ℚ → ℚ} (hF : Interpolates n f.value F) :
    average fs name [] = .ok (f.head.getLast?.map fun c => '#' :: c,
      (mergeMeshes (f.value.map fun b => b.map Prod.fst)).map fun T => (T, (List.range n).map fun k => meanOver f.value.length F k T)) := by
  obtain ⟨G, hG⟩ := interp_choice f.value (good_file hf hd)
  have h1 := (Tools.readFiles_spec (lines f.text) [] n hn (by simpa using data_mem hf) (data_ex hf)).1
  rw [average, hfile]
  dsimp only
  rw [h1, blocks_file hf]
  dsimp only
  rw [if_pos rfl, Tools.tdavg_spec n f.value (good_file hf hd) G hG]
  dsimp only
  rw [title_file hf]
  congr 2
  apply List.map_congr_left
  intro T _
  congr 1
  apply List.map_congr_left
  intro k hk
  exact sum_number f.value hG hF (List.mem_range.1 hk) T

/-- With reference. -/
theorem average_ref {fs : Files} {name ref : Str} {n : Nat} (hn : n ≠ 0) {f g : FileT} (hf : f.OK n) (hd : f.distinct) (hg : g.OK n) (hdg : g.distinct)
    (hr : ref ≠ []) (hfile : fs name = some f.text) (hrfile : fs ref = some g.text) (hlen : f.value.length = g.value.length)
    {F R : Nat → Nat → ℚ → ℚ} (hF : Interpolates n f.value F) (hR : Interpolates n g.value R) :
    average fs name ref = .ok ((g.head.getLast?.or f.head.getLast?).map fun c => '#' :: c,
      (mergeMeshes (f.value.map fun b => b.map Prod.fst)).map fun T =>
        (T, (List.range n).map fun k => meanOver f.value.length F k T - meanOver g.value.length R k T)) := by
  obtain ⟨G, hG⟩ := interp_choice (n := n) (f.value ++ g.value) (by
    intro b hb
    rcases List.mem_append.1 hb with h | h
    · exact good_file hf hd b h
    · exact good_file hg hdg b h)
  have hG1 : ∀ b ∈ f.value, Tools.Interpolates n b (G b) := fun b hb => hG b (by simp [hb])
  have hG2 : ∀ b ∈ g.value, Tools.Interpolates n b (G b) := fun b hb => hG b (by simp [hb])
  obtain ⟨h1, h2⟩ := Tools.readFiles_spec (lines f.text) (lines g.text) n hn (by
    intro v hv
    rcases List.mem_append.1 hv with h | h
    · exact data_mem hf v h
    · exact data_mem hg v h) (data_ex hf)
  rw [blocks_file hf] at h1 h2
  rw [blocks_file hg, if_pos hlen] at h2
  rw [average, hfile]
  dsimp only
  rw [h1]
  dsimp only
  rw [if_neg hr, hrfile]
  dsimp only
  rw [h2]
  dsimp only
  rw [Tools.tdavg_ref_spec n f.value g.value hlen (good_file hf hd) (good_file hg hdg) G hG1 hG2]
  dsimp only
  rw [title_file hf, title_file hg]
  congr 2
  · cases g.head.getLast? <;> rfl
  · apply List.map_congr_left
    intro T _
    congr 1
    apply List.map_congr_left
    intro k hk
    rw [sum_number f.value hG1 hF (List.mem_range.1 hk) T, sum_number g.value hG2 hR (List.mem_range.1 hk) T]

theorem names_command {fs : Files} {l : Line} (h : l.OK ['h', 'v', 'V', 'c']) (hg : given 'h' l.options = false) {name ref : Str}
    (hn : Names fs l.operands name ref) :
    ∃ o : Cmd.TdAvg, Cmd.tdavg.main l.words = .ok o ∧ o.name = name ∧ refName fs o.ref = ref ∧ o.comments = given 'c' l.options := by
  have hc := (Cmd.tdavg_command l h).2 hg
  rcases hn with ⟨h1, h2⟩ | h1
  · have hr : refName fs none = ref := by
      unfold refName tdRef
      rcases h2 with ⟨h2, rfl⟩ | ⟨h2, rfl⟩
      · rw [if_pos (Option.isSome_iff_ne_none.2 h2)]
      · rw [h2]; rfl
    rcases h1 with ⟨h1, rfl⟩ | h1
    · exact ⟨_, (hc ⟨_, _, none⟩).2 (Or.inl ⟨h1, rfl⟩), rfl, hr, rfl⟩
    · exact ⟨_, (hc ⟨_, _, none⟩).2 (Or.inr (Or.inl ⟨name, h1, rfl⟩)), rfl, hr, rfl⟩
  · exact ⟨_, (hc ⟨_, _, some ref⟩).2 (Or.inr (Or.inr ⟨name, ref, h1, rfl⟩)), rfl, rfl, rfl⟩

theorem out_name (name : Str) : outName name = resultName name := rfl

/-- The result is not the file with the data. -/
theorem out_ne (name : Str) : name ≠ resultName name := by
  unfold resultName
  split
  · rename_i h; rw [h]; decide
  · intro e
    have := congrArg List.length e
    simp at this

theorem rows_result (pr : ℚ → Str) (n : Nat) (mesh : List ℚ) (val : Nat → ℚ → ℚ) :
    (mesh.map fun T => (T, (List.range n).map fun k => val k T)).flatMap (rowText pr) = result pr n mesh val := by
  rw [result, List.flatMap_map]
  rfl

theorem title_text (c : Option Str) :
    titleLine (c.map fun c => '#' :: c) = titleText c := by
  cases c <;> rfl

/-- **C128.** `tdavg` without reference, for a file with several data sets in any layout, each without repeated temperatures and with the same number of columns: the
result has one row for every point of a mesh of temperatures from the data, with the means over the data sets of the interpolated columns; every temperature is represented
to one part in a million. With `-c` the last comment before the data comes first. No other file changes. -/
theorem tdavg_run (pr : ℚ → Str) (fs : Files) (l : Line) (h : l.OK ['h', 'v', 'V', 'c']) (hg : given 'h' l.options = false) (name : Str)
    (ho : Names fs l.operands name []) (n : Nat) (hn : n ≠ 0) (f : FileT) (hf : f.OK n) (hd : f.distinct) (hfile : fs name = some f.text)
    (F : Nat → Nat → ℚ → ℚ) (hF : Interpolates n f.value F) :
    ∃ mesh, IsMesh f.value mesh ∧
      (tdavg pr fs l.words).1 = none ∧
      (tdavg pr fs l.words).2 (resultName name) = some ((if given 'c' l.options then titleText f.head.getLast? else []) ++
        result pr n mesh fun k T => meanOver f.value.length F k T) ∧
      ∀ g, g ≠ resultName name → (tdavg pr fs l.words).2 g = fs g := by
  obtain ⟨o, h1, h2, h3, h4⟩ := names_command h hg ho
  have hw : write fs (resultName name) [] name = some f.text := by rw [write, if_neg (out_ne name), hfile]
  refine ⟨_, mesh_file f.value, ?_⟩
  rw [tdavg, h1]
  dsimp only
  rw [h2, h3, h4, out_name, average_none hn hf hd hw hF]
  dsimp only
  rw [rows_result, title_text]
  refine ⟨rfl, by rw [write, if_pos rfl], fun g hg => ?_⟩
  rw [write, if_neg hg, write, if_neg hg]

/-- **C128.** With a reference, given or found as `td-ref.dat`, with as many data sets: its mean is subtracted. -/
theorem tdavg_ref_run (pr : ℚ → Str) (fs : Files) (l : Line) (h : l.OK ['h', 'v', 'V', 'c']) (hg : given 'h' l.options = false) (name ref : Str)
    (ho : Names fs l.operands name ref) (hr : ref ≠ []) (hout : ref ≠ resultName name) (n : Nat) (hn : n ≠ 0) (f r : FileT) (hf : f.OK n) (hd : f.distinct)
    (hrf : r.OK n) (hrd : r.distinct) (hfile : fs name = some f.text) (hrfile : fs ref = some r.text) (hlen : f.sets.length = r.sets.length)
    (F R : Nat → Nat → ℚ → ℚ) (hF : Interpolates n f.value F) (hR : Interpolates n r.value R) :
    ∃ mesh, IsMesh f.value mesh ∧
      (tdavg pr fs l.words).1 = none ∧
      (tdavg pr fs l.words).2 (resultName name) = some ((if given 'c' l.options then titleText (r.head.getLast?.or f.head.getLast?) else []) ++
        result pr n mesh fun k T => meanOver f.value.length F k T - meanOver r.value.length R k T) ∧
      ∀ g, g ≠ resultName name → (tdavg pr fs l.words).2 g = fs g := by
  obtain ⟨o, h1, h2, h3, h4⟩ := names_command h hg ho
  have hw : write fs (resultName name) [] name = some f.text := by rw [write, if_neg (out_ne name), hfile]
  have hwr : write fs (resultName name) [] ref = some r.text := by rw [write, if_neg hout, hrfile]
  refine ⟨_, mesh_file f.value, ?_⟩
  rw [tdavg, h1]
  dsimp only
  rw [h2, h3, h4, out_name, average_ref hn hf hd hrf hrd hr hw hwr (by simp [FileT.value, hlen]) hF hR]
  dsimp only
  rw [rows_result, title_text]
  refine ⟨rfl, by rw [write, if_pos rfl], fun g hg => ?_⟩
  rw [write, if_neg hg, write, if_neg hg]

/-! ## `kk` -/

theorem table_file (cs rs : List LineT) (hc : ∀ c ∈ cs, c.OK ∧ c.isComment) (hr : ∀ r ∈ rs, r.OK ∧ r.noComment) :
    table (fileText (cs ++ rs)) = realValues rs := by
  rw [table, Table.kkRead_file_partial _ _ hc hr]
  rfl

theorem program_ok (interp : Kk.Table → (ℝ → ℝ) × (ℝ → ℝ)) {im : Kk.Table} (h : KkData im) :
    ∃ re, Kk.program interp im = .ok re ∧ IsTransform interp im re := by
  obtain ⟨l, hl⟩ := Kk.kk_accepts h.six h.even h.symmetric h.distinct
  have he : ∃ re, Kk.program interp im = .ok re := by
    unfold Kk.program
    rw [hl]
    exact ⟨_, rfl⟩
  obtain ⟨re, hre⟩ := he
  exact ⟨re, hre, (Kk.kk_program hre).1, (Kk.kk_program hre).2, Kk.kk_output hre⟩

/-- **C128.** `kk input output` for two different files: the output holds the transform of the table in the input, no other file changes. -/
theorem kk_run (interp : Kk.Table → (ℝ → ℝ) × (ℝ → ℝ)) (pr : ℝ → Str) (fs : Files) (stdin a b : Str) (hab : a ≠ b) (head rows : List LineT)
    (hh : ∀ c ∈ head, c.OK ∧ c.isComment) (hr : ∀ r ∈ rows, r.OK ∧ r.noComment) (hf : fs a = some (fileText (head ++ rows))) (hd : KkData (realValues rows)) :
    ∃ re, IsTransform interp (realValues rows) re ∧
      (kk interp pr fs stdin [a, b]).status = .done ∧
      (kk interp pr fs stdin [a, b]).files b = some (re.flatMap fun p => pr p.1 ++ ' ' :: (pr p.2 ++ ['\n'])) ∧
      ∀ g, g ≠ b → (kk interp pr fs stdin [a, b]).files g = fs g := by
  obtain ⟨re, h1, h2⟩ := program_ok interp hd
  have hw : (write fs b [] a).getD [] = fileText (head ++ rows) := by rw [write, if_neg hab, hf]; rfl
  refine ⟨re, h2, ?_⟩
  unfold kk
  dsimp only
  rw [if_neg (by simp [hf]), hw, table_file _ _ hh hr, h1]
  dsimp only
  refine ⟨rfl, by rw [write, if_pos rfl]; rfl, fun g hg => ?_⟩
  rw [write, if_neg hg, write, if_neg hg]

/-- **C128.** `kk -` does the same with the standard input and output, which ends with a message, and changes no file. -/
theorem kk_std_run (interp : Kk.Table → (ℝ → ℝ) × (ℝ → ℝ)) (pr : ℝ → Str) (fs : Files) (head rows : List LineT)
    (hh : ∀ c ∈ head, c.OK ∧ c.isComment) (hr : ∀ r ∈ rows, r.OK ∧ r.noComment) (hd : KkData (realValues rows)) :
    ∃ re, IsTransform interp (realValues rows) re ∧
      kk interp pr fs (fileText (head ++ rows)) [['-']] =
        ⟨.done, fs, (re.flatMap fun p => pr p.1 ++ ' ' :: (pr p.2 ++ ['\n'])) ++ ['K', 'K', ' ', 'd', 'o', 'n', 'e', '!', '\n']⟩ := by
  obtain ⟨re, h1, h2⟩ := program_ok interp hd
  refine ⟨re, h2, ?_⟩
  unfold kk
  dsimp only
  rw [if_neg (by decide), if_pos rfl, table_file _ _ hh hr, h1]
  rfl

/-! ## `integ` -/

theorem part_integral (s : ℝ → ℝ) (T a b : ℝ) (o : Cmd.Part) : part (Kk.integrals s T a b) o = ∫ x in a..b, weighted o T s x := by
  cases o with
  | total => rfl
  | pos =>
    simp only [part, Kk.integrals, weighted]
    congr 1
  | neg =>
    simp only [part, Kk.integrals, weighted]
    congr 1
  | abs => rfl
  | fermi =>
    simp only [part, Kk.integrals, weighted]
    congr 1
    funext x
    rw [Kk.fFermi, mul_one_div]

open Classical in
theorem sort_spec (im : Kk.Table) (hne : im ≠ []) (hd : (im.map Prod.fst).Nodup) :
    (im.insertionSort Kk.pairLE).Perm im ∧ ((im.insertionSort Kk.pairLE).map Prod.fst).Pairwise (· < ·) := by
  haveI : Std.Total Kk.pairLE := ⟨fun a b => by
    unfold Kk.pairLE
    rcases lt_trichotomy a.1 b.1 with h | h | h
    · exact Or.inl (Or.inl h)
    · rcases le_total a.2 b.2 with h' | h'
      · exact Or.inl (Or.inr ⟨h, h'⟩)
      · exact Or.inr (Or.inr ⟨h.symm, h'⟩)
    · exact Or.inr (Or.inl h)⟩
  haveI : IsTrans (ℝ × ℝ) Kk.pairLE := ⟨fun a b c h1 h2 => by
    unfold Kk.pairLE at *
    rcases h1 with h1 | ⟨h1, h1'⟩ <;> rcases h2 with h2 | ⟨h2, h2'⟩
    · exact Or.inl (h1.trans h2)
    · exact Or.inl (h2 ▸ h1)
    · exact Or.inl (h1 ▸ h2)
    · exact Or.inr ⟨h1.trans h2, h1'.trans h2'⟩⟩
  have hp := List.perm_insertionSort Kk.pairLE im
  refine ⟨hp, ?_⟩
  have hs := List.pairwise_insertionSort Kk.pairLE im
  have hn : ((im.insertionSort Kk.pairLE).map Prod.fst).Nodup := (hp.map _).nodup_iff.2 hd
  rw [List.pairwise_map]
  rw [List.nodup_iff_pairwise_ne, List.pairwise_map] at hn
  refine List.Pairwise.imp (fun {a b} h => ?_) (hs.and hn)
  rcases h.1 with h' | h'
  · exact h'
  · exact absurd h'.1 h.2

open Classical in
/-- **C128.** `integ` for a table with at least five points at distinct arguments: the number printed is the integral, over the range of the arguments, of the
interpolation of the points in increasing order, weighted as the options say. -/
theorem integ_run (interp : Kk.Table → ℝ → ℝ) (fs : Files) (l : Line) (h : l.OK ['h', 'v', 'V', 'w', 't', ':', 'T', ':', 'p', 'n', 'a', 'f'])
    (hg : given 'h' l.options = false) (name : Str) (ho : l.operands = [name]) (head rows : List LineT) (hh : ∀ c ∈ head, c.OK ∧ c.isComment)
    (hr : ∀ r ∈ rows, r.OK ∧ r.noComment) (hf : fs name = some (fileText (head ++ rows))) (h5 : 5 ≤ (realValues rows).length)
    (hd : ((realValues rows).map Prod.fst).Nodup) :
    ∃ t, t.Perm (realValues rows) ∧ (t.map Prod.fst).Pairwise (· < ·) ∧ ∃ a ∈ t.map Prod.fst, ∃ b ∈ t.map Prod.fst, (∀ x ∈ t.map Prod.fst, a ≤ x ∧ x ≤ b) ∧
      integ interp fs l.words = .ok (∫ x in a..b, weighted (integOf l.options).out (((integOf l.options).T : ℚ) : ℝ) (interp t) x) := by
  have hc := ((Cmd.integ_command l h).2 hg (integOf l.options, name)).2 ⟨name, ho, rfl⟩
  have hne : realValues rows ≠ [] := by intro e; rw [e] at h5; simp at h5
  obtain ⟨hp, hs⟩ := sort_spec _ hne hd
  set t := (realValues rows).insertionSort Kk.pairLE with ht
  have hlen : (t.map Prod.fst).length = (realValues rows).length := by rw [List.length_map, hp.length_eq]
  have h0 : 0 < (t.map Prod.fst).length := by omega
  have h1 : (t.map Prod.fst).length - 1 < (t.map Prod.fst).length := by omega
  refine ⟨t, hp, hs, (t.map Prod.fst)[0], List.getElem_mem h0, (t.map Prod.fst)[(t.map Prod.fst).length - 1], List.getElem_mem h1, ?_, ?_⟩
  · intro x hx
    obtain ⟨i, hi, rfl⟩ := List.getElem_of_mem hx
    have hm := List.pairwise_iff_getElem.1 hs
    constructor
    · rcases Nat.eq_zero_or_pos i with rfl | hpos
      · exact le_rfl
      · exact (hm 0 i h0 hi hpos).le
    · rcases Nat.lt_or_ge i ((t.map Prod.fst).length - 1) with hlt | hge
      · exact (hm i _ hi h1 hlt).le
      · have : i = (t.map Prod.fst).length - 1 := by omega
        subst this
        exact le_rfl
  · have hsp : Kk.splineOK (t.map Prod.fst) := ⟨by omega, hs⟩
    rw [integ, hc]
    dsimp only
    rw [hf]
    dsimp only
    rw [table_file _ _ hh hr, if_neg hne, ← ht, if_neg (not_not.2 hsp), part_integral, List.getD_eq_getElem _ _ h0, List.getD_eq_getElem _ _ h1]

open Classical in
/-- **C128.** The numbers printed with `-p` and `-n` add up to the one printed without, whatever the other options, if the interpolation is continuous and there are
arguments on both sides of zero (or zero itself). -/
theorem integ_halves (interp : Kk.Table → ℝ → ℝ) (hcont : ∀ t, Continuous (interp t)) (fs : Files) (l lp ln : Line) (name : Str)
    (hl : ∀ m ∈ [l, lp, ln], m.OK ['h', 'v', 'V', 'w', 't', ':', 'T', ':', 'p', 'n', 'a', 'f'] ∧ given 'h' m.options = false ∧ m.operands = [name])
    (ht : (integOf l.options).out = .total) (hp : (integOf lp.options).out = .pos) (hn : (integOf ln.options).out = .neg)
    (s : Str) (hs : fs name = some s) (hneg : ∃ p ∈ table s, p.1 ≤ 0) (hpos : ∃ p ∈ table s, 0 ≤ p.1) (v vp vn : ℝ)
    (h1 : integ interp fs l.words = .ok v) (h2 : integ interp fs lp.words = .ok vp) (h3 : integ interp fs ln.words = .ok vn) : vp + vn = v := by
  have hc : ∀ m ∈ [l, lp, ln], Cmd.integ.main m.words = .ok (integOf m.options, name) := fun m hm =>
    ((Cmd.integ_command m (hl m hm).1).2 (hl m hm).2.1 (integOf m.options, name)).2 ⟨name, (hl m hm).2.2, rfl⟩
  rw [integ, hc l (by simp)] at h1
  rw [integ, hc lp (by simp)] at h2
  rw [integ, hc ln (by simp)] at h3
  dsimp only at h1 h2 h3
  rw [hs] at h1 h2 h3
  dsimp only at h1 h2 h3
  by_cases he : table s = []
  · rw [if_pos he] at h1; cases h1
  rw [if_neg he] at h1 h2 h3
  have hperm := List.perm_insertionSort Kk.pairLE (table s)
  generalize (table s).insertionSort Kk.pairLE = t at h1 h2 h3 hperm
  by_cases hsp : Kk.splineOK (t.map Prod.fst)
  swap
  · rw [if_pos hsp] at h1; cases h1
  rw [if_neg (not_not.2 hsp)] at h1 h2 h3
  rw [ht] at h1
  rw [hp] at h2
  rw [hn] at h3
  simp only [part, Except.ok.injEq] at h1 h2 h3
  obtain ⟨h5, hinc⟩ := hsp
  have h0 : 0 < (t.map Prod.fst).length := by omega
  have hlast : (t.map Prod.fst).length - 1 < (t.map Prod.fst).length := by omega
  have hm := List.pairwise_iff_getElem.1 hinc
  rw [List.getD_eq_getElem _ _ h0, List.getD_eq_getElem _ _ hlast] at h1 h2 h3
  have ha : (t.map Prod.fst)[0] ≤ 0 := by
    obtain ⟨p, hp1, hp2⟩ := hneg
    obtain ⟨i, hi, hpe⟩ := List.getElem_of_mem (List.mem_map.2 ⟨p, hperm.mem_iff.2 hp1, rfl⟩ : p.1 ∈ t.map Prod.fst)
    refine le_trans ?_ hp2
    rw [← hpe]
    rcases Nat.eq_zero_or_pos i with rfl | hpos
    · exact le_rfl
    · exact (hm 0 i h0 hi hpos).le
  have hb : 0 ≤ (t.map Prod.fst)[(t.map Prod.fst).length - 1] := by
    obtain ⟨p, hp1, hp2⟩ := hpos
    obtain ⟨i, hi, hpe⟩ := List.getElem_of_mem (List.mem_map.2 ⟨p, hperm.mem_iff.2 hp1, rfl⟩ : p.1 ∈ t.map Prod.fst)
    refine le_trans hp2 ?_
    rw [← hpe]
    rcases Nat.lt_or_ge i ((t.map Prod.fst).length - 1) with hlt | hge
    · exact (hm i _ hi hlast hlt).le
    · have : i = (t.map Prod.fst).length - 1 := by omega
      subst this
      exact le_rfl
  have key := (Kk.integ_parts (s := interp t) (((integOf l.options).T : ℚ) : ℝ) ha hb (hcont t).continuousOn).2.2.1
  rw [← h1, ← key, ← h2, ← h3]
  rfl

/-! ## The hypotheses can be met -/

/-- The number `d` with one digit. -/
def digit (d : Char) : DataFile.Lit := ⟨false, [d], none, none⟩

/-- Two data sets on different temperatures, the second in decreasing order, with tabs and blanks. -/
def sample : FileT where
  head := [[' ', 'T', ' ', 'S'], [' ', 'x']]
  init := [⟨⟨[' '], digit '1', [(['\t'], digit '2')], []⟩, [⟨[], digit '3', [([' ', ' '], digit '6')], [' ']⟩], [['z', '2']]⟩]
  last := ⟨⟨[], digit '2', [([' '], digit '8')], []⟩, [⟨[], digit '1', [([' '], digit '4')], []⟩], []⟩

theorem digit_ok (d : Char) (h : isDigit d = true) : (digit d).OK := by
  refine ⟨?_, ?_, ?_, ?_⟩
  · intro c hc
    simp only [digit, List.mem_singleton] at hc
    rw [hc]; exact h
  · intro c hc
    simp [digit, DataFile.Lit.frac] at hc
  · exact Or.inl (by simp [digit])
  · simp [digit, DataFile.ExOK]

theorem sample_ok : sample.OK 1 := by
  have hb : Table.Plain [' '] := by simp [Table.Plain]
  have hb2 : Table.Plain [' ', ' '] := by simp [Table.Plain]
  have ht : Table.Plain ['\t'] := by simp [Table.Plain]
  have he : Table.Plain [] := by simp [Table.Plain]
  have hr : ∀ (a : Str) (x : Char) (w : Str) (y : Char) (e : Str), Table.Plain a → Table.Plain w → w ≠ [] → Table.Plain e → isDigit x = true → isDigit y = true →
      (⟨a, digit x, [(w, digit y)], e⟩ : RowT).OK 1 := by
    intro a x w y e h1 h2 h3 h4 h5 h6
    refine ⟨h1, digit_ok x h5, ?_, h4, rfl⟩
    intro p hp
    rw [List.mem_singleton.1 hp]
    exact ⟨h2, h3, digit_ok y h6⟩
  refine ⟨by decide, ?_, by decide⟩
  intro s hs
  simp only [FileT.sets, sample, List.cons_append, List.nil_append, List.mem_cons, List.not_mem_nil, or_false] at hs
  rcases hs with rfl | rfl
  · refine ⟨?_, by decide⟩
    intro r hr'
    simp only [SetT.rows, List.mem_cons, List.not_mem_nil, or_false] at hr'
    rcases hr' with rfl | rfl
    · exact hr _ _ _ _ _ hb ht (by simp) he (by decide) (by decide)
    · exact hr _ _ _ _ _ he hb2 (by simp) hb (by decide) (by decide)
  · refine ⟨?_, by decide⟩
    intro r hr'
    simp only [SetT.rows, List.mem_cons, List.not_mem_nil, or_false] at hr'
    rcases hr' with rfl | rfl <;> exact hr _ _ _ _ _ he hb (by simp) he (by decide) (by decide)

theorem sample_value : sample.value = [[(1, [2]), (3, [6])], [(2, [8]), (1, [4])]] := by decide +kernel

example : sample.distinct := by
  rw [FileT.distinct, sample_value]
  decide +kernel

/-- An integer. -/
def prInt (q : ℚ) : Str := intStr q.num

/-- The program on this file: with `-c` the second of the two comments is copied. -/
example : (tdavg prInt (fun g => if g = tdDat then some sample.text else none) [['-', 'c']]).2 tdOut =
    some ['#', ' ', 'x', '\n', '1', ' ', '3', ' ', '\n', '2', ' ', '6', ' ', '\n', '3', ' ', '7', ' ', '\n'] := by decide +kernel

/-- The file as its own reference. -/
example : (tdavg prInt (fun g => if g = tdDat then some sample.text else none) [tdDat, tdDat]).2 tdOut =
    some ['1', ' ', '0', ' ', '\n', '2', ' ', '0', ' ', '\n', '3', ' ', '0', ' ', '\n'] := by decide +kernel

/-- A number with one digit, perhaps negative. -/
def sdigit (n : Bool) (d : Char) : DataFile.Lit := ⟨n, [d], none, none⟩

/-- A table for `kk` and `integ`. -/
def sampleTable : List LineT :=
  [.row [] (sdigit true '1') [' '] (sdigit false '2') [], .row [] (sdigit false '1') [' '] (sdigit false '0') [], .blank [],
   .row [] (sdigit true '2') [' '] (sdigit false '5') [], .row [] (sdigit false '2') ['\t'] (sdigit false '1') [],
   .row [' '] (sdigit false '3') [' '] (sdigit false '0') [], .row [] (sdigit true '3') [' '] (sdigit false '1') []]

theorem sampleTable_values : realValues sampleTable = [(-1, 2), (1, 0), (-2, 5), (2, 1), (3, 0), (-3, 1)] := by
  have h : (values sampleTable).map (fun p => (Dec.value p.1, Dec.value p.2)) = [(-1, 2), (1, 0), (-2, 5), (2, 1), (3, 0), (-3, 1)] := by decide +kernel
  have : realValues sampleTable = ((values sampleTable).map fun p => (Dec.value p.1, Dec.value p.2)).map fun p : ℚ × ℚ => ((p.1 : ℝ), (p.2 : ℝ)) := by
    rw [List.map_map]; rfl
  rw [this, h]
  norm_num

example : KkData (realValues sampleTable) ∧ 5 ≤ (realValues sampleTable).length := by
  rw [sampleTable_values]
  exact ⟨⟨by simp, by simp, by simp, by norm_num⟩, by simp⟩

end Verif.Qrun
