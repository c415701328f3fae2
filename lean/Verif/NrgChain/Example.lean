import Verif.NrgChain.Split
/-!
# A flat band as an example
-/

namespace Verif.NrgChain
open Verif.Tools Verif.Text Verif.Param
open scoped Classical

/-- A file of parameters for a flat band with five sites. -/
def exP : Map := [("band".toList, "flat".toList), ("Nmax".toList, "4".toList)]

theorem real_default (W : World) {m : Map} {k : String} {d : ℝ} (h : m.get k.toList = none) : W.real m k d = some d := by
  unfold World.real
  rw [h]

theorem exSet (W : World) (h4 : W.atoi "4".toList = 4) (s : State) : ∃ q, setParameters W { reset s with params := exP } = .ok q ∧ q.band = "flat".toList ∧
    q.adapt = false ∧ q.load = false ∧ q.tri = true ∧ q.Nmax = 4 ∧ q.mMAX = 8 ∧ q.Lambda = 2 ∧ q.z = 1 := by
  have hN : W.nat exP "Nmax" 0 = 4 := by
    unfold World.nat
    rw [show exP.get "Nmax".toList = some "4".toList by decide]
    dsimp only
    rw [h4]
    rfl
  have hM : W.nat exP "mMAX" (2 * 4) = 8 := by
    unfold World.nat
    rw [show exP.get "mMAX".toList = none by decide]
    rfl
  have hP : W.nat exP "preccpp" 2000 = 2000 := by
    unfold World.nat
    rw [show exP.get "preccpp".toList = none by decide]
    rfl
  unfold setParameters
  dsimp only
  rw [real_default W (k := "Lambda") (d := 2) (by decide), real_default W (k := "z") (d := 1) (by decide), real_default W (k := "xmax") (d := 30) (by decide),
    real_default W (k := "bandrescale") (d := 1) (by decide), hN, hM, hP]
  dsimp only
  rw [if_neg (by norm_num), if_neg (by norm_num), if_neg (by norm_num), if_neg (by norm_num), if_neg (by norm_num)]
  exact ⟨_, rfl, (show str exP "band" "adapt".toList = "flat".toList by decide), (show toolBool exP "adapt".toList false = false by decide), (show toolBool exP "nrgchain_tables_load".toList false = false by decide), (show toolBool exP "nrgchains_tridiag".toList true = true by decide),
    rfl, rfl, rfl, rfl⟩

/-- The call returns, with five sites, and writes the files. -/
example (W : World) (h4 : W.atoi "4".toList = 4) (fs : FS) (s : State) : ∃ ops c, fromParams W fs exP .calculate s = (ops, .ok c) ∧
    c.theta = 1 - 2 ^ (-(1 + 8 : ℝ)) ∧ c.zeta = [0, 0, 0, 0, 0] ∧ c.xi.length = 5 ∧ (∀ x ∈ c.xi, 0 < x) ∧ after fs ops "xi.dat".toList = some (fileOf W c.xi) := by
  obtain ⟨q, hq, h1, h2, h3, h5, h6, h7, h8, h9⟩ := exSet W h4 s
  obtain ⟨ops, c, hc, k1, k2⟩ := (flat_band (fs := fs) hq h1 h2 h3 h5).1 (by omega)
  have hch : Chain .calculate q := Or.inr ⟨rfl, h5⟩
  obtain ⟨l1, l2, l3, l4⟩ := chain_written hc hq hch
  refine ⟨ops, c, hc, by rw [k1, h7, h8, h9]; norm_num, by rw [k2, h6]; rfl, by rw [l1, h6], ?_, l3⟩
  obtain ⟨ρp, ρn, εp, εn, Ep, En, -, -, -, -, -, -, -, -, hb⟩ := calculated_chain hc hq (Or.inr ⟨rfl, h3⟩)
  obtain ⟨-, b, -, -, u, xi, zeta, ht, -, -, hx, -⟩ := hb hch
  rw [hx]
  intro x hx'
  obtain ⟨n, hn, rfl⟩ := List.mem_map.mp hx'
  have hn' : n < q.Nmax + 1 := by simpa using hn
  have hbr : q.bandrescale = 1 ∧ q.rescalexi = false := by
    unfold setParameters at hq
    dsimp only at hq
    rw [real_default W (k := "Lambda") (d := 2) (by decide), real_default W (k := "z") (d := 1) (by decide), real_default W (k := "xmax") (d := 30) (by decide),
      real_default W (k := "bandrescale") (d := 1) (by decide)] at hq
    dsimp only at hq
    split_ifs at hq
    cases hq
    exact ⟨rfl, (show toolBool exP "rescalexi".toList false = false by decide)⟩
  rw [hbr.1, hbr.2]
  simpa using ht.hopping_pos n hn'

/-- A chain that is too long: the program stops with an error. -/
example (W : World) (h4 : W.atoi "4".toList = 4) (h1 : W.atoi "1".toList = 1) (fs : FS) (s : State) :
    (fromParams W fs (exP ++ [("mMAX".toList, "1".toList)]) .calculate s).2 = .error .exit := by
  have hN : W.nat (exP ++ [("mMAX".toList, "1".toList)]) "Nmax" 0 = 4 := by
    unfold World.nat
    rw [show (exP ++ [("mMAX".toList, "1".toList)]).get "Nmax".toList = some "4".toList by decide]
    dsimp only
    rw [h4]
    rfl
  have hM : W.nat (exP ++ [("mMAX".toList, "1".toList)]) "mMAX" (2 * 4) = 1 := by
    unfold World.nat
    rw [show (exP ++ [("mMAX".toList, "1".toList)]).get "mMAX".toList = some "1".toList by decide]
    dsimp only
    rw [h1]
    rfl
  have hP : W.nat (exP ++ [("mMAX".toList, "1".toList)]) "preccpp" 2000 = 2000 := by
    unfold World.nat
    rw [show (exP ++ [("mMAX".toList, "1".toList)]).get "preccpp".toList = none by decide]
    rfl
  have hq : ∃ q, setParameters W { reset s with params := exP ++ [("mMAX".toList, "1".toList)] } = .ok q ∧ q.band = "flat".toList ∧ q.adapt = false ∧
      q.load = false ∧ q.tri = true ∧ q.Nmax = 4 ∧ q.mMAX = 1 := by
    unfold setParameters
    dsimp only
    rw [real_default W (k := "Lambda") (d := 2) (by decide), real_default W (k := "z") (d := 1) (by decide), real_default W (k := "xmax") (d := 30) (by decide),
      real_default W (k := "bandrescale") (d := 1) (by decide), hN, hM, hP]
    dsimp only
    rw [if_neg (by norm_num), if_neg (by norm_num), if_neg (by norm_num), if_neg (by norm_num), if_neg (by norm_num)]
    exact ⟨_, rfl, (show str (exP ++ [("mMAX".toList, "1".toList)]) "band" "adapt".toList = "flat".toList by decide), (show toolBool (exP ++ [("mMAX".toList, "1".toList)]) "adapt".toList false = false by decide), (show toolBool (exP ++ [("mMAX".toList, "1".toList)]) "nrgchain_tables_load".toList false = false by decide), (show toolBool (exP ++ [("mMAX".toList, "1".toList)]) "nrgchains_tridiag".toList true = true by decide),
      rfl, rfl⟩
  obtain ⟨q, hq, k1, k2, k3, k4, k5, k6⟩ := hq
  exact (flat_band (fs := fs) hq k1 k2 k3 k4).2 (by omega)

/-! ## A way to write numbers such that the hypothesis of `two_steps` holds -/

/-- All numbers in the tables of the example. -/
noncomputable def exEntries (i : State) : List (Option ℝ) := (withTables i).deP ++ (withTables i).deN ++ (withTables i).duP ++ (withTables i).duN

noncomputable def exWorld (l : List (Option ℝ)) : World where
  atof t := l.getD (t.length - 1) none
  atoi t := if t = "4".toList then 4 else 0
  fmt _ x := List.replicate (l.idxOf x + 1) 'a'

theorem ex_reads (l : List (Option ℝ)) {x : Option ℝ} (h : x ∈ l) : ReadsBack (exWorld l) x := by
  refine ⟨?_, ?_, ?_, ?_⟩
  · simp only [exWorld, List.length_replicate, Nat.add_sub_cancel]
    rw [List.getD_eq_getElem _ _ (List.idxOf_lt_length_iff.mpr h), List.getElem_idxOf]
  · simp [exWorld, List.mem_replicate]
  · simp [exWorld]
  · simp [exWorld, List.replicate_succ]

/-- Both steps return, with the coefficients of the single calculation. -/
example (fs : FS) (s : State) : ∃ W : World, ∃ c c₁, (fromParams W fs exP .calculate s).2 = .ok c ∧ (fromParams W fs exP .saveOnly s).2 = .ok c₁ ∧
    (fromParams W (after fs (fromParams W fs exP .saveOnly s).1) exP .loadAndTridiagonalize s).2 = .ok ⟨0, c.xi, c.zeta⟩ ∧ c.xi.length = 5 := by
  obtain ⟨q, hq, h1, h2, h3, h5, h6, h7, h8, h9⟩ := exSet (exWorld []) (by simp [exWorld]) s
  obtain ⟨ti, total, hti, hin⟩ := flat_init
  let i : State := { q with rhoP := flatTab, rhoN := flatTab, intP := ti, intN := ti }
  have hload : ∀ W, loadInput W fs q = .ok i := by
    intro W
    unfold loadInput
    have hf' : ¬ q.band ≠ flatBand := not_not.mpr h1
    rw [if_neg hf', hin]
    rfl
  let W := exWorld (exEntries i)
  have hset : setParameters W { reset s with params := exP } = .ok q := by
    rw [← hq]
    unfold setParameters
    dsimp only
    rw [real_default W (k := "Lambda") (d := 2) (by decide), real_default W (k := "z") (d := 1) (by decide), real_default W (k := "xmax") (d := 30) (by decide),
      real_default W (k := "bandrescale") (d := 1) (by decide), real_default (exWorld []) (k := "Lambda") (d := 2) (by decide),
      real_default (exWorld []) (k := "z") (d := 1) (by decide), real_default (exWorld []) (k := "xmax") (d := 30) (by decide),
      real_default (exWorld []) (k := "bandrescale") (d := 1) (by decide)]
    rfl
  obtain ⟨ops, c, hc, -, -⟩ := (flat_band (W := W) (fs := fs) hset h1 h2 h3 h5).1 (by omega)
  have hr : ∀ x, TableEntry W fs q x → ReadsBack W x := by
    rintro x ⟨i', hi', hx⟩
    rw [hload W] at hi'
    cases hi'
    apply ex_reads
    unfold exEntries
    simp only [List.mem_append]
    tauto
  have hch : Chain .calculate q := Or.inr ⟨rfl, h5⟩
  obtain ⟨k1, k2⟩ := two_steps (fs := fs) (s := s) hset h3 h5 hr s s
  cases hs : (fromParams W fs exP .saveOnly s).2 with
  | error e => rw [k1 e hs] at hc; cases hc
  | ok c₁ =>
    obtain ⟨-, k3, -⟩ := k2 c₁ hs
    refine ⟨W, c, c₁, by rw [hc], hs, (k3 c (by rw [hc])).2, ?_⟩
    rw [(chain_written hc hset hch).1, h6]

/-- Tables with a single line are not noticed. -/
example (W : World) (h4 : W.atoi "4".toList = 4) (s : State) :
    (fromParams W (fun fn => if fn ∈ ["de_pos.dat".toList, "de_neg.dat".toList, "du_pos.dat".toList, "du_neg.dat".toList] then some "1\n".toList else none)
      exP .loadAndTridiagonalize s).2 = .error .undefined := by
  obtain ⟨q, hq, -, -, -, -, -, h7, -, -⟩ := exSet W h4 s
  refine short_table hq (t := "1\n".toList) ?_ ?_ ?_ ?_ ?_
  · exact if_pos (by decide)
  · rw [h7]; decide
  · rw [if_pos (by decide)]; simp
  · rw [if_pos (by decide)]; simp
  · rw [if_pos (by decide)]; simp

/-- A parameter that is refused: the exception leaves the files as they are. -/
example (W : World) (h : W.atof "1".toList = some 1) (fs : FS) (s : State) :
    (fromParams W fs [("Lambda".toList, "1".toList)] .calculate s).2 = .error .thrown ∧ (fromParams W fs [("Lambda".toList, "1".toList)] .calculate s).1 = [] := by
  have hL : W.real [("Lambda".toList, "1".toList)] "Lambda" 2 = some 1 := by
    unfold World.real
    rw [show Map.get [("Lambda".toList, "1".toList)] "Lambda".toList = some "1".toList by decide]
    exact h
  have e : (fromParams W fs [("Lambda".toList, "1".toList)] .calculate s).2 = .error .thrown := by
    rw [(call_ops _ _ _ _ _).2, run_eq]
    unfold setParameters
    dsimp only
    rw [hL, real_default W (k := "z") (d := 1) (by decide), real_default W (k := "xmax") (d := 30) (by decide),
      real_default W (k := "bandrescale") (d := 1) (by decide)]
    dsimp only
    rw [if_pos (by norm_num)]
  exact ⟨e, thrown_nothing_written e⟩

/-- The band `flat` with an adapted mesh: no chain. -/
example (W : World) (h4 : W.atoi "4".toList = 4) (fs : FS) (s : State) : (fromParams W fs (exP ++ [("adapt".toList, "true".toList)]) .calculate s).2 = .error .exit := by
  have hN : W.nat (exP ++ [("adapt".toList, "true".toList)]) "Nmax" 0 = 4 := by
    unfold World.nat
    rw [show (exP ++ [("adapt".toList, "true".toList)]).get "Nmax".toList = some "4".toList by decide]
    dsimp only
    rw [h4]
    rfl
  have hM : W.nat (exP ++ [("adapt".toList, "true".toList)]) "mMAX" (2 * 4) = 8 := by
    unfold World.nat
    rw [show (exP ++ [("adapt".toList, "true".toList)]).get "mMAX".toList = none by decide]
    rfl
  have hP : W.nat (exP ++ [("adapt".toList, "true".toList)]) "preccpp" 2000 = 2000 := by
    unfold World.nat
    rw [show (exP ++ [("adapt".toList, "true".toList)]).get "preccpp".toList = none by decide]
    rfl
  have hq : ∃ q, setParameters W { reset s with params := exP ++ [("adapt".toList, "true".toList)] } = .ok q ∧ q.band = "flat".toList ∧ q.adapt = true ∧
      q.load = false ∧ q.tri = true ∧ q.Nmax = 4 := by
    unfold setParameters
    dsimp only
    rw [real_default W (k := "Lambda") (d := 2) (by decide), real_default W (k := "z") (d := 1) (by decide), real_default W (k := "xmax") (d := 30) (by decide),
      real_default W (k := "bandrescale") (d := 1) (by decide), hN, hM, hP]
    dsimp only
    rw [if_neg (by norm_num), if_neg (by norm_num), if_neg (by norm_num), if_neg (by norm_num), if_neg (by norm_num)]
    exact ⟨_, rfl, (show str (exP ++ [("adapt".toList, "true".toList)]) "band" "adapt".toList = "flat".toList by decide),
      (show toolBool (exP ++ [("adapt".toList, "true".toList)]) "adapt".toList false = true by decide),
      (show toolBool (exP ++ [("adapt".toList, "true".toList)]) "nrgchain_tables_load".toList false = false by decide),
      (show toolBool (exP ++ [("adapt".toList, "true".toList)]) "nrgchains_tridiag".toList true = true by decide), rfl⟩
  obtain ⟨q, hq, k1, k2, k3, k4, k5⟩ := hq
  exact flat_adapt hq k1 k2 k3 k4 (by omega)

end Verif.NrgChain
