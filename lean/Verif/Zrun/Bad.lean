import Verif.Zrun.Props
/-!
# Spectra that cannot be averaged, and what the programs do with them
-/

namespace Verif.Zrun
open Verif.Text
open Verif.Cmd (Line given colsOf momOf int num)

variable {K : Type} [Field K] [LinearOrder K] [IsStrictOrderedRing K]

/-- **C127, partial.** A file that cannot be opened, or does not have a whole number of rows, ends `binavg`, `specmoments` and `mats` without result; the first such file
counts. -/
theorem unusable_refused_partial (fs : Files (Bin K)) (one : Bool) (w col : Nat) (Nz : Int) (hN : 1 ≤ Nz) (n : Str) (e : Fail) :
    spectrum one w col Nz n fs = .error e ↔ ∃ i, 1 ≤ i ∧ i ≤ Nz.toNat ∧
      (let name := fun i : Nat => if one = true ∧ Nz = 1 then n else natStr i ++ '/' :: n
       ((fs (name i) = none ∧ e = .nofile (name i)) ∨ ∃ f, fs (name i) = some f ∧ ¬ 8 * (1 + w) ∣ 8 * f.nums.length + f.extra ∧ e = .incomplete (name i)) ∧
       ∀ j, 1 ≤ j → j < i → ∃ f, fs (name j) = some f ∧ 8 * (1 + w) ∣ 8 * f.nums.length + f.extra) := by
  have hname : ∀ i, place one Nz n i = if one = true ∧ Nz = 1 then n else natStr i ++ '/' :: n := by
    intro i
    simp only [place, Bool.and_eq_true, decide_eq_true_eq]
  have hok : ∀ fn, (∃ x, load w col fs fn = .ok x) ↔ ∃ f, fs fn = some f ∧ 8 * (1 + w) ∣ 8 * f.nums.length + f.extra := by
    intro fn
    unfold load
    cases hf : fs fn with
    | none => simp
    | some f =>
      dsimp only
      rw [Bin.size, Nat.mul_comm (1 + w) 8]
      by_cases hd : (8 * f.nums.length + f.extra) % (8 * (1 + w)) = 0
      · simp [hd, Nat.dvd_iff_mod_eq_zero]
      · simp [hd, Nat.dvd_iff_mod_eq_zero]
  have herr : ∀ fn, load w col fs fn = .error e ↔ (fs fn = none ∧ e = .nofile fn) ∨
      ∃ f, fs fn = some f ∧ ¬ 8 * (1 + w) ∣ 8 * f.nums.length + f.extra ∧ e = .incomplete fn := by
    intro fn
    unfold load
    cases hf : fs fn with
    | none => simp; exact eq_comm
    | some f =>
      dsimp only
      rw [Bin.size, Nat.mul_comm (1 + w) 8]
      by_cases hd : (8 * f.nums.length + f.extra) % (8 * (1 + w)) = 0
      · simp [hd, Nat.dvd_iff_mod_eq_zero]
      · simp [hd, Nat.dvd_iff_mod_eq_zero]
        exact eq_comm
  have hsp : spectrum one w col Nz n fs = .error e ↔ each (load w col fs) (places one Nz n) = .error e := by
    unfold spectrum
    cases each (load w col fs) (places one Nz n) <;> simp
  rw [hsp, each_error]
  simp only
  constructor
  · rintro ⟨a, m, b, h1, h2, h3⟩
    have hlen := congrArg List.length h1
    simp only [places, List.length_map, List.length_range, List.length_append, List.length_cons] at hlen
    have hm : m = place one Nz n (a.length + 1) := by
      have := congrArg (fun l => l[a.length]?) h1
      simp only [places, List.getElem?_map, List.getElem?_append_right (le_refl _), Nat.sub_self, List.getElem?_cons_zero] at this
      rw [List.getElem?_range (by omega)] at this
      simpa using this.symm
    have ha : ∀ j, j < a.length → place one Nz n (j + 1) ∈ a := by
      intro j hj
      have := congrArg (fun l => l[j]?) h1
      simp only [places, List.getElem?_map, List.getElem?_append_left hj] at this
      rw [List.getElem?_range (by omega)] at this
      exact List.mem_of_getElem? (by simpa using this.symm)
    refine ⟨a.length + 1, by omega, by omega, ?_, fun j hj1 hj2 => ?_⟩
    · rw [← hname, ← hm]
      exact (herr m).1 h3
    · have := ha (j - 1) (by omega)
      rw [Nat.sub_add_cancel hj1, hname] at this
      exact (hok _).1 (h2 _ this)
  · rintro ⟨i, h1, h2, h3, h4⟩
    refine ⟨(List.range (i - 1)).map fun j : Nat => place one Nz n (j + 1), place one Nz n i,
      (List.range (Nz.toNat - i)).map fun j : Nat => place one Nz n (i + j + 1), ?_, ?_, ?_⟩
    · unfold places
      have : List.range Nz.toNat = List.range (i - 1) ++ (i - 1) :: (List.range (Nz.toNat - i)).map fun j => i + j := by
        rw [show Nz.toNat = (i - 1) + (1 + (Nz.toNat - i)) by omega, List.range_add, Nat.add_comm 1, List.range_succ_eq_map]
        simp only [List.map_cons, List.map_map, Nat.add_zero]
        congr 2
        rw [show i - 1 + (Nz.toNat - i + 1) - i = Nz.toNat - i by omega]
        refine List.map_congr_left fun j _ => ?_
        simp only [Function.comp]
        omega
      rw [this, List.map_append, List.map_cons, List.map_map, Nat.sub_add_cancel h1]
      rfl
    · intro m hm
      obtain ⟨j, hj, rfl⟩ := List.mem_map.1 hm
      rw [List.mem_range] at hj
      rw [hok, hname]
      exact h4 (j + 1) (by omega) (by omega)
    · rw [herr, hname]
      exact h3

/-- **C127, violated.** A spectrum with complex weights (rows of three numbers) is taken for one with real weights whenever it has an even number of rows: every other
weight becomes a frequency. -/
theorem wrong_columns (fs : Files (Bin K)) (fn : Str) (rows : List (List K)) (hr : ∀ r ∈ rows, r.length = 3) (he : rows.length % 2 = 0)
    (hf : fs fn = some ⟨rows.flatten, 0⟩) : ∃ x, load 1 1 fs fn = .ok x := by
  have hl := flatten_length (w := 2) rows hr
  simp only [load, hf, Bin.size, hl]
  rw [if_neg (by rw [not_not]; omega)]
  exact ⟨_, rfl⟩

/-- The files for the examples below. -/
def oneFile (b : Bin ℚ) : Files (Bin ℚ) := fun n => if n = ['a'] then some b else none

/-- Peaks at 1 and 2 with the weights 3 and 5: `specmoments` finds another total weight. -/
theorem wrong_columns_weight :
    specmoments (oneFile ⟨[1, 3, 0, 2, 5, 0], 0⟩) [['-', 'o'], ['a'], ['1']] = .ok [5, 3, 3, 3, 3] := by
  decide +kernel

/-- **C127, violated.** A file that was cut after a whole number of rows is a spectrum like any other. -/
theorem cut_accepted (fs : Files (Bin K)) (fn : Str) (w col : Nat) (a b : List (List K)) (ha : ∀ r ∈ a ++ b, r.length = 1 + w) (hc : col ≤ w)
    (hf : fs fn = some ⟨a.flatten, 0⟩) : load w col fs fn = .ok (a.map fun r => (freq r, weight col r)) :=
  load_stored (fun r h => ha r (List.mem_append_left _ h)) hc hf

/-- **C127, violated.** An empty file (a calculation that has failed) counts as a spectrum without weight: of a single peak half is left. -/
theorem empty_counts :
    specmoments (fun n => if n = ['1', '/', 'a'] then some ⟨[1, 1], 0⟩ else if n = ['2', '/', 'a'] then some ⟨[], 0⟩ else none : Files (Bin ℚ))
      [['a'], ['2']] = .ok [1 / 2, 1 / 2, 1 / 2, 1 / 2, 1 / 2] := by
  decide +kernel

/-- **C127, violated.** With `-o` and several calculations the directories are used all the same, and the average goes to `spec.bin`, not to the given name. -/
theorem one_of_many (fs : Files (Bin K)) (l : Line) (h : l.OK ['h', 'v', 'o', '2', '3']) (hg : given 'h' l.options = false) (ho : given 'o' l.options = true)
    (n z : Str) (hop : l.operands = [n, z]) (hz : 2 ≤ int z) (hn : n ≠ ['s', 'p', 'e', 'c', '.', 'b', 'i', 'n']) (fs' : Files (Bin K))
    (hb : binavg fs l.words = .ok fs') : fs' n = fs n ∧ (fs' ['s', 'p', 'e', 'c', '.', 'b', 'i', 'n']).isSome ∧ ∀ i, 1 ≤ i → i ≤ int z → (fs (natStr i.toNat ++ '/' :: n)).isSome := by
  have hc := ((Cmd.binavg_command l h).2 hg ⟨colsOf l.options, n, int z⟩).2 ⟨n, z, hop, by omega, rfl⟩
  unfold binavg at hb
  rw [hc] at hb
  dsimp only at hb
  have hone : (colsOf l.options).one = true := ho
  cases hsp : spectrum (colsOf l.options).one (colsOf l.options).nrcol (colsOf l.options).col (int z) n fs with
  | error e => rw [hsp] at hb; simp at hb
  | ok s =>
    rw [hsp] at hb
    simp only [Except.ok.injEq, hone, if_true] at hb
    subst hb
    refine ⟨by rw [write, if_neg (by rw [specBin]; exact hn)], by rw [write, specBin, if_pos rfl]; rfl, fun i h1 h2 => ?_⟩
    by_contra hcon
    have hnone : fs (natStr i.toNat ++ '/' :: n) = none := by
      cases hx : fs (natStr i.toNat ++ '/' :: n) with
      | none => rfl
      | some x => rw [hx] at hcon; simp at hcon
    unfold spectrum at hsp
    cases hee : each (load (colsOf l.options).nrcol (colsOf l.options).col fs) (places (colsOf l.options).one (int z) n) with
    | error e => rw [hee] at hsp; simp at hsp
    | ok ll =>
      have key : ∀ (g : Str → Except Fail (List (K × K))) (names : List Str) r, each g names = .ok r → ∀ m ∈ names, ∃ x, g m = .ok x := by
        intro g names
        induction names with
        | nil => simp
        | cons a names ih =>
          intro r hr m hm
          rw [each] at hr
          cases ha : g a with
          | error e => rw [ha] at hr; simp at hr
          | ok x =>
            rw [ha] at hr
            dsimp only at hr
            cases hb : each g names with
            | error e => rw [hb] at hr; simp at hr
            | ok xs =>
              rcases List.mem_cons.1 hm with rfl | hm
              · exact ⟨x, ha⟩
              · exact ih xs hb m hm
      obtain ⟨x, hx⟩ := key _ _ _ hee (natStr i.toNat ++ '/' :: n) (List.mem_map.2 ⟨i.toNat - 1, by simp; omega, by
        rw [Nat.sub_add_cancel (by omega), place, if_neg (by simp; omega)]⟩)
      rw [load, hnone] at hx
      simp at hx

/-- **C127, violated.** `-p` and `-n` together keep the frequency zero only, and `-p` keeps it although it is not positive. -/
theorem zero_kept : specmoments (oneFile ⟨[-1, 1, 0, 2, 1, 4], 0⟩) [['-', 'o', 'p'], ['a'], ['1']] = .ok [6, 4, 4, 4, 4] ∧
    specmoments (oneFile ⟨[-1, 1, 0, 2, 1, 4], 0⟩) [['-', 'o', 'p', 'n'], ['a'], ['1']] = .ok [2, 0, 0, 0, 0] := by
  constructor <;> decide +kernel

/-- Non-vacuity: a file with half a row is refused. -/
example : specmoments (oneFile ⟨[1, 1, 2], 0⟩) [['-', 'o'], ['a'], ['1']] = .error (.incomplete ['a']) ∧
    specmoments (oneFile ⟨[1, 1], 3⟩) [['-', 'o'], ['a'], ['1']] = .error (.incomplete ['a']) ∧
    specmoments (oneFile ⟨[1, 1], 0⟩) [['a'], ['1']] = .error (.nofile ['1', '/', 'a']) := by
  refine ⟨?_, ?_, ?_⟩ <;> decide +kernel

end Verif.Zrun
