import Verif.Raw.Items
/-!
# The files with raw data contain everything under its name (C136)
-/

namespace Verif.Raw
open Verif.Text
open Verif.Invar (Label)

variable {V : Type}

/-- The names of all data sets, component by component. -/
theorem raw_names {a : Addr} (h : AddrOK a) : comps (path a) = match a with
    | .param k => ["params".toList, k]
    | .eigen n I l => [natStr n, "eigen".toList, name I, l.str]
    | .block n I k A im => [natStr n, "U".toList, name I, name A ++ "|nr=".toList ++ natStr k ++ (if im then "-imag".toList else [])]
    | .ham n I im => [natStr n, "hamiltonian".toList, name I, if im then "matrix-imag".toList else "matrix".toList]
    | .struct n I => [natStr n, "structure".toList, name I, "ancestors".toList]
    | .op n c o I J im => [natStr n, c.str, o, name I, name J, if im then "matrix-imag".toList else "matrix".toList]
    | .gs => ["stats".toList, "GS_energy".toList]
    | .stat n l => ["stats".toList, natStr n, l.str]
    | .expv o => ["expv".toList, o]
    | .total => ["total_energy".toList]
    | .range => ["store".toList, "range".toList]
    | .list n I => ["store".toList, natStr n, "list".toList, name I]
    | .data n I l => ["store".toList, natStr n, "data".toList, name I, l.str]
    | .fdm l => ["fdm".toList, l.str]
    | .fdmExpv o => ["fdm".toList, "expv".toList, o] := by
  rw [comps_path h]
  cases a with
  | block n I k A im =>
    simp only [parts]
    cases im <;> simp [kNr, imag, imagStr]
  | ham n I im => cases im <;> rfl
  | op n c o I J im => cases im <;> rfl
  | _ => rfl

example : Cat.all.map Cat.str = ["s".toList, "sp".toList, "sg".toList, "d".toList, "t".toList, "q".toList, "ot".toList] := by decide
example : Leaf.all.map Leaf.str = ["value_orig".toList, "value_zero".toList, "absenergy_zero".toList, "absenergy".toList, "absenergyG".toList,
    "value_corr".toList, "crit".toList, "matrix".toList, "matrix-imag".toList, "nrkept".toList] := by decide
example : Stat.all.map Stat.str = ["energyscale".toList, "scale".toList, "Teff".toList, "rel_Egs".toList, "abs_Egs".toList, "energy_offset".toList] := by decide
example : Sub.all.map Sub.str = ["kept".toList, "total".toList, "min".toList, "max".toList] := by decide
example : Fdm.all.map Fdm.str = ["Z".toList, "F".toList, "E".toList, "C".toList, "S".toList] := by decide
example : path (.eigen 3 [1, -2] .crit) = "3/eigen//1_-2/crit".toList := by decide +kernel
example : path (.block 12 [1, 2] 0 [0, 3] true) = "12/U/1_2/0_3|nr=0-imag".toList := by decide +kernel

/-- Different data sets have different names, and none lies below another one. -/
theorem raw_names_distinct {a b : Addr} (ha : AddrOK a) (hb : AddrOK b) (h : a ≠ b) :
    ¬ comps (path a) <+: comps (path b) ∧ path a ≠ path b := by
  have := (apart_iff ha hb).2 h
  refine ⟨this.1, fun he => this.1 ?_⟩
  rw [he]

/-- If no matrix of the Hamiltonian is stored twice, then no write fails, every data set is found under its name with its value, and the file contains nothing else. -/
theorem raw_complete {r : Run V} (h : RunOK r) (ho : r.Once) : ∃ f, r.file = some f ∧
    (∀ a v, Item r a v → get f (path a) = some v) ∧
      (∀ p v, get f p = some v → ∃ a, Item r a v ∧ comps p = comps (path a)) ∧ f.length = r.writes.length := by
  have hn := (run_nodup h).2 ho
  refine ⟨_, (dumpAll_named (run_ok h) _).2 ⟨hn, rfl⟩, ?_, ?_, by simp⟩
  · intro a v hi
    have hm := mem_writes.2 hi
    exact get_parts hn (run_ok h _ hm) hm
  · intro p v hg
    unfold get at hg
    obtain ⟨e, he, rfl⟩ := Option.map_eq_some_iff.1 hg
    have h1 := List.mem_of_find?_eq_some he
    have h2 := List.find?_some he
    obtain ⟨x, hx, rfl⟩ := List.mem_map.1 h1
    refine ⟨x.1, mem_writes.1 hx, ?_⟩
    rw [comps_path (run_ok h x hx)]
    exact (of_decide_eq_true h2).symm

/-- The order in which the threads write does not matter: in any order all writes succeed, and a reader finds the same. -/
theorem raw_any_order {r : Run V} (h : RunOK r) (ho : r.Once) {ws : Writes V} (hp : ws.Perm r.writes) :
    ∃ f g, r.file = some f ∧ dumpAll [] (ws.map fun w => (path w.1, w.2)) = some g ∧ ∀ p, get g p = get f p := by
  have hn := (run_nodup h).2 ho
  have hnw : (addrs ws).Nodup := (hp.map Prod.fst).nodup_iff.2 hn
  have hok : ∀ x ∈ ws, AddrOK x.1 := fun x hx => run_ok h x (hp.mem_iff.1 hx)
  refine ⟨_, _, (dumpAll_named (run_ok h) _).2 ⟨hn, rfl⟩, (dumpAll_named hok _).2 ⟨hnw, rfl⟩, ?_⟩
  intro p
  by_cases hx : ∃ x ∈ ws, parts x.1 = comps p
  · obtain ⟨x, hx, he⟩ := hx
    have hx' := hp.mem_iff.1 hx
    have e : ∀ f : File V, get f p = get f (path x.1) := fun f => by unfold get; rw [← he, comps_path (hok x hx)]
    rw [e, e, get_parts hnw (hok x hx) (v := x.2) hx, get_parts hn (run_ok h x hx') (v := x.2) hx']
  · rw [get_none fun x hx' he => hx ⟨x, hx', he⟩, get_none fun x hx' he => hx ⟨x, hp.mem_iff.2 hx', he⟩]

/-- When every step is diagonalised at most once, nothing is stored twice. -/
theorem once_of_one_round {r : Run V} (h : RunOK r) (h1 : ∀ s ∈ r.steps, s.rounds.length ≤ 1) : r.Once := by
  intro _ _ i s hs _
  have hm := List.mem_of_getElem? hs
  have hl := h1 s hm
  have hr := (h.steps s hm).rounds
  match hrs : s.rounds, hl with
  | [], _ => simp
  | [x], _ =>
    rw [hrs] at hr
    simpa using (hr x (by simp)).1

end Verif.Raw
