import Verif.Sweep.Spec
/-!
# Lemmas about the two sweeps
-/

namespace Verif.Sweep
open Verif.Invar Verif.Store Verif.Subspaces

/-! ### Lists -/

section lists
variable {α β γ : Type} {ε : Type}

theorem mapM_ok_nil (f : α → Except ε β) : List.mapM f [] = .ok [] := rfl

theorem mapM_ok_cons (f : α → Except ε β) (a : α) (l : List α) :
    (a :: l).mapM f = match f a with
      | .error x => .error x
      | .ok b => match l.mapM f with
        | .error x => .error x
        | .ok bs => .ok (b :: bs) := by
  rw [List.mapM_cons]
  cases f a with
  | error x => rfl
  | ok b => cases l.mapM f <;> rfl

theorem mapM_cons_ok {f : α → Except ε β} {a : α} {l : List α} {r : List β} (h : (a :: l).mapM f = .ok r) :
    ∃ b bs, f a = .ok b ∧ l.mapM f = .ok bs ∧ r = b :: bs := by
  rw [mapM_ok_cons] at h
  cases h1 : f a with
  | error x => rw [h1] at h; cases h
  | ok b =>
    rw [h1] at h
    cases h2 : l.mapM f with
    | error x => rw [h2] at h; cases h
    | ok bs => rw [h2] at h; cases h; exact ⟨b, bs, rfl, rfl, rfl⟩

/-- A quantity that every turn of a loop preserves is the same for the results. -/
theorem mapM_keeps (f : α → Except ε β) (φ : α → γ) (ψ : β → γ) (h : ∀ a b, f a = .ok b → ψ b = φ a)
    (l : List α) (r : List β) (hr : l.mapM f = .ok r) : r.map ψ = l.map φ := by
  induction l generalizing r with
  | nil => cases hr; rfl
  | cons a l ih =>
    obtain ⟨b, bs, h1, h2, rfl⟩ := mapM_cons_ok hr
    rw [List.map_cons, List.map_cons, h a b h1, ih bs h2]

theorem mapM_all (f : α → Except ε β) (Q : β → Prop) (l : List α) (r : List β)
    (h : ∀ a ∈ l, ∀ b, f a = .ok b → Q b) (hr : l.mapM f = .ok r) : ∀ b ∈ r, Q b := by
  induction l generalizing r with
  | nil => cases hr; simp
  | cons a l ih =>
    obtain ⟨b, bs, h1, h2, rfl⟩ := mapM_cons_ok hr
    intro x hx
    rcases List.mem_cons.1 hx with rfl | hx
    · exact h a (by simp) _ h1
    · exact ih bs (fun a' ha' => h a' (by simp [ha'])) h2 x hx

/-- Renaming the input and the output of a loop. -/
theorem mapM_map_comm (f : α → Except ε α) (g : α → α) (h : ∀ a b, f a = .ok b → f (g a) = .ok (g b))
    (l r : List α) (hr : l.mapM f = .ok r) : (l.map g).mapM f = .ok (r.map g) := by
  induction l generalizing r with
  | nil => cases hr; rfl
  | cons a l ih =>
    obtain ⟨b, bs, h1, h2, rfl⟩ := mapM_cons_ok hr
    rw [List.map_cons, mapM_ok_cons, h a b h1, ih bs h2]
    rfl

/-- The first error of a loop. -/
theorem mapM_error (f : α → Except ε β) (x : ε) (l : List α) (h : ∀ a ∈ l, (∃ b, f a = .ok b) ∨ f a = .error x)
    (he : ∃ a ∈ l, f a = .error x) : l.mapM f = .error x := by
  induction l with
  | nil => obtain ⟨a, ha, _⟩ := he; cases ha
  | cons a l ih =>
    rw [mapM_ok_cons]
    rcases h a (by simp) with ⟨b, hb⟩ | hb
    · rw [hb]
      have : l.mapM f = .error x := by
        apply ih (fun a' ha' => h a' (by simp [ha']))
        obtain ⟨a', ha', hx⟩ := he
        rcases List.mem_cons.1 ha' with rfl | ha'
        · rw [hb] at hx; cases hx
        · exact ⟨a', ha', hx⟩
      rw [this]
    · rw [hb]

end lists

/-! ### Energies, corrections, truncation -/

section core
variable {K : Type}

/-- What the preparation of a spectrum reads. -/
def keys (d : Diag K) : List (List K × Nat) := d.map fun p => (p.2.values.v, p.2.dim)

/-- What it writes. -/
def fields (p : Label × Eig K) : K × List K × List K × Int :=
  (p.2.values.shift, p.2.values.corrected, p.2.values.c, p.2.nrpost)

def put (p : Label × Eig K) (q : K × List K × List K × Int) : Label × Eig K :=
  (p.1, { p.2 with values := { p.2.values with shift := q.1, corrected := q.2.1, c := q.2.2.1 }, nrpost := q.2.2.2 })

theorem put_fields (p : Label × Eig K) : put p (fields p) = p := rfl

theorem zipWith_put (d : Diag K) (l : List (K × List K × List K × Int)) (h : d.map fields = l) :
    List.zipWith put d l = d := by
  subst h
  induction d with
  | nil => rfl
  | cons p d ih => rw [List.map_cons, List.zipWith_cons_cons, ih, put_fields]

theorem zipWith_fields (d : Diag K) (l : List (K × List K × List K × Int)) (h : l.length = d.length) :
    (List.zipWith put d l).map fields = l := by
  induction d generalizing l with
  | nil => cases l with | nil => rfl | cons a l => simp at h
  | cons p d ih =>
    cases l with
    | nil => simp at h
    | cons q l =>
      rw [List.zipWith_cons_cons, List.map_cons, ih l (by simpa using h)]
      rfl

variable [Field K] [LinearOrder K]

/-- The body of the `try` block without Floquet, on the spectra. -/
def core (eps : K) (s : Trunc.Settings K) (la : Bool) (d : Diag K) : Except Err (K × Diag K × Bool) :=
  match findEgs d with
  | .error x => .error x
  | .ok e =>
    match fixSplit false eps (setShift e d) with
    | .error x => .error x
    | .ok d1 =>
      match prepare s la d1 with
      | .error x => .error x
      | .ok r => .ok (e, r.1, r.2)

/-- The same computation, on what it reads. -/
def coreKey (eps : K) (s : Trunc.Settings K) (la : Bool) (ks : List (List K × Nat)) :
    Except Err (K × List (K × List K × List K × Int) × Bool) :=
  match (match ks.mapM fun k => k.1.head? with
    | none => (.error .undefined : Except Err K)
    | some ls => match Thermo.minOf ls with
      | none => .error .undefined
      | some e => .ok e) with
  | .error x => .error x
  | .ok e =>
    match Trunc.fixSplittings eps (ks.map fun k => k.1.map (· - e)) with
    | none => .error .assertFailed
    | some cs =>
      match Trunc.truncatePrepare s la ((ks.zip cs).map fun q => ⟨q.2, q.1.2⟩) with
      | .error x => .error (truncErr x)
      | .ok r => .ok (e, (cs.zip r.nrkept).map (fun q => (e, q.1, q.1, (q.2 : Int))), r.notEnough)

theorem findEgs_keys (d : Diag K) : findEgs d =
    match (keys d).mapM fun k => k.1.head? with
    | none => .error .undefined
    | some ls => match Thermo.minOf ls with
      | none => .error .undefined
      | some e => .ok e := by
  unfold findEgs keys
  rw [List.mapM_map]
  rfl

theorem fixSplittings_length (eps : K) (vs cs : List (List K)) (h : Trunc.fixSplittings eps vs = some cs) :
    cs.length = vs.length := by
  unfold Trunc.fixSplittings at h
  cases hm : Trunc.clusterMap eps vs.flatten with
  | none => rw [hm] at h; cases h
  | some m => rw [hm] at h; cases h; simp

theorem truncatePrepare_length (s : Trunc.Settings K) (la : Bool) (subs : List (Trunc.Sub K)) (r : Trunc.Prepared K)
    (h : Trunc.truncatePrepare s la subs = .ok r) : r.nrkept.length = subs.length := by
  unfold Trunc.truncatePrepare at h
  cases h1 : Trunc.highestRetained s (subs.flatMap Trunc.Sub.crit) with
  | error e => rw [h1] at h; cases h
  | ok c =>
    rw [h1] at h
    dsimp only at h
    cases h2 : Trunc.notEnough la c subs with
    | error e => rw [h2] at h; cases h
    | ok b => rw [h2] at h; cases h; simp

theorem core_key (eps : K) (s : Trunc.Settings K) (la : Bool) (d : Diag K) :
    core eps s la d =
      match coreKey eps s la (keys d) with
      | .error x => .error x
      | .ok r => .ok (r.1, List.zipWith put d r.2.1, r.2.2) := by
  unfold core coreKey
  rw [findEgs_keys]
  cases h1 : (match (keys d).mapM fun k => k.1.head? with
    | none => (.error .undefined : Except Err K)
    | some ls => match Thermo.minOf ls with
      | none => .error .undefined
      | some e => .ok e) with
  | error x => rfl
  | ok e =>
    dsimp only
    have e1 : (setShift e d).map (fun p => p.2.values.v.map (· - p.2.values.shift))
        = (keys d).map fun k => k.1.map (· - e) := by
      unfold setShift keys
      rw [List.map_map, List.map_map]
      rfl
    unfold fixSplit
    rw [e1]
    cases h2 : Trunc.fixSplittings eps ((keys d).map fun k => k.1.map (· - e)) with
    | none => rfl
    | some cs =>
      have hl : cs.length = d.length := by
        rw [fixSplittings_length eps _ cs h2]; simp [keys]
      dsimp only
      unfold prepare
      have e2 : (((setShift e d).zip cs).map (setCorr false)).map
            (fun p => (⟨p.2.values.c, p.2.dim⟩ : Trunc.Sub K))
          = ((keys d).zip cs).map fun q => ⟨q.2, q.1.2⟩ := by
        unfold setShift keys
        rw [List.zip_map_left, List.zip_map_left, List.map_map, List.map_map, List.map_map]
        rfl
      rw [e2]
      cases h3 : Trunc.truncatePrepare s la (((keys d).zip cs).map fun q => ⟨q.2, q.1.2⟩) with
      | error x => rfl
      | ok r =>
        dsimp only
        have hr : r.nrkept.length = cs.length := by
          rw [truncatePrepare_length s la _ r h3]; simp [keys, hl]
        congr 1
        refine Prod.ext rfl (Prod.ext ?_ rfl)
        dsimp only
        unfold setPost setShift
        clear h1 h2 h3 e1 e2
        generalize r.nrkept = ns at hr
        clear r
        induction d generalizing cs ns with
        | nil => rfl
        | cons p d ih =>
          cases cs with
          | nil => simp at hl
          | cons q cs =>
            cases ns with
            | nil => simp at hr
            | cons n ns =>
              have := ih cs (by simpa using hl) ns (by simpa using hr)
              simp only [List.map_cons, List.zip_cons_cons, List.zipWith_cons_cons]
              rw [this]
              rfl

theorem coreKey_length (eps : K) (s : Trunc.Settings K) (la : Bool) (ks : List (List K × Nat))
    (r : K × List (K × List K × List K × Int) × Bool) (h : coreKey eps s la ks = .ok r) :
    r.2.1.length = ks.length := by
  unfold coreKey at h
  split at h
  · cases h
  · split at h
    · cases h
    · rename_i cs hcs
      split at h
      · cases h
      · rename_i q hq
        cases h
        have h1 := fixSplittings_length eps _ cs hcs
        have h2 := truncatePrepare_length s la _ q hq
        simp at h1 h2
        simp [h1, h2]

/-- Repeating the preparation on spectra that have been through it already gives
the same result and leaves them as they are. -/
theorem core_again (eps : K) (s : Trunc.Settings K) (la : Bool) (d d' d1 : Diag K) (e : K) (b : Bool)
    (h : core eps s la d = .ok (e, d', b)) (h1 : keys d1 = keys d) (h2 : d1.map fields = d'.map fields) :
    core eps s la d1 = .ok (e, d1, b) := by
  rw [core_key] at h
  cases hc : coreKey eps s la (keys d) with
  | error x => rw [hc] at h; cases h
  | ok r =>
    rw [hc] at h
    have h := Except.ok.inj h
    have hl := coreKey_length eps s la _ r hc
    rw [core_key, h1, hc]
    obtain ⟨re, rl, rb⟩ := r
    simp only [Prod.mk.injEq] at h
    obtain ⟨rfl, rfl, rfl⟩ := h
    rw [zipWith_fields d rl (by simpa [keys] using hl)] at h2
    dsimp only
    rw [zipWith_put d1 rl h2]

end core

end Verif.Sweep
