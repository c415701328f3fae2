import Verif.Start.Model
import Verif.Text.Props
/-!
# Calculations that share a scratch directory
-/

namespace Verif.Start
open Verif.Text (Str natStr storeName kinds tmpName lastStored)

variable {D : Type}

/-- The calculation an event belongs to. -/
def Ev.job : Ev D → Nat
  | .begin i _ => i
  | .put i _ _ => i
  | .del i _ => i
  | .fin i _ => i

/-- What a calculation has in its own directory if it is alone: the last thing written under each name and not removed since. -/
def ownStep (m : Str → Option D) : Ev D → Str → Option D
  | .begin _ _ => fun _ => none
  | .put _ n x => fun q => if q = n then some x else m q
  | .del _ n => fun q => if q = n then none else m q
  | .fin _ _ => m

/-- The same after all events of calculation `i` in the list, the others left out. -/
def own (i : Nat) (es : List (Ev D)) : Str → Option D := (es.filter fun e => e.job == i).foldl ownStep fun _ => none

/-- The state before the first event: no calculation has begun, and nothing is in directories that do not exist. -/
structure Start (root : Str) (w : World D) : Prop where
  none_yet : ∀ i, w.life i = .notYet
  sane : ∀ six, six.length = 6 → w.dirs six = false → ∀ p, below root six p → w.fs p = none

/-- The directory is one in which a calculation runs. -/
def InUse (w : World D) (six : Str) : Prop := ∃ i, w.life i = .on six

theorem below_iff (root six p : Str) : below root six p ↔ ∃ name, p = inWork root six name := by
  unfold below inWork
  constructor
  · rintro ⟨t, rfl⟩; exact ⟨t, by simp⟩
  · rintro ⟨name, rfl⟩; exact ⟨name, by simp⟩

theorem inWork_inj {root a b x y : Str} (hl : a.length = b.length) (h : inWork root a x = inWork root b y) : a = b ∧ x = y := by
  unfold inWork workName at h
  rw [List.append_assoc, List.append_assoc] at h
  have h1 := List.append_cancel_left h
  rw [List.cons_append, List.cons_append] at h1
  have h2 := (List.cons.inj h1).2
  have h3 := List.append_inj h2 hl
  exact ⟨h3.1, (List.cons.inj h3.2).2⟩

theorem below_unique {root a b p : Str} (hl : a.length = b.length) (ha : below root a p) (hb : below root b p) : a = b := by
  obtain ⟨x, rfl⟩ := (below_iff root a p).mp ha
  obtain ⟨y, hy⟩ := (below_iff root b _).mp hb
  exact (inWork_inj hl hy).1

/-- The invariant. -/
structure Ok (root : Str) (es : List (Ev D)) (w : World D) : Prop where
  six : ∀ i s, w.life i = .on s → s.length = 6 ∧ w.dirs s = true
  own : ∀ i s, w.life i = .on s → ∀ name, w.fs (inWork root s name) = own i es name
  distinct : ∀ i j s, w.life i = .on s → w.life j = .on s → i = j
  sane : ∀ six, six.length = 6 → w.dirs six = false → ∀ p, below root six p → w.fs p = none

theorem own_snoc_other {i : Nat} {es : List (Ev D)} {e : Ev D} (h : e.job ≠ i) : own i (es ++ [e]) = own i es := by
  unfold own
  rw [List.filter_append, List.filter_cons_of_neg (by simpa using h), List.filter_nil, List.append_nil]

theorem own_snoc_self {i : Nat} {es : List (Ev D)} {e : Ev D} (h : e.job = i) : own i (es ++ [e]) = ownStep (own i es) e := by
  unfold own
  rw [List.filter_append, List.filter_cons_of_pos (by simpa using h), List.filter_nil, List.foldl_append]
  rfl

theorem ok_start {root : Str} {w : World D} (h : Start root w) : Ok root [] w := by
  refine ⟨fun i s hi => ?_, fun i s hi => ?_, fun i j s hi => ?_, h.sane⟩ <;> rw [h.none_yet i] at hi <;> exact absurd hi (by simp)

theorem ok_begin {root : Str} {es : List (Ev D)} {w w' : World D} {i : Nat} {six : Str} (g : Ok root es w)
    (h : w.step root (.begin i six) = some w') : Ok root (es ++ [.begin i six]) w' := by
  simp only [World.step] at h
  split at h
  case isFalse => exact absurd h (by simp)
  rename_i hc
  rw [← Option.some.inj h]
  obtain ⟨hi, hlen, hsl, hdir⟩ := hc
  have hne : ∀ j s, w.life j = .on s → s ≠ six := fun j s hj he => by
    have := (g.six j s hj).2
    rw [he, hdir] at this
    exact absurd this (by simp)
  refine ⟨?_, ?_, ?_, ?_⟩
  · intro j s hj
    simp only [World.setLife] at hj ⊢
    by_cases hji : j = i
    · rw [if_pos hji] at hj
      rw [← Life.on.inj hj]
      exact ⟨hlen, if_pos rfl⟩
    · rw [if_neg hji] at hj
      rw [if_neg (hne j s hj)]
      exact g.six j s hj
  · intro j s hj name
    simp only [World.setLife] at hj ⊢
    by_cases hji : j = i
    · rw [if_pos hji] at hj
      rw [← Life.on.inj hj, own_snoc_self (by rw [hji]; rfl)]
      exact g.sane six hlen hdir _ ((below_iff _ _ _).mpr ⟨name, rfl⟩)
    · rw [if_neg hji] at hj
      rw [own_snoc_other (fun e => hji e.symm)]
      exact g.own j s hj name
  · intro j k s hj hk
    simp only [World.setLife] at hj hk
    by_cases hji : j = i <;> by_cases hki : k = i
    · rw [hji, hki]
    · rw [if_pos hji] at hj; rw [if_neg hki] at hk
      exact absurd (Life.on.inj hj).symm (hne k s hk)
    · rw [if_neg hji] at hj; rw [if_pos hki] at hk
      exact absurd (Life.on.inj hk).symm (hne j s hj)
    · rw [if_neg hji] at hj; rw [if_neg hki] at hk
      exact g.distinct j k s hj hk
  · intro s hs hd p hp
    simp only [World.setLife] at hd ⊢
    by_cases he : s = six
    · rw [if_pos he] at hd; exact absurd hd (by simp)
    · rw [if_neg he] at hd; exact g.sane s hs hd p hp

theorem ok_file {root : Str} {es : List (Ev D)} {w : World D} {i : Nat} {six n : Str} (g : Ok root es w) (hi : w.life i = .on six)
    (x : Option D) (e : Ev D) (he : e.job = i) (hown : ownStep (own i es) e = fun q => if q = n then x else own i es q) :
    Ok root (es ++ [e]) (w.setFile (inWork root six n) x) := by
  refine ⟨g.six, ?_, g.distinct, ?_⟩
  · intro j s hj name
    simp only [World.setFile] at hj ⊢
    have hlen : s.length = six.length := by rw [(g.six j s hj).1, (g.six i six hi).1]
    by_cases hji : j = i
    · subst hji
      rw [hi] at hj
      rw [← Life.on.inj hj, own_snoc_self he, hown]
      dsimp only
      by_cases hn : name = n
      · rw [if_pos (by rw [hn]), if_pos hn]
      · rw [if_neg (fun h => hn (inWork_inj rfl h).2), if_neg hn]
        exact g.own j six hi name
    · rw [own_snoc_other (fun h => hji (by rw [← h, he])), if_neg, g.own j s hj name]
      intro h
      have := (inWork_inj hlen h).1
      rw [this] at hj
      exact hji (g.distinct j i six hj hi)
  · intro s hs hd p hp
    simp only [World.setFile] at hd ⊢
    rw [if_neg]
    · exact g.sane s hs hd p hp
    · rintro rfl
      have := below_unique (by rw [hs, (g.six i six hi).1]) hp ((below_iff root six _).mpr ⟨n, rfl⟩)
      rw [this, (g.six i six hi).2] at hd
      exact absurd hd (by simp)

theorem ok_fin {root : Str} {es : List (Ev D)} {w : World D} {i : Nat} {six : Str} (g : Ok root es w) (hi : w.life i = .on six) (e : End) :
    Ok root (es ++ [.fin i e]) ((if e = .returned then w.removeAll root six else w).setLife i .ended) := by
  have hlife : ∀ j s, ((if e = .returned then w.removeAll root six else w).setLife i .ended).life j = .on s → j ≠ i ∧ w.life j = .on s := by
    intro j s hj
    by_cases hji : j = i
    · simp only [World.setLife, hji, if_true] at hj; exact absurd hj (by simp)
    · refine ⟨hji, ?_⟩
      simp only [World.setLife, if_neg hji] at hj
      split at hj
      · exact hj
      · exact hj
  have hne : ∀ j s, j ≠ i → w.life j = .on s → s ≠ six := fun j s hji hj hs => hji (g.distinct j i six (hs ▸ hj) hi)
  refine ⟨?_, ?_, ?_, ?_⟩
  · intro j s hj
    obtain ⟨hji, hj⟩ := hlife j s hj
    refine ⟨(g.six j s hj).1, ?_⟩
    simp only [World.setLife]
    split
    · simp only [World.removeAll, if_neg (hne j s hji hj)]; exact (g.six j s hj).2
    · exact (g.six j s hj).2
  · intro j s hj name
    obtain ⟨hji, hj⟩ := hlife j s hj
    rw [own_snoc_other (fun h => hji h.symm), ← g.own j s hj name]
    simp only [World.setLife]
    split
    · simp only [World.removeAll]
      rw [if_neg]
      intro hb
      exact hne j s hji hj (below_unique (by rw [(g.six j s hj).1, (g.six i six hi).1]) ((below_iff root s _).mpr ⟨name, rfl⟩) hb)
    · rfl
  · intro j k s hj hk
    exact g.distinct j k s (hlife j s hj).2 (hlife k s hk).2
  · intro s hs hd p hp
    simp only [World.setLife] at hd ⊢
    split at hd
    · rename_i he
      simp only [World.removeAll] at hd
      rw [if_pos he]
      simp only [World.removeAll]
      split
      · rfl
      · rename_i hb
        by_cases hss : s = six
        · rw [hss] at hp; exact absurd hp hb
        · rw [if_neg hss] at hd; exact g.sane s hs hd p hp
    · rename_i he
      rw [if_neg he]
      exact g.sane s hs hd p hp

theorem ok_step {root : Str} {es : List (Ev D)} {w w' : World D} {e : Ev D} (g : Ok root es w) (h : w.step root e = some w') :
    Ok root (es ++ [e]) w' := by
  cases e with
  | begin i six => exact ok_begin g h
  | put i n x =>
    simp only [World.step] at h
    cases hl : w.life i with
    | on six =>
      rw [hl] at h
      rw [← Option.some.inj h]
      exact ok_file g hl (some x) _ rfl rfl
    | notYet => rw [hl] at h; exact absurd h (by simp)
    | ended => rw [hl] at h; exact absurd h (by simp)
  | del i n =>
    simp only [World.step] at h
    cases hl : w.life i with
    | on six =>
      rw [hl] at h
      rw [← Option.some.inj h]
      exact ok_file g hl none _ rfl rfl
    | notYet => rw [hl] at h; exact absurd h (by simp)
    | ended => rw [hl] at h; exact absurd h (by simp)
  | fin i e =>
    simp only [World.step] at h
    cases hl : w.life i with
    | on six =>
      rw [hl] at h
      rw [← Option.some.inj h]
      exact ok_fin g hl e
    | notYet => rw [hl] at h; exact absurd h (by simp)
    | ended => rw [hl] at h; exact absurd h (by simp)

theorem steps_snoc (root : Str) (w : World D) (es : List (Ev D)) (e : Ev D) :
    w.steps root (es ++ [e]) = (w.steps root es).bind fun v => v.step root e := by
  induction es generalizing w with
  | nil => simp [World.steps]
  | cons a l ih =>
    simp only [List.cons_append, World.steps, Option.bind_assoc]
    congr 1
    funext v
    exact ih v

theorem ok_steps {root : Str} {w0 w : World D} (h0 : Start root w0) (es : List (Ev D)) (h : w0.steps root es = some w) : Ok root es w := by
  induction es using List.reverseRecOn generalizing w with
  | nil => rw [← Option.some.inj h]; exact ok_start h0
  | append_singleton l e ih =>
    rw [steps_snoc] at h
    cases hv : w0.steps root l with
    | none => rw [hv] at h; exact absurd h (by simp)
    | some v => rw [hv] at h; exact ok_step (ih hv) h

/-- **C111.** Any number of calculations that share a scratch directory, in any order of events: while one of them runs, its work directory has exactly what it would have if
the calculation were alone, and no other one has this directory. -/
theorem scratch_isolated {root : Str} {w0 w : World D} (h0 : Start root w0) (es : List (Ev D)) (h : w0.steps root es = some w)
    (i : Nat) (six : Str) (hi : w.life i = .on six) :
    (∀ name, w.fs (inWork root six name) = own i es name) ∧ (∀ j, w.life j = .on six → j = i) := by
  have g := ok_steps h0 es h
  exact ⟨g.own i six hi, fun j hj => g.distinct j i six hj hi⟩

/-- The names of the stored data are names in the work directory. -/
theorem storeName_inWork (root six k : Str) (n : Nat) : storeName (workName root six) k n = inWork root six (k ++ natStr n) := rfl

/-- **C111.** A file that is not below a work directory begun in between is not touched. -/
theorem scratch_outside {root : Str} {w0 w : World D} (es : List (Ev D)) (h : w0.steps root es = some w) (p : Str)
    (hlife : ∀ i s, w0.life i = .on s → ¬ below root s p) (hp : ∀ i six, Ev.begin i six ∈ es → ¬ below root six p) : w.fs p = w0.fs p := by
  have key : ∀ l (v : World D), (∃ r, es = l ++ r) → w0.steps root l = some v → v.fs p = w0.fs p ∧ ∀ i s, v.life i = .on s → ¬ below root s p := by
    intro l
    induction l using List.reverseRecOn with
    | nil => intro v _ hv; rw [← Option.some.inj hv]; exact ⟨rfl, hlife⟩
    | append_singleton l e ih =>
      rintro v ⟨r, hr⟩ hv
      rw [steps_snoc] at hv
      cases hu : w0.steps root l with
      | none => rw [hu] at hv; exact absurd hv (by simp)
      | some u =>
        rw [hu] at hv
        obtain ⟨h1, h2⟩ := ih u ⟨e :: r, by rw [hr]; simp⟩ hu
        have hmem : e ∈ es := by rw [hr]; simp
        change u.step root e = some v at hv
        have hfile : ∀ i s n x, u.life i = .on s → (u.setFile (inWork root s n) x).fs p = w0.fs p := by
          intro i s n x hi
          simp only [World.setFile]
          rw [if_neg, h1]
          rintro rfl
          exact h2 i s hi ((below_iff _ _ _).mpr ⟨n, rfl⟩)
        cases e with
        | begin i six =>
          simp only [World.step] at hv
          split at hv
          · rw [← Option.some.inj hv]
            refine ⟨h1, fun j s hj => ?_⟩
            simp only [World.setLife] at hj
            split at hj
            · rw [← Life.on.inj hj]; exact hp i six hmem
            · exact h2 j s hj
          · exact absurd hv (by simp)
        | put i n x =>
          simp only [World.step] at hv
          cases hl : u.life i with
          | on s => rw [hl] at hv; rw [← Option.some.inj hv]; exact ⟨hfile i s n _ hl, h2⟩
          | notYet => rw [hl] at hv; exact absurd hv (by simp)
          | ended => rw [hl] at hv; exact absurd hv (by simp)
        | del i n =>
          simp only [World.step] at hv
          cases hl : u.life i with
          | on s => rw [hl] at hv; rw [← Option.some.inj hv]; exact ⟨hfile i s n _ hl, h2⟩
          | notYet => rw [hl] at hv; exact absurd hv (by simp)
          | ended => rw [hl] at hv; exact absurd hv (by simp)
        | fin i e =>
          simp only [World.step] at hv
          cases hl : u.life i with
          | on s =>
            rw [hl] at hv
            rw [← Option.some.inj hv]
            refine ⟨?_, fun j t hj => ?_⟩
            · simp only [World.setLife]
              split
              · simp only [World.removeAll]
                rw [if_neg (h2 i s hl), h1]
              · exact h1
            · simp only [World.setLife] at hj
              split at hj
              · exact absurd hj (by simp)
              · split at hj
                · exact h2 j t hj
                · exact h2 j t hj
          | notYet => rw [hl] at hv; exact absurd hv (by simp)
          | ended => rw [hl] at hv; exact absurd hv (by simp)
  exact (key es w ⟨[], by simp⟩ h).1

/-- **C111.** When every calculation that has begun has ended by returning from `main`, nothing is left: files and directories are as before. -/
theorem scratch_clean {root : Str} {w0 w : World D} (h0 : Start root w0) (es : List (Ev D)) (h : w0.steps root es = some w)
    (hret : ∀ i e, Ev.fin i e ∈ es → e = .returned) (hend : ∀ i six, w.life i ≠ .on six) : w.fs = w0.fs ∧ w.dirs = w0.dirs := by
  have key : ∀ l (v : World D), (∃ r, es = l ++ r) → w0.steps root l = some v →
      (∀ p, (∀ i s, v.life i = .on s → ¬ below root s p) → v.fs p = w0.fs p) ∧
      (∀ d, (∀ i, v.life i ≠ .on d) → v.dirs d = w0.dirs d) ∧
      (∀ i s, v.life i = .on s → w0.dirs s = false) := by
    intro l
    induction l using List.reverseRecOn with
    | nil =>
      intro v _ hv
      rw [← Option.some.inj hv]
      exact ⟨fun _ _ => rfl, fun _ _ => rfl, fun i s hi => by rw [h0.none_yet i] at hi; exact absurd hi (by simp)⟩
    | append_singleton l e ih =>
      rintro v ⟨r, hr⟩ hv
      rw [steps_snoc] at hv
      cases hu : w0.steps root l with
      | none => rw [hu] at hv; exact absurd hv (by simp)
      | some u =>
        rw [hu] at hv
        obtain ⟨h1, h2, h3⟩ := ih u ⟨e :: r, by rw [hr]; simp⟩ hu
        have g := ok_steps h0 l hu
        have hmem : e ∈ es := by rw [hr]; simp
        change u.step root e = some v at hv
        have hfile : ∀ i s n x, u.life i = .on s → ∀ p, (∀ j t, u.life j = .on t → ¬ below root t p) →
            (u.setFile (inWork root s n) x).fs p = w0.fs p := by
          intro i s n x hi p hp
          simp only [World.setFile]
          rw [if_neg, h1 p hp]
          rintro rfl
          exact hp i s hi ((below_iff _ _ _).mpr ⟨n, rfl⟩)
        cases e with
        | begin i six =>
          simp only [World.step] at hv
          split at hv
          · rename_i hc
            rw [← Option.some.inj hv]
            have hmono : ∀ j s, u.life j = .on s → (if j = i then Life.on six else u.life j) = .on s := by
              intro j s hj
              rw [if_neg]; · exact hj
              rintro rfl
              rw [hc.1] at hj
              exact absurd hj (by simp)
            refine ⟨fun p hp => ?_, fun d hd => ?_, fun j s hj => ?_⟩
            · exact h1 p fun j s hj => hp j s (hmono j s hj)
            · have hds : d ≠ six := by
                rintro rfl
                exact hd i (by simp [World.setLife])
              simp only [World.setLife]
              rw [if_neg hds]
              exact h2 d fun j hj => hd j (hmono j d hj)
            · simp only [World.setLife] at hj
              split at hj
              · rw [← Life.on.inj hj, ← h2 six, hc.2.2.2]
                intro k hk
                have := (g.six k six hk).2
                rw [hc.2.2.2] at this
                exact absurd this (by simp)
              · exact h3 j s hj
          · exact absurd hv (by simp)
        | put i n x =>
          simp only [World.step] at hv
          cases hl : u.life i with
          | on s => rw [hl] at hv; rw [← Option.some.inj hv]; exact ⟨hfile i s n _ hl, h2, h3⟩
          | notYet => rw [hl] at hv; exact absurd hv (by simp)
          | ended => rw [hl] at hv; exact absurd hv (by simp)
        | del i n =>
          simp only [World.step] at hv
          cases hl : u.life i with
          | on s => rw [hl] at hv; rw [← Option.some.inj hv]; exact ⟨hfile i s n _ hl, h2, h3⟩
          | notYet => rw [hl] at hv; exact absurd hv (by simp)
          | ended => rw [hl] at hv; exact absurd hv (by simp)
        | fin i e =>
          have he := hret i e hmem
          simp only [World.step] at hv
          cases hl : u.life i with
          | on s =>
            rw [hl] at hv
            dsimp only at hv
            rw [if_pos he] at hv
            rw [← Option.some.inj hv]
            refine ⟨fun p hp => ?_, fun d hd => ?_, fun j t hj => ?_⟩
            · simp only [World.setLife, World.removeAll] at hp ⊢
              split
              · rename_i hb
                exact (h0.sane s (g.six i s hl).1 (h3 i s hl) p hb).symm
              · rename_i hb
                refine h1 p fun j t hj => ?_
                by_cases hji : j = i
                · rw [hji, hl] at hj; rw [← Life.on.inj hj]; exact hb
                · exact hp j t (by rw [if_neg hji]; exact hj)
            · simp only [World.setLife, World.removeAll] at hd ⊢
              split
              · rename_i hds
                rw [hds, h3 i s hl]
              · rename_i hds
                refine h2 d fun j hj => ?_
                by_cases hji : j = i
                · rw [hji, hl] at hj; exact hds (Life.on.inj hj).symm
                · exact hd j (by rw [if_neg hji]; exact hj)
            · simp only [World.setLife, World.removeAll] at hj
              split at hj
              · exact absurd hj (by simp)
              · exact h3 j t hj
          | notYet => rw [hl] at hv; exact absurd hv (by simp)
          | ended => rw [hl] at hv; exact absurd hv (by simp)
  obtain ⟨h1, h2, _⟩ := key es w ⟨[], by simp⟩ h
  exact ⟨funext fun p => h1 p fun i s hi => absurd hi (hend i s), funext fun d => h2 d fun i => hend i d⟩

/-- **C111.** A calculation that ends in any other way — an assertion that fails, an uncaught exception, `exit` — leaves its directory with everything in it. -/
theorem scratch_left {root : Str} {w0 w w' : World D} (h0 : Start root w0) (es : List (Ev D)) (h : w0.steps root es = some w)
    (i : Nat) (six : Str) (hi : w.life i = .on six) (e : End) (he : e ≠ .returned) (h' : w.step root (.fin i e) = some w') :
    w'.dirs six = true ∧ ∀ name, w'.fs (inWork root six name) = own i es name := by
  have g := ok_steps h0 es h
  simp only [World.step, hi, if_neg he] at h'
  rw [← Option.some.inj h']
  exact ⟨(g.six i six hi).2, g.own i six hi⟩

/-- **C111.** A calculation finds nothing stored when it begins, however the calculations before it have ended: in its new directory the search for the last stored step
(`c++/params.hpp:606-620`) has no result for any range. -/
theorem scratch_nothing_stored {root : Str} {w0 w w' : World D} (h0 : Start root w0) (es : List (Ev D)) (h : w0.steps root es = some w)
    (i : Nat) (six : Str) (h' : w.step root (.begin i six) = some w') (a b : Nat) :
    lastStored (fun n => (w'.fs (storeName (workName root six) "unitary".toList n)).isSome) a b = none := by
  have g := ok_steps h0 (es ++ [.begin i six]) (by rw [steps_snoc, h]; exact h')
  have hi : w'.life i = .on six := by
    simp only [World.step] at h'
    split at h'
    · rw [← Option.some.inj h']; simp [World.setLife]
    · exact absurd h' (by simp)
  have hf : (fun n => (w'.fs (storeName (workName root six) "unitary".toList n)).isSome) = fun _ => false := by
    funext n
    rw [storeName_inWork, g.own i six hi, own_snoc_self (i := i) (e := Ev.begin i six) rfl]
    rfl
  rw [hf]
  unfold lastStored
  have : ∀ l : List Nat, l.foldl (fun acc n => if (fun _ => false) n = true then some n else acc) (none : Option Nat) = none := by
    intro l
    induction l with
    | nil => rfl
    | cons x l ih => simpa using ih
  exact this _

/-! ## A case -/

/-- Two calculations in `/tmp`; the second one starts while the first is running. -/
def twoJobs : List (Ev Nat) :=
  [.begin 0 "aaaaaa".toList, .put 0 "rho0".toList 1, .begin 1 "bbbbbb".toList, .put 1 "rho0".toList 2, .put 0 "rho1".toList 3, .fin 0 .returned,
   .put 1 "rho1".toList 4, .del 1 "rho0".toList]

def emptyWorld : World Nat := ⟨fun _ => none, fun _ => false, fun _ => .notYet⟩

example : Start "/tmp".toList emptyWorld := ⟨fun _ => rfl, fun _ _ _ _ _ => rfl⟩

example : ((emptyWorld.steps "/tmp".toList twoJobs).map fun w => (w.fs "/tmp/bbbbbb/rho1".toList, w.fs "/tmp/bbbbbb/rho0".toList,
    w.fs "/tmp/aaaaaa/rho1".toList, w.dirs "aaaaaa".toList, w.dirs "bbbbbb".toList)) = some (some 4, none, none, false, true) := by decide +kernel

example : ((emptyWorld.steps "/tmp".toList (twoJobs ++ [.fin 1 .uncaught])).map fun w => (w.fs "/tmp/bbbbbb/rho1".toList, w.dirs "bbbbbb".toList)) =
    some (some 4, true) := by decide +kernel

end Verif.Start
