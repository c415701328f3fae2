import Verif.Hop.Spec
/-!
# Checks of the shipped tables, evaluated by the kernel
-/

namespace Verif.Hop
open Verif.Invar Verif.Symm

/-! ## Distinctness of a list of numbers by a binary trie -/

inductive Trie
  | empty
  | node (here : Bool) (l r : Trie)

/-- Insert `k` (bits from the least significant); `none` if present. -/
def Trie.insert : Nat → Nat → Trie → Option Trie
  | 0, _, .empty => some (.node true .empty .empty)
  | 0, _, .node true _ _ => none
  | 0, _, .node false l r => some (.node true l r)
  | f + 1, k, .empty =>
    if k % 2 = 0 then (Trie.insert f (k / 2) .empty).map fun t => .node false t .empty
    else (Trie.insert f (k / 2) .empty).map fun t => .node false .empty t
  | f + 1, k, .node b l r =>
    if k % 2 = 0 then (Trie.insert f (k / 2) l).map fun t => .node b t r
    else (Trie.insert f (k / 2) r).map fun t => .node b l t

def Trie.mem : Nat → Nat → Trie → Bool
  | _, _, .empty => false
  | 0, _, .node b _ _ => b
  | f + 1, k, .node _ l r => if k % 2 = 0 then Trie.mem f (k / 2) l else Trie.mem f (k / 2) r

theorem Trie.insert_spec (f k : Nat) (t t' : Trie) (h : t.insert f k = some t') :
    t.mem f k = false ∧ t'.mem f k = true ∧ ∀ k', t.mem f k' = true → t'.mem f k' = true := by
  induction f generalizing k t t' with
  | zero =>
    match t, h with
    | .empty, h => cases h; exact ⟨rfl, rfl, fun _ h => by cases h⟩
    | .node false l r, h => cases h; exact ⟨rfl, rfl, fun _ h => by cases h⟩
  | succ f ih =>
    match t, h with
    | .empty, h =>
      simp only [Trie.insert] at h
      split at h <;>
      · obtain ⟨u, hu, rfl⟩ := Option.map_eq_some_iff.1 h
        obtain ⟨a, b, c⟩ := ih _ _ _ hu
        refine ⟨rfl, by simp_all [Trie.mem], fun _ h => by cases h⟩
    | .node b l r, h =>
      simp only [Trie.insert] at h
      split at h <;>
      · obtain ⟨u, hu, rfl⟩ := Option.map_eq_some_iff.1 h
        obtain ⟨a, b, c⟩ := ih _ _ _ hu
        refine ⟨by simp_all [Trie.mem], by simp_all [Trie.mem], fun k' h => ?_⟩
        simp only [Trie.mem] at h ⊢
        split at h <;> simp_all

def insertAll (f : Nat) : List Nat → Trie → Bool
  | [], _ => true
  | k :: ks, t => match t.insert f k with
    | none => false
    | some t' => insertAll f ks t'

theorem insertAll_spec (f : Nat) (ks : List Nat) (t : Trie) (h : insertAll f ks t = true) :
    ks.Nodup ∧ ∀ k ∈ ks, t.mem f k = false := by
  induction ks generalizing t with
  | nil => exact ⟨List.nodup_nil, by simp⟩
  | cons k ks ih =>
    simp only [insertAll] at h
    cases hi : t.insert f k with
    | none => rw [hi] at h; cases h
    | some t' =>
      rw [hi] at h
      obtain ⟨h1, h2⟩ := ih t' h
      obtain ⟨a, b, c⟩ := Trie.insert_spec f k t t' hi
      refine ⟨List.nodup_cons.2 ⟨fun hk => ?_, h1⟩, ?_⟩
      · rw [h2 k hk] at b; cases b
      · intro x hx
        rcases List.mem_cons.1 hx with rfl | hx
        · exact a
        · have := h2 x hx
          cases hm : t.mem f x with
          | false => rfl
          | true => rw [c x hm] at this; cases this

/-! ## Checks -/

def validB : List QnType → Label → Bool
  | [], [] => true
  | t :: ts, a :: as => decide (Valid1 t a) && validB ts as
  | _, _ => false

theorem validB_iff (ts : List QnType) (a : Label) : validB ts a = true ↔ Valid ts a := by
  induction ts generalizing a with
  | nil => cases a <;> simp [validB, Valid]
  | cons t ts ih =>
    cases a with
    | nil => simp [validB, Valid]
    | cons x xs => simp [validB, ih, Valid]


def pairKey (p : Nat × Nat) : Nat := min p.1 p.2 * 1024 + max p.1 p.2

def connected (H : Ham) (b : FBlock) (i j : Nat) : Bool :=
  match H.inLabel i, H.inLabel j with
  | some x, some y => combine (types H.builtin.sym.fields) b.shift y == some x
  | _, _ => false

theorem connected_iff (H : Ham) (b : FBlock) (i j : Nat) :
    connected H b i j = true ↔ H.ConnectedBy b i j := by
  simp only [connected, Ham.ConnectedBy]
  cases H.inLabel i <;> cases H.inLabel j <;> simp

/-- Every entry connects two different combinations by a stored operator. -/
def hopsOk (H : Ham) : Bool :=
  H.variants.all fun T => T.hops.all fun g =>
    decide (g.ch < H.builtin.channels) && (decide (g.fnr < perchannel H.builtin.symtype) &&
    g.pairs.all fun p =>
      decide (H.Index p.1) && (decide (H.Index p.2) && (!(p.1 == p.2) &&
      H.blocks.any fun b => b.ch == g.ch && (b.fnr == g.fnr && connected H b p.1 p.2))))

/-- No unordered pair occurs twice in a group, and groups have different keys. -/
def distinctOk (H : Ham) : Bool :=
  H.variants.all fun T =>
    decide ((T.hops.map fun g => (g.mac, g.ch, g.fnr)).Nodup) &&
    T.hops.all fun g => insertAll 20 (g.pairs.map pairKey) .empty

/-- Site hopping entries couple combinations with the same ancestor. -/
def siteOk (H : Ham) : Bool :=
  H.variants.all fun T => T.siteHops.all fun p =>
    decide (H.Index p.1) && (decide (H.Index p.2) && (H.inLabel p.1 == H.inLabel p.2))

/-- The rows of the recalculation tables. -/
def rowsOk (H : Ham) : Bool :=
  H.blocks.all fun b =>
    validB (types H.builtin.sym.fields) b.shift && (decide (b.ch < H.builtin.channels) &&
    (decide (b.fnr < perchannel H.builtin.symtype) &&
    b.rows.all fun p => decide (H.Index p.1) && (decide (H.Index p.2) && connected H b p.2 p.1)))

/-- Every occupation list has exactly one entry for every combination. -/
def occIndexOk (H : Ham) : Bool :=
  H.variants.all fun T => T.occupations.all fun g =>
    g.entries.map Prod.fst == List.range' 1 H.builtin.sym.combs

/-- The first quantum number is the total charge. -/
def hasCharge (H : Ham) : Bool := (H.builtin.sym.fields.head?.map Field.name) == some "Q"

/-- Total occupation and total charge. -/
def chargeOk (H : Ham) : Bool :=
  !hasCharge H || H.variants.all fun T => T.occupations.isEmpty ||
    H.builtin.sym.table.zipIdx.all fun p =>
      T.total (p.2 + 1) == 2 * (p.1.2.headD 0 + H.builtin.channels)

/-- Classes with one charge per channel. -/
def hasChannelCharges (H : Ham) : Bool :=
  H.builtin.symtype == "DBLQSZ" || H.builtin.symtype == "SL3"

/-- Occupation and charge of every channel. -/
def channelChargeOk (H : Ham) : Bool :=
  !hasChannelCharges H || H.variants.all fun T =>
    (T.occupations.map OccGroup.ch == List.range H.builtin.channels) && T.occupations.all fun g =>
    H.builtin.sym.table.zipIdx.all fun p =>
      some (g.occ (p.2 + 1)) == (p.1.2[g.ch]?).map fun q => 2 * (q + 1)

/-! Random access to an occupation list through one number in base 16. -/

def OccGroup.code (g : OccGroup) : Nat := g.entries.foldr (fun p acc => acc * 16 + p.2) 0

def digit (c i : Nat) : Nat := c / 16 ^ (i - 1) % 16

def OccGroup.small (g : OccGroup) : Bool := g.entries.all fun p => decide (p.2 < 16)

theorem digit_fold (l : List (Nat × Nat)) (m : Nat) (hl : l.map Prod.fst = List.range' m l.length)
    (hs : ∀ p ∈ l, p.2 < 16) (i : Nat) (h1 : m ≤ i) (h2 : i < m + l.length) :
    (l.foldr (fun p acc => acc * 16 + p.2) 0) / 16 ^ (i - m) % 16 = (l.lookup i).getD 0 := by
  induction l generalizing m with
  | nil => simp at h2; omega
  | cons p l ih =>
    obtain ⟨a, b⟩ := p
    simp only [List.map_cons, List.length_cons, List.range'_succ, List.cons.injEq] at hl
    have hb : b < 16 := hs (a, b) (by simp)
    obtain ⟨rfl, hl⟩ := hl
    simp only [List.foldr_cons, List.lookup_cons]
    by_cases hi : i = a
    · subst hi
      simp
      omega
    · have hne : (i == a) = false := by simpa using hi
      rw [hne]
      have hd : i - a = (i - (a + 1)) + 1 := by omega
      rw [hd, Nat.pow_succ', ← Nat.div_div_eq_div_mul]
      have : ∀ x : Nat, (x * 16 + b) / 16 = x := by intro x; omega
      rw [this]
      simp only [List.length_cons] at h2
      exact ih (a + 1) hl (fun p hp => hs p (by simp [hp])) (by omega) (by omega)

theorem digit_code (g : OccGroup) (n : Nat) (hl : g.entries.map Prod.fst = List.range' 1 n)
    (hs : g.small = true) (i : Nat) (h1 : 1 ≤ i) (h2 : i ≤ n) : ((digit g.code i : Nat) : Int) = g.occ i := by
  have hn : g.entries.length = n := by have := congrArg List.length hl; simpa using this
  simp only [OccGroup.occ, digit, OccGroup.code]
  rw [digit_fold g.entries 1 (by rw [hn]; exact hl) (by simpa [OccGroup.small] using hs) i h1 (by omega)]

/-- Evaluate a number before it is used (the value is unchanged). -/
def force (c : Nat) (k : Nat → Bool) : Bool :=
  match c with
  | 0 => k 0
  | n + 1 => k (n + 1)

theorem force_eq (c : Nat) (k : Nat → Bool) : force c k = k c := by cases c <;> rfl

def forceAll : List Nat → (List Nat → Bool) → Bool
  | [], k => k []
  | c :: cs, k => force c fun n => forceAll cs fun l => k (n :: l)

theorem forceAll_eq (cs : List Nat) (k : List Nat → Bool) : forceAll cs k = k cs := by
  induction cs generalizing k with
  | nil => rfl
  | cons c cs ih => simp [forceAll, force_eq, ih]

def codes (T : HamTable) : List Nat := T.occupations.map OccGroup.code

def totalC (cs : List Nat) (i : Nat) : Nat := (cs.map fun c => digit c i).sum

/-- Occupation lists indexed by all combinations, with small values. -/
def smallOk (H : Ham) : Bool :=
  H.variants.all fun T => T.occupations.all OccGroup.small

/-- Hopping entries and rows change the total occupation by one. -/
def oneElectronOk (H : Ham) : Bool :=
  H.variants.all fun T => T.occupations.isEmpty || forceAll (codes T) fun cs =>
    (T.hops.all fun g => g.pairs.all fun p =>
      if g.mac.isAnomalous || g.mac.annihilates then totalC cs p.1 == totalC cs p.2 + 2
      else totalC cs p.2 == totalC cs p.1 + 2) &&
    (H.blocks.all fun b => b.rows.all fun p =>
      if b.annihilates then totalC cs p.2 == totalC cs p.1 + 2
      else totalC cs p.1 == totalC cs p.2 + 2)

/-- Is the occupation list `T'` sharp (every entry the occupation of one channel
and spin in a product state), and do the entries of `T` conserve it? -/
def resolved (H : Ham) (T T' : HamTable) : Bool :=
  !T'.occupations.isEmpty &&
  ((!(["QSLR", "QSZLR", "SPSU2LR", "SPU1LR"].contains H.builtin.symtype)) &&
  ((!(H.builtin.symtype == "SPU1" && decide (T'.variant = .polarized))) &&
  (!(H.builtin.symtype == "U1" && (decide (T.variant = .nonpolarized) &&
    !decide (T'.variant = .nonpolarized))))))

/-- `digit c j - digit c i` for all lists is `d` (or `-d`). -/
def changeC (cs : List Nat) (i j : Nat) (ds : List Int) : Bool :=
  cs.map (fun c => (digit c j : Int) - (digit c i : Int)) == ds

def blockChangeC (cs : List Nat) (b : FBlock) : List Int :=
  match b.rows with
  | [] => []
  | r :: _ => cs.map fun c => (digit c r.1 : Int) - (digit c r.2 : Int)

/-- Hopping entries move the electron that the stored operator creates. -/
def sameElectronOk (H : Ham) : Bool :=
  H.variants.all fun T' => forceAll (codes T') fun cs =>
    H.variants.all fun T => !resolved H T T' ||
      ((H.blocks.all fun b => b.rows.all fun r => changeC cs r.2 r.1 (blockChangeC cs b)) &&
      T.hops.all fun g => g.mac.isMixing ||
        g.pairs.all fun p => H.blocks.all fun b =>
          !(b.ch == g.ch && (b.fnr == g.fnr && connected H b p.1 p.2)) ||
          (if g.mac.isAnomalous then changeC cs p.2 p.1 (blockChangeC cs b)
            else changeC cs p.1 p.2 (blockChangeC cs b)))

end Verif.Hop
