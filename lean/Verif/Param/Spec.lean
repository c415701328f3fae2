import Verif.Param.Model
/-!
# What a parameter file means

Independent of the parsing loops.
-/

namespace Verif.Param
open Verif.Text

/-- Lines that count: not blank and not comments. -/
def significant (ls : List Str) : List Str := ls.filter fun l => !blankOrComment l

/-- A section header. -/
def isHeader (l : Str) : Prop := (strip l).head? = some '['

instance (l : Str) : Decidable (isHeader l) := inferInstanceAs (Decidable (_ = _))

/-- The lines of a block: significant lines up to the next section header. -/
def blockLines (ls : List Str) : List Str := (significant ls).takeWhile fun l => !decide (isHeader l)

/-- `l` is the setting `k = v`: the trimmed line is `a=b` where `a` has no `=`,
and `k`, `v` are `a`, `b` trimmed. -/
def IsSetting (l k v : Str) : Prop := ∃ a b, strip l = a ++ '=' :: b ∧ '=' ∉ a ∧ k = strip a ∧ v = strip b

/-- `es` are the settings on the lines `ls`, in order; other lines contribute
nothing. -/
inductive Settings : List Str → Map → Prop
  | nil : Settings [] []
  | skip (l ls es) (h : ∀ k v, ¬ IsSetting l k v) (hs : Settings ls es) : Settings (l :: ls) es
  | take (l ls es k v) (h : IsSetting l k v) (hs : Settings ls es) : Settings (l :: ls) ((k, v) :: es)

/-- Text that can be written as a key: trimmed, on one line, without `=`, and
not looking like a header or a comment. -/
def GoodKey (k : Str) : Prop := k ≠ [] ∧ strip k = k ∧ '\n' ∉ k ∧ '=' ∉ k ∧ k.head? ≠ some '[' ∧ k.head? ≠ some '#'

/-- Text that can be written as a value: trimmed and on one line. -/
def GoodValue (v : Str) : Prop := strip v = v ∧ '\n' ∉ v

/-- The text of a block. -/
def render (name : Str) (m : Map) : Str :=
  '[' :: name ++ ']' :: '\n' :: m.flatMap fun e => e.1 ++ '=' :: e.2 ++ ['\n']

end Verif.Param
