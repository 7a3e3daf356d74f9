import Verif.Model.Groups
import Verif.Spec.Labels

/-!
# What a group dictionary is documented to mean

Docstring of `MeshStackBase.add` (`_base.py:360-374`).  Only the input types `Sel` and `GroupArg` of
the model are used here.
-/

namespace Gridder.Spec

/-- The string starts with a tilde. -/
def negated (k : String) : Bool := k.toList.head? == some '~'

/-- The string without its leading tilde, if any. -/
def bare (k : String) : String := if negated k then String.ofList (k.toList.drop 1) else k

/-- The integer `x` designates position `i` of an array of length `n` (negative from the end). -/
def Designates (n : Nat) (x : Int) (i : Nat) : Bool :=
  decide (i < n) && (x == (i : Int) || x + n == (i : Int))

/-- Cell `i` is selected by a value of the group dictionary, in a mesh of `n` cells labelled by
`label`. -/
def selects (n : Nat) (label : Nat → Option String) : Sel → Nat → Bool
  | .callMask m, i | .mask m, i => m[i]? == some true
  | .callIdx ix, i | .idx ix, i => ix.any fun x => Designates n x i
  | .name s, i => (label i == some (bare s)) != negated s
  | .names l, i => l.any fun s => (label i == some (bare s)) != negated s
  | .other, _ => false

/-- The selection made by a dictionary entry: its value, complemented if the key has a tilde. -/
def entrySelects (n : Nat) (label : Nat → Option String) (kv : String × Sel) (i : Nat) : Bool :=
  selects n label kv.2 i != negated kv.1

/-- The entry selects by group name. -/
def byName : Sel → Bool
  | .name _ | .names _ => true
  | _ => false

/-- The entry is a complemented callable returning indices. -/
def negatedCallIdx (kv : String × Sel) : Bool :=
  match kv.2 with
  | .callIdx _ => negated kv.1
  | _ => false

/-- The group argument as a list of entries; a plain string means "all cells". -/
def entries (n : Nat) : GroupArg → List (String × Sel)
  | .none => []
  | .str s => if s = "" then [] else [(s, .mask (List.replicate n true))]
  | .dict d => d

/-- The old value a key of a remapping stands for: the integer itself, or the number of the label. -/
def oldCode (labels : List (String × Int)) : MapKey → Option Int
  | .str s => (labels.find? fun kv => kv.1 == s).map Prod.snd
  | .int i => some i

/-- The mapping as (old value, new value) pairs. -/
def pairsOf (labels : List (String × Int)) (mapping : List (MapKey × Int)) : List (Int × Int) :=
  mapping.filterMap fun kv => (oldCode labels kv.1).map fun c => (c, kv.2)

end Gridder.Spec
