/-!
# Specification vocabulary for cell labels

A labelled mesh is a list of integer codes (one per cell) and a table of (name, code) pairs.
Nothing here refers to the model of the code.
-/

namespace Gridder.Spec

/-- The table numbers its entries 0, 1, 2, ... in order and no name occurs twice. -/
def DenseTable (t : List (String × Int)) : Prop :=
  (t.map Prod.fst).Nodup ∧ t.map Prod.snd = (List.range t.length).map Int.ofNat

/-- Names and codes are in one-to-one correspondence. -/
def InjTable (t : List (String × Int)) : Prop :=
  (t.map Prod.fst).Nodup ∧ (t.map Prod.snd).Nodup

/-- Cell `i` of a mesh with the given codes is called `s` by the table. -/
def CellNamed (t : List (String × Int)) (codes : List Int) (i : Nat) (s : String) : Prop :=
  ∃ c, codes[i]? = some c ∧ (s, c) ∈ t

/-- The same names for the same cells, in two numberings. -/
def SameNames (t₁ : List (String × Int)) (c₁ : List Int) (t₂ : List (String × Int)) (c₂ : List Int) :
    Prop :=
  c₁.length = c₂.length ∧ ∀ i s, CellNamed t₁ c₁ i s ↔ CellNamed t₂ c₂ i s

/-- The label a base mesh gives to cell `i`, a later table entry hiding an earlier one with the same
code, entries rejected by `keep` not counting. -/
def baseName (keep : String → Bool) (t : List (String × Int)) (codes : List Int) (i : Nat) :
    Option String :=
  (t.reverse.find? fun kv => keep kv.1 && (codes[i]? == some kv.2)).map Prod.fst

/-- The same for a mesh that may lack the array or the table. -/
def baseLabel (keep : String → Bool) (codes : Option (List Int)) (t : Option (List (String × Int)))
    (i : Nat) : Option String :=
  match codes, t with
  | some d, some t => baseName keep t d i
  | _, _ => none

/-- The last selection containing `i` in a list of (name, selection). -/
def lastSelecting (sels : List (String × (Nat → Bool))) (i : Nat) : Option String :=
  (sels.reverse.find? fun e => e.2 i).map Prod.fst

/-- The default group: the one given with the item if any (an empty name counts as none), otherwise
the one of the mesh object. -/
def defaultName (ofObject : String) : Option String → String
  | some s => if s = "" then ofObject else s
  | none => ofObject

/-- The name a table gives to a code. -/
def nameOf (t : List (String × Int)) (c : Int) : Option String :=
  (t.find? fun kv => kv.2 == c).map Prod.fst

/-- Simultaneous substitution: the new value for old value `x` in a list of (old, new) pairs. -/
def substitute (pairs : List (Int × Int)) (x : Int) : Int :=
  match pairs.find? fun p => p.1 == x with
  | some p => p.2
  | none => x

end Gridder.Spec
