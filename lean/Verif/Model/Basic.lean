/-!
# Python building blocks used by the model

Exceptions are values, dictionaries are insertion-ordered association lists, numpy index
assignments are list updates.  These definitions model CPython / numpy behaviour that the code in
/repo relies on everywhere; they are part of the trusted base.
-/

namespace Gridder

/-- The exception classes raised by the modelled code (`raise ValueError(...)`, a failing
dictionary lookup, a failing numpy index, ...).  Simplified: messages are dropped. -/
inductive Err
  | valueError
  | keyError
  | indexError
  | typeError
  | zeroDivision
  | notImplemented
  | recursionError
  deriving DecidableEq, Repr

/-- A Python computation that may raise. -/
abbrev Py (α : Type _) := Except Err α

/-- CPython `dict`: insertion ordered, keys unique. -/
abbrev Dict (κ ν : Type _) := List (κ × ν)

namespace Dict
variable {κ ν : Type _} [DecidableEq κ]

/-- `d.get(k)` / `d[k]` (with `none` for the missing key). -/
def get? : Dict κ ν → κ → Option ν
  | [], _ => none
  | (a, b) :: d, k => if a = k then some b else get? d k

/-- `d[k]`, raising `KeyError`. -/
def get (d : Dict κ ν) (k : κ) : Py ν :=
  match get? d k with
  | some v => .ok v
  | none => .error .keyError

/-- `d[k] = v`: replace in place, or append. -/
def set : Dict κ ν → κ → ν → Dict κ ν
  | [], k, v => [(k, v)]
  | (a, b) :: d, k, v => if a = k then (a, v) :: d else (a, b) :: set d k v

/-- `d.pop(k, None)`. -/
def pop : Dict κ ν → κ → Dict κ ν
  | [], _ => []
  | (a, b) :: d, k => if a = k then d else (a, b) :: pop d k

/-- `{v: k for k, v in d.items()}`: a later entry replaces an earlier one. -/
def invert {κ ν : Type _} [DecidableEq ν] (d : Dict κ ν) : Dict ν κ :=
  d.foldl (fun m kv => set m kv.2 kv.1) []

/-- `list(d)`. -/
def keys {κ ν : Type _} (d : Dict κ ν) : List κ := d.map Prod.fst

/-- `list(d.values())`. -/
def values {κ ν : Type _} (d : Dict κ ν) : List ν := d.map Prod.snd

end Dict

/-- numpy integer index `i` into an axis of length `n`: negative indices count from the end,
anything else is an `IndexError` (`none`). -/
def normIdx (n : Nat) (i : Int) : Option Nat :=
  if 0 ≤ i ∧ i < n then some i.toNat
  else if i < 0 ∧ -(n : Int) ≤ i then some (i + n).toNat
  else none

/-- A numpy index array: a boolean mask or an array of integers. -/
inductive NpMask
  | bool (m : List Bool)
  | int (ix : List Int)
  deriving DecidableEq, Repr

/-- numpy `~mask`: logical not for booleans, bitwise not (`-x - 1`) for integers. -/
def NpMask.invert : NpMask → NpMask
  | .bool m => .bool (m.map (!·))
  | .int ix => .int (ix.map fun x => -x - 1)

/-- `arr[mask] = v` for a boolean mask (`IndexError` on a size mismatch). -/
def assignBool {α : Type _} (arr : List α) (m : List Bool) (v : α) : Py (List α) :=
  if m.length = arr.length then .ok (List.zipWith (fun a b => if b then v else a) arr m)
  else .error .indexError

/-- `arr[ix] = v` for an integer index array. -/
def assignInt {α : Type _} (arr : List α) (ix : List Int) (v : α) : Py (List α) :=
  match ix with
  | [] => .ok arr
  | i :: ix =>
    match normIdx arr.length i with
    | some j => assignInt (arr.set j v) ix v
    | none => .error .indexError

/-- `arr[mask] = v`. -/
def NpMask.assign {α : Type _} (arr : List α) (m : NpMask) (v : α) : Py (List α) :=
  match m with
  | .bool m => assignBool arr m v
  | .int ix => assignInt arr ix v

end Gridder
