import Verif.Model.Basic
import Mathlib.Analysis.SpecialFunctions.Log.Base
import Mathlib.Data.List.Sort

/-!
# Subdivisions

Models `pvgridder/core/_helpers.py` 461-509 (`resolution_to_perc`) and 61-108
(`generate_line_from_two_points`).  Floats are real numbers.
-/

namespace Gridder

/-- The `resolution` argument (`_helpers.py:462,484-506`): `None`, a Python `int` (`bool` included),
anything with `np.ndim(...) == 1`, or anything else (a float, a numpy integer, a 2D array, ...). -/
inductive Resolution (K : Type _)
  | none
  | int (n : Int)
  | array (l : List K)
  | other

/-- `np.linspace(start, stop, n + 1)` for `n ≥ 1` (numpy; rounding not modelled). -/
def linspace {K : Type _} [Field K] (start stop : K) (n : Nat) : List K :=
  (List.range (n + 1)).map fun i : Nat => start + (i : K) * ((stop - start) / n)

/-- `np.sort` of a 1D array. -/
noncomputable def npSort (l : List ℝ) : List ℝ := l.insertionSort (· ≤ ·)

/-- `_helpers.py:486-500`: the unsorted positions for an integer resolution; `n` is
`max(1, resolution)` and `method` the method after `method if method else "constant"`.
Simplified: `method.endswith("_r")` is decided on the methods that reach it. -/
noncomputable def percOfInt (n : Nat) (method : String) : Py (List ℝ) :=
  if method = "constant" then .ok (linspace 0 1 n)
  else if method = "log_r" then .ok ((linspace 1 10 n).map (Real.logb 10))
  else if method = "log" then
    .ok (((linspace 1 10 n).map (Real.logb 10)).map fun x => 1 - x)
  else .error .valueError

/-- `_helpers.py:488` `method if method else "constant"`. -/
def chooseMethod (method : Option String) : String :=
  match method with
  | some s => if s = "" then "constant" else s
  | Option.none => "constant"

/-- `_helpers.py:461-509` `resolution_to_perc`. -/
noncomputable def resolutionToPerc (resolution : Resolution ℝ) (method : Option String) :
    Py (List ℝ) :=
  match resolution with
  | .none =>
    match percOfInt 1 (chooseMethod method) with
    | .ok p => .ok (npSort p)
    | .error e => .error e
  | .int r =>
    match percOfInt (max 1 r).toNat (chooseMethod method) with
    | .ok p => .ok (npSort p)
    | .error e => .error e
  | .array l => .ok (npSort l)
  | .other => .error .valueError

/-- `_helpers.py:92-108` `generate_line_from_two_points` for 1D points; returns the points of the
polyline.  `pv.MultipleLines` refuses points that do not have three components (pyvista). -/
noncomputable def generateLine (a b : List ℝ) (resolution : Resolution ℝ) (method : Option String) :
    Py (List (List ℝ)) :=
  if a.length ≠ b.length then .error .valueError
  else
    match resolutionToPerc resolution method with
    | .error e => .error e
    | .ok perc =>
      let points := perc.map fun t => List.zipWith (fun x y => x + t * (y - x)) a b
      let points := if a.length = 3 then points else points.map (· ++ [0])
      if points.all (fun p => p.length = 3) then .ok points else .error .valueError

end Gridder
