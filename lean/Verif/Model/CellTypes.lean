import Verif.Model.Extrude

/-!
# Cell dimensions

Models `pvgridder/utils/_properties.py` 275-360 (`_dimension_map`) and 265-269 (`get_dimension` of an
unstructured mesh).
-/

namespace Gridder

/-- `_properties.py:275-360` `_dimension_map`. -/
def dimensionMap : List Int :=
  [-1, 0, 0, 1, 1, 2, 2, 2, 2, 2, 3, 3, 3, 3, 3, 3, 3, -1, -1, -1, -1, 1, 2, 2, 3, 3, 3, 3, 2, 3, 2,
   3, 3, 3, 2, 1, 2, 3, -1, -1, -1, 0, 3, -1, -1, -1, -1, -1, -1, -1, -1, 1, 2, 2, 2, 3, 3, -1, -1,
   -1, 1, 2, 2, 2, 3, 3, 3, 3, 1, 2, 2, 3, 3, 3, 3, 1, 2, 2, 3, 3, 3, 3]

/-- `_dimension_map[t]`: a numpy index (`IndexError` past the end). -/
def cellDim (t : Nat) : Py Int :=
  match dimensionMap[t]? with
  | some d => .ok d
  | none => .error .indexError

/-- `_properties.py:265-269`: `_dimension_map[mesh.celltypes].max()`; the maximum of an empty array
raises `ValueError`. -/
def meshDim : List Nat → Py Int
  | [] => .error .valueError
  | t :: ts =>
    match cellDim t, ts with
    | .error e, _ => .error e
    | .ok d, [] => .ok d
    | .ok d, t' :: ts' =>
      match meshDim (t' :: ts') with
      | .error e => .error e
      | .ok d' => .ok (max d d')

end Gridder
