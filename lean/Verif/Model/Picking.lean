import Verif.Model.Lines
import Verif.Model.Extrude
import Verif.Model.Rdp
import Verif.Model.Offset
import Mathlib.Data.List.Sort

/-!
# Ray casting and interactive selection

Models `pvgridder/utils/_misc.py` 1159-1252 (`ray_cast`) and `pvgridder/utils/_interactive.py`
(`interactive_lasso_selection`, `interactive_selection`).
-/

namespace Gridder

section ray
variable {K : Type _} [Field K] [LinearOrder K]

/-- `(u * v).sum()`. -/
def dot3 (u v : V3 K) : K := u 0 * v 0 + u 1 * v 1 + u 2 * v 2

/-- `v / np.linalg.norm(v)`; simplified: numpy returns nan for the zero vector. -/
def unit3 (nrm : V3 K → K) (v : V3 K) : V3 K := fun ax => v ax / nrm v

/-- Intersection with the plane of a face (`_misc.py:1231-1236`); `d` is `dvec`. -/
def rayFace (pointa d center normal : V3 K) : V3 K :=
  fun ax => pointa ax + d ax * (dot3 (center - pointa) normal / dot3 d normal)

/-- Intersection with an edge (`_misc.py:1239-1246`); `q0`, `q1` are the end points of the edge. -/
def rayEdge (nrm : V3 K → K) (pointa d q0 q1 : V3 K) : V3 K :=
  let vec := unit3 nrm (q1 - q0)
  let c := cross vec d
  let denom := nrm c
  let t := dot3 (cross (q0 - pointa) d) c / denom ^ 2
  fun ax => q0 ax - t * vec ax

/-- `ray_cast` for a mesh with faces (`_misc.py:1200-1251`).  `found` are the cells found by VTK along the line,
`keep` is the test `angles < max_angle`, `center` and `normal` are VTK's cell centres and normals, `orig` the
original cell numbers of the faces of a mesh that is not a polydata.  `some` pairs every retained cell number
with the intersection point. -/
def rayCastFaces (nrm : V3 K → K) (found : List Nat) (keep : V3 K → Nat → Bool) (center normal : Nat → V3 K)
    (orig : Option (List Nat)) (pointa pointb : V3 K) : Py (Option (List Nat × List (V3 K))) :=
  if found = [] then .ok none
  else
    let ids := found.insertionSort (· ≤ ·)
    let d := unit3 nrm (pointa - pointb)
    let ids := ids.filter (keep d)
    if ids = [] then .ok none
    else
      let points := ids.map fun i => rayFace pointa d (center i) (normal i)
      match orig with
      | none => .ok (some (ids, points))
      | some orig =>
        match gather orig ids with
        | .error e => .error e
        | .ok ids => .ok (some (ids, points))

/-- `ray_cast` for a mesh of lines (`_misc.py:1200-1252`); `edge i` are the end points of cell `i`.  Simplified:
every cell is a line of two points (a polyline of more makes `split_lines` return more edges than cells). -/
def rayCastEdges (nrm : V3 K → K) (found : List Nat) (edge : Nat → V3 K × V3 K)
    (orig : Option (List Nat)) (pointa pointb : V3 K) : Py (Option (List Nat × List (V3 K))) :=
  if found = [] then .ok none
  else
    let ids := found.insertionSort (· ≤ ·)
    let d := unit3 nrm (pointa - pointb)
    let points := ids.map fun i => rayEdge nrm pointa d (edge i).1 (edge i).2
    match orig with
    | none => .ok (some (ids, points))
    | some orig =>
      match gather orig ids with
      | .error e => .error e
      | .ok ids => .ok (some (ids, points))

end ray

section picking

/-- `callback` of `interactive_selection` (`_interactive.py:231-246`) on the keys of `actors`: a cell that is
picked again is removed.  The values (actors of the plotter) are not modelled. -/
def togglePick (actors : List Nat) (id : Nat) : List Nat :=
  if id ∈ actors then actors.erase id else actors ++ [id]

/-- `interactive_selection` (`_interactive.py:174-272`): the ids returned after a sequence of picks. -/
def interactiveSelection (picks : List Nat) : List Nat := picks.foldl togglePick []

/-- The views of `pyvista.Plotter` that need no argument. -/
def plotterViews : List String := ["xy", "yx", "xz", "zx", "yz", "zy", "isometric"]

/-- `view[1:] if view.startswith("-") else view` (`_interactive.py:126-127`). -/
def viewName (view : String) : String :=
  match view.toList with
  | '-' :: rest => String.ofList rest
  | _ => view

/-- The column removed from the clicked points (`_interactive.py:142-149`). -/
def viewAxis (view : String) : Fin 3 :=
  if 'x' ∉ view.toList then 0 else if 'y' ∉ view.toList then 1 else 2

/-- `interactive_lasso_selection` (`_interactive.py:45-172`).  `inside ring x` is `shapely`'s
`contains_xy(Polygon(ring), x)`; called with an array of points, it reads their first two columns.
`locations` are the cell centres or the points of the mesh. -/
def lassoSelection {K : Type _} [Field K] (inside : List (K × K) → K × K → Bool) (view : String)
    (clicks locations : List (V3 K)) : Py (List Nat) :=
  let view := viewName view
  if view ∈ plotterViews then
    let ring := clicks.map (dropAxis (viewAxis view))
    .ok ((List.range locations.length).filter fun i =>
      inside ring ((locations.getD i 0) 0, (locations.getD i 0) 1))
  else .error .valueError

end picking

end Gridder
