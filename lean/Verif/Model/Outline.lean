import Verif.Model.Polygon
import Verif.Model.Lines

/-!
# Polygon of datasets

Models the part of `Polygon` (`pvgridder/core/geometric_objects.py` 475-491, 552-554) that takes the outline from a dataset.
-/

namespace Gridder

section
variable {K D : Type}

/-- `geometric_objects.py:432-434`: what can be given as shell or hole: an array, a polydata with lines, or any other dataset.  For the latter the
answer of `extract_boundary_polygons(points, fill=False)` is a parameter (`_misc.py:221-247`: the stripped boundary edges, an oracle of VTK). -/
inductive OutlineArg (K D : Type)
  | array (ring : Ring K)
  | lines (m : LineMesh (V3 K) D)
  | mesh (edges : Option (List (LineMesh (V3 K) D)))

/-- `geometric_objects.py:486-491`: the points of the first line of the first of the edges; `None` and no edges raise `ValueError`,
`edges[0].lines[0]` of a mesh without lines `IndexError`. -/
def firstEdge (edges : Option (List (LineMesh (V3 K) D))) : Py (List (V3 K)) :=
  match edges with
  | none => .error .valueError
  | some [] => .error .valueError
  | some (e :: _) =>
    match e.lines with
    | [] => .error .indexError
    | ids :: _ => gather e.points ids

/-- `geometric_objects.py:475-502` `to_points`. -/
def outlinePoints [DecidableEq K] [Zero K] (arg : OutlineArg K D) : Py (List (V3 K)) :=
  match arg with
  | .array ring => toPoints ring
  | .lines m =>
    match splitLines m false with
    | .error e => .error e
    | .ok edges =>
      match firstEdge (some edges) with
      | .error e => .error e
      | .ok points => closeRing points
  | .mesh edges =>
    match firstEdge edges with
    | .error e => .error e
    | .ok points => closeRing points

variable [Field K] [LinearOrder K]

/-- `geometric_objects.py:552-651` `Polygon` of anything; the default shell is `.mesh` with the outline of `pv.Polygon()`.  The rest of the
function gets the points of closed rings, which `to_points` leaves as they are. -/
def polygonOf (g : Gmsh K) (nrm : V3 K → K) (shell : OutlineArg K D) (holes : List (OutlineArg K D)) (celltype : Option String)
    (cellsize : Option K) (algorithm : K) (optimization : Option String) (engine : String) : Gm K (CellMesh K) :=
  Gm.bind (Gm.lift (outlinePoints shell)) fun (shell : List (V3 K)) =>
  Gm.bind (Gm.lift (holes.mapM outlinePoints)) fun (holes : List (List (V3 K))) =>
  polygon g nrm (.three shell) (holes.map .three) celltype cellsize algorithm optimization engine

end

end Gridder
