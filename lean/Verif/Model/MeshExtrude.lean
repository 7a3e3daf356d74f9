import Verif.Model.Stack

/-!
# Extrusion of a base mesh by vectors

Models `pvgridder/core/extrude.py` 44-142 (`MeshExtrude.__init__`, `add`), `pvgridder/core/_base.py`
84-117 (`_check_point_array`) and `pvgridder/core/_helpers.py` 550-582 (`translate`).
-/

namespace Gridder

section
variable {K τ ω : Type _} [Field K] [LinearOrder K]

/-- Smallest coordinate (`mesh.bounds`); 0 for a mesh without points (never used). -/
def colMin (ax : Fin 3) : List (V3 K) → K
  | [] => 0
  | p :: ps => ps.foldl (fun m q => min m (q ax)) (p ax)

/-- Largest coordinate (`mesh.bounds`). -/
def colMax (ax : Fin 3) : List (V3 K) → K
  | [] => 0
  | p :: ps => ps.foldl (fun m q => max m (q ax)) (p ax)

/-- `mesh.center`: centre of the bounding box (pyvista). -/
def boxCenter (pts : List (V3 K)) : V3 K := fun ax => (colMin ax pts + colMax ax pts) / 2

/-- State of a `MeshExtrude` (`extrude.py:44-69`): default scale and angle, items (mesh and
options, `none` for the base). -/
structure Extr (K τ ω : Type _) where
  scale : Option K
  angle : Option K
  items : List (Surf K τ × Option ω)

/-- `extrude.py:44-69` `__init__`, after the checks (dimension 2, cast to a structured grid). -/
def Extr.new (mesh : Surf K τ) (scale angle : Option K) : Extr K τ ω := ⟨scale, angle, [(mesh, none)]⟩

/-- `(mesh.points - mesh.center) * scale + mesh.center` (`extrude.py:133`). -/
def scalePoints (s : K) (pts : List (V3 K)) : List (V3 K) :=
  let c := boxCenter pts
  pts.map fun p ax => (p ax - c ax) * s + c ax

/-- `extrude.py:71-142` `add`; `vector` is the flat array (its shape is `(3,)` iff it has three
entries and `ndim = 1`), `rotate v angle center` is pyvista's rotation of a point. -/
def Extr.add (rotate : V3 K → K → V3 K → V3 K → V3 K) (e : Extr K τ ω) (ndim : Nat)
    (vector : List K) (scale angle : Option K) (opts : ω) : Py (Extr K τ ω) :=
  if ndim ≠ 1 then .error .valueError
  else match vector with
  | [x, y, z] =>
    let v : V3 K := ![x, y, z]
    let scale := scale.or e.scale
    let angle := angle.or e.angle
    match e.items.getLast? with
    | none => .error .indexError
    | some (mesh, _) =>
      let pts := mesh.points.map fun p ax => p ax + v ax
      let pts := match scale with
        | some s => scalePoints s pts
        | none => pts
      let pts := match angle with
        | some a => pts.map (rotate v a (boxCenter pts))
        | none => pts
      .ok { e with items := e.items ++ [({ mesh with points := pts }, some opts)] }
  | _ => .error .valueError

/-- Arguments of one `add`. -/
structure ExtrArgs (K ω : Type _) where
  ndim : Nat
  vector : List K
  scale : Option K
  angle : Option K
  opts : ω

/-- A sequence of `add`s. -/
def Extr.run (rotate : V3 K → K → V3 K → V3 K → V3 K) :
    Extr K τ ω → List (ExtrArgs K ω) → Py (Extr K τ ω)
  | e, [] => .ok e
  | e, a :: as =>
    match e.add rotate a.ndim a.vector a.scale a.angle a.opts with
    | .error e => .error e
    | .ok e => e.run rotate as

end

/-- A numpy array as far as `_check_point_array` looks at it. -/
inductive PointArray (K : Type _)
  | d1 (v : List K)
  | d2 (ncols : Nat) (rows : List (List K))
  | other (ndim : Nat)
  deriving DecidableEq

/-- `np.insert(v, axis, 0.0)`. -/
def insertZero {K : Type _} [Zero K] (axis : Nat) (v : List K) : List K := v.insertIdx axis 0

/-- `_base.py:84-117` `_check_point_array`; the result is one point or a list of points. -/
def checkPointArray {K : Type _} [Zero K] (axis : Nat) : PointArray K → Py (PointArray K)
  | .d1 v =>
    let v := if v.length = 2 then insertZero axis v else v
    if v.length ≠ 3 then .error .valueError else .ok (.d1 v)
  | .d2 n rows =>
    let rows' := if n = 2 then rows.map (insertZero axis) else rows
    let n' := if n = 2 then 3 else n
    if n' ≠ 3 then .error .valueError else .ok (.d2 n' rows')
  | .other _ => .error .valueError

/-- `_helpers.py:550-582` `translate`, on the points; the vector is flattened first. -/
def translatePoints {K : Type _} [Field K] (pts : List (V3 K)) (vector : Option (List K)) :
    Py (List (V3 K)) :=
  match vector with
  | none => .ok pts
  | some [x, y, z] => .ok (pts.map fun p ax => p ax + (![x, y, z] : V3 K) ax)
  | some [x, y] => .ok (pts.map fun p ax => p ax + (![x, y, 0] : V3 K) ax)
  | some _ => .error .valueError

end Gridder
