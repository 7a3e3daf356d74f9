import Verif.Model.Lines
import Verif.Model.Extrude

/-!
# Offsetting polygons

Models `pvgridder/utils/_misc.py` 1068-1156 (`offset_polygon`).
-/

namespace Gridder

section offset
variable {K : Type _} [Field K] [LinearOrder K]

/-- `np.sign`. -/
def npSign (x : K) : K := if 0 < x then 1 else if x < 0 then -1 else 0

/-- `points[:, ~mask]` for one point, `axis` being the only masked column. -/
def dropAxis (axis : Fin 3) (p : V3 K) : K × K :=
  if axis = 0 then (p 1, p 2) else if axis = 1 then (p 0, p 2) else (p 0, p 1)

/-- `np.insert(points, axis, 0.0, axis=1)` for one point. -/
def insertAxis (axis : Fin 3) (p : K × K) : V3 K :=
  if axis = 0 then ![0, p.1, p.2] else if axis = 1 then ![p.1, 0, p.2] else ![p.1, p.2, 0]

/-- `v / np.linalg.norm(v)`; `sqrt` is the square root.  Simplified: numpy returns nan for the zero vector. -/
def unit2 (sqrt : K → K) (v : K × K) : K × K :=
  let n := sqrt (v.1 * v.1 + v.2 * v.2)
  (v.1 / n, v.2 / n)

/-- `np.vstack((points[-1], points, points[0]))`. -/
def wrapRing (points : List (K × K)) : List (K × K) :=
  points.getLast?.toList ++ points ++ points.head?.toList

/-- `(x[:-1] * y[1:] - x[1:] * y[:-1]).sum()` of the wrapped ring (`_misc.py:1138-1139`). -/
def ringArea (wrapped : List (K × K)) : K :=
  (List.zipWith (fun p q => p.1 * q.2 - q.1 * p.2) wrapped wrapped.tail).sum

/-- One vertex of the offset polygon (`_misc.py:1141-1152`), `f` being `fac * np.sign(signed_area)`. -/
def offsetVertex (sqrt : K → K) (distance f : K) (prev cur next : K × K) : K × K :=
  let vn := unit2 sqrt (next.1 - cur.1, next.2 - cur.2)
  let vp := unit2 sqrt (cur.1 - prev.1, cur.2 - prev.2)
  let vb := ((vn.1 + vp.1) * f * -1, (vn.2 + vp.2) * f)
  let vb := unit2 sqrt vb
  let dist := distance / sqrt (1 / 2 * (1 + (vn.1 * vp.1 + vn.2 * vp.2)))
  (cur.1 + dist * vb.2, cur.2 + dist * vb.1)

/-- `np.ptp(points, axis=0) == 0.0` for one column. -/
def flatColumn (points : List (V3 K)) (ax : Fin 3) : Bool :=
  points.all fun p => points.all fun q => decide (p ax = q ax)

/-- The axis of the plane (`_misc.py:1118-1124`). -/
def offsetAxis (points : List (V3 K)) : Py (Fin 3) :=
  if points = [] then .error .valueError
  else
    match ([0, 1, 2] : List (Fin 3)).filter (flatColumn points) with
    | [axis] => .ok axis
    | _ => .error .valueError

/-- The offset ring in the plane (`_misc.py:1129-1152`). -/
def offsetRing (sqrt : K → K) (distance fac : K) (points : List (K × K)) : List (K × K) :=
  let wrapped := wrapRing points
  let f := fac * npSign (ringArea wrapped)
  List.zipWith (fun (pc : (K × K) × (K × K)) next => offsetVertex sqrt distance f pc.1 pc.2 next)
    (wrapped.zip points) wrapped.tail.tail

/-- Loop body (`_misc.py:1115-1152`) for one face. -/
def offsetFace (sqrt : K → K) (distance fac : K) (points : List (V3 K)) : Py (List (V3 K)) :=
  match offsetAxis points with
  | .error e => .error e
  | .ok axis => .ok ((offsetRing sqrt distance fac (points.map (dropAxis axis))).map (insertAxis axis))

/-- The loop over the faces (`_misc.py:1111-1155`): `n` is the number of points so far. -/
def offsetFaces (sqrt : K → K) (distance fac : K) (points : List (V3 K)) :
    Nat → List (List Nat) → Py (List (V3 K) × List (List Nat))
  | _, [] => .ok ([], [])
  | n, face :: faces =>
    match gather points face with
    | .error e => .error e
    | .ok pts =>
      match offsetFace sqrt distance fac pts with
      | .error e => .error e
      | .ok out =>
        match offsetFaces sqrt distance fac points (n + out.length) faces with
        | .error e => .error e
        | .ok (more, cells) => .ok (out ++ more, (List.range out.length).map (· + n) :: cells)

/-- `_misc.py:1068-1156` `offset_polygon` for a mesh (an array of points is the mesh with one face). -/
def offsetPolygon (sqrt : K → K) (points : List (V3 K)) (faces : List (List Nat)) (distance : K) :
    Py (List (V3 K) × List (List Nat)) :=
  if faces = [] then .error .valueError
  else if 0 < distance then offsetFaces sqrt distance 1 points 0 faces
  else if distance < 0 then offsetFaces sqrt (distance * -1) (-1) points 0 faces
  else .ok (points, faces)

end offset

end Gridder
