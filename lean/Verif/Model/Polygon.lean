import Verif.Model.Shapes

/-!
# Polygon and the Gmsh session

Models `pvgridder/core/geometric_objects.py` 433-651 (`Polygon`).  Gmsh itself is not modelled: it is an
environment `Gmsh` that answers each call, or makes it fail, depending on all the calls made before.  The model
records the calls, so that theorems can speak about what Gmsh is asked to do.
-/

namespace Gridder

/-- The calls of the Gmsh API made by `Polygon`. -/
inductive GmshCall (K : Type)
  | initialize
  | addPoint (p : V3 K) (size : K)
  | addLine (a b : Nat)
  | addCurveLoop (lines : List Nat)
  | addPlaneSurface (loops : List Nat)
  | cut (shell holes : List (Nat × Nat))
  | setNumber (option : String) (value : K)
  | synchronize
  | setRecombine (dim tag : Nat)
  | generate (dim : Nat)
  | optimize (method : String)
  | getNodes
  | getElements
  | getElementProperties (type : Nat)
  | clear
  | finalize

/-- Gmsh, seen from the caller: given the calls so far, does this one raise, and what does it return?
`nodes` are the tags and the flat coordinates of `getNodes`, `elements` the types and flat node tags of
`getElements`. -/
structure Gmsh (K : Type) where
  fails : List (GmshCall K) → GmshCall K → Option Err
  tag : List (GmshCall K) → GmshCall K → Nat
  dimTags : List (GmshCall K) → GmshCall K → List (Nat × Nat)
  nodes : List (GmshCall K) → List Nat × List K
  elements : List (GmshCall K) → List (Nat × List Nat)
  nodesPerElement : Nat → Nat

/-- A Python computation that may raise and that calls Gmsh: from the calls so far, the outcome and the calls
after it. -/
def Gm (K : Type) (α : Type) := List (GmshCall K) → Py α × List (GmshCall K)

namespace Gm
variable {K α β : Type}

/-- A value, no call. -/
def pure (a : α) : Gm K α := fun tr => (.ok a, tr)

/-- An exception (`raise`). -/
def raise (e : Err) : Gm K α := fun tr => (.error e, tr)

/-- Sequencing: nothing after an exception is executed. -/
def bind (m : Gm K α) (f : α → Gm K β) : Gm K β := fun tr =>
  match m tr with
  | (.ok a, tr) => f a tr
  | (.error e, tr) => (.error e, tr)

instance : Monad (Gm K) where
  pure := pure
  bind := bind

/-- A computation without call. -/
def lift (x : Py α) : Gm K α := fun tr => (x, tr)

/-- One call of Gmsh, with the way its answer is read. -/
def call (g : Gmsh K) (c : GmshCall K) (answer : List (GmshCall K) → α) : Gm K α := fun tr =>
  match g.fails tr c with
  | some e => (.error e, tr ++ [c])
  | none => (.ok (answer tr), tr ++ [c])

/-- A call whose result is ignored. -/
def call_ (g : Gmsh K) (c : GmshCall K) : Gm K Unit := call g c fun _ => ()

/-- A call that returns a tag. -/
def callTag (g : Gmsh K) (c : GmshCall K) : Gm K Nat := call g c fun tr => g.tag tr c

/-- A `for` loop that collects results. -/
def each (f : α → Gm K β) : List α → Gm K (List β)
  | [] => pure []
  | a :: l => bind (f a) fun b => bind (each f l) fun bs => pure (b :: bs)

/-- `try: body finally: last`: `last` is executed in any case, and its own exception replaces that of the
body. -/
def tryFinally (body : Gm K α) (last : Gm K Unit) : Gm K α := fun tr =>
  match body tr with
  | (r, tr) =>
    match last tr with
    | (.error e, tr) => (.error e, tr)
    | (.ok _, tr) => (r, tr)

end Gm

section
variable {K : Type}

/-- An array of points given by the user: two or three columns. -/
inductive Ring (K : Type)
  | two (points : List (K × K))
  | three (points : List (V3 K))

/-- `geometric_objects.py:496-497`: repeat the first point unless it is already repeated.  `points[0]` of an
empty array raises `IndexError`. -/
def closeRing {α : Type} [DecidableEq α] (points : List α) : Py (List α) :=
  match points with
  | [] => .error .indexError
  | p :: rest => if (p :: rest).getLast? = some p then .ok (p :: rest) else .ok (p :: rest ++ [p])

/-- `geometric_objects.py:475-502` `to_points` for arrays.  Datasets, whose outline is first extracted, are
in `outlinePoints` (`Model/Outline.lean`). -/
def toPoints [DecidableEq K] [Zero K] (ring : Ring K) : Py (List (V3 K)) :=
  match ring with
  | .two points => (closeRing points).map fun (l : List (K × K)) => l.map fun (p : K × K) => ![p.1, p.2, 0]
  | .three points => closeRing points

end

section
variable {K : Type} [Field K] [LinearOrder K]

/-- `geometric_objects.py:514-523`: mesh sizes at the points of a closed ring (the last point left out).
`lengths[-1]` raises `IndexError` without edges. -/
def meshSizes (nrm : V3 K → K) (points : List (V3 K)) (celltype : String) (cellsize : Option K) : Py (List K) :=
  let factor : K := if celltype = "triangle" then 1 else 2
  match cellsize with
  | none =>
    let lengths := segmentLengths nrm points
    match lengths.getLast? with
    | none => .error .indexError
    | some last => .ok ((List.zipWith max (last :: lengths) lengths).map (· * factor))
  | some size => .ok ((List.replicate (points.length - 1) size).map (· * factor))

/-- `geometric_objects.py:504-543` `add_surface` up to the curve loop, whose tag is returned. -/
def addCurveLoop (g : Gmsh K) (nrm : V3 K → K) (points : List (V3 K)) (celltype : String)
    (cellsize : Option K) : Gm K Nat :=
  Gm.bind (Gm.lift (meshSizes nrm points celltype cellsize)) fun (sizes : List K) =>
  Gm.bind (Gm.each (fun (ps : V3 K × K) => Gm.callTag g (.addPoint ps.1 ps.2)) (points.dropLast.zip sizes))
    fun (nodeTags : List Nat) =>
  Gm.bind (Gm.each (fun (ab : Nat × Nat) => Gm.callTag g (.addLine ab.1 ab.2)) (nodeTags.dropLast.zip nodeTags.tail))
    fun (lineTags : List Nat) =>
  match nodeTags.getLast?, nodeTags.head? with
  | some a, some b => Gm.bind (Gm.callTag g (.addLine a b)) fun (tag : Nat) =>
      Gm.callTag g (.addCurveLoop (lineTags ++ [tag]))
  | _, _ => Gm.raise .indexError

/-- `geometric_objects.py:504-550` `add_surface` without `return_curve_loop`. -/
def addSurface (g : Gmsh K) (nrm : V3 K → K) (points : List (V3 K)) (celltype : String)
    (cellsize : Option K) : Gm K (Nat × Nat) :=
  Gm.bind (addCurveLoop g nrm points celltype cellsize) fun (loop : Nat) =>
  Gm.bind (Gm.callTag g (.addPlaneSurface [loop])) fun (tag : Nat) => Gm.pure (2, tag)

/-- `geometric_objects.py:572-603`: the surfaces to be meshed. -/
def outline (g : Gmsh K) (nrm : V3 K → K) (shell : List (V3 K)) (holes : List (List (V3 K))) (celltype : String)
    (cellsize : Option K) (engine : String) : Gm K (List (Nat × Nat)) :=
  if engine = "gmsh" then
    Gm.bind (Gm.each (fun (points : List (V3 K)) => addCurveLoop g nrm points celltype cellsize) (shell :: holes))
      fun (loops : List Nat) =>
    Gm.bind (Gm.callTag g (.addPlaneSurface loops)) fun (tag : Nat) => Gm.pure [(2, tag)]
  else if engine = "occ" then
    Gm.bind (addSurface g nrm shell celltype cellsize) fun (s : Nat × Nat) =>
    if holes = [] then Gm.pure [s]
    else
      Gm.bind (Gm.each (fun (hole : List (V3 K)) => addSurface g nrm hole celltype cellsize) holes)
        fun (h : List (Nat × Nat)) =>
      Gm.call g (.cut [s] h) fun tr => g.dimTags tr (.cut [s] h)
  else Gm.raise .valueError

/-- An unstructured grid: cells are a VTK type and point numbers. -/
structure CellMesh (K : Type) where
  points : List (V3 K)
  cells : List (Nat × List Nat)

/-- `np.reshape(coord, (-1, 3))`. -/
def reshape3 : List K → Py (List (V3 K))
  | [] => .ok []
  | x :: y :: z :: rest => (reshape3 rest).map fun (l : List (V3 K)) => ![x, y, z] :: l
  | _ => .error .valueError

/-- `np.reshape(tags, (-1, n))`; `fuel` bounds the number of rows. -/
def reshapeRows (n : Nat) : Nat → List Nat → Py (List (List Nat))
  | _, [] => .ok []
  | 0, _ :: _ => .error .valueError
  | fuel + 1, l =>
    if l.length < n then .error .valueError
    else (reshapeRows n fuel (l.drop n)).map fun (rows : List (List Nat)) => l.take n :: rows

/-- `gmsh_to_pyvista_type` (`geometric_objects.py:630`): triangles (5) and quads (9). -/
def gmshToVtk (type : Nat) : Py Nat :=
  if type = 2 then .ok 5 else if type = 3 then .ok 9 else .error .keyError

/-- One entry of the dictionary of cells (`geometric_objects.py:633-641`). -/
def convertElements (g : Gmsh K) (e : Nat × List Nat) : Gm K (List (Nat × List Nat)) :=
  Gm.bind (Gm.lift (gmshToVtk e.1)) fun (vtk : Nat) =>
  Gm.bind (Gm.call g (.getElementProperties e.1) fun _ => g.nodesPerElement e.1) fun (n : Nat) =>
  Gm.bind (Gm.lift (reshapeRows n e.2.length e.2)) fun (rows : List (List Nat)) =>
  Gm.pure (rows.map fun (row : List Nat) => (vtk, row.map (· - 1)))

/-- "Convert to PyVista" (`geometric_objects.py:627-642`): lines and vertices are dropped, node tags become point
numbers by subtracting one. -/
def convertMesh (g : Gmsh K) : Gm K (CellMesh K) :=
  Gm.bind (Gm.call g .getNodes fun tr => g.nodes tr) fun (nodes : List Nat × List K) =>
  Gm.bind (Gm.call g .getElements fun tr => g.elements tr) fun (elements : List (Nat × List Nat)) =>
  Gm.bind (Gm.lift (reshape3 nodes.2)) fun (points : List (V3 K)) =>
  Gm.bind (Gm.each (convertElements g) (elements.filter fun (e : Nat × List Nat) => e.1 ≠ 1 ∧ e.1 ≠ 15))
    fun (cells : List (List (Nat × List Nat))) =>
  Gm.pure ⟨points, cells.flatten⟩

/-- `gmsh.option.set_number` for a fixed cell size (`geometric_objects.py:606-612`). -/
def setSizes (g : Gmsh K) (cellsize : Option K) : Gm K Unit :=
  match cellsize with
  | none => Gm.pure ()
  | some s =>
    Gm.bind (Gm.call_ g (.setNumber "Mesh.MeshSizeMin" s)) fun _ =>
    Gm.bind (Gm.call_ g (.setNumber "Mesh.MeshSizeMax" s)) fun _ =>
    Gm.bind (Gm.call_ g (.setNumber "Mesh.MeshSizeFromPoints" 0)) fun _ =>
    Gm.call_ g (.setNumber "Mesh.MeshSizeFromCurvature" 0)

/-- `if optimization: optimize` (`geometric_objects.py:624-625`). -/
def optimizeMesh (g : Gmsh K) (optimization : Option String) : Gm K Unit :=
  match optimization with
  | some m => if m = "" then Gm.pure () else Gm.call_ g (.optimize m)
  | none => Gm.pure ()

/-- The body of the `try` (`geometric_objects.py:570-642`). -/
def gmshBody (g : Gmsh K) (nrm : V3 K → K) (shell : List (V3 K)) (holes : List (List (V3 K))) (celltype : String)
    (cellsize : Option K) (algorithm : K) (optimization : Option String) (engine : String) : Gm K (CellMesh K) :=
  Gm.bind (Gm.call_ g .initialize) fun _ =>
  Gm.bind (outline g nrm shell holes celltype cellsize engine) fun (dimTags : List (Nat × Nat)) =>
  Gm.bind (setSizes g cellsize) fun _ =>
  Gm.bind (Gm.call_ g (.setNumber "Mesh.Algorithm" algorithm)) fun _ =>
  Gm.bind (Gm.call_ g (.setNumber "General.Verbosity" 0)) fun _ =>
  Gm.bind (Gm.call_ g .synchronize) fun _ =>
  Gm.bind (if celltype = "quad" then Gm.each (fun (d : Nat × Nat) => Gm.call_ g (.setRecombine d.1 d.2)) dimTags
    else Gm.pure []) fun _ =>
  Gm.bind (Gm.call_ g (.generate 2)) fun _ =>
  Gm.bind (optimizeMesh g optimization) fun _ =>
  convertMesh g

/-- `gmsh.clear(); gmsh.finalize()` (`geometric_objects.py:644-646`). -/
def closeSession (g : Gmsh K) : Gm K Unit :=
  Gm.bind (Gm.call_ g .clear) fun _ => Gm.call_ g .finalize

/-- `celltype if celltype else "triangle" if holes else "polygon"` (`geometric_objects.py:555`). -/
def defaultCelltype {α : Type} (celltype : Option String) (holes : List α) : String :=
  match celltype with
  | some s => if s = "" then (if holes.isEmpty then "polygon" else "triangle") else s
  | none => if holes.isEmpty then "polygon" else "triangle"

/-- `geometric_objects.py:552-651` `Polygon` for arrays of points; `holes = None` is the empty list.  For the
default shell `pv.Polygon()` and datasets see `polygonOf` (`Model/Outline.lean`). -/
def polygon (g : Gmsh K) (nrm : V3 K → K) (shell : Ring K) (holes : List (Ring K)) (celltype : Option String)
    (cellsize : Option K) (algorithm : K) (optimization : Option String) (engine : String) : Gm K (CellMesh K) :=
  Gm.bind (Gm.lift (toPoints shell)) fun (shell : List (V3 K)) =>
  Gm.bind (Gm.lift (holes.mapM toPoints)) fun (holes : List (List (V3 K))) =>
  let celltype := defaultCelltype celltype holes
  if celltype = "polygon" then
    if holes = [] then
      Gm.pure ⟨shell.dropLast, [(7, List.range shell.dropLast.length)]⟩
    else Gm.raise .valueError
  else if celltype = "quad" ∨ celltype = "triangle" then
    Gm.tryFinally (gmshBody g nrm shell holes celltype cellsize algorithm optimization engine) (closeSession g)
  else Gm.raise .valueError

end

end Gridder
