import Verif.Model.Ids
import Verif.Model.Stack
import Verif.Model.MeshExtrude
import Verif.Model.Groups

/-!
# Generating stacks and extrusions

Models `MeshStack2D.generate_mesh`, `MeshStack3D.generate_mesh` (`pvgridder/core/stack.py` 76-93, 226-261),
`MeshStackBase._generate_mesh` (`pvgridder/core/_base.py` 434-511) and `MeshExtrude.generate_mesh`
(`pvgridder/core/extrude.py` 144-205) from the items to the returned mesh, for meshes whose submeshes are structured
grids.  Simplified: transition items, whose submesh is not structured, are refused, and cell data are integers.
-/

namespace Gridder

/-- What the loop over the items needs of the kind of mesh that is stacked: the labels it carries, the mesh with another
"CellGroup" array, and the extrusion between two meshes. -/
structure Kit (K τ ρ : Type _) where
  labels : Surf K τ → LMesh
  withGroup : Surf K τ → List Int → Surf K τ
  extrude : Surf K τ → Surf K τ → ρ → Py (SGrid K ℤ)

/-- Options of an item (`_base.py:413-425`, `extrude.py:138`): resolution and method (`sub`), and group. -/
structure Opts (ρ : Type _) where
  sub : ρ
  group : GroupArg

section
variable {K τ ρ : Type _} [Field K] [LinearOrder K]

/-- A surface and the options of its item (`none` for the first one). -/
abbrev GItem (K τ ρ : Type _) := Surf K τ × Option (Opts ρ)

/-- `_base.py:475-502`, `extrude.py:166-188`: the loop over pairs of items.  `groups`, `nLayers` and `i` are the group
table so far, the number of layers so far and the number of the pair; `key` is "StackItem" or "ExtrudeItem".  Only the
first item has no options. -/
def submeshes (kit : Kit K τ ρ) (ignore : List String) (dflt key : String) :
    GItem K τ ρ → List (GItem K τ ρ) → Dict String Int → Nat → Nat → Py (List (SGrid K ℤ) × Dict String Int)
  | _, [], groups, _, _ => .ok ([], groups)
  | a, b :: rest, groups, nLayers, i =>
    match b.2 with
    | none => .error .typeError
    | some opts =>
      match initGroupArray ignore dflt (kit.labels a.1) groups opts.group none with
      | .error e => .error e
      | .ok (arr, groups) =>
        match kit.extrude (kit.withGroup a.1 arr) b.1 opts.sub with
        | .error e => .error e
        | .ok p =>
          match labelGrid key (kit.labels a.1).nCells nLayers i p with
          | .error e => .error e
          | .ok (q, nsub) =>
            match submeshes kit ignore dflt key b rest groups (nLayers + nsub) (i + 1) with
            | .error e => .error e
            | .ok (qs, groups) => .ok (q :: qs, groups)

/-- `_base.py:208-211`: the ghost array is removed if it is zero everywhere. -/
def dropGhost (cd : Dict String (DArr ℤ)) : Dict String (DArr ℤ) :=
  match Dict.get? cd "vtkGhostType" with
  | some g => if g.vals.all fun x => x == 0 then Dict.pop cd "vtkGhostType" else cd
  | none => cd

/-- `_base.py:201-230` `_clean` on a structured grid with its group table. -/
def cleanGrid (m : SGrid K ℤ) (table : Dict String Int) : Py (SGrid K ℤ × Dict String Int) :=
  let cd := dropGhost m.cellData
  match Dict.get? cd "CellGroup" with
  | none => .ok ({ m with cellData := cd }, table)
  | some g =>
    match cleanGroups g.vals table with
    | .error e => .error e
    | .ok (data, table) => .ok ({ m with cellData := Dict.set cd "CellGroup" ⟨g.vector, data⟩ }, table)

/-- `_base.py:475-511`, `extrude.py:161-205`: submeshes, merge, clean.  Returns the mesh and `user_dict["CellGroup"]`. -/
def assemble (kit : Kit K τ ρ) (ignore : List String) (dflt key : String) (axis : Fin 3) :
    List (GItem K τ ρ) → Py (SGrid K ℤ × Dict String Int)
  | a :: b :: rest =>
    match submeshes kit ignore dflt key a (b :: rest) [] 0 0 with
    | .error e => .error e
    | .ok (qs, groups) =>
      match mergeStructured (some axis) qs with
      | .error e => .error e
      | .ok m => cleanGrid m groups
  | _ => .error .valueError

/-- Transition items have submeshes that are not structured. -/
def plainItems : List (Item K τ (Opts ρ)) → Py (List (GItem K τ ρ))
  | [] => .ok []
  | it :: rest =>
    if it.transition then .error .notImplemented
    else
      match plainItems rest with
      | .error e => .error e
      | .ok l => .ok ((it.mesh, it.opts) :: l)

/-- What `_generate_mesh` does after the cut pass. -/
def buildStack (kit : Kit K τ ρ) (ignore : List String) (dflt : String) (axis : Fin 3)
    (items : List (Item K τ (Opts ρ))) : Py (SGrid K ℤ × Dict String Int) :=
  match plainItems items with
  | .error e => .error e
  | .ok l => assemble kit ignore dflt "StackItem" axis l

/-- `_base.py:434-511` `_generate_mesh`. -/
def Stack.generateMesh (kit : Kit K τ ρ) (ignore : List String) (dflt : String) (s : Stack K τ (Opts ρ)) :
    Py ((SGrid K ℤ × Dict String Int) × Stack K τ (Opts ρ)) :=
  s.generate (buildStack kit ignore dflt s.axis)

/-- `mesh.dimensions.index(1)` (`extrude.py:190-194`). -/
def firstOne (d : Ix) : Py (Fin 3) :=
  if d 0 = 1 then .ok 0 else if d 1 = 1 then .ok 1 else if d 2 = 1 then .ok 2 else .error .valueError

/-- A line mesh without its points: node ids along the line, data, group table. -/
structure LineTopo where
  ids : List Nat
  pointData : Dict String (DArr ℤ)
  cellData : Dict String (DArr ℤ)
  table : Option (Dict String Int)

/-- A structured grid without its points: dimensions, data, group table. -/
structure GridTopo where
  dims : Ix
  pointData : Dict String (DArr ℤ)
  cellData : Dict String (DArr ℤ)
  table : Option (Dict String Int)

/-- The line as an argument of `generate_surface_from_two_lines`. -/
def lineArg (s : Surf K LineTopo) : LineArg K ℤ := .poly s.points s.topo.ids s.topo.pointData s.topo.cellData

/-- The structured grid with these points. -/
def surfGrid (s : Surf K GridTopo) : SGrid K ℤ :=
  ⟨⟨s.topo.dims, fun i => s.points.getD (flatF s.topo.dims i) 0⟩, s.topo.pointData, s.topo.cellData⟩

/-- `mesh.cell_data["CellGroup"]`. -/
def groupCodes (cd : Dict String (DArr ℤ)) : Option (List Int) := (Dict.get? cd "CellGroup").map fun g => g.vals

/-- `stack.py:86`: the plane of a 2D stack. -/
def stackPlane (axis : Fin 3) : String := if axis = 0 then "yx" else if axis = 1 then "xy" else "xz"

/-- Lines, whose cells are their segments; `sub` makes the surface between two lines. -/
def lineKit (sub : LineArg K ℤ → LineArg K ℤ → ρ → Py (SGrid K ℤ)) : Kit K LineTopo ρ where
  labels s := ⟨s.points.length - 1, groupCodes s.topo.cellData, s.topo.table⟩
  withGroup s arr := ⟨s.points, { s.topo with cellData := Dict.set s.topo.cellData "CellGroup" ⟨false, arr⟩ }⟩
  extrude a b r := sub (lineArg a) (lineArg b) r

/-- Structured surfaces; `sub` makes the volume between two surfaces. -/
def gridKit (sub : SGrid K ℤ → SGrid K ℤ → ρ → Py (SGrid K ℤ)) : Kit K GridTopo ρ where
  labels s := ⟨sizeOfShape (cellShape s.topo.dims), groupCodes s.topo.cellData, s.topo.table⟩
  withGroup s arr := ⟨s.points, { s.topo with cellData := Dict.set s.topo.cellData "CellGroup" ⟨false, arr⟩ }⟩
  extrude a b r := sub (surfGrid a) (surfGrid b) r

end

/-- `stack.py:76-93` `MeshStack2D.generate_mesh`. -/
noncomputable def stack2D (area : Arr3 (V3 ℝ) → List ℝ) (ignore : List String) (dflt : String)
    (s : Stack ℝ LineTopo (Opts (Resolution ℝ × Option String))) :
    Py ((SGrid ℝ ℤ × Dict String Int) × Stack ℝ LineTopo (Opts (Resolution ℝ × Option String))) :=
  s.generateMesh (lineKit fun a b r => generateSurface area a b (stackPlane s.axis) r.1 r.2) ignore dflt

/-- `stack.py:226-261` `MeshStack3D.generate_mesh` on structured surfaces. -/
noncomputable def stack3D (volume : Arr3 (V3 ℝ) → List ℝ) (ignore : List String) (dflt : String)
    (s : Stack ℝ GridTopo (Opts (Resolution ℝ × Option String))) :
    Py ((SGrid ℝ ℤ × Dict String Int) × Stack ℝ GridTopo (Opts (Resolution ℝ × Option String))) :=
  s.generateMesh (gridKit fun a b r => generateVolumeS volume a b r.1 r.2) ignore dflt

/-- `extrude.py:144-205` `MeshExtrude.generate_mesh` on structured surfaces. -/
noncomputable def extrudeS (volume : Arr3 (V3 ℝ) → List ℝ) (ignore : List String) (dflt : String)
    (e : Extr ℝ GridTopo (Opts (Resolution ℝ × Option String))) : Py (SGrid ℝ ℤ × Dict String Int) :=
  match e.items with
  | (m, o) :: rest =>
    match firstOne m.topo.dims with
    | .error err => .error err
    | .ok axis =>
      assemble (gridKit fun a b r => generateVolumeS volume a b r.1 r.2) ignore dflt "ExtrudeItem" axis
        ((m, o) :: rest)
  | [] => .error .valueError

/-- The first argument of `MeshStack2D` (`stack.py:63-77`): numbers, a `PolyData` given by the polylines that
`split_lines` finds in it (none: no lines), anything else. -/
inductive LineBase (K : Type _)
  | numbers (xs : List K)
  | poly (lines : List (Surf K LineTopo))
  | other

/-- `stack.py:63-66`: the points of the line for an array of numbers. -/
def numberPoints {K : Type _} [Zero K] (axis : Fin 3) (xs : List K) : List (V3 K) :=
  xs.map fun x => Function.update 0 (axis + 1) x

/-- `_base.py:287-288`: the axis has to be 0, 1 or 2. -/
def checkAxis (axis : ℤ) : Py (Fin 3) :=
  if axis = 0 then .ok 0 else if axis = 1 then .ok 1 else if axis = 2 then .ok 2 else .error .valueError

/-- `stack.py:51-74` `MeshStack2D.__init__` and `_base.py:274-304`.  Simplified: `pv.lines_from_points` refuses fewer
than two points.  The axis is checked last, which makes no difference as all errors are `ValueError`. -/
def stack2DNew {K ω : Type _} [Zero K] (base : LineBase K) (axis : ℤ) (bottomUp : Bool) :
    Py (Stack K LineTopo ω) :=
  match checkAxis axis with
  | .error e => .error e
  | .ok a =>
    match base with
    | .numbers xs =>
      if xs.length < 2 then .error .valueError
      else .ok (Stack.new ⟨numberPoints a xs, List.range xs.length, [], [], none⟩ a bottomUp)
    | .poly [] => .error .valueError
    | .poly (l :: _) => .ok (Stack.new l a bottomUp)
    | .other => .error .valueError

/-- `stack.py:158-181` `MeshStack3D.__init__` and `_base.py:274-304` on a structured grid. -/
def stack3DNew {K ω : Type _} (mesh : Surf K GridTopo) (axis : ℤ) (bottomUp : Bool) : Py (Stack K GridTopo ω) :=
  if dimOfShape mesh.topo.dims ≠ 2 then .error .valueError
  else
    match checkAxis axis with
    | .error e => .error e
    | .ok a => if mesh.topo.dims a ≠ 1 then .error .valueError else .ok (Stack.new mesh a bottomUp)

/-- `extrude.py:44-69` `MeshExtrude.__init__` on a structured grid. -/
def extrudeNew {K ω : Type _} (mesh : Surf K GridTopo) (scale angle : Option K) : Py (Extr K GridTopo ω) :=
  if dimOfShape mesh.topo.dims ≠ 2 then .error .valueError else .ok (Extr.new mesh scale angle)

end Gridder
