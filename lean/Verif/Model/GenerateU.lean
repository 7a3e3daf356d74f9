import Verif.Model.Generate
import Verif.Model.Extrude
import Verif.Spec.Cells

/-!
# Generating unstructured stacks and extrusions

Models `MeshStackBase._generate_mesh` (`pvgridder/core/_base.py` 475-511), `MeshExtrude.generate_mesh`
(`pvgridder/core/extrude.py` 144-205) and the last branch of `merge` (`pvgridder/utils/_misc.py` 985-988) when at least
one submesh is an unstructured grid: unstructured surfaces, and 2D stacks with transition items.  Point data are left
out.
-/

namespace Gridder
open Spec

/-- An unstructured grid as VTK holds it: points, cells with their VTK types, cell data.  Simplified: point data are
left out. -/
structure UMesh (K : Type _) where
  points : List (V3 K)
  cells : List (ℤ × Cell)
  cellData : Dict String (DArr ℤ)

/-- Other numbers for the nodes of a cell. -/
def renumber (f : ℕ → ℕ) : Cell → Cell
  | .nodes ids => .nodes (ids.map f)
  | .polyhedron faces => .polyhedron (faces.map fun face => face.map f)

/-- What VTK does to an unstructured grid that is outside this code: `order n` is the order in which `pv.merge` appends
`n` meshes, `clean points cells` are the points after `UnstructuredGrid.clean` and the new number of each point. -/
structure VtkOracle (K : Type _) where
  order : ℕ → List ℕ
  clean : List (V3 K) → List (ℤ × Cell) → List (V3 K) × (ℕ → ℕ)

/-- What the loop over the items needs of the kind of mesh that is stacked: labels, the mesh with another "CellGroup"
array, the extrusion between two meshes, and the transition between two meshes. -/
structure UKit (K τ ρ : Type _) where
  labels : Surf K τ → LMesh
  withGroup : Surf K τ → List Int → Surf K τ
  extrude : Surf K τ → Surf K τ → ρ → Py (UMesh K)
  transition : Surf K τ → Surf K τ → Py (UMesh K)

section
variable {K τ ρ : Type _}

/-- `pv.UnstructuredGrid(cells, celltypes, points)` (`_helpers.py:436`): VTK reads the flat array of the cells. -/
def readVolume (v : VolumeOut K ℤ) : Py (UMesh K) :=
  match readCells (· == 42) v.celltypes v.cells with
  | none => .error .valueError
  | some cs => .ok ⟨v.points, v.celltypes.zip cs, v.cellData⟩

/-- One mesh appended to another one (`pv.merge` with `merge_points=False`, that is `vtkAppendFilter`): the arrays
that both have are kept. -/
def append2 (a b : UMesh K) : UMesh K where
  points := a.points ++ b.points
  cells := a.cells ++ b.cells.map fun c => (c.1, renumber (a.points.length + ·) c.2)
  cellData := a.cellData.filterMap fun kv =>
    (Dict.get? b.cellData kv.1).map fun w => (kv.1, ⟨kv.2.vector, kv.2.vals ++ w.vals⟩)

/-- `pv.merge` of several meshes. -/
def appendAll (a : UMesh K) (rest : List (UMesh K)) : UMesh K := rest.foldl append2 a

/-- `utils/_misc.py:915-916`, 985-988 `merge` of meshes that are not all structured grids. -/
def mergeU (o : VtkOracle K) (qs : List (UMesh K)) : Py (UMesh K) :=
  match qs with
  | [] => .error .indexError
  | [q] => .ok q
  | q :: q' :: rest =>
    match (o.order (rest.length + 2)).filterMap fun k => (q :: q' :: rest)[k]? with
    | [] => .error .valueError
    | p :: ps => .ok (appendAll p ps)

/-- `_base.py:488` `ColumnId` of a transition (`nA = none`), 493-495 of the others. -/
def columnsU (nA : Option ℕ) (nB nsub : ℕ) : List ℤ :=
  match nA with
  | none => List.replicate nB (-1)
  | some n => columnIds n nsub

/-- `_base.py:487` and 492, `extrude.py:182`: number of layers of a submesh. -/
def sublayersU (nA : Option ℕ) (nB : ℕ) : ℕ :=
  match nA with
  | none => 1
  | some n => nB / n

/-- `_base.py:487-500`, `extrude.py:182-189`: the three arrays of a submesh, `nA` is the number of cells of `mesh_a`
(`none` for a transition, which is one layer).  Returns the submesh and the number of its layers. -/
def labelU (key : String) (nA : Option ℕ) (nLayers i : ℕ) (p : UMesh K) : Py (UMesh K × ℕ) :=
  let nB := p.cells.length
  if nA = some 0 then .error .zeroDivision
  else
    let nsub := sublayersU nA nB
    match setArray nB p.cellData "ColumnId" ⟨false, columnsU nA nB nsub⟩ with
    | .error e => .error e
    | .ok cd =>
      match setArray nB cd "LayerId" ⟨false, layerIds nsub nLayers (nA.getD nB)⟩ with
      | .error e => .error e
      | .ok cd =>
        match setArray nB cd key ⟨false, itemIds nB i⟩ with
        | .error e => .error e
        | .ok cd => .ok ({ p with cellData := cd }, nsub)

/-- A surface, the options of its item (`none` for the first one), and whether it is a transition. -/
structure TItem (K τ ρ : Type _) where
  mesh : Surf K τ
  opts : Option (Opts ρ)
  transition : Bool

/-- `stack.py:95-104` `_transition` with the mesh of the transition given: its cells get the groups of the item. -/
def groupTransition (ignore : List String) (dflt : String) (group : GroupArg) (groups : Dict String Int) (p : UMesh K) :
    Py (UMesh K × Dict String Int) :=
  match initGroupArray ignore dflt ⟨p.cells.length, groupCodes p.cellData, none⟩ groups group none with
  | .error e => .error e
  | .ok (arr, groups) =>
    match setArray p.cells.length p.cellData "CellGroup" ⟨false, arr⟩ with
    | .error e => .error e
    | .ok cd => .ok ({ p with cellData := cd }, groups)

/-- `_base.py:480-491`, `extrude.py:173-180`: the submesh between two items, and the group table. -/
def submeshU (kit : UKit K τ ρ) (ignore : List String) (dflt : String) (a b : TItem K τ ρ) (opts : Opts ρ)
    (groups : Dict String Int) : Py (UMesh K × Dict String Int) :=
  match initGroupArray ignore dflt (kit.labels a.mesh) groups opts.group none with
  | .error e => .error e
  | .ok (arr, groups) =>
    if b.transition then
      match kit.transition (kit.withGroup a.mesh arr) b.mesh with
      | .error e => .error e
      | .ok p => groupTransition ignore dflt opts.group groups p
    else
      match kit.extrude (kit.withGroup a.mesh arr) b.mesh opts.sub with
      | .error e => .error e
      | .ok p => .ok (p, groups)

/-- `_base.py:475-502`, `extrude.py:168-191`: the loop over pairs of items. -/
def submeshesU (kit : UKit K τ ρ) (ignore : List String) (dflt key : String) :
    TItem K τ ρ → List (TItem K τ ρ) → Dict String Int → ℕ → ℕ → Py (List (UMesh K) × Dict String Int)
  | _, [], groups, _, _ => .ok ([], groups)
  | a, b :: rest, groups, nLayers, i =>
    match b.opts with
    | none => .error .typeError
    | some opts =>
      match submeshU kit ignore dflt a b opts groups with
      | .error e => .error e
      | .ok (p, groups) =>
        match labelU key (if b.transition then none else some (kit.labels a.mesh).nCells) nLayers i p with
        | .error e => .error e
        | .ok (q, nsub) =>
          match submeshesU kit ignore dflt key b rest groups (nLayers + nsub) (i + 1) with
          | .error e => .error e
          | .ok (qs, groups) => .ok (q :: qs, groups)

/-- `_base.py:201-230` `_clean` on an unstructured grid with its group table. -/
def cleanU (o : VtkOracle K) (m : UMesh K) (table : Dict String Int) : Py (UMesh K × Dict String Int) :=
  let c := o.clean m.points m.cells
  let m : UMesh K := ⟨c.1, m.cells.map fun x => (x.1, renumber c.2 x.2), dropGhost m.cellData⟩
  match Dict.get? m.cellData "CellGroup" with
  | none => .ok (m, table)
  | some g =>
    match cleanGroups g.vals table with
    | .error e => .error e
    | .ok (data, table) => .ok ({ m with cellData := Dict.set m.cellData "CellGroup" ⟨g.vector, data⟩ }, table)

/-- `_base.py:475-511`, `extrude.py:161-205`: submeshes, merge, clean.  Returns the mesh and `user_dict["CellGroup"]`. -/
def assembleU (kit : UKit K τ ρ) (o : VtkOracle K) (ignore : List String) (dflt key : String) :
    List (TItem K τ ρ) → Py (UMesh K × Dict String Int)
  | a :: b :: rest =>
    match submeshesU kit ignore dflt key a (b :: rest) [] 0 0 with
    | .error e => .error e
    | .ok (qs, groups) =>
      match mergeU o qs with
      | .error e => .error e
      | .ok m => cleanU o m groups
  | _ => .error .valueError

end

section
variable {K τ ρ : Type _} [Field K] [LinearOrder K]

/-- `_base.py:434-511` `_generate_mesh` when at least one submesh is an unstructured grid. -/
def Stack.generateU (kit : UKit K τ ρ) (vtk : VtkOracle K) (ignore : List String) (dflt : String)
    (s : Stack K τ (Opts ρ)) : Py ((UMesh K × Dict String Int) × Stack K τ (Opts ρ)) :=
  s.generate fun items => assembleU kit vtk ignore dflt "StackItem"
    (items.map fun it => ⟨it.mesh, it.opts, it.transition⟩)

/-- An unstructured surface without its points: cells, data, group table. -/
structure UTopo where
  cells : List (ℕ × List ℕ)
  pointData : Dict String (DArr ℤ)
  cellData : Dict String (DArr ℤ)
  table : Option (Dict String Int)

/-- The surface with these points. -/
def surfU (s : Surf K UTopo) : UGrid K ℤ := ⟨s.points, s.topo.cells, s.topo.pointData, s.topo.cellData⟩

/-- Unstructured surfaces; `sub` makes the volume between two surfaces.  There is no transition between surfaces
(`stack.py:267-269`). -/
def surfKit (sub : UGrid K ℤ → UGrid K ℤ → ρ → Py (VolumeOut K ℤ × List (ℕ × List ℕ))) : UKit K UTopo ρ where
  labels s := ⟨s.topo.cells.length, groupCodes s.topo.cellData, s.topo.table⟩
  withGroup s arr := ⟨s.points, { s.topo with cellData := Dict.set s.topo.cellData "CellGroup" ⟨false, arr⟩ }⟩
  extrude a b r :=
    match sub (surfU a) (surfU b) r with
    | .error e => .error e
    | .ok v => readVolume v.1
  transition _ _ := .error .notImplemented

end

/-- `stack.py:226-261` `MeshStack3D.generate_mesh` on unstructured surfaces. -/
noncomputable def stack3DU (vtk : VtkOracle ℝ) (invert : Bool) (ignore : List String) (dflt : String)
    (s : Stack ℝ UTopo (Opts (Resolution ℝ × Option String))) :
    Py ((UMesh ℝ × Dict String Int) × Stack ℝ UTopo (Opts (Resolution ℝ × Option String))) :=
  s.generateU (surfKit fun a b r => generateVolumeU invert a b r.1 r.2) vtk ignore dflt

/-- `extrude.py:144-205` `MeshExtrude.generate_mesh` on unstructured surfaces. -/
noncomputable def extrudeU (vtk : VtkOracle ℝ) (ignore : List String) (dflt : String)
    (e : Extr ℝ UTopo (Opts (Resolution ℝ × Option String))) : Py (UMesh ℝ × Dict String Int) :=
  assembleU (surfKit fun a b r => generateVolumeU true a b r.1 r.2) vtk ignore dflt "ExtrudeItem"
    (e.items.map fun it => ⟨it.1, it.2, false⟩)

end Gridder
