import Verif.Model.Structured

/-!
# Layer, column and item ids

Models `pvgridder/core/_base.py` 475-502 (`_generate_mesh`, submesh loop) and
`pvgridder/core/extrude.py` 166-205 (`generate_mesh`).
-/

namespace Gridder

/-- `np.tile(np.arange(nA), nsub)` (`_base.py:492-494`, `extrude.py:179-181`). -/
def columnIds (nA nsub : Nat) : List ℤ :=
  (List.replicate nsub ((List.range nA).map fun c : Nat => (c : ℤ))).flatten

/-- `np.repeat(np.arange(nsub) + n_layers, repeats)` (`_base.py:496-498`, `extrude.py:182-184`). -/
def layerIds (nsub nLayers repeats : Nat) : List ℤ :=
  ((List.range nsub).map fun s : Nat => List.replicate repeats ((s + nLayers : Nat) : ℤ)).flatten

/-- `np.full(n_cells, i)` (`_base.py:499`, `extrude.py:185`). -/
def itemIds (n i : Nat) : List ℤ := List.replicate n (i : ℤ)

/-- The cells of one submesh with the three ids (`_base.py:483-501`).  `nA` is `mesh_a.n_cells`
(`none` for a transition item); returns the rows and `nsub`. -/
def labelCells {γ : Type _} (nA : Option Nat) (nLayers i : Nat) (cells : List γ) :
    List (γ × ℤ × ℤ × ℤ) × Nat :=
  match nA with
  | none =>
    (cells.zip ((layerIds 1 nLayers cells.length).zip
      ((List.replicate cells.length (-1 : ℤ)).zip (itemIds cells.length i))), 1)
  | some nA =>
    let nsub := cells.length / nA
    (cells.zip ((layerIds nsub nLayers nA).zip
      ((columnIds nA nsub).zip (itemIds cells.length i))), nsub)

/-- `_base.py:479-502`, `extrude.py:170-187`: the loop over pairs of items; `i` is the item number
and `nLayers` the running number of layers. -/
def labelLoop {γ : Type _} : List (Option Nat × List γ) → Nat → Nat → List (List (γ × ℤ × ℤ × ℤ))
  | [], _, _ => []
  | (nA, cells) :: rest, nLayers, i =>
    let (rows, nsub) := labelCells nA nLayers i cells
    rows :: labelLoop rest (nLayers + nsub) (i + 1)

/-- The same for a structured submesh: the three arrays are written into its cell data; `key` is
"StackItem" or "ExtrudeItem". -/
def labelGrid {K : Type _} (key : String) (nA nLayers i : Nat) (p : SGrid K ℤ) :
    Py (SGrid K ℤ × Nat) :=
  let nB := sizeOfShape (cellShape p.nodes.d)
  let nsub := nB / nA
  match setArray nB p.cellData "ColumnId" ⟨false, columnIds nA nsub⟩ with
  | .error e => .error e
  | .ok cd =>
    match setArray nB cd "LayerId" ⟨false, layerIds nsub nLayers nA⟩ with
    | .error e => .error e
    | .ok cd =>
      match setArray nB cd key ⟨false, itemIds nB i⟩ with
      | .error e => .error e
      | .ok cd => .ok ({ p with cellData := cd }, nsub)

/-- The loop for structured submeshes. -/
def labelGrids {K : Type _} (key : String) (nA : Nat) :
    List (SGrid K ℤ) → Nat → Nat → Py (List (SGrid K ℤ))
  | [], _, _ => .ok []
  | p :: rest, nLayers, i =>
    match labelGrid key nA nLayers i p with
    | .error e => .error e
    | .ok (q, nsub) =>
      match labelGrids key nA rest (nLayers + nsub) (i + 1) with
      | .error e => .error e
      | .ok qs => .ok (q :: qs)

/-- Label the submeshes and merge them (`_base.py:475-505`, `extrude.py:166-202`). -/
def labelAndMerge {K : Type _} [Field K] [LinearOrder K] (key : String) (nA : Nat) (axis : Fin 3)
    (pieces : List (SGrid K ℤ)) : Py (SGrid K ℤ) :=
  match labelGrids key nA pieces 0 0 with
  | .error e => .error e
  | .ok qs => mergeStructured (some axis) qs

end Gridder
