import Verif.Model.StackT

/-!
# Structured grids as `extract_cell_geometry` reads them

Models `cast_to_unstructured_grid` (`utils/_misc.py:364`) of a structured grid.
-/

namespace Gridder

/-- The nodes of a cell of a structured grid of dimension 3, in the order of VTK_HEXAHEDRON. -/
def hexNodes (d c : Ix) : List ℕ :=
  let at' : ℕ → ℕ → ℕ → ℕ := fun i j k => flatF d ![c 0 + i, c 1 + j, c 2 + k]
  [at' 0 0 0, at' 1 0 0, at' 1 1 0, at' 0 1 0, at' 0 0 1, at' 1 0 1, at' 1 1 1, at' 0 1 1]

/-- `_misc.py:359-366`: types and nodes of the cells of a structured grid of dimension 2 or 3 with `d` nodes along each axis, cells in
the order of VTK.  `hidden` are the cells that VTK hides because of `vtkGhostType`; they become empty cells (type 0).  With
`remove_ghost_cells=False`, `vtkGhostType` is dropped first (line 359) and no cell is hidden.  Simplified: hidden cells have no nodes (of
those VTK may give them the code makes no use, line 398 and 452). -/
def castCells (d : Ix) (removeGhost : Bool) (hidden : ℕ → Bool) : List (ℕ × List ℕ) :=
  (List.range (sizeOfShape (cellShape d))).map fun n =>
    if removeGhost && hidden n then (0, [])
    else if dimOfShape d = 3 then (12, hexNodes d (unflatF (cellShape d) n))
    else (9, quadIds d (unflatF (cellShape d) n))

end Gridder
