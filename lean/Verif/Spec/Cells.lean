import Mathlib.Data.List.Rotate

/-! # Specification of unstructured cells

How VTK reads the flat cell array of an unstructured grid, what a prism over a polygon is, and what
it means for a polyhedron to be closed and consistently oriented. -/

namespace Gridder.Spec

/-- A cell: a list of nodes, or (VTK type 42) a list of faces. -/
inductive Cell
  | nodes (ids : List ℕ)
  | polyhedron (faces : List (List ℕ))
  deriving DecidableEq, Repr

/-- Read a count followed by that many entries. -/
def readBlock : List ℕ → Option (List ℕ × List ℕ)
  | [] => none
  | n :: rest => if n ≤ rest.length then some (rest.take n, rest.drop n) else none

/-- Read `n` faces, each a count followed by its nodes. -/
def readFaces : ℕ → List ℕ → Option (List (List ℕ) × List ℕ)
  | 0, rest => some ([], rest)
  | n + 1, l =>
    match readBlock l with
    | none => none
    | some (f, rest) =>
      match readFaces n rest with
      | none => none
      | some (fs, rest) => some (f :: fs, rest)

/-- Read one cell of the given type: a count, then that many entries; for a polyhedron these are the
number of faces and the faces. -/
def readCell (polyhedron : Bool) (l : List ℕ) : Option (Cell × List ℕ) :=
  match readBlock l with
  | none => none
  | some (body, rest) =>
    if polyhedron then
      match body with
      | [] => none
      | n :: stream =>
        match readFaces n stream with
        | some (fs, []) => some (.polyhedron fs, rest)
        | _ => none
    else some (.nodes body, rest)

/-- Read the whole array, one cell per type; nothing may be left over. -/
def readCells {τ : Type*} (isPolyhedron : τ → Bool) : List τ → List ℕ → Option (List Cell)
  | [], [] => some []
  | [], _ :: _ => none
  | t :: ts, l =>
    match readCell (isPolyhedron t) l with
    | none => none
    | some (c, rest) =>
      match readCells isPolyhedron ts rest with
      | none => none
      | some cs => some (c :: cs)

/-- All node numbers moved to another copy of the points. -/
def shift (k : ℕ) (ids : List ℕ) : List ℕ := ids.map (k + ·)

/-- Directed edges of a face. -/
def edges (f : List ℕ) : List (ℕ × ℕ) := f.zip (f.rotate 1)

/-- A closed, consistently oriented surface: each directed edge is in one face only, and reversed in
one face only, another one. -/
def ClosedOriented (faces : List (List ℕ)) : Prop :=
  ∀ u v, (u, v) ∈ faces.flatMap edges →
    (faces.flatMap edges).count (u, v) = 1 ∧ (faces.flatMap edges).count (v, u) = 1 ∧
    ∀ f ∈ faces, (u, v) ∈ edges f → (v, u) ∉ edges f

/-- A closed surface without orientation: each edge belongs to exactly two faces (counting both
directions). -/
def Closed (faces : List (List ℕ)) : Prop :=
  ∀ u v, (u, v) ∈ faces.flatMap edges →
    (faces.flatMap edges).count (u, v) + (faces.flatMap edges).count (v, u) = 2

/-- Faces of the prism over the polygon `f` between the copies of the points starting at `a` and `b`:
the bottom, the top (reversed if `flip`), and one quadrilateral per edge. -/
def prismFaces (flip : Bool) (a b : ℕ) (f : List ℕ) : List (List ℕ) :=
  shift a f :: shift b (if flip then f.reverse else f) ::
    (edges f).map fun e => [b + e.1, b + e.2, a + e.2, a + e.1]

/-- Node numbers used by a cell. -/
def Cell.ids : Cell → List ℕ
  | .nodes ids => ids
  | .polyhedron faces => faces.flatten

/-- `cell`, of VTK type `t'`, is the prism of layer `k` over the base cell of VTK type `t` with nodes
`conn`, when each layer has `N` points: triangle (5) to wedge (13), quad (9) and pixel (8, nodes in
another order) to hexahedron (12), polygon (7) to polyhedron (42), whose base may run the other
way round. -/
def PrismOver (flip : Bool) (N k t : ℕ) (conn : List ℕ) (t' : ℤ) (cell : Cell) : Prop :=
  ((t = 5 ∧ t' = 13 ∨ t = 9 ∧ t' = 12) ∧
    cell = .nodes (shift (k * N) conn ++ shift ((k + 1) * N) conn)) ∨
  (t = 8 ∧ t' = 12 ∧ ∃ a b c d, conn = [a, b, c, d] ∧
    cell = .nodes (shift (k * N) [a, b, d, c] ++ shift ((k + 1) * N) [a, b, d, c])) ∨
  (t = 7 ∧ t' = 42 ∧ ∃ f, (f = conn ∨ (flip = true ∧ f = conn.reverse)) ∧
    cell = .polyhedron (prismFaces flip (k * N) ((k + 1) * N) f))

end Gridder.Spec
