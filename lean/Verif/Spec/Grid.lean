import Mathlib.Data.Fin.VecNotation

/-! # Specification of structured grids -/

namespace Gridder.Spec

/-- VTK numbering of the nodes (or cells) of a structured grid of shape `d`: x fastest. -/
def vtkId (d i : Fin 3 → ℕ) : ℕ := i 0 + d 0 * i 1 + d 0 * d 1 * i 2

/-- `i` is an index of an array of shape `d`. -/
def InShape (d i : Fin 3 → ℕ) : Prop := ∀ ax, i ax < d ax

/-- Number of nodes (cells) of a grid with that many along each axis. -/
def count (d : Fin 3 → ℕ) : ℕ := d 0 * d 1 * d 2

/-- Number of cells along each axis. -/
def cells (d : Fin 3 → ℕ) : Fin 3 → ℕ := fun ax => if d ax ≤ 1 then 1 else d ax - 1

/-- The axes of the line direction and of the subdivision direction for each plane option. -/
def lineAxis : String → Fin 3
  | "xy" => 0 | "xz" => 0 | "yx" => 1 | "yz" => 1 | "zx" => 2 | "zy" => 2 | _ => 0

def subdivisionAxis : String → Fin 3
  | "yx" => 0 | "zx" => 0 | "xy" => 1 | "zy" => 1 | "xz" => 2 | "yz" => 2 | _ => 0

def isPlane (s : String) : Prop :=
  s = "xy" ∨ s = "yx" ∨ s = "xz" ∨ s = "zx" ∨ s = "yz" ∨ s = "zy"

/-- Shape with `p` entries along the line, `s` along the subdivision, 1 along the third axis. -/
def planeShape (plane : String) (p s : ℕ) : Fin 3 → ℕ := fun ax =>
  if ax = lineAxis plane then p else if ax = subdivisionAxis plane then s else 1

/-- Index of entry `p` along the line and `s` along the subdivision. -/
def planeIx (plane : String) (p s : ℕ) : Fin 3 → ℕ := fun ax =>
  if ax = lineAxis plane then p else if ax = subdivisionAxis plane then s else 0

/-- The point at fraction `t` from `a` to `b`. -/
def between {K : Type*} [Add K] [Mul K] [Sub K] [One K] (t : K) (a b : Fin 3 → K) : Fin 3 → K :=
  fun ax => (1 - t) * a ax + t * b ax

end Gridder.Spec
