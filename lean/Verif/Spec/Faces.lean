import Mathlib.Data.Finset.Dedup
import Mathlib.Data.List.Basic

/-! # Specification of faces shared by cells

A mesh is given by the list of faces (node lists) of each of its cells. -/

namespace Gridder.Spec

/-- Two faces (or edges) are the same when they have the same nodes. -/
def sameNodes (c c' : List ℕ) : Bool := decide (c.toFinset = c'.toFinset)

/-- The cells having face `c`, in increasing order, each as often as it has it. -/
def owners (cells : List (List (List ℕ))) (c : List ℕ) : List ℕ :=
  cells.zipIdx.flatMap fun x => List.replicate (x.1.countP fun c' => sameNodes c' c) x.2

/-- No cell has the same face twice. -/
def NoRepeatedFace (cells : List (List (List ℕ))) : Prop :=
  ∀ fs ∈ cells, fs.Pairwise fun c c' => sameNodes c c' = false

/-- Cells `i` and `j` are different and both have a face with the nodes of `c`. -/
def Share (cells : List (List (List ℕ))) (i j : ℕ) (c : List ℕ) : Prop :=
  i ≠ j ∧ (∃ fs, cells[i]? = some fs ∧ ∃ f ∈ fs, sameNodes f c) ∧
    ∃ fs, cells[j]? = some fs ∧ ∃ f ∈ fs, sameNodes f c

end Gridder.Spec
