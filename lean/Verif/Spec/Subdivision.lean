import Mathlib.Analysis.SpecialFunctions.Log.Base

/-! # Specification of subdivisions -/

namespace Gridder.Spec

/-- The documented methods (`none` and the empty string mean `constant`). -/
def methodName : Option String → String
  | none => "constant"
  | some "" => "constant"
  | some s => s

/-- A method accepted with an integer resolution. -/
def Supported (m : Option String) : Prop :=
  methodName m = "constant" ∨ methodName m = "log" ∨ methodName m = "log_r"

/-- A subdivision of [0,1] into `n` parts: from 0 to 1, strictly increasing. -/
structure Subdivision (n : ℕ) (p : List ℝ) : Prop where
  size : p.length = n + 1
  first : p[0]? = some 0
  last : p[n]? = some 1
  increasing : p.Pairwise (· < ·)

/-- Length of the `i`-th part. -/
noncomputable def part (p : List ℝ) (i : ℕ) : ℝ := p.getD (i + 1) 0 - p.getD i 0

end Gridder.Spec
