import Verif.Model.Stack
import Verif.Model.Rdp
import Verif.Model.Shapes

/-!
# Planes in stacks

Models `MeshStack3D.add_plane` (`pvgridder/core/stack.py` 183-224).
-/

namespace Gridder

/-- `Rotation.from_rotvec(v).apply(p, inverse=True)`: Rodrigues' formula for the rotation about `v` by minus its
length. -/
noncomputable def rotateBack (v p : V3 ℝ) : V3 ℝ :=
  let θ := norm3 v
  if θ = 0 then p
  else
    let k := fun ax => v ax / θ
    fun ax => Real.cos θ * p ax - Real.sin θ * cross k p ax + (1 - Real.cos θ) * dot3 k p * k ax

/-- The angles as the caller gives them: a list or tuple, which `np.asanyarray` copies, or an array, which it does
not. -/
inductive AngleArg
  | seq (v : V3 ℝ)
  | array (v : V3 ℝ)

/-- The numbers given. -/
def AngleArg.val : AngleArg → V3 ℝ
  | .seq v => v
  | .array v => v

/-- `stack.py:216-222`: the height of the plane at a point (`func`), for `angles` in degrees. -/
noncomputable def planeHeight (axis : Fin 3) (angles point : V3 ℝ) (p : V3 ℝ) : ℝ :=
  rotateBack (fun ax => Real.pi / 180 * angles ax) (Function.update (p - point) axis 0) axis + point axis

/-- `stack.py:183-224` `add_plane`.  Returns the stack and the caller's angles after the call. -/
noncomputable def addPlane {τ ω : Type _} (o : InterpOracle ℝ) (s : Stack ℝ τ ω) (angles : AngleArg) (point : V3 ℝ)
    (extrapolation : Option String) (opts : ω) (priority : Int) (thickness : ℝ) :
    Py (Stack ℝ τ ω × AngleArg) :=
  let zeroed := Function.update angles.val s.axis 0
  let after := match angles with
    | .seq v => .seq v
    | .array _ => .array zeroed
  match s.add o (.callable fun pts => .ok (.inr (pts.map (planeHeight s.axis zeroed point)))) extrapolation opts
      priority thickness with
  | .error e => .error e
  | .ok s => .ok (s, after)

end Gridder
