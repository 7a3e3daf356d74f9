import Mathlib.Tactic.LinearCombination
import Verif.Model.AddPlane
import Verif.Props.StackMesh

/-!
# C101, C102: `add_plane`
-/

namespace Gridder
open Spec

namespace Spec

/-- The unit vector along an axis. -/
def axisDir (axis : Fin 3) : V3 ℝ := fun ax => if ax = axis then 1 else 0

/-- In radians, the in-plane part of the angles (the rotation about the stacking axis leaves the plane alone). -/
noncomputable def tiltVector (axis : Fin 3) (angles : V3 ℝ) : V3 ℝ := fun ax =>
  if ax = axis then 0 else Real.pi / 180 * angles ax

/-- The stacking direction rotated by the vector `v` perpendicular to it: about `v`, by its length. -/
noncomputable def tilted (axis : Fin 3) (v : V3 ℝ) : V3 ℝ := fun ax =>
  Real.cos (norm3 v) * axisDir axis ax + Real.sin (norm3 v) / norm3 v * cross v (axisDir axis) ax

/-- The plane through `point` with the given normal contains `p`. -/
def onPlane (normal point p : V3 ℝ) : Prop := dot3 normal (p - point) = 0

end Spec

theorem assignCoord_map {axis : Fin 3} (pts : List (V3 ℝ)) (f : V3 ℝ → ℝ) :
    assignCoord axis pts (pts.map f) = .ok (pts.map fun p => Function.update p axis (f p)) := by
  simp only [assignCoord, List.length_map, if_true, setCoord, Except.ok.injEq]
  induction pts with
  | nil => rfl
  | cons a l ih => simp [ih]

/-- What `add_plane` adds. -/
theorem addPlane_item {τ ω : Type _} (o : InterpOracle ℝ) (s : Stack ℝ τ ω) (angles : AngleArg) (point : V3 ℝ)
    (ex : Option String) (opts : ω) (priority : Int) (thickness : ℝ) :
    ∃ s' it after, addPlane o s angles point ex opts priority thickness = .ok (s', after) ∧
      s'.items = s.items ++ [it] ∧ s'.mesh = s.mesh ∧ it.mesh.topo = s.mesh.topo ∧
      it.mesh.points = s.mesh.points.map fun p =>
        Function.update p s.axis (planeHeight s.axis (Function.update angles.val s.axis 0) point p) := by
  simp only [addPlane, Stack.add, newMesh, assignCoord_map]
  exact ⟨_, _, _, rfl, rfl, rfl, by split <;> rfl, by split <;> rfl⟩

theorem tilt_norm_sq (v : V3 ℝ) : norm3 v ^ 2 = dot3 v v := by
  rw [norm3, Real.sq_sqrt]
  simp only [dot3]; nlinarith [sq_nonneg (v 0), sq_nonneg (v 1), sq_nonneg (v 2)]

theorem tilt_norm_zero {v : V3 ℝ} (h : norm3 v = 0) : v = 0 := by
  have h2 := tilt_norm_sq v
  rw [h] at h2
  simp only [dot3] at h2
  funext ax
  fin_cases ax <;> simp <;> nlinarith [sq_nonneg (v 0), sq_nonneg (v 1), sq_nonneg (v 2)]

/-- The slope of the plane. -/
noncomputable def planeSlope (axis : Fin 3) (v : V3 ℝ) : V3 ℝ := fun ax =>
  Real.sin (norm3 v) / norm3 v * cross v (axisDir axis) ax

theorem planeSlope_axis (axis : Fin 3) (v : V3 ℝ) : planeSlope axis v axis = 0 := by
  fin_cases axis <;> simp [planeSlope, cross, axisDir]

theorem planeSlope_perp (axis : Fin 3) (v : V3 ℝ) : dot3 (planeSlope axis v) v = 0 := by
  fin_cases axis <;> simp [planeSlope, cross, axisDir, dot3] <;> ring

theorem planeSlope_sq {axis : Fin 3} {v : V3 ℝ} (hv : v axis = 0) :
    dot3 (planeSlope axis v) (planeSlope axis v) = Real.sin (norm3 v) ^ 2 := by
  by_cases h : norm3 v = 0
  · simp [planeSlope, dot3, h]
  · have h2 := tilt_norm_sq v
    have : dot3 (cross v (axisDir axis)) (cross v (axisDir axis)) = norm3 v ^ 2 := by
      rw [h2]
      fin_cases axis <;> simp at hv <;> simp [cross, axisDir, dot3, hv] <;> ring
    have e : dot3 (planeSlope axis v) (planeSlope axis v) =
        (Real.sin (norm3 v) / norm3 v) ^ 2 * dot3 (cross v (axisDir axis)) (cross v (axisDir axis)) := by
      simp only [planeSlope, dot3]; ring
    rw [e, this]
    field_simp

theorem planeHeight_eq (axis : Fin 3) (angles point p : V3 ℝ) :
    planeHeight axis (Function.update angles axis 0) point p =
      point axis + dot3 (planeSlope axis (tiltVector axis angles)) (p - point) := by
  have hv : (fun ax => Real.pi / 180 * Function.update angles axis 0 ax) = tiltVector axis angles := by
    funext ax
    by_cases h : ax = axis <;> simp [tiltVector, Function.update_apply, h]
  have h0 : tiltVector axis angles axis = 0 := by simp [tiltVector]
  rw [planeHeight, hv]
  generalize tiltVector axis angles = v at h0
  by_cases h : norm3 v = 0
  · simp [rotateBack, h, planeSlope, dot3]
  · simp only [rotateBack, h, if_false]
    fin_cases axis <;> simp at h0 <;> simp [planeSlope, dot3, cross, axisDir, h0] <;> ring

/-- **C101** (part).  `add_plane` succeeds and adds one item, on the base mesh; over the given point the item passes
through that point; the heights are affine in the horizontal offset from the point, with a slope perpendicular to the
rotation axis and of length the sine of the rotation angle (in particular horizontal for a rotation by zero), rising towards the vector product of the rotation
vector and the stacking direction.
Missing from the full claim: the item is the plane rotated by the requested angle — its slope would have to be the
tangent of the angle, see `C101_sine_slope_refuted`. -/
theorem C101_plane_partial {τ ω : Type _} (o : InterpOracle ℝ) (s : Stack ℝ τ ω) (angles : AngleArg)
    (point : V3 ℝ) (ex : Option String) (opts : ω) (priority : Int) (thickness : ℝ) :
    ∃ s' it after slope, addPlane o s angles point ex opts priority thickness = .ok (s', after) ∧
      s'.items = s.items ++ [it] ∧ s'.mesh = s.mesh ∧ it.mesh.topo = s.mesh.topo ∧
      it.mesh.points.length = s.mesh.points.length ∧
      slope s.axis = 0 ∧ dot3 slope (tiltVector s.axis angles.val) = 0 ∧
      dot3 slope slope = Real.sin (norm3 (tiltVector s.axis angles.val)) ^ 2 ∧
      (∀ ax, norm3 (tiltVector s.axis angles.val) * slope ax = Real.sin (norm3 (tiltVector s.axis angles.val)) *
        cross (tiltVector s.axis angles.val) (axisDir s.axis) ax) ∧
      ∀ (j : ℕ) p q, s.mesh.points[j]? = some p → it.mesh.points[j]? = some q →
        (∀ ax, ax ≠ s.axis → q ax = p ax) ∧ q s.axis = point s.axis + dot3 slope (p - point) ∧
        ((∀ ax, ax ≠ s.axis → p ax = point ax) → q = point) := by
  obtain ⟨s', it, after, h1, h2, h3, h4, h5⟩ := addPlane_item o s angles point ex opts priority thickness
  refine ⟨s', it, after, planeSlope s.axis (tiltVector s.axis angles.val), h1, h2, h3, h4, by rw [h5, List.length_map],
    planeSlope_axis _ _, planeSlope_perp _ _, planeSlope_sq (by simp [tiltVector]), fun ax => ?_, ?_⟩
  · by_cases h : norm3 (tiltVector s.axis angles.val) = 0
    · simp [h]
    · simp only [planeSlope]
      field_simp
  intro j p q hp hq
  rw [h5, List.getElem?_map, hp] at hq
  simp only [Option.map_some, Option.some.injEq] at hq
  subst hq
  refine ⟨fun ax hax => by rw [Function.update_of_ne hax], by rw [Function.update_self, planeHeight_eq], ?_⟩
  intro hpt
  funext ax
  by_cases hax : ax = s.axis
  · subst hax
    rw [Function.update_self, planeHeight_eq]
    have h0 := planeSlope_axis s.axis (tiltVector s.axis angles.val)
    generalize planeSlope s.axis (tiltVector s.axis angles.val) = g at h0
    have hz : ∀ ax, g ax * (p - point) ax = 0 := by
      intro ax
      by_cases hax : ax = s.axis
      · rw [hax, h0, zero_mul]
      · rw [Pi.sub_apply, hpt ax hax, sub_self, mul_zero]
    simp only [dot3, hz, add_zero]
  · rw [Function.update_of_ne hax, hpt ax hax]

/-- The node of the item over `p`, off the height of `point`, is on neither of the two planes through `point` that
are rotated by the angle. -/
theorem off_plane (axis : Fin 3) (angles point p : V3 ℝ)
    (h : dot3 (planeSlope axis (tiltVector axis angles)) (p - point) ≠ 0) (sign : ℝ) (hs : sign = 1 ∨ sign = -1) :
    ¬ onPlane (tilted axis fun ax => sign * tiltVector axis angles ax) point
      (Function.update p axis (planeHeight axis (Function.update angles axis 0) point p)) := by
  rw [planeHeight_eq]
  have h0 : tiltVector axis angles axis = 0 := by simp [tiltVector]
  generalize tiltVector axis angles = v at h h0
  have hn : norm3 (fun ax => sign * v ax) = norm3 v := by
    simp only [norm3, dot3]
    congr 1
    rcases hs with rfl | rfl <;> ring
  set D := dot3 (planeSlope axis v) (p - point) with hD
  have key : dot3 (tilted axis fun ax => sign * v ax) (Function.update p axis (point axis + D) - point) =
      (Real.cos (norm3 v) + sign) * D := by
    have hx := planeSlope_axis axis v
    have : ∀ ax, tilted axis (fun ax => sign * v ax) ax =
        Real.cos (norm3 v) * axisDir axis ax + sign * planeSlope axis v ax := by
      intro ax
      simp only [tilted, hn, planeSlope]
      fin_cases ax <;> simp [cross] <;> ring
    simp only [dot3, this]
    rw [hD]
    generalize planeSlope axis v = g at hx
    fin_cases axis <;> simp at hx <;> simp [axisDir, dot3, hx] <;> ring
  unfold onPlane
  rw [key]
  refine mul_ne_zero ?_ h
  intro hc
  have hsin : Real.sin (norm3 v) = 0 := by
    have h1 := Real.sin_sq_add_cos_sq (norm3 v)
    have h2 : Real.cos (norm3 v) = -sign := by linarith
    rw [h2] at h1
    have h3 : Real.sin (norm3 v) ^ 2 = 0 := by rcases hs with rfl | rfl <;> nlinarith
    exact pow_eq_zero_iff (two_ne_zero) |>.1 h3
  apply h
  rw [hD]
  simp [planeSlope, hsin, dot3]

/-- **C101** fails as stated: for every stack, every rotation and every node whose height differs from that of the
point given (the plane is not horizontal there), the node is not on the rotated plane, whichever way round the
rotation is read.  The code rotates the horizontal offsets and keeps the vertical component, which gives the sine of
the angle as slope instead of its tangent. -/
theorem C101_sine_slope_refuted {τ ω : Type _} (o : InterpOracle ℝ) (s : Stack ℝ τ ω) (angles : AngleArg)
    (point : V3 ℝ) (ex : Option String) (opts : ω) (priority : Int) (thickness : ℝ) (s' : Stack ℝ τ ω)
    (after : AngleArg) (h : addPlane o s angles point ex opts priority thickness = .ok (s', after))
    (it : Item ℝ τ ω) (hit : s'.items = s.items ++ [it]) (q : V3 ℝ) (hq : q ∈ it.mesh.points)
    (hne : q s.axis ≠ point s.axis) :
    ¬ onPlane (tilted s.axis (tiltVector s.axis angles.val)) point q ∧
    ¬ onPlane (tilted s.axis fun ax => - tiltVector s.axis angles.val ax) point q := by
  obtain ⟨s1, it1, after1, h1, h2, _, _, h5⟩ := addPlane_item o s angles point ex opts priority thickness
  rw [h] at h1; cases h1
  rw [hit] at h2
  obtain rfl : it = it1 := by simpa using h2
  rw [h5] at hq
  obtain ⟨p, _, rfl⟩ := List.mem_map.1 hq
  have hD : dot3 (planeSlope s.axis (tiltVector s.axis angles.val)) (p - point) ≠ 0 := by
    intro e
    rw [Function.update_self, planeHeight_eq, e, add_zero] at hne
    exact hne rfl
  exact ⟨by simpa using off_plane s.axis angles.val point p hD 1 (Or.inl rfl),
    by simpa using off_plane s.axis angles.val point p hD (-1) (Or.inr rfl)⟩

/-- The case is met: a base whose node (1, 0, 0) is lifted to 1/2 by a plane at 30 degrees about Y through the
origin. -/
example (o : InterpOracle ℝ) :
    ∃ s' it after, addPlane o (Stack.new (τ := GridTopo) (ω := Unit) ⟨[![0, 0, 0], ![1, 0, 0]], ⟨![2, 1, 1], [], [], none⟩⟩ 2 false)
      (.seq ![0, 30, 0]) ![0, 0, 0] none () 0 0 = .ok (s', after) ∧ s'.items = [it] ∧
      (![1, 0, 1 / 2] : V3 ℝ) ∈ it.mesh.points := by
  obtain ⟨s', it, after, h1, h2, _, _, h5⟩ := addPlane_item o
    (Stack.new (τ := GridTopo) (ω := Unit) ⟨[![0, 0, 0], ![1, 0, 0]], ⟨![2, 1, 1], [], [], none⟩⟩ 2 false)
    (.seq ![0, 30, 0]) ![0, 0, 0] none () 0 0
  refine ⟨s', it, after, h1, by simpa [Stack.new] using h2, ?_⟩
  rw [h5]
  refine List.mem_map.2 ⟨![1, 0, 0], by simp [Stack.new], ?_⟩
  have hv : tiltVector 2 ![0, 30, 0] = ![0, Real.pi / 6, 0] := by
    funext ax
    fin_cases ax <;> simp [tiltVector]
    ring
  have hn : norm3 ![0, Real.pi / 6, 0] = Real.pi / 6 := by
    simp only [norm3, dot3]
    simp [Real.sqrt_mul_self (by positivity : (0 : ℝ) ≤ Real.pi / 6)]
  have hpi := Real.pi_pos.ne'
  simp only [Stack.new, AngleArg.val, planeHeight_eq, hv]
  funext ax
  fin_cases ax <;> simp [dot3, planeSlope, hn, cross, axisDir]

/-- **C102** (part): angles given as a list or tuple are left as they are; an array is left as it is when its component
along the stacking axis is zero.  Missing: arrays in general, see `C102_angles_refuted`. -/
theorem C102_arguments_partial {τ ω : Type _} (o : InterpOracle ℝ) (s : Stack ℝ τ ω) (angles : AngleArg)
    (point : V3 ℝ) (ex : Option String) (opts : ω) (priority : Int) (thickness : ℝ) (s' : Stack ℝ τ ω)
    (after : AngleArg) (h : addPlane o s angles point ex opts priority thickness = .ok (s', after))
    (hk : (∃ v, angles = .seq v) ∨ angles.val s.axis = 0) : after = angles := by
  simp only [addPlane] at h
  split at h
  · cases h
  · simp only [Except.ok.injEq, Prod.mk.injEq] at h
    rw [← h.2]
    rcases hk with ⟨v, rfl⟩ | hk
    · rfl
    · cases angles with
      | seq v => rfl
      | array v =>
        simp only [AngleArg.val] at hk ⊢
        rw [← hk, Function.update_eq_self]

/-- **C102** fails for every array whose component along the stacking axis is not zero: the call sets that component
to zero in the caller's array. -/
theorem C102_angles_refuted {τ ω : Type _} (o : InterpOracle ℝ) (s : Stack ℝ τ ω) (v : V3 ℝ)
    (point : V3 ℝ) (ex : Option String) (opts : ω) (priority : Int) (thickness : ℝ) (hv : v s.axis ≠ 0) :
    ∃ s' w, addPlane o s (.array v) point ex opts priority thickness = .ok (s', .array w) ∧
      w s.axis = 0 ∧ w ≠ v ∧ ∀ ax, ax ≠ s.axis → w ax = v ax := by
  obtain ⟨s', it, after, h, _⟩ := addPlane_item o s (.array v) point ex opts priority thickness
  have h' := h
  simp only [addPlane] at h'
  split at h'
  · cases h'
  · simp only [Except.ok.injEq, Prod.mk.injEq] at h'
    refine ⟨s', Function.update v s.axis 0, by rw [h, ← h'.2]; rfl, Function.update_self .., ?_,
      fun ax hax => Function.update_of_ne hax ..⟩
    intro e
    exact hv (by rw [← e, Function.update_self])

end Gridder
