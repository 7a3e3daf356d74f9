import Verif.Props.Columns

/-!
# C135 for structured base meshes: the hexahedra of a stack fill the body between its surfaces
-/

namespace Gridder
open Spec

namespace Spec

/-- The weight of the lower or upper end at fraction `t` of the way. -/
def blend (t : ℝ) (e : Fin 2) : ℝ := if e = 0 then 1 - t else t

/-- The offsets of the corner of a cell that is `e` away from its first corner in the directions after `axis`, and `u` along
`axis`. -/
def corner (axis : Fin 3) (e : Fin 2 × Fin 2) (u : ℕ) : Fin 3 → ℕ :=
  fun ax => if ax = axis then u else if ax = axis + 1 then e.1 else e.2

/-- The points of a hexahedron of a structured grid: the trilinear interpolations of its eight corners. -/
def hexRegion (node : (Fin 3 → ℕ) → Fin 3 → ℝ) (i : Fin 3 → ℕ) : Set (Fin 3 → ℝ) :=
  {x | ∃ w : Fin 3 → ℝ, (∀ ax, 0 ≤ w ax ∧ w ax ≤ 1) ∧ x = ∑ a : Fin 2, ∑ b : Fin 2, ∑ c : Fin 2,
    (blend (w 0) a * blend (w 1) b * blend (w 2) c) • node (i + ![(a : ℕ), (b : ℕ), (c : ℕ)])}

/-- The bilinear interpolation of four corners. -/
def quadPoint (q : Fin 2 × Fin 2 → Fin 3 → ℝ) (u v : ℝ) : Fin 3 → ℝ := ∑ e, (blend u e.1 * blend v e.2) • q e

/-- The same for the values at the corners. -/
def quadValue (z : Fin 2 × Fin 2 → ℝ) (u v : ℝ) : ℝ := ∑ e, blend u e.1 * blend v e.2 * z e

/-- The bilinear patch of four corners. -/
def quadPatch (q : Fin 2 × Fin 2 → Fin 3 → ℝ) : Set (Fin 3 → ℝ) :=
  {x | ∃ u v : ℝ, 0 ≤ u ∧ u ≤ 1 ∧ 0 ≤ v ∧ v ≤ 1 ∧ x = quadPoint q u v}

/-- The points over a patch, between two heights given at its corners. -/
def quadColumn (axis : Fin 3) (q : Fin 2 × Fin 2 → Fin 3 → ℝ) (lo hi : Fin 2 × Fin 2 → ℝ) : Set (Fin 3 → ℝ) :=
  {x | ∃ u v : ℝ, 0 ≤ u ∧ u ≤ 1 ∧ 0 ≤ v ∧ v ≤ 1 ∧ ∃ h, quadValue lo u v ≤ h ∧ h ≤ quadValue hi u v ∧
    x = Function.update (quadPoint q u v) axis h}

/-- Twice the area, along `axis`, of the triangle between two vectors. -/
def crossAlong (axis : Fin 3) (p q : Fin 3 → ℝ) : ℝ := p (axis + 1) * q (axis + 2) - p (axis + 2) * q (axis + 1)

/-- Seen along the axis, the four corners are those of a convex quad: it turns the same way in each corner. -/
def ConvexAlong (axis : Fin 3) (q : Fin 2 × Fin 2 → Fin 3 → ℝ) : Prop :=
  ∃ s : ℝ, 0 < s * crossAlong axis (q (1, 0) - q (0, 0)) (q (0, 1) - q (0, 0)) ∧
    0 < s * crossAlong axis (q (1, 0) - q (0, 0)) (q (1, 1) - q (1, 0)) ∧
    0 < s * crossAlong axis (q (1, 1) - q (0, 1)) (q (0, 1) - q (0, 0)) ∧
    0 < s * crossAlong axis (q (1, 1) - q (0, 1)) (q (1, 1) - q (1, 0))

/-- `i` is the first corner of a cell of a surface of dimensions `d` that is flat along `axis`. -/
def QuadOf (d : Fin 3 → ℕ) (axis : Fin 3) (i : Fin 3 → ℕ) : Prop :=
  i axis = 0 ∧ ∀ ax, ax ≠ axis → i ax + 1 < d ax

/-- The corners of a cell of a surface. -/
def baseQuad (d : Fin 3 → ℕ) (axis : Fin 3) (points : List (Fin 3 → ℝ)) (i : Fin 3 → ℕ) (e : Fin 2 × Fin 2) : Fin 3 → ℝ :=
  points.getD (vtkId d (i + corner axis e 0)) 0

/-- The hexahedra of a grid of nodes over a surface, in `m` layers, fill the columns over the cells of the surface between the
heights `low` and `high`; over a convex cell two of them meet only in the patch between them; each lies over the patch below
it. -/
structure FillsBody (axis : Fin 3) (d : Fin 3 → ℕ) (points : List (Fin 3 → ℝ)) (low high : (Fin 3 → ℝ) → ℝ) (m : ℕ)
    (node : (Fin 3 → ℕ) → Fin 3 → ℝ) : Prop where
  fills : ∀ i, QuadOf d axis i → (⋃ L, ⋃ (_ : L < m), hexRegion node (Function.update i axis L)) =
    quadColumn axis (baseQuad d axis points i) (low ∘ baseQuad d axis points i) (high ∘ baseQuad d axis points i)
  apart : ∀ i, QuadOf d axis i → ConvexAlong axis (baseQuad d axis points i) → ∀ L L', L < L' → L' < m →
    hexRegion node (Function.update i axis L) ∩ hexRegion node (Function.update i axis L') ⊆
      quadPatch fun e => node (Function.update i axis L' + corner axis e 0)
  over : ∀ i L, QuadOf d axis i → L < m → ∀ x ∈ hexRegion node (Function.update i axis L),
    Function.update x axis 0 ∈ quadPatch fun e => Function.update (baseQuad d axis points i e) axis 0

end Spec

/-- The bilinear weights. -/
def quadWeights : Set (Fin 2 × Fin 2 → ℝ) :=
  {w | ∃ u v : ℝ, 0 ≤ u ∧ u ≤ 1 ∧ 0 ≤ v ∧ v ≤ 1 ∧ w = fun e => blend u e.1 * blend v e.2}

theorem quadWeights_simplex : quadWeights ⊆ stdSimplex ℝ (Fin 2 × Fin 2) := by
  rintro w ⟨u, v, u0, u1, v0, v1, rfl⟩
  refine ⟨?_, ?_⟩
  · rintro ⟨a, b⟩
    refine mul_nonneg ?_ ?_
    · fin_cases a <;> simp [blend] <;> linarith
    · fin_cases b <;> simp [blend] <;> linarith
  · simp [Fintype.sum_prod_type, Fin.sum_univ_two, blend]
    ring

theorem quadColumn_eq (axis : Fin 3) (q : Fin 2 × Fin 2 → V3 ℝ) (lo hi : Fin 2 × Fin 2 → ℝ) :
    column axis quadWeights q lo hi = quadColumn axis q lo hi := by
  ext x
  constructor
  · rintro ⟨_, ⟨u, v, u0, u1, v0, v1, rfl⟩, h, h1, h2, rfl⟩
    exact ⟨u, v, u0, u1, v0, v1, h, h1, h2, rfl⟩
  · rintro ⟨u, v, u0, u1, v0, v1, h, h1, h2, rfl⟩
    exact ⟨_, ⟨u, v, u0, u1, v0, v1, rfl⟩, h, h1, h2, rfl⟩

theorem quadPatch_eq (q : Fin 2 × Fin 2 → V3 ℝ) : {x | ∃ w ∈ quadWeights, x = ∑ i, w i • q i} = quadPatch q := by
  ext x
  constructor
  · rintro ⟨_, ⟨u, v, u0, u1, v0, v1, rfl⟩, rfl⟩
    exact ⟨u, v, u0, u1, v0, v1, rfl⟩
  · rintro ⟨u, v, u0, u1, v0, v1, rfl⟩
    exact ⟨_, ⟨u, v, u0, u1, v0, v1, rfl⟩, rfl⟩

theorem axes_ne : ∀ axis : Fin 3, axis + 1 ≠ axis ∧ axis + 2 ≠ axis ∧ axis + 1 ≠ axis + 2 := by decide

/-- Over a convex quad the bilinear weights are determined by the shadow. -/
theorem convex_weights {axis : Fin 3} {q : Fin 2 × Fin 2 → V3 ℝ} (hq : ConvexAlong axis q) :
    Set.InjOn (fun w : Fin 2 × Fin 2 → ℝ => ∑ i, w i • Function.update (q i) axis 0) quadWeights := by
  obtain ⟨s, h1, h2, h3, h4⟩ := hq
  rintro _ ⟨u, v, u0, u1, v0, v1, rfl⟩ _ ⟨u', v', u0', u1', v0', v1', rfl⟩ he
  obtain ⟨n1, n2, _⟩ := axes_ne axis
  have ea := congrFun he (axis + 1)
  have eb := congrFun he (axis + 2)
  simp [Fintype.sum_prod_type, Fin.sum_univ_two, blend, Function.update_of_ne n1, Function.update_of_ne n2] at ea eb
  simp only [crossAlong, Pi.sub_apply] at h1 h2 h3 h4
  generalize q (0, 0) (axis + 1) = a0 at *
  generalize q (1, 0) (axis + 1) = a1 at *
  generalize q (0, 1) (axis + 1) = a2 at *
  generalize q (1, 1) (axis + 1) = a3 at *
  generalize q (0, 0) (axis + 2) = b0 at *
  generalize q (1, 0) (axis + 2) = b1 at *
  generalize q (0, 1) (axis + 2) = b2 at *
  generalize q (1, 1) (axis + 2) = b3 at *
  -- the two sides, at the midpoints
  obtain ⟨U, hU⟩ : ∃ U, U = (u + u') / 2 := ⟨_, rfl⟩
  obtain ⟨V, hV⟩ : ∃ V, V = (v + v') / 2 := ⟨_, rfl⟩
  have U0 : 0 ≤ U := by linarith
  have U1 : 0 ≤ 1 - U := by linarith
  have V0 : 0 ≤ V := by linarith
  have V1 : 0 ≤ 1 - V := by linarith
  have fa : (u - u') * ((1 - V) * (a1 - a0) + V * (a3 - a2)) + (v - v') * ((1 - U) * (a2 - a0) + U * (a3 - a1)) = 0 := by
    rw [hU, hV]; linear_combination ea
  have fb : (u - u') * ((1 - V) * (b1 - b0) + V * (b3 - b2)) + (v - v') * ((1 - U) * (b2 - b0) + U * (b3 - b1)) = 0 := by
    rw [hU, hV]; linear_combination eb
  have hJ : 0 < s * (((1 - V) * (a1 - a0) + V * (a3 - a2)) * ((1 - U) * (b2 - b0) + U * (b3 - b1)) -
      ((1 - V) * (b1 - b0) + V * (b3 - b2)) * ((1 - U) * (a2 - a0) + U * (a3 - a1))) := by
    have e : s * (((1 - V) * (a1 - a0) + V * (a3 - a2)) * ((1 - U) * (b2 - b0) + U * (b3 - b1)) -
        ((1 - V) * (b1 - b0) + V * (b3 - b2)) * ((1 - U) * (a2 - a0) + U * (a3 - a1))) =
      (1 - V) * (1 - U) * (s * ((a1 - a0) * (b2 - b0) - (b1 - b0) * (a2 - a0))) +
      (1 - V) * U * (s * ((a1 - a0) * (b3 - b1) - (b1 - b0) * (a3 - a1))) +
      V * (1 - U) * (s * ((a3 - a2) * (b2 - b0) - (b3 - b2) * (a2 - a0))) +
      V * U * (s * ((a3 - a2) * (b3 - b1) - (b3 - b2) * (a3 - a1))) := by ring
    rw [e]
    rcases eq_or_lt_of_le U0 with hu | hu
    · rcases eq_or_lt_of_le V0 with hv | hv
      · rw [← hu, ← hv]; simpa using h1
      · have : 0 < V * (1 - U) := mul_pos hv (by linarith)
        have := mul_pos this h3
        have := mul_nonneg (mul_nonneg V1 U1) h1.le
        have := mul_nonneg (mul_nonneg V1 U0) h2.le
        have := mul_nonneg (mul_nonneg V0 U0) h4.le
        linarith
    · rcases eq_or_lt_of_le V0 with hv | hv
      · have : 0 < (1 - V) * U := mul_pos (by linarith) hu
        have := mul_pos this h2
        have := mul_nonneg (mul_nonneg V1 U1) h1.le
        have := mul_nonneg (mul_nonneg V0 U1) h3.le
        have := mul_nonneg (mul_nonneg V0 U0) h4.le
        linarith
      · have := mul_pos (mul_pos hv hu) h4
        have := mul_nonneg (mul_nonneg V1 U1) h1.le
        have := mul_nonneg (mul_nonneg V1 U0) h2.le
        have := mul_nonneg (mul_nonneg V0 U1) h3.le
        linarith
  obtain ⟨Ea, hEa⟩ : ∃ x, x = (1 - V) * (a1 - a0) + V * (a3 - a2) := ⟨_, rfl⟩
  obtain ⟨Eb, hEb⟩ : ∃ x, x = (1 - V) * (b1 - b0) + V * (b3 - b2) := ⟨_, rfl⟩
  obtain ⟨Fa, hFa⟩ : ∃ x, x = (1 - U) * (a2 - a0) + U * (a3 - a1) := ⟨_, rfl⟩
  obtain ⟨Fb, hFb⟩ : ∃ x, x = (1 - U) * (b2 - b0) + U * (b3 - b1) := ⟨_, rfl⟩
  rw [← hEa, ← hFa] at fa
  rw [← hEb, ← hFb] at fb
  rw [← hEa, ← hEb, ← hFa, ← hFb] at hJ
  have du : u - u' = 0 := by
    have : (u - u') * (s * (Ea * Fb - Eb * Fa)) = 0 := by linear_combination s * Fb * fa - s * Fa * fb
    exact (mul_eq_zero.1 this).resolve_right hJ.ne'
  have dv : v - v' = 0 := by
    have : (v - v') * (s * (Ea * Fb - Eb * Fa)) = 0 := by linear_combination s * Ea * fb - s * Eb * fa
    exact (mul_eq_zero.1 this).resolve_right hJ.ne'
  rw [sub_eq_zero.1 du, sub_eq_zero.1 dv]

/-- A trilinear interpolation goes from the lower to the upper patch. -/
theorem hex_split (node : Ix → V3 ℝ) (i : Ix) (w : V3 ℝ) (axis : Fin 3) :
    ∑ a : Fin 2, ∑ b : Fin 2, ∑ c : Fin 2,
      (blend (w 0) a * blend (w 1) b * blend (w 2) c) • node (i + ![(a : ℕ), (b : ℕ), (c : ℕ)]) =
    (1 - w axis) • (∑ e : Fin 2 × Fin 2, (blend (w (axis + 1)) e.1 * blend (w (axis + 2)) e.2) • node (i + corner axis e 0)) +
      w axis • ∑ e : Fin 2 × Fin 2, (blend (w (axis + 1)) e.1 * blend (w (axis + 2)) e.2) • node (i + corner axis e 1) := by
  fin_cases axis
  · simp only [Fintype.sum_prod_type, Fin.sum_univ_two, blend]
    simp [
        show corner 0 (0, 0) 0 = ![0, 0, 0] by decide,
        show corner 0 (0, 0) 1 = ![1, 0, 0] by decide,
        show corner 0 (0, 1) 0 = ![0, 0, 1] by decide,
        show corner 0 (0, 1) 1 = ![1, 0, 1] by decide,
        show corner 0 (1, 0) 0 = ![0, 1, 0] by decide,
        show corner 0 (1, 0) 1 = ![1, 1, 0] by decide,
        show corner 0 (1, 1) 0 = ![0, 1, 1] by decide,
        show corner 0 (1, 1) 1 = ![1, 1, 1] by decide]
    funext k
    simp
    ring
  · simp only [Fintype.sum_prod_type, Fin.sum_univ_two, blend]
    simp [
        show corner 1 (0, 0) 0 = ![0, 0, 0] by decide,
        show corner 1 (0, 0) 1 = ![0, 1, 0] by decide,
        show corner 1 (0, 1) 0 = ![1, 0, 0] by decide,
        show corner 1 (0, 1) 1 = ![1, 1, 0] by decide,
        show corner 1 (1, 0) 0 = ![0, 0, 1] by decide,
        show corner 1 (1, 0) 1 = ![0, 1, 1] by decide,
        show corner 1 (1, 1) 0 = ![1, 0, 1] by decide,
        show corner 1 (1, 1) 1 = ![1, 1, 1] by decide]
    funext k
    simp
    ring
  · simp only [Fintype.sum_prod_type, Fin.sum_univ_two, blend]
    simp [
        show corner 2 (0, 0) 0 = ![0, 0, 0] by decide,
        show corner 2 (0, 0) 1 = ![0, 0, 1] by decide,
        show corner 2 (0, 1) 0 = ![0, 1, 0] by decide,
        show corner 2 (0, 1) 1 = ![0, 1, 1] by decide,
        show corner 2 (1, 0) 0 = ![1, 0, 0] by decide,
        show corner 2 (1, 0) 1 = ![1, 0, 1] by decide,
        show corner 2 (1, 1) 0 = ![1, 1, 0] by decide,
        show corner 2 (1, 1) 1 = ![1, 1, 1] by decide]
    funext k
    simp
    ring

/-- The points of a hexahedron with vertical sides lie between its lower and its upper patch. -/
theorem hexRegion_mem {node : Ix → V3 ℝ} {i : Ix} {axis : Fin 3} {q : Fin 2 × Fin 2 → V3 ℝ} {lo hi : Fin 2 × Fin 2 → ℝ}
    (hlo : ∀ e, node (i + corner axis e 0) = Function.update (q e) axis (lo e))
    (hhi : ∀ e, node (i + corner axis e 1) = Function.update (q e) axis (hi e)) (x : V3 ℝ) :
    x ∈ hexRegion node i ↔ ∃ w ∈ quadWeights, ∃ t : ℝ, 0 ≤ t ∧ t ≤ 1 ∧
      x = Function.update (∑ e, w e • q e) axis ((1 - t) * ∑ e, w e * lo e + t * ∑ e, w e * hi e) := by
  obtain ⟨n1, n2, n3⟩ := axes_ne axis
  have key : ∀ w : V3 ℝ, ∑ a : Fin 2, ∑ b : Fin 2, ∑ c : Fin 2,
      (blend (w 0) a * blend (w 1) b * blend (w 2) c) • node (i + ![(a : ℕ), (b : ℕ), (c : ℕ)]) =
      Function.update (∑ e : Fin 2 × Fin 2, (blend (w (axis + 1)) e.1 * blend (w (axis + 2)) e.2) • q e) axis
        ((1 - w axis) * ∑ e : Fin 2 × Fin 2, blend (w (axis + 1)) e.1 * blend (w (axis + 2)) e.2 * lo e +
          w axis * ∑ e : Fin 2 × Fin 2, blend (w (axis + 1)) e.1 * blend (w (axis + 2)) e.2 * hi e) := by
    intro w
    rw [hex_split node i w axis]
    simp only [hlo, hhi]
    rw [sum_update, sum_update]
    funext k
    by_cases hk : k = axis
    · subst hk; simp
    · simp [Function.update_of_ne hk]
      ring
  constructor
  · rintro ⟨w, hw, rfl⟩
    exact ⟨_, ⟨_, _, (hw (axis + 1)).1, (hw _).2, (hw (axis + 2)).1, (hw _).2, rfl⟩, w axis, (hw _).1, (hw _).2, key w⟩
  · rintro ⟨_, ⟨u, v, u0, u1, v0, v1, rfl⟩, t, t0, t1, rfl⟩
    obtain ⟨w, w1, w2, w3, w4⟩ : ∃ w : V3 ℝ, w axis = t ∧ w (axis + 1) = u ∧ w (axis + 2) = v ∧ ∀ ax, 0 ≤ w ax ∧ w ax ≤ 1 := by
      refine ⟨fun k => if k = axis then t else if k = axis + 1 then u else v, if_pos rfl, ?_, ?_, ?_⟩
      · simp only [n1, if_false, if_true]
      · simp only [n2, n3.symm, if_false]
      · intro k
        dsimp only
        split_ifs <;> constructor <;> assumption
    refine ⟨w, w4, ?_⟩
    rw [key w, w1, w2, w3]

/-- A hexahedron with vertical sides is the column between its lower and its upper patch. -/
theorem hexRegion_column {node : Ix → V3 ℝ} {i : Ix} {axis : Fin 3} {q : Fin 2 × Fin 2 → V3 ℝ} {lo hi : Fin 2 × Fin 2 → ℝ}
    (hlo : ∀ e, node (i + corner axis e 0) = Function.update (q e) axis (lo e))
    (hhi : ∀ e, node (i + corner axis e 1) = Function.update (q e) axis (hi e)) (hle : ∀ e, lo e ≤ hi e) :
    hexRegion node i = column axis quadWeights q lo hi := by
  ext x
  rw [hexRegion_mem hlo hhi]
  constructor
  · rintro ⟨w, hw, t, t0, t1, rfl⟩
    have hl := sum_le_of_le (quadWeights_simplex hw).1 hle
    exact ⟨w, hw, _, by nlinarith, by nlinarith, rfl⟩
  · rintro ⟨w, hw, h, h1, h2, rfl⟩
    refine ⟨w, hw, ?_⟩
    rcases eq_or_lt_of_le (h1.trans h2) with e | e
    · refine ⟨0, le_rfl, zero_le_one, ?_⟩
      congr 1
      linarith
    · have hd : 0 < ∑ i, w i * hi i - ∑ i, w i * lo i := by linarith
      refine ⟨(h - ∑ i, w i * lo i) / (∑ i, w i * hi i - ∑ i, w i * lo i), div_nonneg (by linarith) hd.le,
        (div_le_one hd).2 (by linarith), ?_⟩
      congr 1
      field_simp
      ring

/-- A hexahedron whose upper patch is below its lower one. -/
theorem hexRegion_inverted {node : Ix → V3 ℝ} {i : Ix} {axis : Fin 3} {q : Fin 2 × Fin 2 → V3 ℝ} {lo hi : Fin 2 × Fin 2 → ℝ}
    (hlo : ∀ e, node (i + corner axis e 0) = Function.update (q e) axis (lo e))
    (hhi : ∀ e, node (i + corner axis e 1) = Function.update (q e) axis (hi e)) (hle : ∀ e, hi e ≤ lo e) :
    hexRegion node i = column axis quadWeights q hi lo := by
  ext x
  rw [hexRegion_mem hlo hhi]
  constructor
  · rintro ⟨w, hw, t, t0, t1, rfl⟩
    have hl := sum_le_of_le (quadWeights_simplex hw).1 hle
    exact ⟨w, hw, _, by nlinarith, by nlinarith, rfl⟩
  · rintro ⟨w, hw, h, h1, h2, rfl⟩
    refine ⟨w, hw, ?_⟩
    rcases eq_or_lt_of_le (h1.trans h2) with e | e
    · refine ⟨0, le_rfl, zero_le_one, ?_⟩
      congr 1
      linarith
    · have hd : 0 < ∑ i, w i * lo i - ∑ i, w i * hi i := by linarith
      refine ⟨(∑ i, w i * lo i - h) / (∑ i, w i * lo i - ∑ i, w i * hi i), div_nonneg (by linarith) hd.le,
        (div_le_one hd).2 (by linarith), ?_⟩
      congr 1
      field_simp
      ring

theorem column_subset {ι : Type _} [Fintype ι] {axis : Fin 3} {W : Set (ι → ℝ)} (hW : W ⊆ stdSimplex ℝ ι) {q : ι → V3 ℝ}
    {a b c d : ι → ℝ} (h1 : ∀ e, c e ≤ a e) (h2 : ∀ e, b e ≤ d e) : column axis W q a b ⊆ column axis W q c d := by
  rintro x ⟨w, hw, h, g1, g2, rfl⟩
  exact ⟨w, hw, h, (sum_le_of_le (hW hw).1 h1).trans g1, g2.trans (sum_le_of_le (hW hw).1 h2), rfl⟩

theorem corner_inShape {d : Ix} {axis : Fin 3} (hd : d axis = 1) {i : Ix} (hi : QuadOf d axis i) (e : Fin 2 × Fin 2) :
    InShape d (i + corner axis e 0) := by
  intro ax
  by_cases h : ax = axis
  · subst h
    simp [corner, hi.1, hd]
  · have := hi.2 ax h
    have h1 := e.1.isLt
    have h2 := e.2.isLt
    simp only [Pi.add_apply, corner, if_neg h]
    split_ifs <;> omega

theorem corner_at {axis : Fin 3} {i : Ix} (hi : i axis = 0) (e : Fin 2 × Fin 2) (L u : ℕ) :
    Function.update i axis L + corner axis e u = Function.update (i + corner axis e 0) axis (L + u) := by
  funext ax
  by_cases h : ax = axis
  · subst h; simp [corner]
  · simp [Function.update_of_ne h, corner, h]

/-- Layers of nodes at rising heights over a structured surface. -/
theorem profile_body {axis : Fin 3} {d : Ix} (hd : d axis = 1) {base : List (V3 ℝ)} (hn : base.length = count d) {h : ℕ → V3 ℝ → ℝ}
    {args : List (Resolution ℝ × Option String)} (hargs : args ≠ [])
    (hsub : ∀ a ∈ args, ∃ m ts, resolutionToPerc a.1 a.2 = .ok ts ∧ Subdivision m ts)
    (hord : ∀ p ∈ base, ∀ k < args.length, h k p ≤ h (k + 1) p) {M : SGrid ℝ ℤ} (hM : ProfileGrid d axis base h args M) :
    ∃ m node, M.nodes.d = Function.update d axis (m + 1) ∧
      (∀ i, InShape M.nodes.d i → M.points[vtkId M.nodes.d i]? = some (node i)) ∧
      FillsBody axis d base (h 0) (h args.length) m node := by
  obtain ⟨subs, s1, s2, s3, s4⟩ := hM
  set m := (subs.map fun ts => ts.length - 1).sum with hm
  have hsubs : ∀ (k : ℕ) ts, subs[k]? = some ts → ∃ m', Subdivision m' ts := by
    intro k ts hk
    have hk' : k < args.length := by rw [← s1]; exact (List.getElem?_eq_some_iff.1 hk).1
    obtain ⟨ts', t1, t2⟩ := s2 k _ (List.getElem?_eq_getElem hk')
    obtain ⟨m', ts'', r1, r2⟩ := hsub _ (List.getElem_mem hk')
    obtain rfl : ts' = ts'' := Except.ok.inj (t1.symm.trans r1)
    rw [hk] at t2
    cases t2
    exact ⟨m', r2⟩
  have hlen : 0 < args.length := List.length_pos_iff.2 hargs
  obtain ⟨ts0, hts0⟩ : ∃ ts, subs[(0 : ℕ)]? = some ts := ⟨_, List.getElem?_eq_getElem (by omega)⟩
  obtain ⟨tsl, htsl⟩ : ∃ ts, subs[args.length - 1]? = some ts := ⟨_, List.getElem?_eq_getElem (by omega)⟩
  obtain ⟨m0, hm0⟩ := hsubs _ _ hts0
  obtain ⟨ml, hml⟩ := hsubs _ _ htsl
  have hlast : layersIn subs (args.length - 1) + (tsl.length - 1) = m := by
    rw [← layersIn_succ htsl, Nat.sub_add_cancel hlen, ← s1, layersIn, List.take_length]
  have hpos : 0 < m := by
    have := layersIn_le hts0
    have h2 := (subdivision_zeroOne hm0).1
    omega
  have hin : ∀ L < m, ∃ (k : ℕ) (ts : List ℝ) (s : ℕ) (t t' : ℝ), subs[k]? = some ts ∧ L = layersIn subs k + s ∧
      ts[s]? = some t ∧ ts[s + 1]? = some t' ∧ t < t' := by
    intro L hL
    obtain ⟨k, ts, s, k1, k2, k3⟩ := exists_part subs L hL
    obtain ⟨m', hm'⟩ := hsubs k ts k1
    refine ⟨k, ts, s, ts[s], ts[s + 1], k1, k3, List.getElem?_eq_getElem _, List.getElem?_eq_getElem _, ?_⟩
    exact List.pairwise_iff_getElem.1 hm'.increasing s (s + 1) _ _ (Nat.lt_succ_self s)
  set node : Ix → V3 ℝ := fun i => (M.points[vtkId M.nodes.d i]?).getD 0 with hnode
  set P : Ix → V3 ℝ := fun j => base.getD (vtkId d j) 0 with hP
  have hbase : ∀ j, InShape d j → base[vtkId d j]? = some (P j) := by
    intro j hj
    have : vtkId d j < base.length := by rw [hn]; exact vtkId_lt hj
    simp only [hP, List.getD_eq_getElem?_getD, List.getElem?_eq_getElem this, Option.getD_some]
  have hPm : ∀ j, InShape d j → P j ∈ base := fun j hj => List.mem_of_getElem? (hbase j hj)
  -- positions of the nodes
  have hget : ∀ j, InShape d j → ∀ L ≤ m, ∃ z,
      M.points[vtkId M.nodes.d (Function.update j axis L)]? = some (Function.update (P j) axis z) := by
    intro j hj L hL
    rcases Nat.lt_or_ge L m with hL' | hL'
    · obtain ⟨k, ts, s, t, t', k1, rfl, k3, k4, _⟩ := hin L hL'
      exact ⟨_, s4 k ts k1 j s t _ hj k3 (hbase j hj)⟩
    · obtain rfl : L = m := le_antisymm hL hL'
      rw [← hlast]
      exact ⟨_, s4 _ _ htsl j _ _ _ hj (subdivision_zeroOne hml).2.2 (hbase j hj)⟩
  set Z : ℕ → Ix → ℝ := fun L j => node (Function.update j axis L) axis with hZ
  have hat : ∀ j, InShape d j → ∀ L ≤ m, node (Function.update j axis L) = Function.update (P j) axis (Z L j) := by
    intro j hj L hL
    obtain ⟨z, hz⟩ := hget j hj L hL
    simp only [hZ, hnode, hz, Option.getD_some, Function.update_self]
  have hrises : ∀ j, InShape d j → ∀ L < m, Z L j ≤ Z (L + 1) j := by
    intro j hj L hL
    obtain ⟨k, ts, s, t, t', k1, rfl, k3, k4, k5⟩ := hin L hL
    have e1 := s4 k ts k1 j s t _ hj k3 (hbase j hj)
    have e2 := s4 k ts k1 j (s + 1) t' _ hj k4 (hbase j hj)
    rw [← Nat.add_assoc] at e2
    simp only [hZ, hnode, e1, e2, Option.getD_some, Function.update_self]
    have hk : k < args.length := by rw [← s1]; exact (List.getElem?_eq_some_iff.1 k1).1
    have := hord _ (hPm j hj) k hk
    nlinarith
  have hmono : ∀ j, InShape d j → ∀ L L', L ≤ L' → L' ≤ m → Z L j ≤ Z L' j := by
    intro j hj L L' hL
    induction L', hL using Nat.le_induction with
    | base => intro _; exact le_rfl
    | succ L' _ ih => intro hm'; exact le_trans (ih (by omega)) (hrises j hj L' (by omega))
  have hfirst : ∀ j, InShape d j → Z 0 j = h 0 (P j) := by
    intro j hj
    have := s4 0 ts0 hts0 j 0 0 _ hj (subdivision_zeroOne hm0).2.1 (hbase j hj)
    rw [show layersIn subs 0 + 0 = 0 from rfl] at this
    simp only [hZ, hnode, this, Option.getD_some, Function.update_self]
    ring
  have hend : ∀ j, InShape d j → Z m j = h args.length (P j) := by
    intro j hj
    have := s4 _ _ htsl j _ 1 _ hj (subdivision_zeroOne hml).2.2 (hbase j hj)
    rw [hlast, Nat.sub_add_cancel hlen] at this
    simp only [hZ, hnode, this, Option.getD_some, Function.update_self]
    ring
  -- the hexahedra
  have hcol : ∀ i, QuadOf d axis i → ∀ L < m, hexRegion node (Function.update i axis L) =
      column axis quadWeights (baseQuad d axis base i) (fun e => Z L (i + corner axis e 0))
        (fun e => Z (L + 1) (i + corner axis e 0)) := by
    intro i hi L hL
    refine hexRegion_column ?_ ?_ fun e => hrises _ (corner_inShape hd hi e) L hL
    · intro e
      rw [corner_at hi.1, Nat.add_zero]
      exact hat _ (corner_inShape hd hi e) L hL.le
    · intro e
      rw [corner_at hi.1]
      exact hat _ (corner_inShape hd hi e) (L + 1) hL
  refine ⟨m, node, by rw [s3, Nat.add_comm], ?_, ?_, ?_, ?_⟩
  · intro i hi
    have hi' : ∀ ax, i ax < Function.update d axis (1 + m) ax := by rw [← s3]; exact hi
    have hj : InShape d (Function.update i axis 0) := by
      intro ax
      by_cases hax : ax = axis
      · subst hax; simp [hd]
      · have := hi' ax
        rw [Function.update_of_ne hax] at this
        rwa [Function.update_of_ne hax]
    obtain ⟨z, hz⟩ := hget _ hj (i axis) (by have := hi' axis; rw [Function.update_self] at this; omega)
    rw [Function.update_idem, Function.update_eq_self] at hz
    simp only [hnode, hz, Option.getD_some]
  · intro i hi
    have e0 : (h 0 ∘ baseQuad d axis base i) = fun e => Z 0 (i + corner axis e 0) :=
      funext fun e => (hfirst _ (corner_inShape hd hi e)).symm
    have e1 : (h args.length ∘ baseQuad d axis base i) = fun e => Z m (i + corner axis e 0) :=
      funext fun e => (hend _ (corner_inShape hd hi e)).symm
    rw [e0, e1, ← quadColumn_eq, ← columns_fill axis quadWeights_simplex _ (z := fun L e => Z L (i + corner axis e 0)) hpos
      fun L hL e => hrises _ (corner_inShape hd hi e) L hL]
    exact Set.iUnion_congr fun L => Set.iUnion_congr fun hL => hcol i hi L hL
  · intro i hi hconv L L' hLL hL'
    rw [hcol i hi L (by omega), hcol i hi L' hL', ← quadPatch_eq]
    refine (columns_apart axis quadWeights_simplex _ (convex_weights hconv) fun e =>
      hmono _ (corner_inShape hd hi e) (L + 1) L' hLL hL'.le).trans ?_
    rintro x ⟨w, hw, rfl⟩
    refine ⟨w, hw, Finset.sum_congr rfl fun e _ => ?_⟩
    rw [corner_at hi.1, Nat.add_zero, hat _ (corner_inShape hd hi e) L' hL'.le]
    rfl
  · intro i L hi hL x hx
    rw [hcol i hi L hL] at hx
    obtain ⟨w, hw, y, -, -, rfl⟩ := hx
    rw [← quadPatch_eq]
    refine ⟨w, hw, ?_⟩
    rw [sum_update axis _ w fun _ => 0, Function.update_idem]
    simp

/-- **C135 (structured surfaces).** The same for a 3D stack on a structured surface, whose cells are hexahedra: over each
quad of the surface they fill exactly the column between the first and the last surface; over a quad that is convex, seen along
the axis, two cells of a column meet only in the patch between them; and each cell lies over the shadow of its quad.  (Points
of hexahedra and quads are the trilinear and bilinear interpolations of their corners.)
Missing: surfaces that cross, for which it is false (`C135_crossing_refuted`). -/
theorem C135_hexahedra_partial (volume : Arr3 (V3 ℝ) → List ℝ) (hvol : ∀ x, (volume x).length = count (cells x.d))
    (ignore : List String) (dflt : String) (o : InterpOracle ℝ) (d : Fin 3 → ℕ) (mesh : Surf ℝ GridTopo)
    (hmesh : StackGrid d mesh) (axis : Fin 3) (hd : FlatAlong d axis)
    (as : List (Profile × Rest ℝ (Opts (Resolution ℝ × Option String)))) (has : 2 ≤ as.length)
    (hres : ∀ a ∈ as.tail, ∃ m ts, resolutionToPerc a.2.opts.sub.1 a.2.opts.sub.2 = .ok ts ∧ Subdivision m ts)
    (hord : ∀ p ∈ mesh.points, ∀ k, k + 1 < as.length → cutHeight (as.map fun a => (a.1, a.2.thickness, a.2.priority)) k p ≤
      cutHeight (as.map fun a => (a.1, a.2.thickness, a.2.priority)) (k + 1) p) :
    ∃ s, (Stack.new mesh axis true).run o ((profileAdds as).map addCall) = .ok s ∧
      ((∀ a ∈ as.tail, Acceptable (count (cells d)) a.2.opts.group) → ∃ R, stack3D volume ignore dflt s = .ok R) ∧
      ∀ M table s', stack3D volume ignore dflt s = .ok ((M, table), s') →
        ∃ m node, M.nodes.d = Function.update d axis (m + 1) ∧
          (∀ i, InShape M.nodes.d i → M.points[vtkId M.nodes.d i]? = some (node i)) ∧
          FillsBody axis d mesh.points (cutHeight (as.map fun a => (a.1, a.2.thickness, a.2.priority)) 0)
            (cutHeight (as.map fun a => (a.1, a.2.thickness, a.2.priority)) (as.length - 1)) m node := by
  obtain ⟨s, h1, h2, h3⟩ := C124_stack3d_partial volume hvol ignore dflt o d mesh hmesh axis hd as has
    (fun a ha => by obtain ⟨m, ts, t1, t2⟩ := hres a ha; exact ⟨ts, t1, subdivision_zeroOne t2⟩)
  refine ⟨s, h1, h2, fun M table s' hM => ?_⟩
  obtain ⟨_, hP⟩ := h3 M table s' hM
  have hlen : (as.tail.map fun a => a.2.opts.sub).length = as.length - 1 := by simp
  have := profile_body hd.1 hmesh.size (args := as.tail.map fun a => a.2.opts.sub)
    (by intro h; have := congrArg List.length h; simp at this; omega)
    (by
      intro a ha
      obtain ⟨x, hx, rfl⟩ := List.mem_map.1 ha
      exact hres x hx)
    (by
      intro p hp k hk
      rw [hlen] at hk
      exact hord p hp k (by omega)) hP
  rwa [hlen] at this

/-- **C135 refuted for surfaces that cross.** On every structured surface, along its flat axis, with default priorities and
thicknesses: four surfaces, the third below all others.  The mesh is generated, and over every quad the cells of its first and
third layer both contain the whole column above the third surface up to the lowest of the others. -/
theorem C135_crossing_refuted (volume : Arr3 (V3 ℝ) → List ℝ) (hvol : ∀ x, (volume x).length = count (cells x.d))
    (ignore : List String) (dflt : String) (o : InterpOracle ℝ) (d : Fin 3 → ℕ) (mesh : Surf ℝ GridTopo)
    (hmesh : StackGrid d mesh) (axis : Fin 3) (hd : FlatAlong d axis) (f g k l : V3 ℝ → ℝ)
    (hf : ∀ p ∈ mesh.points, k p < f p) (hg : ∀ p ∈ mesh.points, k p < g p) (hl : ∀ p ∈ mesh.points, k p < l p) :
    ∃ s, (Stack.new mesh axis true).run o ((profileAdds [(.height f, oneLayer), (.height g, oneLayer), (.height k, oneLayer),
        (.height l, oneLayer)]).map addCall) = .ok s ∧
      ∃ M table s', stack3D volume ignore dflt s = .ok ((M, table), s') ∧ ∃ node,
        (∀ i, InShape d i → ∀ L ≤ 3, M.points[vtkId M.nodes.d (Function.update i axis L)]? = some (node (Function.update i axis L))) ∧
        ∀ i, QuadOf d axis i →
          quadColumn axis (baseQuad d axis mesh.points i) (k ∘ baseQuad d axis mesh.points i)
            ((fun p => min (min (f p) (g p)) (l p)) ∘ baseQuad d axis mesh.points i) ⊆
            hexRegion node (Function.update i axis 0) ∩ hexRegion node (Function.update i axis 2) := by
  obtain ⟨s, h1, h2, h3⟩ := C124_stack3d_partial volume hvol ignore dflt o d mesh hmesh axis hd
    [(.height f, oneLayer), (.height g, oneLayer), (.height k, oneLayer), (.height l, oneLayer)] (by simp)
    (by
      intro a ha
      refine ⟨[0, 1], ?_, by simp [fromZeroToOne]⟩
      simp only [List.tail_cons, List.mem_cons, List.not_mem_nil, or_false] at ha
      rcases ha with rfl | rfl | rfl <;> exact oneLayer_res)
  refine ⟨s, h1, ?_⟩
  obtain ⟨⟨⟨M, table⟩, s'⟩, hR⟩ := h2 (by
    intro a ha
    simp only [List.tail_cons, List.mem_cons, List.not_mem_nil, or_false] at ha
    rcases ha with rfl | rfl | rfl <;> simp [oneLayer, Acceptable, entries])
  refine ⟨M, table, s', hR, ?_⟩
  obtain ⟨_, subs, s1, s2, s3, s4⟩ := h3 M table s' hR
  have hsubs : subs = [[0, 1], [0, 1], [0, 1]] := by
    refine List.ext_getElem? fun i => ?_
    by_cases hi : i < 3
    · have hi' : ([[0, 1], [0, 1], [0, 1]] : List (List ℝ))[i]? = some [0, 1] := by
        have : i = 0 ∨ i = 1 ∨ i = 2 := by omega
        rcases this with rfl | rfl | rfl <;> rfl
      rw [hi']
      obtain ⟨ts, t1, t2⟩ := s2 i (.int 1, none) (by
        have : i = 0 ∨ i = 1 ∨ i = 2 := by omega
        rcases this with rfl | rfl | rfl <;> rfl)
      rw [oneLayer_res] at t1
      rw [t2, ← Except.ok.inj t1]
    · rw [List.getElem?_eq_none (by rw [s1]; simp; omega), List.getElem?_eq_none (by simp; omega)]
  subst hsubs
  set c := cutHeight ([(Profile.height f, oneLayer), (.height g, oneLayer), (.height k, oneLayer),
    (.height l, oneLayer)].map fun a => (a.1, a.2.thickness, a.2.priority)) with hc
  set P : Ix → V3 ℝ := fun j => mesh.points.getD (vtkId d j) 0 with hP
  have hbase : ∀ j, InShape d j → mesh.points[vtkId d j]? = some (P j) := by
    intro j hj
    have : vtkId d j < mesh.points.length := by rw [hmesh.size]; exact vtkId_lt hj
    simp only [hP, List.getD_eq_getElem?_getD, List.getElem?_eq_getElem this, Option.getD_some]
  have hPm : ∀ j, InShape d j → P j ∈ mesh.points := fun j hj => List.mem_of_getElem? (hbase j hj)
  have hat : ∀ j, InShape d j → ∀ L ≤ 3,
      M.points[vtkId M.nodes.d (Function.update j axis L)]? = some (Function.update (P j) axis (c L (P j))) := by
    intro j hj L hL
    rcases Nat.lt_or_ge L 3 with hL' | hL'
    · have hk : ([[0, 1], [0, 1], [0, 1]] : List (List ℝ))[L]? = some [0, 1] := by
        have : L = 0 ∨ L = 1 ∨ L = 2 := by omega
        rcases this with rfl | rfl | rfl <;> rfl
      have hlay : layersIn ([[0, 1], [0, 1], [0, 1]] : List (List ℝ)) L = L := by
        have : L = 0 ∨ L = 1 ∨ L = 2 := by omega
        rcases this with rfl | rfl | rfl <;> simp [layersIn]
      have := s4 L _ hk _ 0 0 _ hj rfl (hbase j hj)
      rw [hlay] at this
      simpa using this
    · obtain rfl : L = 3 := by omega
      have := s4 2 _ rfl _ 1 1 _ hj rfl (hbase j hj)
      rw [show layersIn ([[0, 1], [0, 1], [0, 1]] : List (List ℝ)) 2 + 1 = 3 by simp [layersIn]] at this
      simpa using this
  set node : Ix → V3 ℝ := fun i => (M.points[vtkId M.nodes.d i]?).getD 0 with hnode
  have hnat : ∀ j, InShape d j → ∀ L ≤ 3, node (Function.update j axis L) = Function.update (P j) axis (c L (P j)) := by
    intro j hj L hL
    simp only [hnode, hat j hj L hL, Option.getD_some]
  refine ⟨node, ?_, ?_⟩
  · intro j hj L hL
    rw [hnat j hj L hL, hat j hj L hL]
  · intro i hi
    have hin := corner_inShape hd.1 hi
    have c0 : ∀ p, c 0 p = min (f p) (g p) := by intro p; simp [hc, cutHeight, pushedHeight, profileHeight, oneLayer]
    have c1 : ∀ p ∈ mesh.points, c 1 p = k p := by
      intro p hp; simp [hc, cutHeight, pushedHeight, profileHeight, oneLayer, (hg p hp).le]
    have c2 : ∀ p ∈ mesh.points, c 2 p = k p := by
      intro p hp; simp [hc, cutHeight, pushedHeight, profileHeight, oneLayer, (hl p hp).le]
    have c3 : ∀ p, c 3 p = l p := by intro p; simp [hc, cutHeight, pushedHeight, profileHeight]
    have q : ∀ e, baseQuad d axis mesh.points i e = P (i + corner axis e 0) := fun e => rfl
    rw [Set.subset_inter_iff, ← quadColumn_eq]
    constructor
    · rw [hexRegion_inverted (q := baseQuad d axis mesh.points i) (lo := fun e => c 0 (baseQuad d axis mesh.points i e))
        (hi := fun e => c 1 (baseQuad d axis mesh.points i e))
        (fun e => by rw [corner_at hi.1]; exact hnat _ (hin e) 0 (by omega))
        (fun e => by rw [corner_at hi.1]; exact hnat _ (hin e) 1 (by omega))
        (fun e => by
          have := hPm _ (hin e)
          rw [q, c0, c1 _ this]
          exact le_min (hf _ this).le (hg _ this).le)]
      refine column_subset quadWeights_simplex (fun e => ?_) fun e => ?_
      · rw [q, c1 _ (hPm _ (hin e))]; exact le_rfl
      · rw [c0]; exact min_le_left _ _
    · rw [hexRegion_column (q := baseQuad d axis mesh.points i) (lo := fun e => c 2 (baseQuad d axis mesh.points i e))
        (hi := fun e => c 3 (baseQuad d axis mesh.points i e))
        (fun e => by rw [corner_at hi.1]; exact hnat _ (hin e) 2 (by omega))
        (fun e => by rw [corner_at hi.1]; exact hnat _ (hin e) 3 (by omega))
        (fun e => by
          have := hPm _ (hin e)
          rw [q, c3, c2 _ this]
          exact (hl _ this).le)]
      refine column_subset quadWeights_simplex (fun e => ?_) fun e => ?_
      · rw [q, c2 _ (hPm _ (hin e))]; exact le_rfl
      · rw [c3]; exact min_le_right _ _

/-- Both quads of the square are convex, seen along z. -/
theorem square_convex (j : Fin 2) : QuadOf ![3, 2, 1] 2 ![(j : ℕ), 0, 0] ∧
    ConvexAlong 2 (baseQuad ![3, 2, 1] 2 (squareXY ℝ).points ![(j : ℕ), 0, 0]) := by
  refine ⟨⟨rfl, ?_⟩, 1, ?_⟩
  · intro ax hax
    fin_cases ax <;> fin_cases j <;> simp at hax ⊢
  · fin_cases j <;> simp [crossAlong, baseQuad, corner, vtkId, squareXY]

/-- Concrete case of C135 on a structured surface: three profiles of different priorities, one of them cut and one pushed up. -/
example (volume : Arr3 (V3 ℝ) → List ℝ) (hvol : ∀ x, (volume x).length = count (cells x.d)) (o : InterpOracle ℝ) :
    ∃ s M table s' m node, (Stack.new (squareXY ℝ) 2 true).run o ((profileAdds someProfiles).map addCall) = .ok s ∧
      stack3D volume [] "default" s = .ok ((M, table), s') ∧
      FillsBody 2 ![3, 2, 1] (squareXY ℝ).points (cutHeight (someProfiles.map fun a => (a.1, a.2.thickness, a.2.priority)) 0)
        (cutHeight (someProfiles.map fun a => (a.1, a.2.thickness, a.2.priority)) 2) m node ∧
      ∀ j : Fin 2, ∀ L L', L < L' → L' < m →
        hexRegion node (Function.update ![(j : ℕ), 0, 0] 2 L) ∩ hexRegion node (Function.update ![(j : ℕ), 0, 0] 2 L') ⊆
          quadPatch fun e => node (Function.update ![(j : ℕ), 0, 0] 2 L' + corner 2 e 0) := by
  obtain ⟨p1, _, p4⟩ := someProfiles_ok
  obtain ⟨s, hs, g, h⟩ := C135_hexahedra_partial volume hvol [] "default" o ![3, 2, 1] (squareXY ℝ) squareXY_ok 2 ⟨rfl, by decide⟩
    someProfiles p1
    (by
      intro a ha
      simp only [someProfiles, List.tail_cons, List.mem_cons, List.not_mem_nil, or_false] at ha
      rcases ha with rfl | rfl
      · obtain ⟨p, p1, p2, _⟩ := C11_integer_resolution 2 none (.inl rfl)
        exact ⟨_, p, p1, p2⟩
      · obtain ⟨p, p1, p2, _⟩ := C11_integer_resolution 3 (some "log") (.inr (.inl rfl))
        exact ⟨_, p, p1, p2⟩)
    (by
      intro p hp k hk
      simp only [squareXY, List.mem_cons, List.not_mem_nil, or_false] at hp
      have hk' : k = 0 ∨ k = 1 := by simp [someProfiles] at hk; omega
      rcases hp with rfl | rfl | rfl | rfl | rfl | rfl <;> rcases hk' with rfl | rfl <;>
        simp [cutHeight, pushedHeight, someProfiles, profileHeight])
  obtain ⟨⟨⟨M, table⟩, s'⟩, hR⟩ := g p4
  obtain ⟨m, node, _, _, hf⟩ := h M table s' hR
  exact ⟨s, M, table, s', m, node, hs, hR, hf, fun j => hf.apart _ (square_convex j).1 (square_convex j).2⟩

/-- Concrete case of the overlap: surfaces added at heights 0, 3, -1 and 5. -/
example (volume : Arr3 (V3 ℝ) → List ℝ) (hvol : ∀ x, (volume x).length = count (cells x.d)) (o : InterpOracle ℝ) :
    ∃ s M table s', (Stack.new (squareXY ℝ) 2 true).run o ((profileAdds [(.height fun _ => 0, oneLayer),
        (.height fun _ => 3, oneLayer), (.height fun _ => -1, oneLayer), (.height fun _ => 5, oneLayer)]).map addCall) =
          .ok s ∧ stack3D volume [] "default" s = .ok ((M, table), s') := by
  obtain ⟨s, h1, M, table, s', h2, _⟩ := C135_crossing_refuted volume hvol [] "default" o ![3, 2, 1] (squareXY ℝ) squareXY_ok 2
    ⟨rfl, by decide⟩ (fun _ => 0) (fun _ => 3) (fun _ => -1) (fun _ => 5) (by intros; norm_num) (by intros; norm_num)
    (by intros; norm_num)
  exact ⟨s, M, table, s', h1, h2⟩

end Gridder
