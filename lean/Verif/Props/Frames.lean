import Verif.Props.Quads

/-!
# C144: the cells between an arc and a rectangle fill the gap between them without overlaps
-/

namespace Gridder
open Spec

namespace Spec

/-- The cells between `n + 1` lines from `P p` to `Q p`, in `m` rows, fill the quads between neighbouring lines, and two of them share at
most an edge. -/
structure TilesBand (P Q : ℕ → Fin 3 → ℝ) (n m : ℕ) (node : ℕ → ℕ → Fin 3 → ℝ) : Prop where
  fills : ∀ p < n, (⋃ q, ⋃ (_ : q < m), quadRegion node p q) = convexHull ℝ {P p, P (p + 1), Q p, Q (p + 1)}
  rows : ∀ p < n, ∀ q q', q < q' → q' < m → ∀ x ∈ quadRegion node p q ∩ quadRegion node p q',
    q' = q + 1 ∧ x ∈ segment ℝ (node p q') (node (p + 1) q')
  apart : ∀ p p', p < p' → p' < n → ∀ q < m, ∀ q' < m, ∀ x ∈ quadRegion node p q ∩ quadRegion node p' q',
    p' = p + 1 ∧ x ∈ segment ℝ (node p' q) (node p' (q + 1)) ∩ segment ℝ (node p' q') (node p' (q' + 1))

/-- Two bands of cells that begin with the same line fill the quads between their lines, and share at most edges on that line. -/
structure TilesPair (n n' m : ℕ) (nodeA nodeB : ℕ → ℕ → Fin 3 → ℝ) : Prop where
  below : TilesBand (fun p => nodeA p 0) (fun p => nodeA p m) n m nodeA
  above : TilesBand (fun p => nodeB p 0) (fun p => nodeB p m) n' m nodeB
  same : ∀ q ≤ m, nodeA 0 q = nodeB 0 q
  apart : ∀ p < n, ∀ p' < n', ∀ q < m, ∀ q' < m, ∀ x ∈ quadRegion nodeA p q ∩ quadRegion nodeB p' q',
    p = 0 ∧ p' = 0 ∧ x ∈ segment ℝ (nodeA 0 q) (nodeA 0 (q + 1)) ∩ segment ℝ (nodeA 0 q') (nodeA 0 (q' + 1))

/-- The cells between a quarter disc around `v` and a rectangle around it: they fill the rectangle but for the quarter disc, up to the gaps
between the circle and its chords.  `T` are the fractions of the eighths of the circle. -/
structure FillsAroundSector (v : Fin 3 → ℝ) (r dx dy : ℝ) (T : ℕ → ℝ) (n m : ℕ) (nodeA nodeB : ℕ → ℕ → Fin 3 → ℝ) : Prop where
  inside : ∀ p < n, ∀ q < m, ∀ x ∈ quadRegion nodeA p q ∪ quadRegion nodeB p q, x 2 = v 2 ∧ v 0 ≤ x 0 ∧ x 0 ≤ v 0 + dx ∧ v 1 ≤ x 1 ∧
    x 1 ≤ v 1 + dy ∧ (r * Real.cos (Real.pi * (45 * (T (p + 1) - T p)) / 360)) ^ 2 ≤ (x 0 - v 0) ^ 2 + (x 1 - v 1) ^ 2
  covers : ∀ x : Fin 3 → ℝ, x 2 = v 2 → v 0 ≤ x 0 → x 0 ≤ v 0 + dx → v 1 ≤ x 1 → x 1 ≤ v 1 + dy → r ^ 2 ≤ (x 0 - v 0) ^ 2 + (x 1 - v 1) ^ 2 →
    ∃ p < n, ∃ q < m, x ∈ quadRegion nodeA p q ∪ quadRegion nodeB p q

/-- The cells between a rectangle with a corner in `v` and a quarter disc around it: they fill the quarter disc but for the rectangle, up to the
gaps between the circle and its chords.  `TA` and `TB` are the fractions of the two eighths of the circle. -/
structure FillsAroundRectangle (v : Fin 3 → ℝ) (r dx dy : ℝ) (TA TB : ℕ → ℝ) (n n' m : ℕ) (nodeA nodeB : ℕ → ℕ → Fin 3 → ℝ) : Prop where
  insideA : ∀ p < n, ∀ q < m, ∀ x ∈ quadRegion nodeA p q, x 2 = v 2 ∧ v 0 + dx ≤ x 0 ∧ v 1 ≤ x 1 ∧ (x 0 - v 0) ^ 2 + (x 1 - v 1) ^ 2 ≤ r ^ 2
  insideB : ∀ p < n', ∀ q < m, ∀ x ∈ quadRegion nodeB p q, x 2 = v 2 ∧ v 0 ≤ x 0 ∧ v 1 + dy ≤ x 1 ∧ (x 0 - v 0) ^ 2 + (x 1 - v 1) ^ 2 ≤ r ^ 2
  covers : ∀ x : Fin 3 → ℝ, x 2 = v 2 → v 0 ≤ x 0 → v 1 ≤ x 1 → v 0 + dx ≤ x 0 ∨ v 1 + dy ≤ x 1 →
    (∀ p < n, (x 0 - v 0) ^ 2 + (x 1 - v 1) ^ 2 ≤ (r * Real.cos (Real.pi * (45 * (TA (p + 1) - TA p)) / 360)) ^ 2) →
    (∀ p < n', (x 0 - v 0) ^ 2 + (x 1 - v 1) ^ 2 ≤ (r * Real.cos (Real.pi * (45 * (TB (p + 1) - TB p)) / 360)) ^ 2) →
    (∃ p < n, ∃ q < m, x ∈ quadRegion nodeA p q) ∨ ∃ p < n', ∃ q < m, x ∈ quadRegion nodeB p q

end Spec

/-- A quad with sides from `P` to `P'` and from `Q` to `Q'` turns the same way everywhere. -/
structure Bends (σ : ℝ) (P P' Q Q' : V3 ℝ) : Prop where
  c1 : 0 < σ * crossXY (P' - P) (Q - P)
  c2 : 0 < σ * crossXY (P' - P) (Q' - P')
  c3 : 0 < σ * crossXY (Q' - Q) (Q - P)
  c4 : 0 < σ * crossXY (Q' - Q) (Q' - P')

theorem bends_convex {σ : ℝ} {P P' Q Q' : V3 ℝ} (h : Bends σ P P' Q Q') : ConvexAlong 2 (aroundQuad P P' Q' Q) :=
  ⟨σ, by simpa [aroundQuad, crossAlong, crossXY] using h.c1, by simpa [aroundQuad, crossAlong, crossXY] using h.c2,
    by simpa [aroundQuad, crossAlong, crossXY] using h.c3, by simpa [aroundQuad, crossAlong, crossXY] using h.c4⟩

theorem quad_ext {x y : V3 ℝ} (h0 : x 0 = y 0) (h1 : x 1 = y 1) (h2 : x 2 = y 2) : x = y := by
  funext i
  fin_cases i
  · exact h0
  · exact h1
  · exact h2

theorem around_point (P P' Q Q' : V3 ℝ) (u v : ℝ) (i : Fin 3) : quadPoint (aroundQuad P P' Q' Q) u v i =
    (1 - v) * ((1 - u) * P i + u * P' i) + v * ((1 - u) * Q i + u * Q' i) := by
  rw [quadPoint_eq]
  simp [aroundQuad]
  ring

/-- A point between two sides of a convex quad, and not beyond the third, is on a line between the two. -/
theorem line_bends {σ : ℝ} {P P' Q Q' x : V3 ℝ} (h : Bends σ P P' Q Q') {z : ℝ} (hz : P 2 = z ∧ P' 2 = z ∧ Q 2 = z ∧ Q' 2 = z ∧ x 2 = z)
    (f : 0 ≤ σ * crossXY (x - P) (Q - P)) (f' : σ * crossXY (x - P') (Q' - P') ≤ 0) (k : σ * crossXY (Q' - Q) (x - Q) ≤ 0) :
    ∃ u v, 0 ≤ u ∧ u ≤ 1 ∧ v ≤ 1 ∧ (0 ≤ σ * crossXY (P' - P) (x - P) → 0 ≤ v) ∧ x = quadPoint (aroundQuad P P' Q' Q) u v := by
  obtain ⟨c1, c2, c3, c4⟩ := h
  obtain ⟨z1, z2, z3, z4, z5⟩ := hz
  simp only [crossXY, Pi.sub_apply] at *
  obtain ⟨F, hF⟩ : ∃ F : ℝ → ℝ, F = fun u => σ * ((x 0 - ((1 - u) * P 0 + u * P' 0)) * ((1 - u) * (Q 1 - P 1) + u * (Q' 1 - P' 1)) -
    (x 1 - ((1 - u) * P 1 + u * P' 1)) * ((1 - u) * (Q 0 - P 0) + u * (Q' 0 - P' 0))) := ⟨_, rfl⟩
  have hc : ContinuousOn F (Set.Icc 0 1) := by
    rw [hF]
    fun_prop
  have hm : (0 : ℝ) ∈ Set.Icc (F 1) (F 0) := by
    rw [hF]
    constructor
    · simpa using f'
    · simpa using f
  obtain ⟨u, ⟨u0, u1⟩, hu⟩ := intermediate_value_Icc' zero_le_one hc hm
  rw [hF] at hu
  simp only at hu
  obtain ⟨a0, ha0⟩ : ∃ a, a = (1 - u) * P 0 + u * P' 0 := ⟨_, rfl⟩
  obtain ⟨a1, ha1⟩ : ∃ a, a = (1 - u) * P 1 + u * P' 1 := ⟨_, rfl⟩
  obtain ⟨d0, hd0⟩ : ∃ d, d = (1 - u) * (Q 0 - P 0) + u * (Q' 0 - P' 0) := ⟨_, rfl⟩
  obtain ⟨d1, hd1⟩ : ∃ d, d = (1 - u) * (Q 1 - P 1) + u * (Q' 1 - P' 1) := ⟨_, rfl⟩
  rw [← ha0, ← ha1, ← hd0, ← hd1] at hu
  have w0 : 0 ≤ 1 - u := by linarith
  have mix : ∀ {a b : ℝ}, 0 < a → 0 < b → 0 < (1 - u) * a + u * b := by
    intro a b ha hb
    rcases u0.eq_or_lt with h | h
    · rw [← h]; simpa using ha
    · have := mul_nonneg w0 ha.le; have := mul_pos h hb; linarith
  have e1 : 0 < σ * ((P' 0 - P 0) * d1 - (P' 1 - P 1) * d0) := by
    have := mix c1 c2
    rw [hd0, hd1]
    linarith
  have e2 : 0 < σ * ((Q' 0 - Q 0) * d1 - (Q' 1 - Q 1) * d0) := by
    have := mix c3 c4
    rw [hd0, hd1]
    linarith
  have hσ : σ ≠ 0 := by
    rintro rfl
    simp at e1
  have hu' : (x 0 - a0) * d1 - (x 1 - a1) * d0 = 0 := by
    rcases mul_eq_zero.1 hu with h | h
    · exact absurd h hσ
    · exact h
  obtain ⟨E, hE⟩ : ∃ E, E = σ * ((P' 0 - P 0) * d1 - (P' 1 - P 1) * d0) := ⟨_, rfl⟩
  obtain ⟨w, hw⟩ : ∃ w, w = σ * ((P' 0 - P 0) * (x 1 - a1) - (P' 1 - P 1) * (x 0 - a0)) := ⟨_, rfl⟩
  have hw0 : w = σ * ((P' 0 - P 0) * (x 1 - P 1) - (P' 1 - P 1) * (x 0 - P 0)) := by
    rw [hw, ha0, ha1]; ring
  rw [← hE] at e1
  have k0 : x 0 - a0 = w / E * d0 := by
    field_simp
    rw [hw, hE]
    linear_combination σ * (P' 0 - P 0) * hu'
  have k1 : x 1 - a1 = w / E * d1 := by
    field_simp
    rw [hw, hE]
    linear_combination σ * (P' 1 - P 1) * hu'
  obtain ⟨v, hv⟩ : ∃ v, v = w / E := ⟨_, rfl⟩
  rw [← hv] at k0 k1
  have v1 : v ≤ 1 := by
    have q0 : x 0 - Q 0 = u * (Q' 0 - Q 0) + (v - 1) * d0 := by
      have : (1 - u) * Q 0 + u * Q' 0 = a0 + d0 := by rw [ha0, hd0]; ring
      linear_combination k0 - this
    have q1 : x 1 - Q 1 = u * (Q' 1 - Q 1) + (v - 1) * d1 := by
      have : (1 - u) * Q 1 + u * Q' 1 = a1 + d1 := by rw [ha1, hd1]; ring
      linear_combination k1 - this
    rw [q0, q1] at k
    have : (v - 1) * (σ * ((Q' 0 - Q 0) * d1 - (Q' 1 - Q 1) * d0)) ≤ 0 := by
      refine le_trans (le_of_eq ?_) k
      ring
    by_contra hn
    push Not at hn
    have := mul_pos (sub_pos.2 hn) e2
    linarith
  refine ⟨u, v, u0, u1, v1, fun g => ?_, quad_ext ?_ ?_ ?_⟩
  · rw [hv]
    exact div_nonneg (by rw [hw0]; exact g) e1.le
  · rw [around_point]
    have : (1 - u) * Q 0 + u * Q' 0 = a0 + d0 := by rw [ha0, hd0]; ring
    rw [this, ← ha0]; linarith
  · rw [around_point]
    have : (1 - u) * Q 1 + u * Q' 1 = a1 + d1 := by rw [ha1, hd1]; ring
    rw [this, ← ha1]; linarith
  · rw [around_point, z1, z2, z3, z4, z5]; ring

/-- A point on the inner side of all four sides of a convex quad is a bilinear interpolation of its corners. -/
theorem mem_bends {σ : ℝ} {P P' Q Q' x : V3 ℝ} (h : Bends σ P P' Q Q') {z : ℝ} (hz : P 2 = z ∧ P' 2 = z ∧ Q 2 = z ∧ Q' 2 = z ∧ x 2 = z)
    (f : 0 ≤ σ * crossXY (x - P) (Q - P)) (f' : σ * crossXY (x - P') (Q' - P') ≤ 0) (g : 0 ≤ σ * crossXY (P' - P) (x - P))
    (k : σ * crossXY (Q' - Q) (x - Q) ≤ 0) :
    ∃ u v, 0 ≤ u ∧ u ≤ 1 ∧ 0 ≤ v ∧ v ≤ 1 ∧ x = quadPoint (aroundQuad P P' Q' Q) u v := by
  obtain ⟨u, v, u0, u1, v1, v0, e⟩ := line_bends h hz f f' k
  exact ⟨u, v, u0, u1, v0 g, v1, e⟩

/-- The points on the inner side of all four sides of a quad. -/
def turnSet (σ z : ℝ) (P P' Q Q' : V3 ℝ) : Set (V3 ℝ) :=
  {x | x 2 = z ∧ 0 ≤ σ * crossXY (x - P) (Q - P) ∧ σ * crossXY (x - P') (Q' - P') ≤ 0 ∧ 0 ≤ σ * crossXY (P' - P) (x - P) ∧
    σ * crossXY (Q' - Q) (x - Q) ≤ 0}

theorem sideSet_convex (σ z : ℝ) (P P' Q Q' : V3 ℝ) : Convex ℝ (turnSet σ z P P' Q Q') := by
  rintro x ⟨x1, x2, x3, x4, x5⟩ y ⟨y1, y2, y3, y4, y5⟩ a b a0 b0 ab
  obtain rfl : b = 1 - a := by linarith
  have left : ∀ C D : V3 ℝ, σ * crossXY (a • x + (1 - a) • y - C) D = a * (σ * crossXY (x - C) D) + (1 - a) * (σ * crossXY (y - C) D) := by
    intro C D
    simp only [crossXY, Pi.sub_apply, Pi.add_apply, Pi.smul_apply, smul_eq_mul]; ring
  have right : ∀ C D : V3 ℝ, σ * crossXY D (a • x + (1 - a) • y - C) = a * (σ * crossXY D (x - C)) + (1 - a) * (σ * crossXY D (y - C)) := by
    intro C D
    simp only [crossXY, Pi.sub_apply, Pi.add_apply, Pi.smul_apply, smul_eq_mul]; ring
  refine ⟨?_, ?_, ?_, ?_, ?_⟩
  · simp only [Pi.add_apply, Pi.smul_apply, smul_eq_mul, x1, y1]; ring
  · rw [left]; have := mul_nonneg a0 x2; have := mul_nonneg b0 y2; linarith
  · rw [left]; have := mul_nonpos_of_nonneg_of_nonpos a0 x3; have := mul_nonpos_of_nonneg_of_nonpos b0 y3; linarith
  · rw [right]; have := mul_nonneg a0 x4; have := mul_nonneg b0 y4; linarith
  · rw [right]; have := mul_nonpos_of_nonneg_of_nonpos a0 x5; have := mul_nonpos_of_nonneg_of_nonpos b0 y5; linarith

theorem bends_hull {σ z : ℝ} {P P' Q Q' : V3 ℝ} (h : Bends σ P P' Q Q') (hz : P 2 = z ∧ P' 2 = z ∧ Q 2 = z ∧ Q' 2 = z) :
    convexHull ℝ {P, P', Q, Q'} = quadPatch (aroundQuad P P' Q' Q) ∧ convexHull ℝ {P, P', Q, Q'} = turnSet σ z P P' Q Q' := by
  have h1 : convexHull ℝ {P, P', Q, Q'} ⊆ turnSet σ z P P' Q Q' := by
    refine convexHull_min ?_ (sideSet_convex σ z P P' Q Q')
    obtain ⟨c1, c2, c3, c4⟩ := h
    obtain ⟨z1, z2, z3, z4⟩ := hz
    simp only [crossXY, Pi.sub_apply] at c1 c2 c3 c4
    rintro x (rfl | rfl | rfl | rfl) <;> refine ⟨by assumption, ?_, ?_, ?_, ?_⟩ <;> simp only [crossXY, Pi.sub_apply] <;> linarith
  have h2 : turnSet σ z P P' Q Q' ⊆ quadPatch (aroundQuad P P' Q' Q) := by
    rintro x ⟨x1, x2, x3, x4, x5⟩
    exact mem_bends h ⟨hz.1, hz.2.1, hz.2.2.1, hz.2.2.2, x1⟩ x2 x3 x4 x5
  have h3 : quadPatch (aroundQuad P P' Q' Q) ⊆ convexHull ℝ {P, P', Q, Q'} := by
    rintro x ⟨u, v, u0, u1, v0, v1, rfl⟩
    set S : Set (V3 ℝ) := {P, P', Q, Q'} with hS
    have hconv := convex_convexHull ℝ S
    have m1 : P ∈ convexHull ℝ S := subset_convexHull ℝ S (by simp [hS])
    have m2 : P' ∈ convexHull ℝ S := subset_convexHull ℝ S (by simp [hS])
    have m3 : Q ∈ convexHull ℝ S := subset_convexHull ℝ S (by simp [hS])
    have m4 : Q' ∈ convexHull ℝ S := subset_convexHull ℝ S (by simp [hS])
    have k := hconv (hconv m1 m2 (sub_nonneg.2 u1) u0 (by ring)) (hconv m3 m4 (sub_nonneg.2 u1) u0 (by ring)) (sub_nonneg.2 v1) v0 (by ring)
    convert k using 1
    funext i
    rw [around_point]
    simp only [Pi.add_apply, Pi.smul_apply, smul_eq_mul]
  exact ⟨(h1.trans h2).antisymm h3, h1.antisymm (h2.trans h3)⟩

/-- A part of a quad between two fractions of its lines. -/
theorem bends_part {σ : ℝ} {P P' Q Q' : V3 ℝ} (h : Bends σ P P' Q Q') {s s' : ℝ} (s0 : 0 ≤ s) (hs : s < s') (s1 : s' ≤ 1) :
    Bends σ (between s P Q) (between s P' Q') (between s' P Q) (between s' P' Q') := by
  obtain ⟨c1, c2, c3, c4⟩ := h
  have mix : ∀ {t a b : ℝ}, 0 ≤ t → t ≤ 1 → 0 < a → 0 < b → 0 < (s' - s) * ((1 - t) * a + t * b) := by
    intro t a b t0 t1 ha hb
    apply mul_pos (sub_pos.2 hs)
    rcases t0.eq_or_lt with h | h
    · rw [← h]; simpa using ha
    · have := mul_nonneg (sub_nonneg.2 t1) ha.le; have := mul_pos h hb; linarith
  have key : ∀ (t : ℝ) (C D : V3 ℝ), σ * crossXY (between t P' Q' - between t P Q) (between s' C D - between s C D) =
      (s' - s) * ((1 - t) * (σ * crossXY (P' - P) (D - C)) + t * (σ * crossXY (Q' - Q) (D - C))) := by
    intro t C D
    simp only [crossXY, between, Pi.sub_apply]; ring
  constructor
  · rw [key]; exact mix s0 (by linarith) c1 c3
  · rw [key]; exact mix s0 (by linarith) c2 c4
  · rw [key]; exact mix (by linarith) s1 c1 c3
  · rw [key]; exact mix (by linarith) s1 c2 c4

theorem around_part (P P' Q Q' : V3 ℝ) (s s' u v : ℝ) :
    quadPoint (aroundQuad (between s P Q) (between s P' Q') (between s' P' Q') (between s' P Q)) u v =
      quadPoint (aroundQuad P P' Q' Q) u ((1 - v) * s + v * s') := by
  funext i
  rw [around_point, around_point]
  simp only [between]
  ring

theorem part_hull {σ z : ℝ} {P P' Q Q' : V3 ℝ} (h : Bends σ P P' Q Q') (hz : P 2 = z ∧ P' 2 = z ∧ Q 2 = z ∧ Q' 2 = z) {s s' : ℝ}
    (s0 : 0 ≤ s) (hs : s < s') (s1 : s' ≤ 1) :
    convexHull ℝ {between s P Q, between s P' Q', between s' P Q, between s' P' Q'} =
      {x | ∃ u v, 0 ≤ u ∧ u ≤ 1 ∧ s ≤ v ∧ v ≤ s' ∧ x = quadPoint (aroundQuad P P' Q' Q) u v} := by
  rw [(bends_hull (z := z) (bends_part h s0 hs s1) (by
    simp only [between, hz.1, hz.2.1, hz.2.2.1, hz.2.2.2]
    refine ⟨?_, ?_, ?_, ?_⟩ <;> ring)).1]
  ext x
  constructor
  · rintro ⟨u, v, u0, u1, v0, v1, rfl⟩
    exact ⟨u, _, u0, u1, by nlinarith, by nlinarith, around_part P P' Q Q' s s' u v⟩
  · rintro ⟨u, v, u0, u1, v0, v1, rfl⟩
    have : s' - s ≠ 0 := (sub_pos.2 hs).ne'
    refine ⟨u, (v - s) / (s' - s), u0, u1, div_nonneg (by linarith) (by linarith), ?_, ?_⟩
    · rw [div_le_one (by linarith)]; linarith
    · rw [around_part]
      congr 1
      field_simp
      ring

/-- A band of lines none of which crosses another. -/
structure Fans (σ z : ℝ) (n : ℕ) (P Q : ℕ → V3 ℝ) : Prop where
  flat : ∀ p ≤ n, P p 2 = z ∧ Q p 2 = z
  bends : ∀ p p', p < p' → p' ≤ n → Bends σ (P p) (P p') (Q p) (Q p')

section
variable {σ z : ℝ} {n m : ℕ} {P Q : ℕ → V3 ℝ} {Y : ℕ → ℝ} {node : ℕ → ℕ → V3 ℝ}

theorem fans_region (hf : Fans σ z n P Q) (hY : ∀ q < m, Y q < Y (q + 1)) (hY0 : Y 0 = 0) (hY1 : Y m = 1)
    (hnode : ∀ p ≤ n, ∀ q ≤ m, node p q = between (Y q) (P p) (Q p)) {p q : ℕ} (hp : p < n) (hq : q < m) : quadRegion node p q =
      {x | ∃ u v, 0 ≤ u ∧ u ≤ 1 ∧ Y q ≤ v ∧ v ≤ Y (q + 1) ∧ x = quadPoint (aroundQuad (P p) (P (p + 1)) (Q (p + 1)) (Q p)) u v} := by
  have hmono : ∀ q q', q ≤ q' → q' ≤ m → Y q ≤ Y q' := by
    intro q q' hq
    induction q', hq using Nat.le_induction with
    | base => intro _; exact le_rfl
    | succ q' g ih => intro hm'; exact (ih (by omega)).trans (hY q' (by omega)).le
  rw [quadRegion, hnode p hp.le q hq.le, hnode (p + 1) hp q hq.le, hnode p hp.le (q + 1) hq, hnode (p + 1) hp (q + 1) hq]
  refine part_hull (z := z) (hf.bends p (p + 1) (Nat.lt_succ_self p) hp) ⟨(hf.flat p hp.le).1, (hf.flat (p + 1) hp).1, (hf.flat p hp.le).2,
    (hf.flat (p + 1) hp).2⟩ ?_ (hY q hq) ?_
  · rw [← hY0]; exact hmono 0 q (Nat.zero_le _) hq.le
  · rw [← hY1]; exact hmono (q + 1) m hq le_rfl

theorem fans_whole (hf : Fans σ z n P Q) (hm : 0 < m) (hY : ∀ q < m, Y q < Y (q + 1)) (hY0 : Y 0 = 0) (hY1 : Y m = 1)
    (hnode : ∀ p ≤ n, ∀ q ≤ m, node p q = between (Y q) (P p) (Q p)) {p : ℕ} (hp : p < n) {x : V3 ℝ} :
    (∃ q < m, x ∈ quadRegion node p q) ↔ x ∈ quadPatch (aroundQuad (P p) (P (p + 1)) (Q (p + 1)) (Q p)) := by
  have hmono : ∀ q q', q ≤ q' → q' ≤ m → Y q ≤ Y q' := by
    intro q q' hq
    induction q', hq using Nat.le_induction with
    | base => intro _; exact le_rfl
    | succ q' g ih => intro hm'; exact (ih (by omega)).trans (hY q' (by omega)).le
  constructor
  · rintro ⟨q, hq, hx⟩
    rw [fans_region hf hY hY0 hY1 hnode hp hq] at hx
    obtain ⟨u, v, u0, u1, v0, v1, rfl⟩ := hx
    refine ⟨u, v, u0, u1, ?_, ?_, rfl⟩
    · rw [← hY0]; exact (hmono 0 q (Nat.zero_le _) hq.le).trans v0
    · rw [← hY1]; exact v1.trans (hmono (q + 1) m hq le_rfl)
  · rintro ⟨u, v, u0, u1, v0, v1, rfl⟩
    obtain ⟨q, hq, g3, g4⟩ := exists_step (f := Y) (h := v) hm (by rw [hY0]; exact v0) (by rw [hY1]; exact v1)
    exact ⟨q, hq, by rw [fans_region hf hY hY0 hY1 hnode hp hq]; exact ⟨u, v, u0, u1, g3, g4, rfl⟩⟩

/-- The side of a line on which a point of the quad between two lines is. -/
theorem fans_side (k p : ℕ) (u v : ℝ) : σ * crossXY (quadPoint (aroundQuad (P p) (P (p + 1)) (Q (p + 1)) (Q p)) u v - P k) (Q k - P k) =
    (1 - v) * ((1 - u) * (σ * crossXY (P p - P k) (Q k - P k)) + u * (σ * crossXY (P (p + 1) - P k) (Q k - P k))) +
      v * ((1 - u) * (σ * crossXY (Q p - Q k) (Q k - P k)) + u * (σ * crossXY (Q (p + 1) - Q k) (Q k - P k))) := by
  simp only [crossXY, Pi.sub_apply, around_point]
  ring

theorem fans_left (hf : Fans σ z n P Q) {k p : ℕ} (hk : k ≤ n) (hp : p < k) {u v : ℝ} (u0 : 0 ≤ u) (u1 : u ≤ 1) (v0 : 0 ≤ v) (v1 : v ≤ 1) :
    σ * crossXY (quadPoint (aroundQuad (P p) (P (p + 1)) (Q (p + 1)) (Q p)) u v - P k) (Q k - P k) ≤ 0 ∧
      (σ * crossXY (quadPoint (aroundQuad (P p) (P (p + 1)) (Q (p + 1)) (Q p)) u v - P k) (Q k - P k) = 0 → k = p + 1 ∧ u = 1) := by
  have neg : ∀ a b c : V3 ℝ, σ * crossXY (a - b) c = -(σ * crossXY (b - a) c) := by
    intro a b c; simp only [crossXY, Pi.sub_apply]; ring
  have b1 := hf.bends p k hp hk
  have n1 : σ * crossXY (P p - P k) (Q k - P k) < 0 := by rw [neg]; linarith [b1.c2]
  have n2 : σ * crossXY (Q p - Q k) (Q k - P k) < 0 := by rw [neg]; linarith [b1.c4]
  have w0 : 0 ≤ 1 - u := by linarith
  have w1 : 0 ≤ 1 - v := by linarith
  rw [fans_side]
  rcases Nat.eq_or_lt_of_le (Nat.succ_le_of_lt hp) with h | h
  · have z1 : σ * crossXY (P (p + 1) - P k) (Q k - P k) = 0 := by rw [← h]; simp [crossXY]
    have z2 : σ * crossXY (Q (p + 1) - Q k) (Q k - P k) = 0 := by rw [← h]; simp [crossXY]
    rw [z1, z2]
    constructor
    · have := mul_nonneg w1 (mul_nonneg w0 (neg_nonneg.2 n1.le))
      have := mul_nonneg v0 (mul_nonneg w0 (neg_nonneg.2 n2.le))
      linarith
    · intro e
      refine ⟨h.symm, ?_⟩
      have hneg : (1 - v) * (σ * crossXY (P p - P k) (Q k - P k)) + v * (σ * crossXY (Q p - Q k) (Q k - P k)) < 0 := by
        rcases v0.eq_or_lt with hv | hv
        · rw [← hv]; simpa using n1
        · have := mul_pos hv (neg_pos.2 n2)
          have := mul_nonneg w1 (neg_nonneg.2 n1.le)
          linarith
      have : (1 - u) * ((1 - v) * (σ * crossXY (P p - P k) (Q k - P k)) + v * (σ * crossXY (Q p - Q k) (Q k - P k))) = 0 := by
        linear_combination e
      rcases mul_eq_zero.1 this with h' | h'
      · linarith
      · exact absurd h' hneg.ne
  · have b2 := hf.bends (p + 1) k h hk
    have n3 : σ * crossXY (P (p + 1) - P k) (Q k - P k) < 0 := by rw [neg]; linarith [b2.c2]
    have n4 : σ * crossXY (Q (p + 1) - Q k) (Q k - P k) < 0 := by rw [neg]; linarith [b2.c4]
    have mix : ∀ {t a b : ℝ}, 0 ≤ t → t ≤ 1 → a < 0 → b < 0 → (1 - t) * a + t * b < 0 := by
      intro t a b t0 t1 ha hb
      rcases t0.eq_or_lt with h | h
      · rw [← h]; simpa using ha
      · have := mul_nonneg (sub_nonneg.2 t1) (neg_nonneg.2 ha.le); have := mul_pos h (neg_pos.2 hb); linarith
    have := mix v0 v1 (mix u0 u1 n1 n3) (mix u0 u1 n2 n4)
    exact ⟨this.le, fun e => absurd e this.ne⟩

theorem fans_right (hf : Fans σ z n P Q) {k p : ℕ} (hp : p < n) (hk : k ≤ p) {u v : ℝ} (u0 : 0 ≤ u) (u1 : u ≤ 1) (v0 : 0 ≤ v) (v1 : v ≤ 1) :
    0 ≤ σ * crossXY (quadPoint (aroundQuad (P p) (P (p + 1)) (Q (p + 1)) (Q p)) u v - P k) (Q k - P k) ∧
      (σ * crossXY (quadPoint (aroundQuad (P p) (P (p + 1)) (Q (p + 1)) (Q p)) u v - P k) (Q k - P k) = 0 → k = p ∧ u = 0) := by
  have b1 := hf.bends k (p + 1) (by omega) hp
  have n1 : 0 < σ * crossXY (P (p + 1) - P k) (Q k - P k) := b1.c1
  have n2 : 0 < σ * crossXY (Q (p + 1) - Q k) (Q k - P k) := b1.c3
  have w0 : 0 ≤ 1 - u := by linarith
  have w1 : 0 ≤ 1 - v := by linarith
  have mix : ∀ {t a b : ℝ}, 0 ≤ t → t ≤ 1 → 0 < a → 0 < b → 0 < (1 - t) * a + t * b := by
    intro t a b t0 t1 ha hb
    rcases t0.eq_or_lt with h | h
    · rw [← h]; simpa using ha
    · have := mul_nonneg (sub_nonneg.2 t1) ha.le; have := mul_pos h hb; linarith
  rw [fans_side]
  rcases Nat.eq_or_lt_of_le hk with h | h
  · have z1 : σ * crossXY (P p - P k) (Q k - P k) = 0 := by rw [← h]; simp [crossXY]
    have z2 : σ * crossXY (Q p - Q k) (Q k - P k) = 0 := by rw [← h]; simp [crossXY]
    rw [z1, z2]
    constructor
    · have := mul_nonneg w1 (mul_nonneg u0 n1.le)
      have := mul_nonneg v0 (mul_nonneg u0 n2.le)
      linarith
    · intro e
      refine ⟨h, ?_⟩
      have hpos := mix v0 v1 n1 n2
      have : u * ((1 - v) * (σ * crossXY (P (p + 1) - P k) (Q k - P k)) + v * (σ * crossXY (Q (p + 1) - Q k) (Q k - P k))) = 0 := by
        linear_combination e
      rcases mul_eq_zero.1 this with h' | h'
      · exact h'
      · exact absurd h' hpos.ne'
  · have b2 := hf.bends k p h hp.le
    have := mix v0 v1 (mix u0 u1 b2.c1 n1) (mix u0 u1 b2.c3 n2)
    exact ⟨this.le, fun e => absurd e this.ne'⟩

theorem fans_tiles (hf : Fans σ z n P Q) (hm : 0 < m) (hY : ∀ q < m, Y q < Y (q + 1)) (hY0 : Y 0 = 0) (hY1 : Y m = 1)
    (hnode : ∀ p ≤ n, ∀ q ≤ m, node p q = between (Y q) (P p) (Q p)) : TilesBand P Q n m node := by
  have hmono : ∀ q q', q ≤ q' → q' ≤ m → Y q ≤ Y q' := by
    intro q q' hq
    induction q', hq using Nat.le_induction with
    | base => intro _; exact le_rfl
    | succ q' g ih => intro hm'; exact (ih (by omega)).trans (hY q' (by omega)).le
  have unitY : ∀ {j v}, j < m → Y j ≤ v → v ≤ Y (j + 1) → 0 ≤ v ∧ v ≤ 1 := by
    intro j v hj h1 h2
    refine ⟨?_, ?_⟩
    · rw [← hY0]; exact (hmono 0 j (Nat.zero_le _) hj.le).trans h1
    · rw [← hY1]; exact h2.trans (hmono (j + 1) m hj le_rfl)
  have edge : ∀ {p q v}, p ≤ n → q < m → Y q ≤ v → v ≤ Y (q + 1) → between v (P p) (Q p) ∈ segment ℝ (node p q) (node p (q + 1)) := by
    intro p q v hp hq h1 h2
    obtain ⟨a, b, a0, b0, ab, e⟩ : v ∈ segment ℝ (Y q) (Y (q + 1)) := by rw [segment_eq_Icc (h1.trans h2)]; exact ⟨h1, h2⟩
    refine ⟨a, b, a0, b0, ab, ?_⟩
    simp only [smul_eq_mul] at e
    rw [hnode p hp q hq.le, hnode p hp (q + 1) hq, ← e]
    obtain rfl : b = 1 - a := by linarith
    funext i
    simp only [between, Pi.add_apply, Pi.smul_apply, smul_eq_mul]
    ring
  refine ⟨?_, ?_, ?_⟩
  · intro p hp
    rw [(bends_hull (z := z) (hf.bends p (p + 1) (Nat.lt_succ_self p) hp) ⟨(hf.flat p hp.le).1, (hf.flat (p + 1) hp).1, (hf.flat p hp.le).2,
      (hf.flat (p + 1) hp).2⟩).1]
    ext x
    rw [← fans_whole hf hm hY hY0 hY1 hnode hp]
    simp
  · rintro p hp q q' hqq hq' x ⟨x1, x2⟩
    rw [fans_region hf hY hY0 hY1 hnode hp (by omega)] at x1
    rw [fans_region hf hY hY0 hY1 hnode hp hq'] at x2
    obtain ⟨u, v, u0, u1, v0, v1, rfl⟩ := x1
    obtain ⟨u', v', u0', u1', v0', v1', e⟩ := x2
    obtain ⟨rfl, rfl⟩ := quadPoint_inj (bends_convex (hf.bends p (p + 1) (Nat.lt_succ_self p) hp)) ⟨u0, u1⟩ (unitY (by omega) v0 v1) ⟨u0', u1'⟩
      (unitY hq' v0' v1') e
    obtain ⟨rfl, rfl⟩ := rising_apart hY hqq hq' v1 v0'
    refine ⟨rfl, 1 - u, u, by linarith, u0, by ring, ?_⟩
    rw [hnode p hp.le _ hq'.le, hnode (p + 1) hp _ hq'.le]
    funext i
    rw [around_point]
    simp only [between, Pi.add_apply, Pi.smul_apply, smul_eq_mul]
    ring
  · rintro p p' hpp hp' q hq q' hq' x ⟨x1, x2⟩
    rw [fans_region hf hY hY0 hY1 hnode (by omega) hq] at x1
    rw [fans_region hf hY hY0 hY1 hnode hp' hq'] at x2
    obtain ⟨u, v, u0, u1, v0, v1, rfl⟩ := x1
    obtain ⟨u', v', u0', u1', v0', v1', e⟩ := x2
    obtain ⟨l1, l2⟩ := fans_left hf (k := p + 1) (by omega) (Nat.lt_succ_self p) u0 u1 (unitY hq v0 v1).1 (unitY hq v0 v1).2
    obtain ⟨r1, r2⟩ := fans_right hf (k := p + 1) hp' hpp u0' u1' (unitY hq' v0' v1').1 (unitY hq' v0' v1').2
    rw [← e] at r1 r2
    obtain ⟨_, rfl⟩ := l2 (le_antisymm l1 r1)
    obtain ⟨rfl, rfl⟩ := r2 (le_antisymm l1 r1)
    have e1 : quadPoint (aroundQuad (P p) (P (p + 1)) (Q (p + 1)) (Q p)) 1 v = between v (P (p + 1)) (Q (p + 1)) := by
      funext i; rw [around_point]; simp only [between]; ring
    have e2 : quadPoint (aroundQuad (P (p + 1)) (P (p + 1 + 1)) (Q (p + 1 + 1)) (Q (p + 1))) 0 v' = between v' (P (p + 1)) (Q (p + 1)) := by
      funext i; rw [around_point]; simp only [between]; ring
    refine ⟨rfl, ?_, ?_⟩
    · rw [e1]; exact edge hp'.le hq v0 v1
    · rw [e, e2]; exact edge hp'.le hq' v0' v1'

/-- A point between the first and the last line is between two neighbouring ones. -/
theorem fans_strip (hn : 0 < n) {x : V3 ℝ} (first : 0 ≤ σ * crossXY (x - P 0) (Q 0 - P 0)) (last : σ * crossXY (x - P n) (Q n - P n) ≤ 0) :
    ∃ p < n, 0 ≤ σ * crossXY (x - P p) (Q p - P p) ∧ σ * crossXY (x - P (p + 1)) (Q (p + 1) - P (p + 1)) ≤ 0 := by
  obtain ⟨p, hp, h1, h2⟩ := exists_step (f := fun k => -(σ * crossXY (x - P k) (Q k - P k))) (h := 0) hn (by simpa using first) (by simpa using last)
  exact ⟨p, hp, by simpa using h1, by simpa using h2⟩

theorem fans_covers (hf : Fans σ z n P Q) (hn : 0 < n) (hm : 0 < m) (hY : ∀ q < m, Y q < Y (q + 1)) (hY0 : Y 0 = 0) (hY1 : Y m = 1)
    (hnode : ∀ p ≤ n, ∀ q ≤ m, node p q = between (Y q) (P p) (Q p)) {x : V3 ℝ} (hx : x 2 = z)
    (first : 0 ≤ σ * crossXY (x - P 0) (Q 0 - P 0)) (last : σ * crossXY (x - P n) (Q n - P n) ≤ 0)
    (low : ∀ p < n, 0 ≤ σ * crossXY (P (p + 1) - P p) (x - P p)) (high : ∀ p < n, σ * crossXY (Q (p + 1) - Q p) (x - Q p) ≤ 0) :
    ∃ p < n, ∃ q < m, x ∈ quadRegion node p q := by
  obtain ⟨p, hp, h1, h2⟩ := fans_strip hn first last
  exact ⟨p, hp, (fans_whole hf hm hY hY0 hY1 hnode hp).2 (mem_bends (hf.bends p (p + 1) (Nat.lt_succ_self p) hp) ⟨(hf.flat p hp.le).1,
    (hf.flat (p + 1) hp).1, (hf.flat p hp.le).2, (hf.flat (p + 1) hp).2, hx⟩ h1 h2 (low p hp) (high p hp))⟩

/-- The same if the lines begin on a circle and go away from its centre in both directions. -/
theorem fans_covers_arc (hf : Fans σ z n P Q) (hn : 0 < n) (hm : 0 < m) (hY : ∀ q < m, Y q < Y (q + 1)) (hY0 : Y 0 = 0) (hY1 : Y m = 1)
    (hnode : ∀ p ≤ n, ∀ q ≤ m, node p q = between (Y q) (P p) (Q p)) {x : V3 ℝ} (hx : x 2 = z)
    (first : 0 ≤ σ * crossXY (x - P 0) (Q 0 - P 0)) (last : σ * crossXY (x - P n) (Q n - P n) ≤ 0)
    (high : ∀ p < n, σ * crossXY (Q (p + 1) - Q p) (x - Q p) ≤ 0) {o : V3 ℝ} {r : ℝ}
    (arc : ∀ p ≤ n, (P p 0 - o 0) ^ 2 + (P p 1 - o 1) ^ 2 = r ^ 2)
    (away : ∀ p ≤ n, 0 ≤ Q p 0 - P p 0 ∧ 0 ≤ Q p 1 - P p 1 ∧ 0 < Q p 0 - P p 0 + (Q p 1 - P p 1))
    (quarter : 0 ≤ x 0 - o 0 ∧ 0 ≤ x 1 - o 1) (out : r ^ 2 ≤ (x 0 - o 0) ^ 2 + (x 1 - o 1) ^ 2) :
    ∃ p < n, ∃ q < m, x ∈ quadRegion node p q := by
  obtain ⟨p, hp, h1, h2⟩ := fans_strip hn first last
  refine ⟨p, hp, (fans_whole hf hm hY hY0 hY1 hnode hp).2 ?_⟩
  obtain ⟨u, v, u0, u1, v1, _, e⟩ := line_bends (hf.bends p (p + 1) (Nat.lt_succ_self p) hp) ⟨(hf.flat p hp.le).1,
    (hf.flat (p + 1) hp).1, (hf.flat p hp.le).2, (hf.flat (p + 1) hp).2, hx⟩ h1 h2 (high p hp)
  refine ⟨u, v, u0, u1, ?_, v1, e⟩
  by_contra hv
  push Not at hv
  have e0 := congrFun e 0
  have e1 := congrFun e 1
  rw [around_point] at e0 e1
  obtain ⟨a1, a2, a3⟩ := away p hp.le
  obtain ⟨b1, b2, b3⟩ := away (p + 1) hp
  have r1 := arc p hp.le
  have r2 := arc (p + 1) hp
  have w0 : 0 ≤ 1 - u := by linarith
  obtain ⟨A0, hA0⟩ : ∃ A, A = (1 - u) * (P p 0 - o 0) + u * (P (p + 1) 0 - o 0) := ⟨_, rfl⟩
  obtain ⟨A1, hA1⟩ : ∃ A, A = (1 - u) * (P p 1 - o 1) + u * (P (p + 1) 1 - o 1) := ⟨_, rfl⟩
  obtain ⟨D0, hD0⟩ : ∃ D, D = (1 - u) * (Q p 0 - P p 0) + u * (Q (p + 1) 0 - P (p + 1) 0) := ⟨_, rfl⟩
  obtain ⟨D1, hD1⟩ : ∃ D, D = (1 - u) * (Q p 1 - P p 1) + u * (Q (p + 1) 1 - P (p + 1) 1) := ⟨_, rfl⟩
  have x0 : x 0 - o 0 = A0 + v * D0 := by rw [e0, hA0, hD0]; ring
  have x1 : x 1 - o 1 = A1 + v * D1 := by rw [e1, hA1, hD1]; ring
  have d0 : 0 ≤ D0 := by rw [hD0]; have := mul_nonneg w0 a1; have := mul_nonneg u0 b1; linarith
  have d1 : 0 ≤ D1 := by rw [hD1]; have := mul_nonneg w0 a2; have := mul_nonneg u0 b2; linarith
  have d2 : 0 < D0 + D1 := by
    have : D0 + D1 = (1 - u) * (Q p 0 - P p 0 + (Q p 1 - P p 1)) + u * (Q (p + 1) 0 - P (p + 1) 0 + (Q (p + 1) 1 - P (p + 1) 1)) := by
      rw [hD0, hD1]; ring
    rw [this]
    rcases u0.eq_or_lt with h | h
    · rw [← h]; simpa using a3
    · have := mul_nonneg w0 a3.le; have := mul_pos h b3; linarith
  have jensen : ∀ a b : ℝ, ((1 - u) * a + u * b) ^ 2 ≤ (1 - u) * a ^ 2 + u * b ^ 2 := by
    intro a b
    nlinarith [mul_nonneg (mul_nonneg w0 u0) (sq_nonneg (a - b))]
  have hA : A0 ^ 2 + A1 ^ 2 ≤ r ^ 2 := by
    have j0 := jensen (P p 0 - o 0) (P (p + 1) 0 - o 0)
    have j1 := jensen (P p 1 - o 1) (P (p + 1) 1 - o 1)
    rw [← hA0] at j0
    rw [← hA1] at j1
    have : (1 - u) * r ^ 2 + u * r ^ 2 = r ^ 2 := by ring
    rw [← this]
    nth_rewrite 1 [← r1]
    rw [← r2]
    linarith
  rw [x0, x1] at out quarter
  have p0 := mul_nonneg (neg_nonneg.2 hv.le) d0
  have p1 := mul_nonneg (neg_nonneg.2 hv.le) d1
  have s0 : (A0 + v * D0) ^ 2 ≤ A0 ^ 2 := by apply pow_le_pow_left₀ quarter.1; linarith
  have s1 : (A1 + v * D1) ^ 2 ≤ A1 ^ 2 := by apply pow_le_pow_left₀ quarter.2; linarith
  rcases d0.eq_or_lt with h | h
  · have h1 : 0 < D1 := by linarith
    have := mul_pos (neg_pos.2 hv) h1
    have : (A1 + v * D1) ^ 2 < A1 ^ 2 := by apply pow_lt_pow_left₀ _ quarter.2 two_ne_zero; linarith
    linarith
  · have := mul_pos (neg_pos.2 hv) h
    have : (A0 + v * D0) ^ 2 < A0 ^ 2 := by apply pow_lt_pow_left₀ _ quarter.1 two_ne_zero; linarith
    linarith

end

/-- Two bands on different sides of their first line. -/
theorem fans_pair {z : ℝ} {n n' m : ℕ} {P Q P' Q' : ℕ → V3 ℝ} {Y : ℕ → ℝ} {node node' : ℕ → ℕ → V3 ℝ} (hf : Fans 1 z n P Q)
    (hf' : Fans (-1) z n' P' Q') (h0 : P 0 = P' 0 ∧ Q 0 = Q' 0) (hm : 0 < m) (hY : ∀ q < m, Y q < Y (q + 1)) (hY0 : Y 0 = 0)
    (hY1 : Y m = 1) (hnode : ∀ p ≤ n, ∀ q ≤ m, node p q = between (Y q) (P p) (Q p))
    (hnode' : ∀ p ≤ n', ∀ q ≤ m, node' p q = between (Y q) (P' p) (Q' p)) : TilesPair n n' m node node' := by
  have hmono : ∀ q q', q ≤ q' → q' ≤ m → Y q ≤ Y q' := by
    intro q q' hq
    induction q', hq using Nat.le_induction with
    | base => intro _; exact le_rfl
    | succ q' g ih => intro hm'; exact (ih (by omega)).trans (hY q' (by omega)).le
  have unitY : ∀ {j v}, j < m → Y j ≤ v → v ≤ Y (j + 1) → 0 ≤ v ∧ v ≤ 1 := by
    intro j v hj h1 h2
    refine ⟨?_, ?_⟩
    · rw [← hY0]; exact (hmono 0 j (Nat.zero_le _) hj.le).trans h1
    · rw [← hY1]; exact h2.trans (hmono (j + 1) m hj le_rfl)
  have edge : ∀ {q v}, q < m → Y q ≤ v → v ≤ Y (q + 1) → between v (P 0) (Q 0) ∈ segment ℝ (node 0 q) (node 0 (q + 1)) := by
    intro q v hq h1 h2
    obtain ⟨a, b, a0, b0, ab, e⟩ : v ∈ segment ℝ (Y q) (Y (q + 1)) := by rw [segment_eq_Icc (h1.trans h2)]; exact ⟨h1, h2⟩
    refine ⟨a, b, a0, b0, ab, ?_⟩
    simp only [smul_eq_mul] at e
    rw [hnode 0 (Nat.zero_le _) q hq.le, hnode 0 (Nat.zero_le _) (q + 1) hq, ← e]
    obtain rfl : b = 1 - a := by linarith
    funext i
    simp only [between, Pi.add_apply, Pi.smul_apply, smul_eq_mul]
    ring
  have ends : ∀ C D : V3 ℝ, between 0 C D = C ∧ between 1 C D = D := by
    intro C D
    constructor <;> funext i <;> simp [between]
  have band : ∀ {σ : ℝ} {n : ℕ} {P Q : ℕ → V3 ℝ} {node : ℕ → ℕ → V3 ℝ}, Fans σ z n P Q →
      (∀ p ≤ n, ∀ q ≤ m, node p q = between (Y q) (P p) (Q p)) → TilesBand (fun p => node p 0) (fun p => node p m) n m node := by
    intro σ n P Q node hf hnode
    obtain ⟨t1, t2, t3⟩ := fans_tiles hf hm hY hY0 hY1 hnode
    refine ⟨fun p hp => ?_, t2, t3⟩
    rw [t1 p hp]
    rw [hnode p hp.le 0 (Nat.zero_le _), hnode p hp.le m le_rfl, hnode (p + 1) hp 0 (Nat.zero_le _), hnode (p + 1) hp m le_rfl, hY0, hY1]
    simp only [ends]
  refine ⟨band hf hnode, band hf' hnode', ?_, ?_⟩
  · intro q hq
    rw [hnode 0 (Nat.zero_le _) q hq, hnode' 0 (Nat.zero_le _) q hq, h0.1, h0.2]
  · rintro p hp p' hp' q hq q' hq' x ⟨x1, x2⟩
    rw [fans_region hf hY hY0 hY1 hnode hp hq] at x1
    rw [fans_region hf' hY hY0 hY1 hnode' hp' hq'] at x2
    obtain ⟨u, v, u0, u1, v0, v1, rfl⟩ := x1
    obtain ⟨u', v', u0', u1', v0', v1', e⟩ := x2
    obtain ⟨l1, l2⟩ := fans_right hf (k := 0) hp (Nat.zero_le _) u0 u1 (unitY hq v0 v1).1 (unitY hq v0 v1).2
    obtain ⟨r1, r2⟩ := fans_right hf' (k := 0) hp' (Nat.zero_le _) u0' u1' (unitY hq' v0' v1').1 (unitY hq' v0' v1').2
    rw [← e, ← h0.1, ← h0.2] at r1 r2
    have zero := le_antisymm (by linarith) l1
    obtain ⟨rfl, rfl⟩ := l2 zero
    obtain ⟨rfl, rfl⟩ := r2 (by linarith)
    have e1 : ∀ (P Q : ℕ → V3 ℝ) (v : ℝ), quadPoint (aroundQuad (P 0) (P (0 + 1)) (Q (0 + 1)) (Q 0)) 0 v = between v (P 0) (Q 0) := by
      intro P Q v
      funext i; rw [around_point]; simp only [between]; ring
    refine ⟨rfl, rfl, ?_, ?_⟩
    · rw [e1]; exact edge hq v0 v1
    · rw [e, e1, ← h0.1, ← h0.2]; exact edge hq' v0' v1'

/-- On which side of a chord of a circle a point is. -/
theorem chord_cross (r α β : ℝ) (y : V3 ℝ) : crossXY (polar r β - polar r α) (y - polar r α) =
    2 * r * Real.sin (Real.pi * (α - β) / 360) * (Real.cos (Real.pi * (α + β) / 360) * y 0 + Real.sin (Real.pi * (α + β) / 360) * y 1 -
      r * Real.cos (Real.pi * (α - β) / 360)) := by
  have ha : Real.pi * α / 180 = Real.pi * (α + β) / 360 + Real.pi * (α - β) / 360 := by ring
  have hb : Real.pi * β / 180 = Real.pi * (α + β) / 360 - Real.pi * (α - β) / 360 := by ring
  simp only [crossXY, polar, Pi.sub_apply, Matrix.cons_val_zero, Matrix.cons_val_one, ha, hb, Real.cos_add, Real.cos_sub, Real.sin_add, Real.sin_sub]
  obtain ⟨c, hc⟩ : ∃ c, c = Real.cos (Real.pi * (α + β) / 360) := ⟨_, rfl⟩
  obtain ⟨s, hs⟩ : ∃ s, s = Real.sin (Real.pi * (α + β) / 360) := ⟨_, rfl⟩
  obtain ⟨C, hC⟩ : ∃ c, c = Real.cos (Real.pi * (α - β) / 360) := ⟨_, rfl⟩
  obtain ⟨S, hS⟩ : ∃ s, s = Real.sin (Real.pi * (α - β) / 360) := ⟨_, rfl⟩
  have h1 : s ^ 2 + c ^ 2 = 1 := by rw [hs, hc]; exact Real.sin_sq_add_cos_sq _
  rw [← hc, ← hs, ← hC, ← hS]
  linear_combination (-2 * r ^ 2 * S * C) * h1

/-- The points of a cell are on the inner side of the sides of the quad between its two lines. -/
theorem fans_inside {σ z : ℝ} {n m : ℕ} {P Q : ℕ → V3 ℝ} {Y : ℕ → ℝ} {node : ℕ → ℕ → V3 ℝ} (hf : Fans σ z n P Q) (hm : 0 < m)
    (hY : ∀ q < m, Y q < Y (q + 1)) (hY0 : Y 0 = 0) (hY1 : Y m = 1)
    (hnode : ∀ p ≤ n, ∀ q ≤ m, node p q = between (Y q) (P p) (Q p)) {p q : ℕ} (hp : p < n) (hq : q < m) {x : V3 ℝ}
    (hx : x ∈ quadRegion node p q) : x ∈ convexHull ℝ {P p, P (p + 1), Q p, Q (p + 1)} ∧ x ∈ turnSet σ z (P p) (P (p + 1)) (Q p) (Q (p + 1)) := by
  have h := bends_hull (z := z) (hf.bends p (p + 1) (Nat.lt_succ_self p) hp) ⟨(hf.flat p hp.le).1, (hf.flat (p + 1) hp).1, (hf.flat p hp.le).2,
    (hf.flat (p + 1) hp).2⟩
  have := (fans_whole hf hm hY hY0 hY1 hnode hp).1 ⟨q, hq, hx⟩
  rw [← h.1] at this
  exact ⟨this, by rw [← h.2]; exact this⟩

/-- A point beyond the chord of an arc of a circle is not closer to the centre than the chord. -/
theorem chord_far {c s d y0 y1 : ℝ} (hcs : s ^ 2 + c ^ 2 = 1) (hd : 0 ≤ d) (h : d ≤ c * y0 + s * y1) : d ^ 2 ≤ y0 ^ 2 + y1 ^ 2 := by
  have h1 : d ^ 2 ≤ (c * y0 + s * y1) ^ 2 := pow_le_pow_left₀ hd h 2
  have h2 : (c * y0 + s * y1) ^ 2 + (c * y1 - s * y0) ^ 2 = (s ^ 2 + c ^ 2) * (y0 ^ 2 + y1 ^ 2) := by ring
  rw [hcs, one_mul] at h2
  nlinarith [sq_nonneg (c * y1 - s * y0)]

theorem chord_near {c s d y0 y1 : ℝ} (hcs : s ^ 2 + c ^ 2 = 1) (hd : 0 ≤ d) (h : y0 ^ 2 + y1 ^ 2 ≤ d ^ 2) : c * y0 + s * y1 ≤ d := by
  by_contra hn
  push Not at hn
  have h1 : d ^ 2 < (c * y0 + s * y1) ^ 2 := pow_lt_pow_left₀ hn hd two_ne_zero
  have h2 : (c * y0 + s * y1) ^ 2 + (c * y1 - s * y0) ^ 2 = (s ^ 2 + c ^ 2) * (y0 ^ 2 + y1 ^ 2) := by ring
  rw [hcs, one_mul] at h2
  nlinarith [sq_nonneg (c * y1 - s * y0)]

theorem around_ge {P P' Q Q' : V3 ℝ} {i : Fin 3} {a u v : ℝ} (u0 : 0 ≤ u) (u1 : u ≤ 1) (v0 : 0 ≤ v) (v1 : v ≤ 1)
    (h : a ≤ P i ∧ a ≤ P' i ∧ a ≤ Q i ∧ a ≤ Q' i) : a ≤ quadPoint (aroundQuad P P' Q' Q) u v i := by
  have w0 : 0 ≤ 1 - u := by linarith
  have w1 : 0 ≤ 1 - v := by linarith
  have k1 := mul_nonneg w1 (mul_nonneg w0 (sub_nonneg.2 h.1))
  have k2 := mul_nonneg w1 (mul_nonneg u0 (sub_nonneg.2 h.2.1))
  have k3 := mul_nonneg v0 (mul_nonneg w0 (sub_nonneg.2 h.2.2.1))
  have k4 := mul_nonneg v0 (mul_nonneg u0 (sub_nonneg.2 h.2.2.2))
  rw [around_point]
  linarith

theorem around_le {P P' Q Q' : V3 ℝ} {i : Fin 3} {a u v : ℝ} (u0 : 0 ≤ u) (u1 : u ≤ 1) (v0 : 0 ≤ v) (v1 : v ≤ 1)
    (h : P i ≤ a ∧ P' i ≤ a ∧ Q i ≤ a ∧ Q' i ≤ a) : quadPoint (aroundQuad P P' Q' Q) u v i ≤ a := by
  have w0 : 0 ≤ 1 - u := by linarith
  have w1 : 0 ≤ 1 - v := by linarith
  have k1 := mul_nonneg w1 (mul_nonneg w0 (sub_nonneg.2 h.1))
  have k2 := mul_nonneg w1 (mul_nonneg u0 (sub_nonneg.2 h.2.1))
  have k3 := mul_nonneg v0 (mul_nonneg w0 (sub_nonneg.2 h.2.2.1))
  have k4 := mul_nonneg v0 (mul_nonneg u0 (sub_nonneg.2 h.2.2.2))
  rw [around_point]
  linarith

theorem inner_cross {r dx dy a b w w' : ℝ} (h0 : 0 ≤ a) (h : a < b) (h1 : b ≤ 1) (hr : 0 < r) (hx : r < dx) (hy : r < dy) (hw : a ≤ w)
    (hw' : b ≤ w') (ww : w < w') :
    crossXY (polar r (45 * b) - polar r (45 * a)) (![dx, w * dy, 0] - polar r (45 * a)) < 0 ∧
    crossXY (polar r (45 * b) - polar r (45 * a)) (![dx, w' * dy, 0] - polar r (45 * b)) < 0 ∧
    crossXY (![dx, w' * dy, 0] - ![dx, w * dy, 0]) (![dx, w * dy, 0] - polar r (45 * a)) < 0 ∧
    crossXY (![dx, w' * dy, 0] - ![dx, w * dy, 0]) (![dx, w' * dy, 0] - polar r (45 * b)) < 0 := by
  have i1 := inside_arc h0 h h1 hr hx hy hw
  have i2 := inside_arc h0 h h1 hr hx hy (h.le.trans hw')
  have formula : ∀ τ w : ℝ, crossXY (polar r (45 * b) - polar r (45 * a)) (![dx, w * dy, 0] - polar r (45 * τ)) =
      -r * (dx * (Real.sin (Real.pi * (45 * b) / 180) - Real.sin (Real.pi * (45 * a) / 180)) +
        w * dy * (Real.cos (Real.pi * (45 * a) / 180) - Real.cos (Real.pi * (45 * b) / 180)) -
        r * (Real.sin (Real.pi * (45 * b - 45 * τ) / 180) - Real.sin (Real.pi * (45 * a - 45 * τ) / 180))) := by
    intro τ w
    have e1 : Real.pi * (45 * b - 45 * τ) / 180 = Real.pi * (45 * b) / 180 - Real.pi * (45 * τ) / 180 := by ring
    have e2 : Real.pi * (45 * a - 45 * τ) / 180 = Real.pi * (45 * a) / 180 - Real.pi * (45 * τ) / 180 := by ring
    rw [e1, e2, Real.sin_sub, Real.sin_sub]
    simp only [crossXY, polar, Pi.sub_apply, Matrix.cons_val_zero, Matrix.cons_val_one]
    ring
  have side : ∀ τ, 0 < (w' - w) * dy * (dx - r * Real.cos (Real.pi * (45 * τ) / 180)) := by
    intro τ
    have := mul_le_mul_of_nonneg_left (Real.cos_le_one (Real.pi * (45 * τ) / 180)) hr.le
    exact mul_pos (mul_pos (sub_pos.2 ww) (hr.trans hy)) (by linarith)
  refine ⟨?_, ?_, ?_, ?_⟩
  · rw [formula, (steps_half a b).1]
    have := mul_pos hr (sub_pos.2 i1)
    linarith
  · rw [formula, (steps_half a b).2]
    have := mul_pos hr (sub_pos.2 i2)
    linarith
  · simp only [crossXY, polar, Pi.sub_apply, Matrix.cons_val_zero, Matrix.cons_val_one]
    linarith [side a]
  · simp only [crossXY, polar, Pi.sub_apply, Matrix.cons_val_zero, Matrix.cons_val_one]
    linarith [side b]

theorem inner_bends {r dx dy t t' l l' : ℝ} (hr : 0 < r) (hx : r < dx) (hy : r < dy) (t0 : 0 ≤ t) (lt : t < t') (t1 : t' ≤ 1) (ll : l < l')
    (hl : l ≤ t) (hl' : l' ≤ t') (v : V3 ℝ) :
    Bends 1 (v + polar r (45 - 45 * t)) (v + polar r (45 - 45 * t')) (v + ![dx, (1 - l) * dy, 0]) (v + ![dx, (1 - l') * dy, 0]) ∧
      Bends (-1) (v + polar r (45 + 45 * t)) (v + polar r (45 + 45 * t')) (v + ![(1 - l) * dx, dy, 0]) (v + ![(1 - l') * dx, dy, 0]) := by
  have g1 : ∀ t : ℝ, (45 : ℝ) - 45 * t = 45 * (1 - t) := fun t => by ring
  have g2 : ∀ t : ℝ, (45 : ℝ) + 45 * t = 90 - 45 * (1 - t) := fun t => by ring
  constructor
  · obtain ⟨c1, c2, c3, c4⟩ := inner_cross (a := 1 - t') (b := 1 - t) (w := 1 - l') (w' := 1 - l) (by linarith) (by linarith) (by linarith) hr hx hy
      (by linarith) (by linarith) (by linarith)
    simp only [g1]
    constructor <;> rw [add_sub_add_left_eq_sub, add_sub_add_left_eq_sub, one_mul, cross_flip] <;> linarith
  · obtain ⟨c1, c2, c3, c4⟩ := inner_cross (a := 1 - t') (b := 1 - t) (w := 1 - l') (w' := 1 - l) (by linarith) (by linarith) (by linarith) hr hy hx
      (by linarith) (by linarith) (by linarith)
    simp only [g2, upper_polar, upper_side]
    constructor <;> rw [add_sub_add_left_eq_sub, add_sub_add_left_eq_sub, cross_swap_sub, cross_flip] <;> linarith

theorem outer_bends {r dx dy t t' : ℝ} (hr : 0 < r) (hx0 : 0 < dx) (hy0 : 0 < dy) (hx : 2 * dx ^ 2 < r ^ 2) (hy : 2 * dy ^ 2 < r ^ 2) (t0 : 0 ≤ t)
    (lt : t < t') (t1 : t' ≤ 1) (v : V3 ℝ) :
    Bends 1 (v + ![dx, (1 - t) * dy, 0]) (v + ![dx, (1 - t') * dy, 0]) (v + polar r (45 - 45 * t)) (v + polar r (45 - 45 * t')) ∧
      Bends (-1) (v + ![(1 - t) * dx, dy, 0]) (v + ![(1 - t') * dx, dy, 0]) (v + polar r (45 + 45 * t)) (v + polar r (45 + 45 * t')) := by
  have g1 : ∀ t : ℝ, (45 : ℝ) - 45 * t = 45 * (1 - t) := fun t => by ring
  have g2 : ∀ t : ℝ, (45 : ℝ) + 45 * t = 90 - 45 * (1 - t) := fun t => by ring
  constructor
  · obtain ⟨c1, c2, c3, c4⟩ := outer_cross (a := 1 - t') (b := 1 - t) (by linarith) (by linarith) (by linarith) hr hx0 hy0 hx hy
    simp only [g1]
    constructor <;> rw [add_sub_add_left_eq_sub, add_sub_add_left_eq_sub, one_mul, cross_flip] <;> linarith
  · obtain ⟨c1, c2, c3, c4⟩ := outer_cross (a := 1 - t') (b := 1 - t) (by linarith) (by linarith) (by linarith) hr hy0 hx0 hy hx
    simp only [g2, upper_polar, upper_side]
    constructor <;> rw [add_sub_add_left_eq_sub, add_sub_add_left_eq_sub, cross_swap_sub, cross_flip] <;> linarith

/-- Where the nodes of the arc are. -/
theorem eighth_polar {r t : ℝ} (hr : 0 < r) (t0 : 0 ≤ t) (t1 : t ≤ 1) :
    (r * (Real.sqrt 2 / 2) ≤ polar r (45 - 45 * t) 0 ∧ polar r (45 - 45 * t) 0 ≤ r ∧ 0 ≤ polar r (45 - 45 * t) 1 ∧
      polar r (45 - 45 * t) 1 ≤ r * (1 - t)) ∧
    (r * (Real.sqrt 2 / 2) ≤ polar r (45 + 45 * t) 1 ∧ polar r (45 + 45 * t) 1 ≤ r ∧ 0 ≤ polar r (45 + 45 * t) 0 ∧
      polar r (45 + 45 * t) 0 ≤ r * (1 - t)) ∧
    ∀ θ, polar r θ 0 ^ 2 + polar r θ 1 ^ 2 = r ^ 2 ∧ polar r θ 2 = 0 := by
  have hpi := Real.pi_pos
  have e : Real.pi * (45 + 45 * t) / 180 = Real.pi / 2 - Real.pi * (45 - 45 * t) / 180 := by ring
  have b0 : 0 ≤ Real.pi * (45 - 45 * t) / 180 := by
    apply div_nonneg _ (by norm_num)
    apply mul_nonneg hpi.le; linarith
  have hs : Real.sin (Real.pi * (45 - 45 * t) / 180) ≤ 1 - t := by
    refine (Real.sin_le b0).trans ?_
    have := mul_le_mul_of_nonneg_right Real.pi_le_four (sub_nonneg.2 t1)
    have h4 : Real.pi * (45 - 45 * t) / 180 = Real.pi * (1 - t) / 4 := by ring
    rw [h4]; linarith
  have hs0 : 0 ≤ Real.sin (Real.pi * (45 - 45 * t) / 180) := by
    apply Real.sin_nonneg_of_nonneg_of_le_pi b0
    have := mul_nonneg hpi.le t0
    have h4 : Real.pi * (45 - 45 * t) / 180 = (Real.pi - Real.pi * t) / 4 := by ring
    rw [h4]; linarith
  have hc := (arc_below t0 t1).1
  have hc1 := Real.cos_le_one (Real.pi * (45 - 45 * t) / 180)
  refine ⟨?_, ?_, ?_⟩
  · simp only [polar, Matrix.cons_val_zero, Matrix.cons_val_one]
    refine ⟨mul_le_mul_of_nonneg_left hc hr.le, ?_, mul_nonneg hr.le hs0, mul_le_mul_of_nonneg_left hs hr.le⟩
    have := mul_le_mul_of_nonneg_left hc1 hr.le
    linarith
  · simp only [polar, Matrix.cons_val_zero, Matrix.cons_val_one, e, Real.cos_pi_div_two_sub, Real.sin_pi_div_two_sub]
    refine ⟨mul_le_mul_of_nonneg_left hc hr.le, ?_, mul_nonneg hr.le hs0, mul_le_mul_of_nonneg_left hs hr.le⟩
    have := mul_le_mul_of_nonneg_left hc1 hr.le
    linarith
  · intro θ
    simp only [polar, Matrix.cons_val_zero, Matrix.cons_val_one, Matrix.cons_val]
    refine ⟨?_, trivial⟩
    have := Real.sin_sq_add_cos_sq (Real.pi * θ / 180)
    linear_combination r ^ 2 * this

/-- The half angle of a step along an eighth of the circle. -/
theorem eighth_step {t t' : ℝ} (t0 : 0 ≤ t) (lt : t < t') (t1 : t' ≤ 1) : 0 < Real.sin (Real.pi * (45 * (t' - t)) / 360) ∧
    0 < Real.cos (Real.pi * (45 * (t' - t)) / 360) := by
  have hpi := Real.pi_pos
  have h1 : 0 < Real.pi * (45 * (t' - t)) / 360 := by
    have := sub_pos.2 lt
    positivity
  have h2 : Real.pi * (45 * (t' - t)) / 360 < Real.pi / 2 := by
    have h4 : Real.pi * (45 * (t' - t)) / 360 = Real.pi * (t' - t) / 8 := by ring
    rw [h4]
    have := mul_le_mul_of_nonneg_left (show t' - t ≤ 1 by linarith) hpi.le
    linarith
  exact ⟨Real.sin_pos_of_pos_of_lt_pi h1 (by linarith), Real.cos_pos_of_mem_Ioo ⟨by linarith, h2⟩⟩

/-- On which side of a chord of the two eighths a point is. -/
theorem eighth_chord (r t t' : ℝ) (v x : V3 ℝ) :
    (∃ c s : ℝ, s ^ 2 + c ^ 2 = 1 ∧ 1 * crossXY (v + polar r (45 - 45 * t') - (v + polar r (45 - 45 * t))) (x - (v + polar r (45 - 45 * t))) =
      2 * r * Real.sin (Real.pi * (45 * (t' - t)) / 360) *
        (c * (x 0 - v 0) + s * (x 1 - v 1) - r * Real.cos (Real.pi * (45 * (t' - t)) / 360))) ∧
    ∃ c s : ℝ, s ^ 2 + c ^ 2 = 1 ∧ -1 * crossXY (v + polar r (45 + 45 * t') - (v + polar r (45 + 45 * t))) (x - (v + polar r (45 + 45 * t))) =
      2 * r * Real.sin (Real.pi * (45 * (t' - t)) / 360) *
        (c * (x 0 - v 0) + s * (x 1 - v 1) - r * Real.cos (Real.pi * (45 * (t' - t)) / 360)) := by
  constructor
  · refine ⟨_, _, Real.sin_sq_add_cos_sq (Real.pi * (45 - 45 * t + (45 - 45 * t')) / 360), ?_⟩
    have e : x - (v + polar r (45 - 45 * t)) = (x - v) - polar r (45 - 45 * t) := by abel
    rw [add_sub_add_left_eq_sub, e, chord_cross, show (45 : ℝ) - 45 * t - (45 - 45 * t') = 45 * (t' - t) by ring, one_mul]
    rfl
  · refine ⟨_, _, Real.sin_sq_add_cos_sq (Real.pi * (45 + 45 * t + (45 + 45 * t')) / 360), ?_⟩
    have e : x - (v + polar r (45 + 45 * t)) = (x - v) - polar r (45 + 45 * t) := by abel
    have e2 : Real.pi * ((45 : ℝ) + 45 * t - (45 + 45 * t')) / 360 = -(Real.pi * (45 * (t' - t)) / 360) := by ring
    rw [add_sub_add_left_eq_sub, e, chord_cross, e2, Real.sin_neg, Real.cos_neg]
    simp only [Pi.sub_apply]
    ring

theorem getD_rising {n : ℕ} {ts : List ℝ} (h : Subdivision n ts) {p p' : ℕ} (hp : p < p') (hp' : p' ≤ n) :
    0 ≤ ts.getD p 0 ∧ ts.getD p 0 < ts.getD p' 0 ∧ ts.getD p' 0 ≤ 1 := by
  have h1 := subdivision_getD h (hp.le.trans hp')
  have h2 := subdivision_getD h hp'
  refine ⟨(subdivision_range h h1).1, ?_, (subdivision_range h h2).2.1⟩
  have l1 := (List.getElem?_eq_some_iff.1 h1)
  have l2 := (List.getElem?_eq_some_iff.1 h2)
  obtain ⟨g1, e1⟩ := l1
  obtain ⟨g2, e2⟩ := l2
  rw [← e1, ← e2]
  exact List.pairwise_iff_getElem.1 h.increasing p p' g1 g2 hp

theorem getD_unit {n : ℕ} {ts : List ℝ} (h : Subdivision n ts) {p : ℕ} (hp : p ≤ n) : 0 ≤ ts.getD p 0 ∧ ts.getD p 0 ≤ 1 := by
  have := subdivision_range h (subdivision_getD h hp)
  exact ⟨this.1, this.2.1⟩

theorem sector_frame {v : V3 ℝ} {r dx dy : ℝ} (hr : 0 < r) (hx : r < dx) (hy : r < dy) {n m : ℕ} {ts ls rs : List ℝ} (st : Subdivision n ts)
    (sl : Subdivision n ls) (late : ∀ p ≤ n, ls.getD p 0 ≤ ts.getD p 0) (sr : Subdivision m rs) {nodeA nodeB : ℕ → ℕ → V3 ℝ}
    (hA : ∀ p ≤ n, ∀ q ≤ m, nodeA p q =
      between (rs.getD q 0) (v + polar r (45 - 45 * ts.getD p 0)) (v + ![dx, (1 - ls.getD p 0) * dy, 0]))
    (hB : ∀ p ≤ n, ∀ q ≤ m, nodeB p q =
      between (rs.getD q 0) (v + polar r (45 + 45 * ts.getD p 0)) (v + ![(1 - ls.getD p 0) * dx, dy, 0])) :
    TilesPair n n m nodeA nodeB ∧ FillsAroundSector v r dx dy (fun p => ts.getD p 0) n m nodeA nodeB := by
  have hn := subdivision_pos st
  have hm := subdivision_pos sr
  have t0 : ts.getD 0 0 = 0 := by rw [List.getD_eq_getElem?_getD, st.first]; rfl
  have tn : ts.getD n 0 = 1 := by rw [List.getD_eq_getElem?_getD, st.last]; rfl
  have l0 : ls.getD 0 0 = 0 := by rw [List.getD_eq_getElem?_getD, sl.first]; rfl
  have ln : ls.getD n 0 = 1 := by rw [List.getD_eq_getElem?_getD, sl.last]; rfl
  have y0 : rs.getD 0 0 = 0 := by rw [List.getD_eq_getElem?_getD, sr.first]; rfl
  have y1 : rs.getD m 0 = 1 := by rw [List.getD_eq_getElem?_getD, sr.last]; rfl
  have hY : ∀ q < m, rs.getD q 0 < rs.getD (q + 1) 0 := fun q hq => (getD_rising sr (Nat.lt_succ_self q) hq).2.1
  have fA : Fans 1 (v 2) n (fun p => v + polar r (45 - 45 * ts.getD p 0)) (fun p => v + ![dx, (1 - ls.getD p 0) * dy, 0]) := by
    refine ⟨fun p hp => ⟨by simp [polar], by simp⟩, fun p p' hpp hp' => ?_⟩
    obtain ⟨a, b, c⟩ := getD_rising st hpp hp'
    exact (inner_bends hr hx hy a b c (getD_rising sl hpp hp').2.1 (late p (hpp.le.trans hp')) (late p' hp') v).1
  have fB : Fans (-1) (v 2) n (fun p => v + polar r (45 + 45 * ts.getD p 0)) (fun p => v + ![(1 - ls.getD p 0) * dx, dy, 0]) := by
    refine ⟨fun p hp => ⟨by simp [polar], by simp⟩, fun p p' hpp hp' => ?_⟩
    obtain ⟨a, b, c⟩ := getD_rising st hpp hp'
    exact (inner_bends hr hx hy a b c (getD_rising sl hpp hp').2.1 (late p (hpp.le.trans hp')) (late p' hp') v).2
  have dx0 : 0 < dx := hr.trans hx
  have dy0 : 0 < dy := hr.trans hy
  refine ⟨fans_pair fA fB (by simp only [t0, l0]; norm_num) hm hY y0 y1 hA hB, ?_, ?_⟩
  · rintro p hp q hq x (hx' | hx')
    · obtain ⟨z1, _, _, z4, _⟩ := (fans_inside fA hm hY y0 y1 hA hp hq hx').2
      obtain ⟨u, w, u0, u1, w0, w1, rfl⟩ := (fans_whole fA hm hY y0 y1 hA hp).1 ⟨q, hq, hx'⟩
      obtain ⟨a0, a1⟩ := getD_unit st hp.le
      obtain ⟨b0, b1⟩ := getD_unit st (Nat.succ_le_of_lt hp)
      obtain ⟨f0, f1⟩ := getD_unit sl hp.le
      obtain ⟨g0, g1⟩ := getD_unit sl (Nat.succ_le_of_lt hp)
      obtain ⟨a2, a3, a4, a5⟩ := (eighth_polar hr a0 a1).1
      obtain ⟨b2, b3, b4, b5⟩ := (eighth_polar hr b0 b1).1
      have q0 : 0 ≤ r * (Real.sqrt 2 / 2) := by positivity
      have i1 := mul_le_mul_of_nonneg_left (show 1 - ls.getD p 0 ≤ 1 by linarith) dy0.le
      have i2 := mul_le_mul_of_nonneg_left (show 1 - ls.getD (p + 1) 0 ≤ 1 by linarith) dy0.le
      have i3 := mul_nonneg dy0.le (sub_nonneg.2 f1)
      have i4 := mul_nonneg dy0.le (sub_nonneg.2 g1)
      have i5 := mul_nonneg hr.le a0
      have i6 := mul_nonneg hr.le b0
      refine ⟨z1, around_ge u0 u1 w0 w1 ?_, around_le u0 u1 w0 w1 ?_, around_ge u0 u1 w0 w1 ?_, around_le u0 u1 w0 w1 ?_, ?_⟩
      · simp only [Pi.add_apply, Matrix.cons_val_zero]; refine ⟨?_, ?_, ?_, ?_⟩ <;> linarith
      · simp only [Pi.add_apply, Matrix.cons_val_zero]; refine ⟨?_, ?_, ?_, ?_⟩ <;> linarith
      · simp only [Pi.add_apply, Matrix.cons_val_one, Matrix.cons_val_zero]; refine ⟨?_, ?_, ?_, ?_⟩ <;> linarith
      · simp only [Pi.add_apply, Matrix.cons_val_one, Matrix.cons_val_zero]; refine ⟨?_, ?_, ?_, ?_⟩ <;> linarith
      · obtain ⟨c, s, cs, e⟩ := (eighth_chord r (ts.getD p 0) (ts.getD (p + 1) 0) v _).1
        obtain ⟨k1, k2, k3⟩ := getD_rising st (Nat.lt_succ_self p) hp
        obtain ⟨sp, cp⟩ := eighth_step k1 k2 k3
        rw [e] at z4
        refine chord_far cs (mul_nonneg hr.le cp.le) ?_
        have := nonneg_of_mul_nonneg_right z4 (by positivity)
        linarith
    · obtain ⟨z1, _, _, z4, _⟩ := (fans_inside fB hm hY y0 y1 hB hp hq hx').2
      obtain ⟨u, w, u0, u1, w0, w1, rfl⟩ := (fans_whole fB hm hY y0 y1 hB hp).1 ⟨q, hq, hx'⟩
      obtain ⟨a0, a1⟩ := getD_unit st hp.le
      obtain ⟨b0, b1⟩ := getD_unit st (Nat.succ_le_of_lt hp)
      obtain ⟨f0, f1⟩ := getD_unit sl hp.le
      obtain ⟨g0, g1⟩ := getD_unit sl (Nat.succ_le_of_lt hp)
      obtain ⟨a2, a3, a4, a5⟩ := (eighth_polar hr a0 a1).2.1
      obtain ⟨b2, b3, b4, b5⟩ := (eighth_polar hr b0 b1).2.1
      have q0 : 0 ≤ r * (Real.sqrt 2 / 2) := by positivity
      have i1 := mul_le_mul_of_nonneg_left (show 1 - ls.getD p 0 ≤ 1 by linarith) dx0.le
      have i2 := mul_le_mul_of_nonneg_left (show 1 - ls.getD (p + 1) 0 ≤ 1 by linarith) dx0.le
      have i3 := mul_nonneg dx0.le (sub_nonneg.2 f1)
      have i4 := mul_nonneg dx0.le (sub_nonneg.2 g1)
      have i5 := mul_nonneg hr.le a0
      have i6 := mul_nonneg hr.le b0
      refine ⟨z1, around_ge u0 u1 w0 w1 ?_, around_le u0 u1 w0 w1 ?_, around_ge u0 u1 w0 w1 ?_, around_le u0 u1 w0 w1 ?_, ?_⟩
      · simp only [Pi.add_apply, Matrix.cons_val_zero]; refine ⟨?_, ?_, ?_, ?_⟩ <;> linarith
      · simp only [Pi.add_apply, Matrix.cons_val_zero]; refine ⟨?_, ?_, ?_, ?_⟩ <;> linarith
      · simp only [Pi.add_apply, Matrix.cons_val_one, Matrix.cons_val_zero]; refine ⟨?_, ?_, ?_, ?_⟩ <;> linarith
      · simp only [Pi.add_apply, Matrix.cons_val_one, Matrix.cons_val_zero]; refine ⟨?_, ?_, ?_, ?_⟩ <;> linarith
      · obtain ⟨c, s, cs, e⟩ := (eighth_chord r (ts.getD p 0) (ts.getD (p + 1) 0) v _).2
        obtain ⟨k1, k2, k3⟩ := getD_rising st (Nat.lt_succ_self p) hp
        obtain ⟨sp, cp⟩ := eighth_step k1 k2 k3
        rw [e] at z4
        refine chord_far cs (mul_nonneg hr.le cp.le) ?_
        have := nonneg_of_mul_nonneg_right z4 (by positivity)
        linarith
  · intro x z x0 x1 x2 x3 out
    have arc : ∀ θ, ((v + polar r θ) 0 - v 0) ^ 2 + ((v + polar r θ) 1 - v 1) ^ 2 = r ^ 2 := by
      intro θ
      have := ((eighth_polar (t := 0) hr le_rfl zero_le_one).2.2 θ).1
      simpa using this
    rcases le_total 0 (1 * crossXY (x - (v + polar r (45 - 45 * ts.getD 0 0)))
      (v + ![dx, (1 - ls.getD 0 0) * dy, 0] - (v + polar r (45 - 45 * ts.getD 0 0)))) with hs | hs
    · suffices h : ∃ p < n, ∃ q < m, x ∈ quadRegion nodeA p q by
        obtain ⟨p, hp, q, hq, h⟩ := h
        exact ⟨p, hp, q, hq, Or.inl h⟩
      refine fans_covers_arc (x := x) (r := r) (o := v) fA hn hm hY y0 y1 hA z hs ?_ ?_ (fun p _ => arc _) ?_
        ⟨by linarith, by linarith⟩ out
      · rw [add_sub_add_left_eq_sub]
        simp only [tn, ln, mul_one, sub_self, (polar_quarters r).1, crossXY, Pi.sub_apply, Pi.add_apply, Matrix.cons_val_zero, Matrix.cons_val_one]
        have := mul_nonneg (sub_nonneg.2 x2) (sub_nonneg.2 hx.le)
        linarith
      · intro p hp
        obtain ⟨k1, k2, k3⟩ := getD_rising sl (Nat.lt_succ_self p) hp
        rw [add_sub_add_left_eq_sub]
        simp only [crossXY, Pi.sub_apply, Pi.add_apply, Matrix.cons_val_zero, Matrix.cons_val_one]
        have := mul_nonneg (mul_nonneg (sub_nonneg.2 k2.le) dy0.le) (sub_nonneg.2 x1)
        linarith
      · intro p hp
        obtain ⟨a0, a1⟩ := getD_unit st hp
        obtain ⟨a2, a3, a4, a5⟩ := (eighth_polar hr a0 a1).1
        simp only [Pi.add_apply, Matrix.cons_val_zero, Matrix.cons_val_one]
        have := mul_le_mul_of_nonneg_right hy.le (sub_nonneg.2 a1)
        have := mul_le_mul_of_nonneg_right (late p hp) dy0.le
        refine ⟨?_, ?_, ?_⟩ <;> linarith
    · have hs' : 0 ≤ -1 * crossXY (x - (v + polar r (45 + 45 * ts.getD 0 0)))
          (v + ![(1 - ls.getD 0 0) * dx, dy, 0] - (v + polar r (45 + 45 * ts.getD 0 0))) := by
        simp only [t0, l0] at hs ⊢
        norm_num at hs ⊢
        exact hs
      suffices h : ∃ p < n, ∃ q < m, x ∈ quadRegion nodeB p q by
        obtain ⟨p, hp, q, hq, h⟩ := h
        exact ⟨p, hp, q, hq, Or.inr h⟩
      refine fans_covers_arc (x := x) (r := r) (o := v) fB hn hm hY y0 y1 hB z hs' ?_ ?_ (fun p _ => arc _) ?_
        ⟨by linarith, by linarith⟩ out
      · rw [add_sub_add_left_eq_sub]
        have : (45 : ℝ) + 45 * 1 = 90 := by norm_num
        simp only [tn, ln, this, sub_self, (polar_quarters r).2, crossXY, Pi.sub_apply, Pi.add_apply, Matrix.cons_val_zero, Matrix.cons_val_one]
        have := mul_nonneg (sub_nonneg.2 x0) (sub_nonneg.2 hy.le)
        linarith
      · intro p hp
        obtain ⟨k1, k2, k3⟩ := getD_rising sl (Nat.lt_succ_self p) hp
        rw [add_sub_add_left_eq_sub]
        simp only [crossXY, Pi.sub_apply, Pi.add_apply, Matrix.cons_val_zero, Matrix.cons_val_one]
        have := mul_nonneg (mul_nonneg (sub_nonneg.2 k2.le) dx0.le) (sub_nonneg.2 x3)
        linarith
      · intro p hp
        obtain ⟨a0, a1⟩ := getD_unit st hp
        obtain ⟨a2, a3, a4, a5⟩ := (eighth_polar hr a0 a1).2.1
        simp only [Pi.add_apply, Matrix.cons_val_zero, Matrix.cons_val_one]
        have := mul_le_mul_of_nonneg_right hx.le (sub_nonneg.2 a1)
        have := mul_le_mul_of_nonneg_right (late p hp) dx0.le
        refine ⟨?_, ?_, ?_⟩ <;> linarith

theorem rectangle_frame {v : V3 ℝ} {r dx dy : ℝ} (hr : 0 < r) (hx0 : 0 < dx) (hy0 : 0 < dy) (hx : 2 * dx ^ 2 < r ^ 2) (hy : 2 * dy ^ 2 < r ^ 2)
    {n n' m : ℕ} {ta tb rs : List ℝ} (sa : Subdivision n ta) (sb : Subdivision n' tb) (sr : Subdivision m rs) {nodeA nodeB : ℕ → ℕ → V3 ℝ}
    (hA : ∀ p ≤ n, ∀ q ≤ m, nodeA p q =
      between (rs.getD q 0) (v + ![dx, (1 - ta.getD p 0) * dy, 0]) (v + polar r (45 - 45 * ta.getD p 0)))
    (hB : ∀ p ≤ n', ∀ q ≤ m, nodeB p q =
      between (rs.getD q 0) (v + ![(1 - tb.getD p 0) * dx, dy, 0]) (v + polar r (45 + 45 * tb.getD p 0))) :
    TilesPair n n' m nodeA nodeB ∧ FillsAroundRectangle v r dx dy (fun p => ta.getD p 0) (fun p => tb.getD p 0) n n' m nodeA nodeB := by
  have hn := subdivision_pos sa
  have hn' := subdivision_pos sb
  have hm := subdivision_pos sr
  have first : ∀ {n : ℕ} {l : List ℝ}, Subdivision n l → l.getD 0 0 = 0 ∧ l.getD n 0 = 1 := by
    intro n l h
    constructor
    · rw [List.getD_eq_getElem?_getD, h.first]; rfl
    · rw [List.getD_eq_getElem?_getD, h.last]; rfl
  obtain ⟨a0, an⟩ := first sa
  obtain ⟨b0, bn⟩ := first sb
  obtain ⟨y0, y1⟩ := first sr
  have hY : ∀ q < m, rs.getD q 0 < rs.getD (q + 1) 0 := fun q hq => (getD_rising sr (Nat.lt_succ_self q) hq).2.1
  have fA : Fans 1 (v 2) n (fun p => v + ![dx, (1 - ta.getD p 0) * dy, 0]) (fun p => v + polar r (45 - 45 * ta.getD p 0)) := by
    refine ⟨fun p hp => ⟨by simp, by simp [polar]⟩, fun p p' hpp hp' => ?_⟩
    obtain ⟨a, b, c⟩ := getD_rising sa hpp hp'
    exact (outer_bends hr hx0 hy0 hx hy a b c v).1
  have fB : Fans (-1) (v 2) n' (fun p => v + ![(1 - tb.getD p 0) * dx, dy, 0]) (fun p => v + polar r (45 + 45 * tb.getD p 0)) := by
    refine ⟨fun p hp => ⟨by simp, by simp [polar]⟩, fun p p' hpp hp' => ?_⟩
    obtain ⟨a, b, c⟩ := getD_rising sb hpp hp'
    exact (outer_bends hr hx0 hy0 hx hy a b c v).2
  have root : ∀ {d : ℝ}, 0 < d → 2 * d ^ 2 < r ^ 2 → d < r * (Real.sqrt 2 / 2) := by
    intro d hd h
    have q2 : Real.sqrt 2 * Real.sqrt 2 = 2 := Real.mul_self_sqrt (by norm_num)
    have q0 : 0 < Real.sqrt 2 := Real.sqrt_pos.2 (by norm_num)
    apply lt_of_pow_lt_pow_left₀ 2 (by positivity)
    have : (r * (Real.sqrt 2 / 2)) ^ 2 = r ^ 2 / 2 := by
      linear_combination r ^ 2 / 4 * q2
    rw [this]; linarith
  have rx := root hx0 hx
  have ry := root hy0 hy
  have jensen : ∀ {u a b : ℝ}, 0 ≤ u → u ≤ 1 → ((1 - u) * a + u * b) ^ 2 ≤ (1 - u) * a ^ 2 + u * b ^ 2 := by
    intro u a b u0 u1
    nlinarith [mul_nonneg (mul_nonneg (sub_nonneg.2 u1) u0) (sq_nonneg (a - b))]
  have disc : ∀ {P P' Q Q' : V3 ℝ} {u w : ℝ}, 0 ≤ u → u ≤ 1 → 0 ≤ w → w ≤ 1 → (∀ C ∈ [P, P', Q, Q'], (C 0 - v 0) ^ 2 + (C 1 - v 1) ^ 2 ≤ r ^ 2) →
      (quadPoint (aroundQuad P P' Q' Q) u w 0 - v 0) ^ 2 + (quadPoint (aroundQuad P P' Q' Q) u w 1 - v 1) ^ 2 ≤ r ^ 2 := by
    intro P P' Q Q' u w u0 u1 w0 w1 h
    have e : ∀ i, quadPoint (aroundQuad P P' Q' Q) u w i - v i =
        (1 - w) * ((1 - u) * (P i - v i) + u * (P' i - v i)) + w * ((1 - u) * (Q i - v i) + u * (Q' i - v i)) := by
      intro i; rw [around_point]; ring
    rw [e, e]
    have h1 := h P (by simp)
    have h2 := h P' (by simp)
    have h3 := h Q (by simp)
    have h4 := h Q' (by simp)
    have w0' := sub_nonneg.2 w1
    have u0' := sub_nonneg.2 u1
    have step : ∀ {C D : V3 ℝ}, (C 0 - v 0) ^ 2 + (C 1 - v 1) ^ 2 ≤ r ^ 2 → (D 0 - v 0) ^ 2 + (D 1 - v 1) ^ 2 ≤ r ^ 2 →
        ((1 - u) * (C 0 - v 0) + u * (D 0 - v 0)) ^ 2 + ((1 - u) * (C 1 - v 1) + u * (D 1 - v 1)) ^ 2 ≤ r ^ 2 := by
      intro C D hC hD
      have j0 := jensen u0 u1 (a := C 0 - v 0) (b := D 0 - v 0)
      have j1 := jensen u0 u1 (a := C 1 - v 1) (b := D 1 - v 1)
      have := mul_le_mul_of_nonneg_left hC u0'
      have := mul_le_mul_of_nonneg_left hD u0
      linarith
    have k1 := mul_le_mul_of_nonneg_left (step h1 h2) w0'
    have k2 := mul_le_mul_of_nonneg_left (step h3 h4) w0
    have j0 := jensen w0 w1 (a := (1 - u) * (P 0 - v 0) + u * (P' 0 - v 0)) (b := (1 - u) * (Q 0 - v 0) + u * (Q' 0 - v 0))
    have j1 := jensen w0 w1 (a := (1 - u) * (P 1 - v 1) + u * (P' 1 - v 1)) (b := (1 - u) * (Q 1 - v 1) + u * (Q' 1 - v 1))
    linarith
  have arc : ∀ θ, ((v + polar r θ) 0 - v 0) ^ 2 + ((v + polar r θ) 1 - v 1) ^ 2 ≤ r ^ 2 := by
    intro θ
    have := ((eighth_polar (t := 0) hr le_rfl zero_le_one).2.2 θ).1
    simpa using this.le
  have corner : ∀ {s t : ℝ}, 0 ≤ s → s ≤ 1 → 0 ≤ t → t ≤ 1 → ((v + ![s * dx, t * dy, 0]) 0 - v 0) ^ 2 + ((v + ![s * dx, t * dy, 0]) 1 - v 1) ^ 2 ≤ r ^ 2 := by
    intro s t s0 s1 t0 t1
    simp only [Pi.add_apply, Matrix.cons_val_zero, Matrix.cons_val_one, add_sub_cancel_left]
    have h1 : (s * dx) ^ 2 ≤ dx ^ 2 := by
      apply pow_le_pow_left₀ (mul_nonneg s0 hx0.le)
      have := mul_le_mul_of_nonneg_right s1 hx0.le; linarith
    have h2 : (t * dy) ^ 2 ≤ dy ^ 2 := by
      apply pow_le_pow_left₀ (mul_nonneg t0 hy0.le)
      have := mul_le_mul_of_nonneg_right t1 hy0.le; linarith
    linarith
  refine ⟨fans_pair fA fB (by simp only [a0, b0]; norm_num) hm hY y0 y1 hA hB, ?_, ?_, ?_⟩
  · intro p hp q hq x hx'
    obtain ⟨z1, _, _, _, _⟩ := (fans_inside fA hm hY y0 y1 hA hp hq hx').2
    obtain ⟨u, w, u0, u1, w0, w1, rfl⟩ := (fans_whole fA hm hY y0 y1 hA hp).1 ⟨q, hq, hx'⟩
    obtain ⟨c0, c1⟩ := getD_unit sa hp.le
    obtain ⟨d0, d1⟩ := getD_unit sa (Nat.succ_le_of_lt hp)
    obtain ⟨c2, c3, c4, c5⟩ := (eighth_polar hr c0 c1).1
    obtain ⟨d2, d3, d4, d5⟩ := (eighth_polar hr d0 d1).1
    have i3 := mul_nonneg hy0.le (sub_nonneg.2 c1)
    have i4 := mul_nonneg hy0.le (sub_nonneg.2 d1)
    refine ⟨z1, around_ge u0 u1 w0 w1 ?_, around_ge u0 u1 w0 w1 ?_, disc u0 u1 w0 w1 ?_⟩
    · simp only [Pi.add_apply, Matrix.cons_val_zero]; refine ⟨?_, ?_, ?_, ?_⟩ <;> linarith
    · simp only [Pi.add_apply, Matrix.cons_val_one, Matrix.cons_val_zero]; refine ⟨?_, ?_, ?_, ?_⟩ <;> linarith
    · intro C hC
      have k1 := corner zero_le_one le_rfl (sub_nonneg.2 c1) (show 1 - ta.getD p 0 ≤ 1 by linarith)
      have k2 := corner zero_le_one le_rfl (sub_nonneg.2 d1) (show 1 - ta.getD (p + 1) 0 ≤ 1 by linarith)
      rw [one_mul] at k1 k2
      simp only [List.mem_cons, List.not_mem_nil, or_false] at hC
      rcases hC with rfl | rfl | rfl | rfl
      · exact k1
      · exact k2
      · exact arc _
      · exact arc _
  · intro p hp q hq x hx'
    obtain ⟨z1, _, _, _, _⟩ := (fans_inside fB hm hY y0 y1 hB hp hq hx').2
    obtain ⟨u, w, u0, u1, w0, w1, rfl⟩ := (fans_whole fB hm hY y0 y1 hB hp).1 ⟨q, hq, hx'⟩
    obtain ⟨c0, c1⟩ := getD_unit sb hp.le
    obtain ⟨d0, d1⟩ := getD_unit sb (Nat.succ_le_of_lt hp)
    obtain ⟨c2, c3, c4, c5⟩ := (eighth_polar hr c0 c1).2.1
    obtain ⟨d2, d3, d4, d5⟩ := (eighth_polar hr d0 d1).2.1
    have i3 := mul_nonneg hx0.le (sub_nonneg.2 c1)
    have i4 := mul_nonneg hx0.le (sub_nonneg.2 d1)
    refine ⟨z1, around_ge u0 u1 w0 w1 ?_, around_ge u0 u1 w0 w1 ?_, disc u0 u1 w0 w1 ?_⟩
    · simp only [Pi.add_apply, Matrix.cons_val_zero]; refine ⟨?_, ?_, ?_, ?_⟩ <;> linarith
    · simp only [Pi.add_apply, Matrix.cons_val_one, Matrix.cons_val_zero]; refine ⟨?_, ?_, ?_, ?_⟩ <;> linarith
    · intro C hC
      have k1 := corner (sub_nonneg.2 c1) (show 1 - tb.getD p 0 ≤ 1 by linarith) zero_le_one le_rfl
      have k2 := corner (sub_nonneg.2 d1) (show 1 - tb.getD (p + 1) 0 ≤ 1 by linarith) zero_le_one le_rfl
      rw [one_mul] at k1 k2
      simp only [List.mem_cons, List.not_mem_nil, or_false] at hC
      rcases hC with rfl | rfl | rfl | rfl
      · exact k1
      · exact k2
      · exact arc _
      · exact arc _
  · intro x z x0 x1 out nearA nearB
    have p45 : polar r 45 0 = r * (Real.sqrt 2 / 2) ∧ polar r 45 1 = r * (Real.sqrt 2 / 2) := by
      have : Real.pi * 45 / 180 = Real.pi / 4 := by ring
      simp [polar, this]
    rcases le_total 0 (1 * crossXY (x - (v + ![dx, (1 - ta.getD 0 0) * dy, 0]))
      (v + polar r (45 - 45 * ta.getD 0 0) - (v + ![dx, (1 - ta.getD 0 0) * dy, 0]))) with hs | hs
    · left
      have hs' := hs
      rw [add_sub_add_left_eq_sub] at hs'
      simp only [a0, mul_zero, sub_zero, one_mul, crossXY, Pi.sub_apply, Pi.add_apply, Matrix.cons_val_zero, Matrix.cons_val_one, p45.1, p45.2] at hs'
      have hxd : v 0 + dx ≤ x 0 := by
        by_contra hlt
        push Not at hlt
        have hyd : v 1 + dy ≤ x 1 := out.resolve_left (not_le.2 hlt)
        have k1 := mul_pos (sub_pos.2 hlt) (sub_pos.2 ry)
        have k2 := mul_nonneg (sub_nonneg.2 hyd) (sub_pos.2 rx).le
        linarith
      refine fans_covers (x := x) fA hn hm hY y0 y1 hA z hs ?_ ?_ ?_
      · rw [add_sub_add_left_eq_sub]
        simp only [an, mul_one, sub_self, (polar_quarters r).1, crossXY, Pi.sub_apply, Pi.add_apply, Matrix.cons_val_zero, Matrix.cons_val_one]
        have hdr : dx ≤ r := by
          have := (eighth_polar (t := 0) hr le_rfl zero_le_one).1
          exact rx.le.trans (this.1.trans this.2.1)
        have := mul_nonneg (sub_nonneg.2 x1) (sub_nonneg.2 hdr)
        linarith
      · intro p hp
        obtain ⟨k1, k2, k3⟩ := getD_rising sa (Nat.lt_succ_self p) hp
        rw [add_sub_add_left_eq_sub]
        simp only [crossXY, Pi.sub_apply, Pi.add_apply, Matrix.cons_val_zero, Matrix.cons_val_one]
        have := mul_nonneg (mul_nonneg (sub_nonneg.2 k2.le) hy0.le) (sub_nonneg.2 hxd)
        linarith
      · intro p hp
        obtain ⟨k1, k2, k3⟩ := getD_rising sa (Nat.lt_succ_self p) hp
        obtain ⟨sp, cp⟩ := eighth_step k1 k2 k3
        obtain ⟨c, s, cs, e⟩ := (eighth_chord r (ta.getD p 0) (ta.getD (p + 1) 0) v x).1
        rw [e]
        have := chord_near cs (mul_nonneg hr.le cp.le) (nearA p hp)
        exact mul_nonpos_of_nonneg_of_nonpos (by positivity) (by linarith)
    · right
      have hs1 : 0 ≤ -1 * crossXY (x - (v + ![(1 - tb.getD 0 0) * dx, dy, 0]))
          (v + polar r (45 + 45 * tb.getD 0 0) - (v + ![(1 - tb.getD 0 0) * dx, dy, 0])) := by
        simp only [a0] at hs
        simp only [b0]
        norm_num at hs ⊢
        exact hs
      have hs' := hs
      rw [add_sub_add_left_eq_sub] at hs'
      simp only [a0, mul_zero, sub_zero, one_mul, crossXY, Pi.sub_apply, Pi.add_apply, Matrix.cons_val_zero, Matrix.cons_val_one, p45.1, p45.2] at hs'
      have hyd : v 1 + dy ≤ x 1 := by
        by_contra hlt
        push Not at hlt
        have hxd : v 0 + dx ≤ x 0 := out.resolve_right (not_le.2 hlt)
        have k1 := mul_pos (sub_pos.2 hlt) (sub_pos.2 rx)
        have k2 := mul_nonneg (sub_nonneg.2 hxd) (sub_pos.2 ry).le
        linarith
      refine fans_covers (x := x) fB hn' hm hY y0 y1 hB z hs1 ?_ ?_ ?_
      · rw [add_sub_add_left_eq_sub]
        have : (45 : ℝ) + 45 * 1 = 90 := by norm_num
        simp only [bn, this, sub_self, (polar_quarters r).2, crossXY, Pi.sub_apply, Pi.add_apply, Matrix.cons_val_zero, Matrix.cons_val_one]
        have hdr : dy ≤ r := by
          have := (eighth_polar (t := 0) hr le_rfl zero_le_one).1
          exact ry.le.trans (this.1.trans this.2.1)
        have := mul_nonneg (sub_nonneg.2 x0) (sub_nonneg.2 hdr)
        linarith
      · intro p hp
        obtain ⟨k1, k2, k3⟩ := getD_rising sb (Nat.lt_succ_self p) hp
        rw [add_sub_add_left_eq_sub]
        simp only [crossXY, Pi.sub_apply, Pi.add_apply, Matrix.cons_val_zero, Matrix.cons_val_one]
        have := mul_nonneg (mul_nonneg (sub_nonneg.2 k2.le) hx0.le) (sub_nonneg.2 hyd)
        linarith
      · intro p hp
        obtain ⟨k1, k2, k3⟩ := getD_rising sb (Nat.lt_succ_self p) hp
        obtain ⟨sp, cp⟩ := eighth_step k1 k2 k3
        obtain ⟨c, s, cs, e⟩ := (eighth_chord r (tb.getD p 0) (tb.getD (p + 1) 0) v x).2
        rw [e]
        have := chord_near cs (mul_nonneg hr.le cp.le) (nearB p hp)
        exact mul_nonpos_of_nonneg_of_nonpos (by positivity) (by linarith)

/-- The spacing `log` stays behind the constant one. -/
theorem log_late {x : ℝ} (h0 : 0 ≤ x) (h1 : x ≤ 1) : posOf "log" x ≤ x := by
  have h : ∀ y : ℝ, 0 ≤ y → y ≤ 1 → y ≤ Real.logb 10 (1 + 9 * y) := by
    intro y y0 y1
    have hc := strictConcaveOn_log_Ioi.concaveOn.2 (x := 1) (y := 10) (by norm_num) (by norm_num) (sub_nonneg.2 y1) y0 (by ring)
    simp only [smul_eq_mul, Real.log_one, mul_zero, zero_add] at hc
    rw [Real.logb, le_div_iff₀ (Real.log_pos (by norm_num))]
    refine hc.trans (le_of_eq ?_)
    congr 1
    ring
  have := h (1 - x) (by linarith) (by linarith)
  rw [show 1 + 9 * (1 - x) = 10 - 9 * x by ring] at this
  simp only [posOf, String.reduceEq, if_false]
  linarith

theorem late_int (k : ℤ) {m : Option String} (hm : methodName m = "constant" ∨ methodName m = "log") {ls ts : List ℝ}
    (hl : resolutionToPerc (.int k) m = .ok ls) (ht : resolutionToPerc (.int k) none = .ok ts) (p : ℕ) : ls.getD p 0 ≤ ts.getD p 0 := by
  have hs : Supported m := hm.imp id Or.inl
  rw [resolutionToPerc_int hs k] at hl
  rw [resolutionToPerc_int (Or.inl rfl) k] at ht
  cases hl; cases ht
  rw [List.getD_eq_getElem?_getD, List.getD_eq_getElem?_getD, List.getElem?_map, List.getElem?_map]
  rcases Nat.lt_or_ge p ((max 1 k).toNat + 1) with hp | hp
  · rw [List.getElem?_range hp]
    simp only [Option.map_some, Option.getD_some]
    have hpos : (0 : ℝ) < (((max 1 k).toNat : ℕ) : ℝ) := by
      have : 0 < (max 1 k).toNat := by omega
      exact_mod_cast this
    have e : posOf (methodName none) ((p : ℝ) / (((max 1 k).toNat : ℕ) : ℝ)) = (p : ℝ) / (((max 1 k).toNat : ℕ) : ℝ) := by
      simp [posOf, methodName]
    rw [e]
    rcases hm with h | h
    · rw [h]; simp [posOf]
    · rw [h]
      refine log_late (by positivity) ?_
      rw [div_le_one hpos]
      exact_mod_cast Nat.lt_succ_iff.1 hp
  · rw [List.getElem?_eq_none (by simpa using hp)]
    simp

variable {δ : Type _} [OfNat δ 0] [OfNat δ 32]

theorem between_moved (v a b : V3 ℝ) (s : ℝ) : between s (v + a) (v + b) = v + between s a b := by
  funext i
  simp only [between, Pi.add_apply]
  ring

/-- **C144 (SectorRectangle).** The cells share at most edges, cover every point of the rectangle outside the quarter disc, and no point outside
the rectangle or beyond a chord of the circle.  Missing: subdivisions of the sides that run ahead of those of the arc (method log_r);
the condition `late` holds for the methods constant and log by `late_int`. -/
theorem C144_sectorRectangle_partial {area : Arr3 (V3 ℝ) → List ℝ} {radius dx dy : ℝ} {rres tres : Resolution ℝ}
    {rm tm : Option String} (fr : DividesUnit rres rm) (ft : DividesUnit tres none) (fl : DividesUnit tres tm)
    (late : ∀ ls ts, resolutionToPerc tres tm = .ok ls → resolutionToPerc tres none = .ok ts → ∀ p, ls.getD p 0 ≤ ts.getD p 0)
    {c : Option (List ℝ)} {A B : SGrid ℝ δ} (h : sectorRectangle area radius dx dy rres tres rm tm c = .ok (A, B)) :
    ∃ v ts n m, IsCentre c v ∧ resolutionToPerc tres none = .ok ts ∧ A.nodes.d = ![n + 1, m + 1, 1] ∧ B.nodes.d = ![n + 1, m + 1, 1] ∧
      TilesPair n n m (fun p q => A.points.getD (vtkId A.nodes.d ![p, q, 0]) 0) (fun p q => B.points.getD (vtkId B.nodes.d ![p, q, 0]) 0) ∧
      FillsAroundSector v radius dx dy (fun p => ts.getD p 0) n m (fun p q => A.points.getD (vtkId A.nodes.d ![p, q, 0]) 0)
        fun p q => B.points.getD (vtkId B.nodes.d ![p, q, 0]) 0 := by
  obtain ⟨r0, rx, ry, ls, ts, rs, v, h1, h2, h3, h4, h5, h6, h7, h8⟩ := C63_sectorRectangle_nodes h
  obtain ⟨n, st⟩ := ft _ h2
  obtain ⟨n', sl⟩ := fl _ h1
  obtain ⟨m, sr⟩ := fr _ h3
  obtain rfl : n' = n := by
    have := sl.size; have := st.size; omega
  refine ⟨v, ts, n', m, h4, h2, by rw [h5, st.size, sr.size], by rw [h6, st.size, sr.size],
    sector_frame r0 rx ry st sl (fun p _ => late _ _ h1 h2 p) sr ?_ ?_⟩
  · intro p hp q hq
    rw [List.getD_eq_getElem?_getD, (h8 p q _ _ _ (subdivision_getD sl hp) (subdivision_getD st hp) (subdivision_getD sr hq)).1, between_moved]
    rfl
  · intro p hp q hq
    rw [List.getD_eq_getElem?_getD, (h8 p q _ _ _ (subdivision_getD sl hp) (subdivision_getD st hp) (subdivision_getD sr hq)).2, between_moved]
    rfl

/-- **C144 (RectangleSector).** If the arc leaves the largest square out, the cells share at most edges, cover every point of the quarter disc
outside the rectangle that is closer to the centre than the chords, and no point inside the rectangle or outside the disc.  Missing: rectangles
that reach beyond the point of the arc at 45 degrees, for which it is false (`C144_reflex_refuted`). -/
theorem C144_rectangleSector_partial {area : Arr3 (V3 ℝ) → List ℝ} {radius dx dy : ℝ} (hr : 0 < radius) (hx0 : 0 < dx)
    (hy0 : 0 < dy) (hx : 2 * dx ^ 2 < radius ^ 2) (hy : 2 * dy ^ 2 < radius ^ 2) {xres yres rres : Resolution ℝ}
    {xm ym rm : Option String} (fx : DividesUnit xres xm) (fy : DividesUnit yres ym) (fr : DividesUnit rres rm)
    {c : Option (List ℝ)} {A B : SGrid ℝ δ}
    (h : rectangleSector area dx dy radius xres yres rres xm ym rm c = .ok (A, B)) :
    ∃ v xs ys n n' m, IsCentre c v ∧ resolutionToPerc xres xm = .ok xs ∧ resolutionToPerc yres ym = .ok ys ∧
      A.nodes.d = ![n + 1, m + 1, 1] ∧ B.nodes.d = ![n' + 1, m + 1, 1] ∧
      TilesPair n n' m (fun p q => A.points.getD (vtkId A.nodes.d ![p, q, 0]) 0) (fun p q => B.points.getD (vtkId B.nodes.d ![p, q, 0]) 0) ∧
      FillsAroundRectangle v radius dx dy (fun p => ys.getD p 0) (fun p => xs.getD p 0) n n' m
        (fun p q => A.points.getD (vtkId A.nodes.d ![p, q, 0]) 0) fun p q => B.points.getD (vtkId B.nodes.d ![p, q, 0]) 0 := by
  obtain ⟨xs, ys, rs, v, h1, h2, h3, h4, h5, h6, h7, h8⟩ := C63_rectangleSector_nodes h
  obtain ⟨n', sx⟩ := fx _ h1
  obtain ⟨n, sy⟩ := fy _ h2
  obtain ⟨m, sr⟩ := fr _ h3
  refine ⟨v, xs, ys, n, n', m, h4, h1, h2, by rw [h5, sy.size, sr.size], by rw [h6, sx.size, sr.size],
    rectangle_frame hr hx0 hy0 hx hy sy sx sr ?_ ?_⟩
  · intro p hp q hq
    rw [List.getD_eq_getElem?_getD, h7 p q _ _ (subdivision_getD sy hp) (subdivision_getD sr hq), between_moved]
    rfl
  · intro p hp q hq
    rw [List.getD_eq_getElem?_getD, h8 p q _ _ (subdivision_getD sx hp) (subdivision_getD sr hq), between_moved]
    rfl

/-- Concrete case of C144: a quarter disc of radius 1 in a rectangle of 2 by 3, with logarithmic spacing of the sides; the point (1, 1) is in
a cell. -/
example (area : Arr3 (V3 ℝ) → List ℝ) : ∃ A B : SGrid ℝ ℤ,
    sectorRectangle area 1 2 3 (.int 5) (.int 4) (some "log") (some "log") none = .ok (A, B) ∧
      (∃ p q, (![1, 1, 0] : V3 ℝ) ∈ quadRegion (fun p q => A.points.getD (vtkId A.nodes.d ![p, q, 0]) 0) p q ∪
        quadRegion (fun p q => B.points.getD (vtkId B.nodes.d ![p, q, 0]) 0) p q) := by
  obtain ⟨A, B, h⟩ := C63_sectorRectangle_exists (δ := ℤ) area zero_lt_one (by norm_num : (1 : ℝ) < 2)
    (by norm_num : (1 : ℝ) < 3) 5 4 (rm := some "log") (tm := some "log") (Or.inr (Or.inl rfl)) (Or.inr (Or.inl rfl)) (c := none) (v := 0)
    (by simp [IsCentre])
  refine ⟨A, B, h, ?_⟩
  obtain ⟨v, ts, n, m, hv, _, _, _, _, hf⟩ := C144_sectorRectangle_partial (divides_int 5 (Or.inr (Or.inl rfl))) (divides_int 4 (Or.inl rfl))
    (divides_int 4 (Or.inr (Or.inl rfl))) (fun _ _ => late_int 4 (Or.inr rfl)) h
  obtain rfl : v = 0 := by simpa [IsCentre] using hv
  obtain ⟨p, _, q, _, hx⟩ := hf.covers ![1, 1, 0] (by simp) (by simp) (by simp) (by simp) (by simp) (by simp)
  exact ⟨p, q, hx⟩

/-- Concrete case of C144: a square of side 1 in a quarter disc of radius 2. -/
example (area : Arr3 (V3 ℝ) → List ℝ) : ∃ A B : SGrid ℝ ℤ,
    rectangleSector area 1 1 2 (.int 5) (.int 4) (.int 3) (some "log") none none none = .ok (A, B) ∧
      ∃ v, ∃ xs ys : List ℝ, ∃ n n' m, IsCentre none v ∧ FillsAroundRectangle v 2 1 1 (fun p => ys.getD p 0) (fun p => xs.getD p 0) n n' m
        (fun p q => A.points.getD (vtkId A.nodes.d ![p, q, 0]) 0) fun p q => B.points.getD (vtkId B.nodes.d ![p, q, 0]) 0 := by
  obtain ⟨A, B, h⟩ := C63_rectangleSector_exists (δ := ℤ) area (radius := 2) (dx := 1) (dy := 1)
    (by rw [Real.sqrt_le_left (by norm_num)]; norm_num) 5 4 3 (xm := some "log") (ym := none) (rm := none) (Or.inr (Or.inl rfl)) (Or.inl rfl)
    (Or.inl rfl) (c := none) (v := 0) (by simp [IsCentre])
  refine ⟨A, B, h, ?_⟩
  obtain ⟨v, xs, ys, n, n', m, hv, _, _, _, _, _, hf⟩ := C144_rectangleSector_partial two_pos one_pos one_pos (by norm_num) (by norm_num)
    (divides_int 5 (Or.inr (Or.inl rfl))) (divides_int 4 (Or.inl rfl)) (divides_int 3 (Or.inl rfl)) h
  exact ⟨v, xs, ys, n, n', m, hv, hf⟩

theorem reflex_uv {dx dy r s t k c z : ℝ} (x0 : 0 < dx) (y0 : 0 < dy) (s0 : 0 < s) (s1 : s ≤ 1) (t0 : 0 < t)
    (t1 : t ≤ 1) (k0 : 0 ≤ k) (kx : k < dx) (kr : k ≤ r) (c0 : 0 ≤ c) (cr : c ≤ r) (z0 : 0 ≤ z) (zr : z ≤ r) :
    ∃ u w, 0 ≤ u ∧ u ≤ 1 ∧ 0 ≤ w ∧ w ≤ 1 ∧
      (let x := (1 - w) * ((1 - u) * dx + u * dx) + w * ((1 - u) * (dx + s * (k - dx)) + u * (dx + s * (c - dx)))
       0 < x ∧ x < dx) ∧
      (let y := (1 - w) * ((1 - u) * dy + u * ((1 - t) * dy)) + w * ((1 - u) * (dy + s * (k - dy)) + u * ((1 - t) * dy + s * (z - (1 - t) * dy)))
       0 < y ∧ y < dy) := by
  have r0 : 0 ≤ r := k0.trans kr
  have a0 : 0 < dx - k := sub_pos.2 kx
  obtain ⟨u, hu⟩ : ∃ u, u = (dx - k) / (2 * (dx - k + r)) := ⟨_, rfl⟩
  have hu' : u * (dx - k + r) = (dx - k) / 2 := by rw [hu]; field_simp
  have u0 : 0 < u := by rw [hu]; positivity
  have u1 : u ≤ 1 / 2 := by rw [hu, div_le_div_iff₀ (by positivity) (by norm_num)]; linarith
  obtain ⟨w, hw⟩ : ∃ w, w = dy * u * t / (2 * (r + dy)) := ⟨_, rfl⟩
  have hw' : w * (r + dy) = dy * u * t / 2 := by rw [hw]; field_simp
  have w0 : 0 < w := by rw [hw]; positivity
  have ut : u * t ≤ 1 / 2 := by nlinarith
  have w1 : w ≤ 1 / 4 := by
    have : w * dy ≤ 1 / 4 * dy := by nlinarith [mul_nonneg w0.le r0]
    exact le_of_mul_le_mul_right this y0
  have ws : 0 < w * s := mul_pos w0 s0
  have ws1 : w * s ≤ w := by nlinarith
  refine ⟨u, w, u0.le, by linarith, w0.le, by linarith, ?_, ?_⟩
  · have e : (1 - w) * ((1 - u) * dx + u * dx) + w * ((1 - u) * (dx + s * (k - dx)) + u * (dx + s * (c - dx))) =
        dx - w * s * ((1 - u) * (dx - k) - u * (c - dx)) := by ring
    have f1 : 0 < (1 - u) * (dx - k) - u * (c - dx) := by nlinarith [mul_nonneg u0.le (sub_nonneg.2 cr), mul_pos u0 x0]
    have f2 : (1 - u) * (dx - k) - u * (c - dx) ≤ dx := by nlinarith [mul_nonneg u0.le c0, mul_nonneg (show 0 ≤ 1 - u by linarith) k0]
    simp only [e]
    have g1 := mul_pos ws f1
    have g2 := mul_le_mul_of_nonneg_left f2 ws.le
    have g3 := mul_le_mul_of_nonneg_right (ws1.trans w1) x0.le
    constructor <;> linarith
  · have e : (1 - w) * ((1 - u) * dy + u * ((1 - t) * dy)) + w * ((1 - u) * (dy + s * (k - dy)) + u * ((1 - t) * dy + s * (z - (1 - t) * dy))) =
        dy - dy * (u * t) + w * s * ((1 - u) * k + u * z - (dy - dy * (u * t))) := by ring
    have f1 : (1 - u) * k + u * z ≤ r := by nlinarith [mul_nonneg u0.le (sub_nonneg.2 zr), mul_nonneg (show 0 ≤ 1 - u by linarith) (sub_nonneg.2 kr)]
    have f2 : 0 ≤ (1 - u) * k + u * z := by have := mul_nonneg u0.le z0; have := mul_nonneg (show 0 ≤ 1 - u by linarith) k0; linarith
    have f3 : 0 < u * t := mul_pos u0 t0
    have f4 := mul_pos y0 f3
    have f5 := mul_le_mul_of_nonneg_left ut y0.le
    simp only [e]
    have g1 : w * s * ((1 - u) * k + u * z - (dy - dy * (u * t))) ≤ w * s * r := mul_le_mul_of_nonneg_left (by linarith) ws.le
    have g2 : w * s * r ≤ w * r := mul_le_mul_of_nonneg_right ws1 r0
    have g3 : w * s * (-dy) ≤ w * s * ((1 - u) * k + u * z - (dy - dy * (u * t))) := mul_le_mul_of_nonneg_left (by linarith) ws.le
    have g4 := mul_le_mul_of_nonneg_right (ws1.trans w1) y0.le
    have g5 := mul_pos w0 y0
    constructor <;> nlinarith

/-- **C144 refuted for rectangles that reach beyond the 45 degree point.** Whatever the subdivisions, the first cell of a half has points
strictly inside the rectangle, on the lower half if the rectangle is wider than the point of the arc at 45 degrees, on the upper half if it is
higher.  Such rectangles are accepted if their corner is in the disc. -/
theorem C144_reflex_refuted {area : Arr3 (V3 ℝ) → List ℝ} {radius dx dy : ℝ} (hr : 0 < radius) (hx0 : 0 < dx) (hy0 : 0 < dy)
    {xres yres rres : Resolution ℝ} {xm ym rm : Option String} (fx : DividesUnit xres xm) (fy : DividesUnit yres ym)
    (fr : DividesUnit rres rm) {c : Option (List ℝ)} {A B : SGrid ℝ δ}
    (h : rectangleSector area dx dy radius xres yres rres xm ym rm c = .ok (A, B)) :
    ∃ v, IsCentre c v ∧
      (radius ^ 2 < 2 * dx ^ 2 → ∃ x ∈ cellPatch (fun p q => A.points.getD (vtkId A.nodes.d ![p, q, 0]) 0) 0 0,
        v 0 < x 0 ∧ x 0 < v 0 + dx ∧ v 1 < x 1 ∧ x 1 < v 1 + dy) ∧
      (radius ^ 2 < 2 * dy ^ 2 → ∃ x ∈ cellPatch (fun p q => B.points.getD (vtkId B.nodes.d ![p, q, 0]) 0) 0 0,
        v 0 < x 0 ∧ x 0 < v 0 + dx ∧ v 1 < x 1 ∧ x 1 < v 1 + dy) := by
  obtain ⟨xs, ys, rs, v, h1, h2, h3, h4, h5, h6, h7, h8⟩ := C63_rectangleSector_nodes h
  obtain ⟨n', sx⟩ := fx _ h1
  obtain ⟨n, sy⟩ := fy _ h2
  obtain ⟨m, sr⟩ := fr _ h3
  have s0 : rs.getD 0 0 = 0 := by rw [List.getD_eq_getElem?_getD, sr.first]; rfl
  have q2 : Real.sqrt 2 * Real.sqrt 2 = 2 := Real.mul_self_sqrt (by norm_num)
  have q0 : 0 < Real.sqrt 2 := Real.sqrt_pos.2 (by norm_num)
  have k0 : 0 ≤ radius * (Real.sqrt 2 / 2) := by positivity
  have kr : radius * (Real.sqrt 2 / 2) ≤ radius := by nlinarith
  have small : ∀ d : ℝ, 0 < d → radius ^ 2 < 2 * d ^ 2 → radius * (Real.sqrt 2 / 2) < d := by
    intro d hd hlt
    apply lt_of_pow_lt_pow_left₀ 2 hd.le
    rw [mul_pow, div_pow, Real.sq_sqrt (by norm_num)]
    linarith
  have e45 : polar radius 45 = ![radius * (Real.sqrt 2 / 2), radius * (Real.sqrt 2 / 2), 0] := by
    rw [polar, show Real.pi * 45 / 180 = Real.pi / 4 by ring, Real.cos_pi_div_four, Real.sin_pi_div_four]
  obtain ⟨_, sl, s1⟩ := getD_rising sr (Nat.lt_succ_self 0) (subdivision_pos sr)
  rw [s0] at sl
  refine ⟨v, h4, fun hlt => ?_, fun hlt => ?_⟩
  · have hn := subdivision_pos sy
    have t0 : ys.getD 0 0 = 0 := by rw [List.getD_eq_getElem?_getD, sy.first]; rfl
    have node : ∀ p ≤ n, ∀ q ≤ m, A.points.getD (vtkId A.nodes.d ![p, q, 0]) 0 =
        v + between (rs.getD q 0) ![dx, (1 - ys.getD p 0) * dy, 0] (polar radius (45 - 45 * ys.getD p 0)) := by
      intro p hp q hq
      rw [List.getD_eq_getElem?_getD, h7 p q _ _ (subdivision_getD sy hp) (subdivision_getD sr hq)]
      rfl
    obtain ⟨_, tl, t1⟩ := getD_rising sy (Nat.lt_succ_self 0) hn
    rw [t0] at tl
    obtain ⟨c1, c2, c3, c4⟩ := (eighth_polar hr tl.le t1).1
    have zr : polar radius (45 - 45 * ys.getD 1 0) 1 ≤ radius := c4.trans (by nlinarith)
    obtain ⟨u, w, u0, u1, w0, w1, fx, fy⟩ := reflex_uv hx0 hy0 sl s1 tl t1 k0 (small dx hx0 hlt) kr (k0.trans c1) c2 c3 zr
    refine ⟨_, ⟨u, w, u0, u1, w0, w1, rfl⟩, ?_⟩
    rw [quadPoint_eq]
    simp only [Fin.val_zero, Fin.val_one, Nat.add_zero, Nat.zero_add]
    rw [node 0 (Nat.zero_le _) 0 (Nat.zero_le _), node 0 (Nat.zero_le _) 1 (subdivision_pos sr), node 1 hn 0 (Nat.zero_le _),
      node 1 hn 1 (subdivision_pos sr), s0, t0, mul_zero, sub_zero, sub_zero, one_mul, e45]
    simp only [between, Pi.add_apply, Pi.smul_apply, smul_eq_mul, Matrix.cons_val_zero, Matrix.cons_val_one]
    obtain ⟨f1, f2⟩ := fx
    obtain ⟨f3, f4⟩ := fy
    refine ⟨?_, ?_, ?_, ?_⟩ <;> linarith
  · have hn := subdivision_pos sx
    have t0 : xs.getD 0 0 = 0 := by rw [List.getD_eq_getElem?_getD, sx.first]; rfl
    have node : ∀ p ≤ n', ∀ q ≤ m, B.points.getD (vtkId B.nodes.d ![p, q, 0]) 0 =
        v + between (rs.getD q 0) ![(1 - xs.getD p 0) * dx, dy, 0] (polar radius (45 + 45 * xs.getD p 0)) := by
      intro p hp q hq
      rw [List.getD_eq_getElem?_getD, h8 p q _ _ (subdivision_getD sx hp) (subdivision_getD sr hq)]
      rfl
    obtain ⟨_, tl, t1⟩ := getD_rising sx (Nat.lt_succ_self 0) hn
    rw [t0] at tl
    obtain ⟨c1, c2, c3, c4⟩ := (eighth_polar hr tl.le t1).2.1
    have zr : polar radius (45 + 45 * xs.getD 1 0) 0 ≤ radius := c4.trans (by nlinarith)
    obtain ⟨u, w, u0, u1, w0, w1, fx, fy⟩ := reflex_uv hy0 hx0 sl s1 tl t1 k0 (small dy hy0 hlt) kr (k0.trans c1) c2 c3 zr
    refine ⟨_, ⟨u, w, u0, u1, w0, w1, rfl⟩, ?_⟩
    rw [quadPoint_eq]
    simp only [Fin.val_zero, Fin.val_one, Nat.add_zero, Nat.zero_add]
    rw [node 0 (Nat.zero_le _) 0 (Nat.zero_le _), node 0 (Nat.zero_le _) 1 (subdivision_pos sr), node 1 hn 0 (Nat.zero_le _),
      node 1 hn 1 (subdivision_pos sr), s0, t0, mul_zero, add_zero, sub_zero, one_mul, e45]
    simp only [between, Pi.add_apply, Pi.smul_apply, smul_eq_mul, Matrix.cons_val_zero, Matrix.cons_val_one]
    obtain ⟨f1, f2⟩ := fx
    obtain ⟨f3, f4⟩ := fy
    refine ⟨?_, ?_, ?_, ?_⟩ <;> linarith

/-- Concrete case of the refutation: a rectangle of 9 by 3 in a quarter disc of radius 10. -/
example (area : Arr3 (V3 ℝ) → List ℝ) : ∃ A B : SGrid ℝ ℤ,
    rectangleSector area 9 3 10 (.int 5) (.int 4) (.int 3) none none none none = .ok (A, B) ∧
      ∃ x ∈ cellPatch (fun p q => A.points.getD (vtkId A.nodes.d ![p, q, 0]) 0) 0 0, 0 < x 0 ∧ x 0 < 9 ∧ 0 < x 1 ∧ x 1 < 3 := by
  obtain ⟨A, B, h⟩ := C63_rectangleSector_exists (δ := ℤ) area (radius := 10) (dx := 9) (dy := 3)
    (by rw [Real.sqrt_le_left (by norm_num)]; norm_num) 5 4 3 (xm := none) (ym := none) (rm := none) (Or.inl rfl) (Or.inl rfl)
    (Or.inl rfl) (c := none) (v := 0) (by simp [IsCentre])
  refine ⟨A, B, h, ?_⟩
  obtain ⟨v, hv, hA, _⟩ := C144_reflex_refuted (by norm_num) (by norm_num) (by norm_num) (divides_int 5 (Or.inl rfl)) (divides_int 4 (Or.inl rfl))
    (divides_int 3 (Or.inl rfl)) h
  obtain rfl : v = 0 := by simpa [IsCentre] using hv
  obtain ⟨x, hx, a, b, c, d⟩ := hA (by norm_num)
  exact ⟨x, hx, by simpa using a, by simpa using b, by simpa using c, by simpa using d⟩

end Gridder
