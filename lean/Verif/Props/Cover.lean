import Verif.Props.Tiling
import Verif.Props.Tubes
import Mathlib.Analysis.SpecialFunctions.Complex.Arg

/-!
# C142: the cells of the plane shapes fill them without gaps and overlaps
-/

namespace Gridder
open Spec

namespace Spec

/-- The cells between `n + 1` rays at the angles `A` and `m + 1` rings around `v` fill the polygonal ring that they bound, and two of
them share at most an edge, or the centre. -/
structure TilesRing (v : Fin 3 → ℝ) (ri ro : ℝ) (A : ℕ → ℝ) (n m : ℕ) (node : ℕ → ℕ → Fin 3 → ℝ) : Prop where
  /-- The cells between two rays fill the trapezium between the two outer rings. -/
  fills : ∀ p < n, (⋃ q, ⋃ (_ : q < m), quadRegion node p q) = convexHull ℝ
    {v + polar ri (A p), v + polar ri (A (p + 1)), v + polar ro (A p), v + polar ro (A (p + 1))}
  /-- Two cells between the same rays share at most an edge of a ring. -/
  rings : ∀ p < n, ∀ q q', q < q' → q' < m → ∀ x ∈ quadRegion node p q ∩ quadRegion node p q',
    q' = q + 1 ∧ x ∈ segment ℝ (node p q') (node (p + 1) q')
  /-- Two cells between different rays share at most an edge on a ray, or the centre. -/
  wedges : ∀ p p', p < p' → p' < n → ∀ q < m, ∀ q' < m, ∀ x ∈ quadRegion node p q ∩ quadRegion node p' q',
    (ri = 0 ∧ q = 0 ∧ q' = 0 ∧ x = v) ∨
      (p' = p + 1 ∧ x ∈ segment ℝ (node p' q) (node p' (q + 1)) ∩ segment ℝ (node p' q') (node p' (q' + 1))) ∨
      (p = 0 ∧ p' + 1 = n ∧ A n = A 0 + 360 ∧
        x ∈ segment ℝ (node 0 q) (node 0 (q + 1)) ∩ segment ℝ (node n q') (node n (q' + 1)))
  /-- The cells leave the ring only by the gap between the inner circle and its chords. -/
  inside : ∀ p < n, ∀ q < m, ∀ x ∈ quadRegion node p q, ∃ ρ γ, A p ≤ γ ∧ γ ≤ A (p + 1) ∧
    ri * Real.cos (Real.pi * (A (p + 1) - A p) / 360) ≤ ρ ∧ ρ ≤ ro ∧ x = v + polar ρ γ
  /-- The cells leave out only the gap between the outer circle and its chords. -/
  covers : ∀ p < n, ∀ γ, A p ≤ γ → γ ≤ A (p + 1) → ∀ ρ, ri ≤ ρ →
    ρ ≤ ro * Real.cos (Real.pi * (A (p + 1) - A p) / 360) → ∃ q < m, v + polar ρ γ ∈ quadRegion node p q

/-- The cells of an `n` by `m` grid fill a rectangle with a corner in `v`, and two of them share at most an edge. -/
structure TilesRectangle (v : Fin 3 → ℝ) (dx dy : ℝ) (n m : ℕ) (node : ℕ → ℕ → Fin 3 → ℝ) : Prop where
  fills : (⋃ p, ⋃ (_ : p < n), ⋃ q, ⋃ (_ : q < m), quadRegion node p q) =
    convexHull ℝ {v, v + ![dx, 0, 0], v + ![0, dy, 0], v + ![dx, dy, 0]}
  apart : dx ≠ 0 → ∀ p p', p < p' → p' < n → ∀ q < m, ∀ q' < m, ∀ x ∈ quadRegion node p q ∩ quadRegion node p' q',
    p' = p + 1 ∧ x ∈ segment ℝ (node p' q) (node p' (q + 1)) ∩ segment ℝ (node p' q') (node p' (q' + 1))
  above : dy ≠ 0 → ∀ q q', q < q' → q' < m → ∀ p < n, ∀ p' < n, ∀ x ∈ quadRegion node p q ∩ quadRegion node p' q',
    q' = q + 1 ∧ x ∈ segment ℝ (node p q') (node (p + 1) q') ∩ segment ℝ (node p' q') (node (p' + 1) q')

/-- The region of a cell of an unstructured mesh whose corners are in convex position. -/
def cornerHull (pts : List (Fin 3 → ℝ)) (cell : List ℕ) : Set (Fin 3 → ℝ) :=
  convexHull ℝ {x | ∃ k ∈ cell, pts[k]? = some x}

end Spec

theorem polar_comb (s t x y θ : ℝ) : s • polar x θ + t • polar y θ = polar (s * x + t * y) θ := by
  funext i
  fin_cases i <;> simp [polar] <;> ring

theorem polar_smul (s x θ : ℝ) : s • polar x θ = polar (s * x) θ := by
  funext i
  fin_cases i <;> simp [polar, mul_assoc]

theorem polar_zero (θ : ℝ) : polar 0 θ = 0 := by
  funext i
  fin_cases i <;> simp [polar]

/-- The region of a cell between two rays and two rings. -/
def wedge (v : V3 ℝ) (α β r r' : ℝ) : Set (V3 ℝ) :=
  {z | ∃ x y, 0 ≤ x ∧ 0 ≤ y ∧ r ≤ x + y ∧ x + y ≤ r' ∧ z = v + (polar x α + polar y β)}

theorem wedge_hull (v : V3 ℝ) (α β : ℝ) {r r' : ℝ} (h0 : 0 ≤ r) (h1 : r ≤ r') :
    convexHull ℝ {v + polar r α, v + polar r β, v + polar r' α, v + polar r' β} = wedge v α β r r' := by
  apply Set.Subset.antisymm
  · refine convexHull_min ?_ ?_
    · rintro z (rfl | rfl | rfl | rfl)
      · exact ⟨r, 0, h0, le_rfl, by simp, by simpa, by simp [polar_zero]⟩
      · exact ⟨0, r, le_rfl, h0, by simp, by simpa, by simp [polar_zero]⟩
      · exact ⟨r', 0, h0.trans h1, le_rfl, by simpa, by simp, by simp [polar_zero]⟩
      · exact ⟨0, r', le_rfl, h0.trans h1, by simpa, by simp, by simp [polar_zero]⟩
    · rintro _ ⟨x, y, x0, y0, hl, hh, rfl⟩ _ ⟨x', y', x0', y0', hl', hh', rfl⟩ s t hs ht hst
      refine ⟨s * x + t * x', s * y + t * y', by positivity, by positivity, ?_, ?_, ?_⟩
      · have := add_le_add (mul_le_mul_of_nonneg_left hl hs) (mul_le_mul_of_nonneg_left hl' ht)
        rw [← add_mul, hst, one_mul] at this; linarith
      · have := add_le_add (mul_le_mul_of_nonneg_left hh hs) (mul_le_mul_of_nonneg_left hh' ht)
        rw [← add_mul s t r', hst, one_mul] at this; linarith
      · rw [← polar_comb, ← polar_comb, smul_add, smul_add, smul_add, smul_add]
        have : s • v + t • v = v := by rw [← add_smul, hst, one_smul]
        nth_rewrite 3 [← this]
        abel
  · rintro z ⟨x, y, x0, y0, hl, hh, rfl⟩
    set S : Set (V3 ℝ) := {v + polar r α, v + polar r β, v + polar r' α, v + polar r' β} with hS
    have hconv := convex_convexHull ℝ S
    have m1 : v + polar r α ∈ convexHull ℝ S := subset_convexHull ℝ S (by simp [hS])
    have m2 : v + polar r β ∈ convexHull ℝ S := subset_convexHull ℝ S (by simp [hS])
    have m3 : v + polar r' α ∈ convexHull ℝ S := subset_convexHull ℝ S (by simp [hS])
    have m4 : v + polar r' β ∈ convexHull ℝ S := subset_convexHull ℝ S (by simp [hS])
    obtain ⟨s, t, s0, t0, st, e⟩ : x + y ∈ segment ℝ r r' := by rw [segment_eq_Icc h1]; exact ⟨hl, hh⟩
    simp only [smul_eq_mul] at e
    have comb : ∀ θ, s • (v + polar r θ) + t • (v + polar r' θ) = v + polar (x + y) θ := by
      intro θ
      rw [smul_add, smul_add, add_add_add_comm, polar_comb, e, ← add_smul, st, one_smul]
    have k1 := hconv m1 m3 s0 t0 st
    have k2 := hconv m2 m4 s0 t0 st
    rw [comb] at k1 k2
    rcases (add_nonneg x0 y0).eq_or_lt with h | h
    · have hx : x = 0 := by linarith
      have hy : y = 0 := by linarith
      subst hx hy
      simpa [polar_zero] using k1
    · have := hconv k1 k2 (a := x / (x + y)) (b := y / (x + y)) (by positivity) (by positivity) (by field_simp)
      have c : ∀ s θ, (s / (x + y)) • (v + polar (x + y) θ) = (s / (x + y)) • v + polar s θ := by
        intro s θ
        rw [smul_add, polar_smul, div_mul_cancel₀ _ h.ne']
      rw [c, c, add_add_add_comm, ← add_smul, ← add_div, div_self h.ne', one_smul] at this
      exact this

/-- A point between two rays less than a half turn apart lies on a ray between them, nearer to the centre than the point of the ring, but not
nearer than its chord. -/
theorem wedge_polar {α β x y : ℝ} (h : 0 < β - α) (h' : β - α < 180) (hx : 0 ≤ x) (hy : 0 ≤ y) (hxy : 0 < x + y) :
    ∃ ρ γ, 0 < ρ ∧ α ≤ γ ∧ γ ≤ β ∧ polar x α + polar y β = polar ρ γ ∧ ρ ≤ x + y ∧
      (x + y) * Real.cos (Real.pi * (β - α) / 360) ≤ ρ ∧ (γ = α → y = 0) ∧ (γ = β → x = 0) := by
  have hpi := Real.pi_pos
  obtain ⟨d, hd⟩ : ∃ d, d = Real.pi * (β - α) / 180 := ⟨_, rfl⟩
  have hd0 : 0 < d := by rw [hd]; positivity
  have hdpi : d < Real.pi := by rw [hd, div_lt_iff₀ (by norm_num)]; nlinarith
  have hsin : 0 < Real.sin d := Real.sin_pos_of_pos_of_lt_pi hd0 hdpi
  obtain ⟨z, hz⟩ : ∃ z : ℂ, z = ⟨x + y * Real.cos d, y * Real.sin d⟩ := ⟨_, rfl⟩
  have hre : ‖z‖ * Real.cos z.arg = x + y * Real.cos d := by rw [Complex.norm_mul_cos_arg, hz]
  have him : ‖z‖ * Real.sin z.arg = y * Real.sin d := by rw [Complex.norm_mul_sin_arg, hz]
  have hz0 : z ≠ 0 := by
    intro h0
    rw [h0, norm_zero, zero_mul] at hre him
    have hy0 : y = 0 := by
      rcases mul_eq_zero.1 him.symm with h | h
      · exact h
      · exact absurd h hsin.ne'
    rw [hy0] at hre hxy
    linarith
  have hρ : 0 < ‖z‖ := norm_pos_iff.2 hz0
  have harg : 0 ≤ z.arg := by
    rw [Complex.arg_nonneg_iff, hz]
    exact mul_nonneg hy hsin.le
  have hsub : ‖z‖ * Real.sin (z.arg - d) = -(x * Real.sin d) := by
    rw [Real.sin_sub]
    linear_combination Real.cos d * him - Real.sin d * hre
  have hle : z.arg ≤ d := by
    by_contra hc
    have := Real.sin_pos_of_pos_of_lt_pi (sub_pos.2 (not_le.1 hc)) (by have := Complex.arg_le_pi z; linarith)
    have := mul_pos hρ this
    have := mul_nonneg hx hsin.le
    linarith
  have hsq : ‖z‖ ^ 2 = x ^ 2 + y ^ 2 + 2 * x * y * Real.cos d := by
    have h1 := Real.sin_sq_add_cos_sq z.arg
    have h2 := Real.sin_sq_add_cos_sq d
    have : ‖z‖ ^ 2 = (‖z‖ * Real.cos z.arg) ^ 2 + (‖z‖ * Real.sin z.arg) ^ 2 := by
      linear_combination (-‖z‖ ^ 2) * h1
    rw [this, hre, him]
    linear_combination y ^ 2 * h2
  have hc1 : Real.cos d ≤ 1 := Real.cos_le_one d
  have hhalf : Real.cos (Real.pi * (β - α) / 360) ^ 2 = (1 + Real.cos d) / 2 := by
    rw [Real.cos_sq, show 2 * (Real.pi * (β - α) / 360) = d by rw [hd]; ring]; ring
  have hang : ∀ t, Real.pi * (α + 180 * t / Real.pi) / 180 = Real.pi * α / 180 + t := by
    intro t; field_simp
  have hβ : Real.pi * β / 180 = Real.pi * α / 180 + d := by rw [hd]; ring
  refine ⟨‖z‖, α + 180 * z.arg / Real.pi, hρ, ?_, ?_, ?_, ?_, ?_, ?_, ?_⟩
  · have : 0 ≤ 180 * z.arg / Real.pi := by positivity
    linarith
  · have : 180 * z.arg / Real.pi ≤ β - α := by
      rw [div_le_iff₀ hpi]
      rw [hd, le_div_iff₀ (by norm_num)] at hle
      linarith
    linarith
  · funext i
    fin_cases i
    · simp only [polar, Pi.add_apply, Matrix.cons_val_zero, Fin.zero_eta, hang, hβ, Real.cos_add]
      linear_combination Real.sin (Real.pi * α / 180) * him - Real.cos (Real.pi * α / 180) * hre
    · simp only [polar, Pi.add_apply, Matrix.cons_val_one, Fin.mk_one, hang, hβ, Real.sin_add]
      simp only [Matrix.cons_val_zero]
      linear_combination -Real.cos (Real.pi * α / 180) * him - Real.sin (Real.pi * α / 180) * hre
    · simp [polar]
  · refine le_of_sq_le_sq ?_ hxy.le
    rw [hsq]
    nlinarith [mul_nonneg hx hy]
  · refine le_of_sq_le_sq ?_ hρ.le
    rw [hsq, mul_pow, hhalf]
    nlinarith [mul_nonneg (sub_nonneg.2 hc1) (sq_nonneg (x - y))]
  · intro e
    have : z.arg = 0 := by
      have : 180 * z.arg / Real.pi = 0 := by linarith
      rcases div_eq_zero_iff.1 this with h | h
      · linarith
      · exact absurd h hpi.ne'
    rw [this, Real.sin_zero, mul_zero] at him
    rcases mul_eq_zero.1 him.symm with h | h
    · exact h
    · exact absurd h hsin.ne'
  · intro e
    have : z.arg = d := by
      have : 180 * z.arg / Real.pi = β - α := by linarith
      rw [div_eq_iff hpi.ne'] at this
      rw [hd]; linarith
    rw [this, sub_self, Real.sin_zero, mul_zero] at hsub
    rcases mul_eq_zero.1 (show x * Real.sin d = 0 by linarith) with h | h
    · exact h
    · exact absurd h hsin.ne'

theorem polar_unique {ρ ρ' γ γ' : ℝ} (h : 0 < ρ) (h' : 0 < ρ') (e : polar ρ γ = polar ρ' γ') (hg : -360 < γ' - γ) (hg' : γ' - γ < 360) :
    γ = γ' ∧ ρ = ρ' := by
  have hpi := Real.pi_pos
  have e0 := congrFun e 0
  have e1 := congrFun e 1
  simp only [polar, Matrix.cons_val_zero, Matrix.cons_val_one] at e0 e1
  have hρ : ρ = ρ' := by
    have h1 := Real.sin_sq_add_cos_sq (Real.pi * γ / 180)
    have h2 := Real.sin_sq_add_cos_sq (Real.pi * γ' / 180)
    have : ρ ^ 2 = ρ' ^ 2 := by
      have k0 := congrArg (· ^ 2) e0
      have k1 := congrArg (· ^ 2) e1
      simp only [mul_pow] at k0 k1
      linear_combination k0 + k1 - ρ ^ 2 * h1 + ρ' ^ 2 * h2
    exact (pow_left_inj₀ h.le h'.le two_ne_zero).1 this
  subst hρ
  have c0 := mul_left_cancel₀ h.ne' e0
  have c1 := mul_left_cancel₀ h.ne' e1
  have : Real.cos (Real.pi * γ' / 180 - Real.pi * γ / 180) = 1 := by
    rw [Real.cos_sub, c0, c1]
    linear_combination Real.sin_sq_add_cos_sq (Real.pi * γ' / 180)
  have hz : Real.pi * γ' / 180 - Real.pi * γ / 180 = Real.pi * (γ' - γ) / 180 := by ring
  rw [hz] at this
  have := (Real.cos_eq_one_iff_of_lt_of_lt (by rw [lt_div_iff₀ (by norm_num)]; nlinarith)
    (by rw [div_lt_iff₀ (by norm_num)]; nlinarith)).1 this
  rcases div_eq_zero_iff.1 this with h | h
  · rcases mul_eq_zero.1 h with h | h
    · exact absurd h hpi.ne'
    · exact ⟨by linarith, rfl⟩
  · norm_num at h

/-- A point of a ring is a point between the two rays around it. -/
theorem polar_wedge {α β γ : ℝ} (h : 0 < β - α) (h' : β - α < 180) (h1 : α ≤ γ) (h2 : γ ≤ β) {ρ : ℝ} (hρ : 0 ≤ ρ) :
    ∃ x y, 0 ≤ x ∧ 0 ≤ y ∧ ρ ≤ x + y ∧ (x + y) * Real.cos (Real.pi * (β - α) / 360) ≤ ρ ∧ polar ρ γ = polar x α + polar y β := by
  have hpi := Real.pi_pos
  have hsin := sin_step h h'
  have s1 : 0 ≤ Real.sin (Real.pi * (β - γ) / 180) := Real.sin_nonneg_of_nonneg_of_le_pi
    (by have := sub_nonneg.2 h2; positivity) (by rw [div_le_iff₀ (by norm_num)]; nlinarith)
  have s2 : 0 ≤ Real.sin (Real.pi * (γ - α) / 180) := Real.sin_nonneg_of_nonneg_of_le_pi
    (by have := sub_nonneg.2 h1; positivity) (by rw [div_le_iff₀ (by norm_num)]; nlinarith)
  obtain ⟨u, hu⟩ : ∃ u, u = Real.pi * (β - α) / 360 := ⟨_, rfl⟩
  obtain ⟨w, hw⟩ : ∃ w, w = Real.pi * (β + α - 2 * γ) / 360 := ⟨_, rfl⟩
  have eu : Real.pi * (β - α) / 180 = 2 * u := by rw [hu]; ring
  have e1 : Real.pi * (β - γ) / 180 = u + w := by rw [hu, hw]; ring
  have e2 : Real.pi * (γ - α) / 180 = u - w := by rw [hu, hw]; ring
  have hsu : 0 < Real.sin u := by
    rw [hu]
    refine Real.sin_pos_of_pos_of_lt_pi (by positivity) (by rw [div_lt_iff₀ (by norm_num)]; nlinarith)
  have hcu : 0 < Real.cos u := by
    rw [hu]
    exact Real.cos_pos_of_mem_Ioo ⟨by have : 0 < Real.pi * (β - α) / 360 := by positivity
                                      linarith, by rw [div_lt_iff₀ (by norm_num)]; nlinarith⟩
  have hcw : Real.cos u ≤ Real.cos w := by
    rw [← Real.cos_abs w]
    refine Real.cos_le_cos_of_nonneg_of_le_pi (abs_nonneg _) ?_ ?_
    · rw [hu, div_le_iff₀ (by norm_num)]; nlinarith
    · rw [hu, hw, abs_le]
      constructor
      · rw [le_div_iff₀ (by norm_num)]; nlinarith
      · rw [div_le_div_iff_of_pos_right (by norm_num)]; nlinarith
  have hsum : ρ * Real.sin (Real.pi * (β - γ) / 180) / Real.sin (Real.pi * (β - α) / 180) +
      ρ * Real.sin (Real.pi * (γ - α) / 180) / Real.sin (Real.pi * (β - α) / 180) = ρ * Real.cos w / Real.cos u := by
    rw [eu, e1, e2, Real.sin_two_mul, Real.sin_add, Real.sin_sub]
    field_simp
    ring
  refine ⟨ρ * Real.sin (Real.pi * (β - γ) / 180) / Real.sin (Real.pi * (β - α) / 180),
    ρ * Real.sin (Real.pi * (γ - α) / 180) / Real.sin (Real.pi * (β - α) / 180), by positivity, by positivity, ?_, ?_, ?_⟩
  · rw [hsum, le_div_iff₀ hcu]
    exact mul_le_mul_of_nonneg_left hcw hρ
  · rw [hsum, ← hu, div_mul_cancel₀ _ hcu.ne']
    exact mul_le_of_le_one_right hρ (Real.cos_le_one w)
  · have f1 : Real.pi * (β - γ) / 180 = Real.pi * β / 180 - Real.pi * γ / 180 := by ring
    have f2 : Real.pi * (γ - α) / 180 = Real.pi * γ / 180 - Real.pi * α / 180 := by ring
    have f3 : Real.pi * (β - α) / 180 = Real.pi * β / 180 - Real.pi * α / 180 := by ring
    rw [f3, Real.sin_sub] at hsin
    funext i
    fin_cases i
    · simp only [polar, Pi.add_apply, Matrix.cons_val_zero, Fin.zero_eta]
      rw [f1, f2, f3, Real.sin_sub, Real.sin_sub, Real.sin_sub]
      field_simp
      ring
    · simp only [polar, Pi.add_apply, Matrix.cons_val_one, Fin.mk_one, Matrix.cons_val_zero]
      rw [f1, f2, f3, Real.sin_sub, Real.sin_sub, Real.sin_sub]
      field_simp
      ring
    · simp [polar]

theorem mem_wedge_polar {v : V3 ℝ} {α β r r' : ℝ} (h : 0 < β - α) (h' : β - α < 180) (hr : 0 ≤ r) {z : V3 ℝ} (hz : z ∈ wedge v α β r r') :
    (r = 0 ∧ z = v) ∨ ∃ ρ γ, 0 < ρ ∧ α ≤ γ ∧ γ ≤ β ∧ z = v + polar ρ γ ∧ ρ ≤ r' ∧ r * Real.cos (Real.pi * (β - α) / 360) ≤ ρ ∧
      (γ = α ∨ γ = β → r ≤ ρ) := by
  obtain ⟨x, y, hx, hy, h1, h2, rfl⟩ := hz
  rcases (add_nonneg hx hy).eq_or_lt with h0 | h0
  · left
    obtain rfl : x = 0 := by linarith
    obtain rfl : y = 0 := by linarith
    exact ⟨by linarith, by simp [polar_zero]⟩
  · right
    obtain ⟨ρ, γ, g0, g1, g2, e, g3, g4, ga, gb⟩ := wedge_polar h h' hx hy h0
    have hc : 0 ≤ Real.cos (Real.pi * (β - α) / 360) := by
      have hpi := Real.pi_pos
      refine Real.cos_nonneg_of_neg_pi_div_two_le_of_le ?_ ?_
      · have : 0 < Real.pi * (β - α) / 360 := by positivity
        linarith
      · rw [div_le_iff₀ (by norm_num)]; nlinarith
    refine ⟨ρ, γ, g0, g1, g2, by rw [e], g3.trans h2, (mul_le_mul_of_nonneg_right h1 hc).trans g4, ?_⟩
    rintro (rfl | rfl)
    · have hy0 := ga rfl
      rw [hy0, polar_zero, add_zero] at e
      rw [hy0, add_zero] at h0 h1
      rw [← (polar_unique h0 g0 e (by norm_num) (by norm_num)).2]; exact h1
    · have hx0 := gb rfl
      rw [hx0, polar_zero, zero_add] at e
      rw [hx0, zero_add] at h0 h1
      rw [← (polar_unique h0 g0 e (by norm_num) (by norm_num)).2]; exact h1

theorem ray_segment (v : V3 ℝ) (θ : ℝ) {r r' ρ : ℝ} (h : r ≤ ρ) (h' : ρ ≤ r') :
    v + polar ρ θ ∈ segment ℝ (v + polar r θ) (v + polar r' θ) := by
  obtain ⟨s, t, s0, t0, st, e⟩ : ρ ∈ segment ℝ r r' := by rw [segment_eq_Icc (h.trans h')]; exact ⟨h, h'⟩
  refine ⟨s, t, s0, t0, st, ?_⟩
  rw [smul_add, smul_add, add_add_add_comm, polar_comb, ← add_smul, st, one_smul]
  simp only [smul_eq_mul] at e
  rw [e]

/-- Nodes on rays less than a half turn apart, over at most a full turn, and rings around a centre. -/
theorem ring_tiles {v : V3 ℝ} {n m : ℕ} {A R : ℕ → ℝ} (hA : ∀ p < n, 0 < A (p + 1) - A p ∧ A (p + 1) - A p < 180)
    (hturn : A n - A 0 ≤ 360) (hm : 0 < m) (hR0 : 0 ≤ R 0) (hR : ∀ q < m, R q < R (q + 1)) {node : ℕ → ℕ → V3 ℝ}
    (hnode : ∀ p ≤ n, ∀ q ≤ m, node p q = v + polar (R q) (A p)) : TilesRing v (R 0) (R m) A n m node := by
  have hmonoR : ∀ q q', q ≤ q' → q' ≤ m → R q ≤ R q' := by
    intro q q' hq
    induction q', hq using Nat.le_induction with
    | base => intro _; exact le_rfl
    | succ q' h ih => intro hm'; exact (ih (by omega)).trans (hR q' (by omega)).le
  have hmonoA : ∀ p p', p ≤ p' → p' ≤ n → A p ≤ A p' := by
    intro p p' hp
    induction p', hp using Nat.le_induction with
    | base => intro _; exact le_rfl
    | succ p' h ih => intro hm'; exact (ih (by omega)).trans (sub_pos.1 (hA p' (by omega)).1).le
  have hpos : ∀ q ≤ m, 0 ≤ R q := fun q hq => hR0.trans (hmonoR 0 q (Nat.zero_le _) hq)
  have hreg : ∀ p < n, ∀ q < m, quadRegion node p q = wedge v (A p) (A (p + 1)) (R q) (R (q + 1)) := by
    intro p hp q hq
    rw [quadRegion, hnode p hp.le q hq.le, hnode (p + 1) hp q hq.le, hnode p hp.le (q + 1) hq, hnode (p + 1) hp (q + 1) hq]
    exact wedge_hull v _ _ (hpos q hq.le) (hR q hq).le
  have hfill : ∀ p < n, (⋃ q, ⋃ (_ : q < m), quadRegion node p q) = wedge v (A p) (A (p + 1)) (R 0) (R m) := by
    intro p hp
    ext z
    simp only [Set.mem_iUnion]
    constructor
    · rintro ⟨q, hq, hz⟩
      rw [hreg p hp q hq] at hz
      obtain ⟨x, y, hx, hy, h1, h2, e⟩ := hz
      exact ⟨x, y, hx, hy, (hmonoR 0 q (Nat.zero_le _) hq.le).trans h1, h2.trans (hmonoR (q + 1) m hq le_rfl), e⟩
    · rintro ⟨x, y, hx, hy, h1, h2, e⟩
      obtain ⟨q, hq, g1, g2⟩ := exists_step hm h1 h2
      exact ⟨q, hq, by rw [hreg p hp q hq]; exact ⟨x, y, hx, hy, g1, g2, e⟩⟩
  refine ⟨?_, ?_, ?_, ?_, ?_⟩
  · intro p hp
    rw [hfill p hp, wedge_hull v _ _ hR0 (hmonoR 0 m (Nat.zero_le _) le_rfl)]
  · rintro p hp q q' hqq hq' z ⟨z1, z2⟩
    rw [hreg p hp q (by omega)] at z1
    rw [hreg p hp q' hq'] at z2
    obtain ⟨x, y, hx, hy, h1, h2, rfl⟩ := z1
    obtain ⟨x', y', hx', hy', h1', h2', e⟩ := z2
    obtain ⟨g1, g2⟩ := hA p hp
    have hs := sin_step g1 g2
    have e := add_left_cancel e
    have k1 := cross_polar 1 1 (A p) (A (p + 1))
    have ey : y = y' := by
      have k := congrArg (crossXY (polar 1 (A p))) e
      have l : ∀ a b : V3 ℝ, crossXY (polar 1 (A p)) (a + b) = crossXY (polar 1 (A p)) a + crossXY (polar 1 (A p)) b := by
        intro a b; simp only [crossXY, Pi.add_apply]; ring
      rw [l, l, cross_polar, cross_polar, cross_polar, cross_polar, sub_self, mul_zero, zero_div, Real.sin_zero] at k
      simp only [one_mul, mul_zero, zero_add] at k
      exact mul_right_cancel₀ hs.ne' k
    have ex : x = x' := by
      subst ey
      have k := congrArg (fun w => crossXY w (polar 1 (A (p + 1)))) (add_right_cancel e)
      simp only [cross_polar, mul_one] at k
      exact mul_right_cancel₀ hs.ne' k
    subst ey ex
    have hqe : q' = q + 1 := by
      by_contra hc
      have := hmonoR (q + 2) q' (by omega) (by omega)
      have := hR (q + 1) (by omega)
      linarith
    refine ⟨hqe, ?_⟩
    subst hqe
    have hs : x + y = R (q + 1) := le_antisymm h2 h1'
    have hpos' : 0 < R (q + 1) := (hpos q (by omega)).trans_lt (hR q (by omega))
    rw [hnode p hp.le (q + 1) hq'.le, hnode (p + 1) hp (q + 1) hq'.le]
    refine ⟨x / R (q + 1), y / R (q + 1), by positivity, by positivity, by rw [← add_div, hs, div_self hpos'.ne'], ?_⟩
    rw [smul_add, smul_add, add_add_add_comm, ← add_smul, ← add_div, hs, div_self hpos'.ne', one_smul, polar_smul, polar_smul,
      div_mul_cancel₀ _ hpos'.ne', div_mul_cancel₀ _ hpos'.ne']
  · rintro p p' hpp hp' q hq q' hq' z ⟨z1, z2⟩
    rw [hreg p (by omega) q hq] at z1
    rw [hreg p' hp' q' hq'] at z2
    obtain ⟨g1, g2⟩ := hA p (by omega)
    obtain ⟨g1', g2'⟩ := hA p' hp'
    have first : ∀ q < m, R q = 0 → q = 0 ∧ R 0 = 0 := by
      intro q hq h
      rcases Nat.eq_zero_or_pos q with rfl | h0
      · exact ⟨rfl, h⟩
      · have := hR 0 hm
        have := hmonoR 1 q h0 hq.le
        linarith
    have zero : ∀ {ρ γ}, 0 < ρ → v ≠ v + polar ρ γ := by
      intro ρ γ h e
      have e : polar ρ γ = 0 := by simpa using e
      have := congrArg₂ (fun a b => a ^ 2 + b ^ 2) (congrFun e 0) (congrFun e 1)
      simp only [polar, Matrix.cons_val_zero, Matrix.cons_val_one, Pi.zero_apply] at this
      have h1 := Real.sin_sq_add_cos_sq (Real.pi * γ / 180)
      have : ρ ^ 2 = 0 := by linear_combination this - ρ ^ 2 * h1
      exact h.ne' (pow_eq_zero_iff two_ne_zero |>.1 this)
    rcases mem_wedge_polar g1 g2 (hpos q hq.le) z1 with ⟨r0, rfl⟩ | ⟨ρ, γ, p0, p1, p2, e, p3, _, p5⟩ <;>
      rcases mem_wedge_polar g1' g2' (hpos q' hq'.le) z2 with ⟨r0', e'⟩ | ⟨ρ', γ', p0', p1', p2', e', p3', _, p5'⟩
    · exact Or.inl ⟨(first q hq r0).2, (first q hq r0).1, (first q' hq' r0').1, rfl⟩
    · exact absurd e' (zero p0')
    · rw [e'] at e
      exact absurd e (zero p0)
    · right
      rw [e] at e'
      have e' := add_left_cancel e'
      have o1 := hmonoA (p + 1) p' hpp hp'.le
      have o2 := hmonoA 0 p (Nat.zero_le _) (by omega)
      have o3 := hmonoA (p' + 1) n hp' le_rfl
      rcases lt_or_ge (γ' - γ) 360 with hlt | hge
      · left
        obtain ⟨rfl, rfl⟩ := polar_unique p0 p0' e' (by linarith) hlt
        have hpe : p' = p + 1 := by
          by_contra hc
          have := hmonoA (p + 2) p' (by omega) hp'.le
          have := (hA (p + 1) (by omega)).1
          linarith
        subst hpe
        obtain rfl : γ = A (p + 1) := le_antisymm p2 p1'
        refine ⟨rfl, ?_, ?_⟩
        · rw [e, hnode _ hp'.le q hq.le, hnode _ hp'.le (q + 1) hq]
          exact ray_segment v _ (p5 (Or.inr rfl)) p3
        · rw [e, hnode _ hp'.le q' hq'.le, hnode _ hp'.le (q' + 1) hq']
          exact ray_segment v _ (p5' (Or.inl rfl)) p3'
      · right
        have a1 : γ = A 0 := by linarith
        have a2 : γ' = A n := by linarith
        have a3 : A n = A 0 + 360 := by linarith
        have hp0 : p = 0 := by
          by_contra hc
          have := hmonoA 1 p (by omega) (by omega)
          have := (hA 0 (by omega)).1
          linarith
        have hpn : p' + 1 = n := by
          by_contra hc
          have := hmonoA (p' + 2) n (by omega) le_rfl
          have := (hA (p' + 1) (by omega)).1
          linarith
        subst hp0
        refine ⟨rfl, hpn, a3, ?_, ?_⟩
        · rw [e, a1, hnode _ (Nat.zero_le _) q hq.le, hnode _ (Nat.zero_le _) (q + 1) hq]
          exact ray_segment v _ (p5 (Or.inl a1)) p3
        · rw [e, e', a2, hnode _ le_rfl q' hq'.le, hnode _ le_rfl (q' + 1) hq']
          exact ray_segment v _ (p5' (Or.inr (by rw [a2, hpn]))) p3'
  · intro p hp q hq z hz
    rw [hreg p hp q hq] at hz
    obtain ⟨g1, g2⟩ := hA p hp
    have hc : 0 ≤ Real.cos (Real.pi * (A (p + 1) - A p) / 360) := by
      have hpi := Real.pi_pos
      refine Real.cos_nonneg_of_neg_pi_div_two_le_of_le ?_ ?_
      · have : 0 < Real.pi * (A (p + 1) - A p) / 360 := by positivity
        linarith
      · rw [div_le_iff₀ (by norm_num)]; nlinarith
    rcases mem_wedge_polar g1 g2 (hpos q hq.le) hz with ⟨r0, rfl⟩ | ⟨ρ, γ, p0, p1, p2, e, p3, p4, _⟩
    · have : R 0 = 0 := le_antisymm (by rw [← r0]; exact hmonoR 0 q (Nat.zero_le _) hq.le) hR0
      exact ⟨0, A p, le_rfl, by linarith, by rw [this, zero_mul], hpos m le_rfl, by simp [polar_zero]⟩
    · exact ⟨ρ, γ, p1, p2, (mul_le_mul_of_nonneg_right (hmonoR 0 q (Nat.zero_le _) hq.le) hc).trans p4,
        p3.trans (hmonoR (q + 1) m hq le_rfl), e⟩
  · intro p hp γ g1 g2 ρ h1 h2
    obtain ⟨k1, k2⟩ := hA p hp
    obtain ⟨x, y, hx, hy, l1, l2, e⟩ := polar_wedge k1 k2 g1 g2 (hR0.trans h1)
    have hc : 0 < Real.cos (Real.pi * (A (p + 1) - A p) / 360) := by
      have hpi := Real.pi_pos
      refine Real.cos_pos_of_mem_Ioo ⟨?_, ?_⟩
      · have : 0 < Real.pi * (A (p + 1) - A p) / 360 := by positivity
        linarith
      · rw [div_lt_iff₀ (by norm_num)]; nlinarith
    have : v + polar ρ γ ∈ wedge v (A p) (A (p + 1)) (R 0) (R m) :=
      ⟨x, y, hx, hy, h1.trans l1, le_of_mul_le_mul_right (l2.trans h2) hc, by rw [e]⟩
    rw [← hfill p hp] at this
    simpa using this

/-- The points between two fractions of the sides of a rectangle. -/
def patch (v : V3 ℝ) (dx dy s s' t t' : ℝ) : Set (V3 ℝ) :=
  {z | ∃ x y, s ≤ x ∧ x ≤ s' ∧ t ≤ y ∧ y ≤ t' ∧ z = v + ![x * dx, y * dy, 0]}

theorem corner_comb (v : V3 ℝ) (dx dy : ℝ) {a b : ℝ} (h : a + b = 1) (x x' y y' : ℝ) :
    a • (v + ![x * dx, y * dy, 0]) + b • (v + ![x' * dx, y' * dy, 0]) = v + ![(a * x + b * x') * dx, (a * y + b * y') * dy, 0] := by
  obtain rfl : b = 1 - a := by linarith
  funext i
  fin_cases i <;> simp only [Pi.add_apply, Pi.smul_apply, smul_eq_mul, Fin.zero_eta, Fin.mk_one, Fin.reduceFinMk, Matrix.cons_val_zero,
    Matrix.cons_val_one, Matrix.cons_val] <;> ring

theorem patch_hull (v : V3 ℝ) (dx dy : ℝ) {s s' t t' : ℝ} (h : s ≤ s') (h' : t ≤ t') :
    convexHull ℝ {v + ![s * dx, t * dy, 0], v + ![s' * dx, t * dy, 0], v + ![s * dx, t' * dy, 0], v + ![s' * dx, t' * dy, 0]} =
      patch v dx dy s s' t t' := by
  apply Set.Subset.antisymm
  · refine convexHull_min ?_ ?_
    · rintro z (rfl | rfl | rfl | rfl)
      · exact ⟨s, t, le_rfl, h, le_rfl, h', rfl⟩
      · exact ⟨s', t, h, le_rfl, le_rfl, h', rfl⟩
      · exact ⟨s, t', le_rfl, h, h', le_rfl, rfl⟩
      · exact ⟨s', t', h, le_rfl, h', le_rfl, rfl⟩
    · rintro _ ⟨x, y, x1, x2, y1, y2, rfl⟩ _ ⟨x', y', x1', x2', y1', y2', rfl⟩ a b ha hb hab
      have lo : ∀ {c u u' : ℝ}, c ≤ u → c ≤ u' → c ≤ a * u + b * u' := by
        intro c u u' k k'
        have := add_le_add (mul_le_mul_of_nonneg_left k ha) (mul_le_mul_of_nonneg_left k' hb)
        rwa [← add_mul, hab, one_mul] at this
      have hi : ∀ {c u u' : ℝ}, u ≤ c → u' ≤ c → a * u + b * u' ≤ c := by
        intro c u u' k k'
        have := add_le_add (mul_le_mul_of_nonneg_left k ha) (mul_le_mul_of_nonneg_left k' hb)
        rwa [← add_mul, hab, one_mul] at this
      exact ⟨_, _, lo x1 x1', hi x2 x2', lo y1 y1', hi y2 y2', corner_comb v dx dy hab x x' y y'⟩
  · rintro z ⟨x, y, x1, x2, y1, y2, rfl⟩
    set S : Set (V3 ℝ) := {v + ![s * dx, t * dy, 0], v + ![s' * dx, t * dy, 0], v + ![s * dx, t' * dy, 0], v + ![s' * dx, t' * dy, 0]}
      with hS
    have hconv := convex_convexHull ℝ S
    have m1 : v + ![s * dx, t * dy, 0] ∈ convexHull ℝ S := subset_convexHull ℝ S (by simp [hS])
    have m2 : v + ![s' * dx, t * dy, 0] ∈ convexHull ℝ S := subset_convexHull ℝ S (by simp [hS])
    have m3 : v + ![s * dx, t' * dy, 0] ∈ convexHull ℝ S := subset_convexHull ℝ S (by simp [hS])
    have m4 : v + ![s' * dx, t' * dy, 0] ∈ convexHull ℝ S := subset_convexHull ℝ S (by simp [hS])
    obtain ⟨a, b, a0, b0, ab, e⟩ : x ∈ segment ℝ s s' := by rw [segment_eq_Icc h]; exact ⟨x1, x2⟩
    obtain ⟨a', b', a0', b0', ab', e'⟩ : y ∈ segment ℝ t t' := by rw [segment_eq_Icc h']; exact ⟨y1, y2⟩
    have k1 := hconv m1 m2 a0 b0 ab
    have k2 := hconv m3 m4 a0 b0 ab
    rw [corner_comb v dx dy ab] at k1 k2
    have k := hconv k1 k2 a0' b0' ab'
    rw [corner_comb v dx dy ab'] at k
    simp only [smul_eq_mul] at e e'
    rw [e] at k
    rw [← add_mul a b t, ab, one_mul, ← add_mul a b t', ab, one_mul, e', ← add_mul a' b' x, ab', one_mul] at k
    exact k

theorem side_segment (v : V3 ℝ) (dx dy x : ℝ) {t t' y : ℝ} (h : t ≤ y) (h' : y ≤ t') :
    v + ![x * dx, y * dy, 0] ∈ segment ℝ (v + ![x * dx, t * dy, 0]) (v + ![x * dx, t' * dy, 0]) := by
  obtain ⟨a, b, a0, b0, ab, e⟩ : y ∈ segment ℝ t t' := by rw [segment_eq_Icc (h.trans h')]; exact ⟨h, h'⟩
  refine ⟨a, b, a0, b0, ab, ?_⟩
  simp only [smul_eq_mul] at e
  rw [corner_comb v dx dy ab, e, ← add_mul, ab, one_mul]

theorem side_segment' (v : V3 ℝ) (dx dy y : ℝ) {s s' x : ℝ} (h : s ≤ x) (h' : x ≤ s') :
    v + ![x * dx, y * dy, 0] ∈ segment ℝ (v + ![s * dx, y * dy, 0]) (v + ![s' * dx, y * dy, 0]) := by
  obtain ⟨a, b, a0, b0, ab, e⟩ : x ∈ segment ℝ s s' := by rw [segment_eq_Icc (h.trans h')]; exact ⟨h, h'⟩
  refine ⟨a, b, a0, b0, ab, ?_⟩
  simp only [smul_eq_mul] at e
  rw [corner_comb v dx dy ab, e, ← add_mul, ab, one_mul]

/-- Two intervals of a rising sequence share at most an end. -/
theorem rising_apart {f : ℕ → ℝ} {n : ℕ} (h : ∀ p < n, f p < f (p + 1)) {p p' : ℕ} (hp : p < p') (hp' : p' < n) {x : ℝ}
    (h1 : x ≤ f (p + 1)) (h2 : f p' ≤ x) : p' = p + 1 ∧ x = f p' := by
  have hmono : ∀ q q', q ≤ q' → q' ≤ n → f q ≤ f q' := by
    intro q q' hq
    induction q', hq using Nat.le_induction with
    | base => intro _; exact le_rfl
    | succ q' g ih => intro hm'; exact (ih (by omega)).trans (h q' (by omega)).le
  have hpe : p' = p + 1 := by
    by_contra hc
    have := hmono (p + 2) p' (by omega) hp'.le
    have := h (p + 1) (by omega)
    linarith
  subst hpe
  exact ⟨rfl, le_antisymm h1 h2⟩

theorem rectangle_tiles {v : V3 ℝ} {dx dy : ℝ} {n m : ℕ} {X Y : ℕ → ℝ} (hn : 0 < n) (hm : 0 < m) (hX : ∀ p < n, X p < X (p + 1))
    (hY : ∀ q < m, Y q < Y (q + 1)) (hX0 : X 0 = 0) (hX1 : X n = 1) (hY0 : Y 0 = 0) (hY1 : Y m = 1) {node : ℕ → ℕ → V3 ℝ}
    (hnode : ∀ p ≤ n, ∀ q ≤ m, node p q = v + ![X p * dx, Y q * dy, 0]) : TilesRectangle v dx dy n m node := by
  have hmono : ∀ {f : ℕ → ℝ} {k : ℕ}, (∀ p < k, f p < f (p + 1)) → ∀ q q', q ≤ q' → q' ≤ k → f q ≤ f q' := by
    intro f k h q q' hq
    induction q', hq using Nat.le_induction with
    | base => intro _; exact le_rfl
    | succ q' g ih => intro hm'; exact (ih (by omega)).trans (h q' (by omega)).le
  have hreg : ∀ p < n, ∀ q < m, quadRegion node p q = patch v dx dy (X p) (X (p + 1)) (Y q) (Y (q + 1)) := by
    intro p hp q hq
    rw [quadRegion, hnode p hp.le q hq.le, hnode (p + 1) hp q hq.le, hnode p hp.le (q + 1) hq, hnode (p + 1) hp (q + 1) hq]
    exact patch_hull v dx dy (hX p hp).le (hY q hq).le
  have hinj : ∀ {x y x' y' : ℝ}, v + ![x * dx, y * dy, 0] = v + ![x' * dx, y' * dy, 0] → (dx ≠ 0 → x = x') ∧ (dy ≠ 0 → y = y') := by
    intro x y x' y' e
    have e := add_left_cancel e
    have e0 := congrFun e 0
    have e1 := congrFun e 1
    simp only [Matrix.cons_val_zero, Matrix.cons_val_one] at e0 e1
    exact ⟨fun h => mul_right_cancel₀ h e0, fun h => mul_right_cancel₀ h e1⟩
  refine ⟨?_, ?_, ?_⟩
  · have := patch_hull v dx dy (s := 0) (s' := 1) (t := 0) (t' := 1) zero_le_one zero_le_one
    simp only [zero_mul, one_mul] at this
    have z : v + ![(0 : ℝ), 0, 0] = v := by funext i; fin_cases i <;> simp
    rw [z] at this
    rw [this]
    ext z
    simp only [Set.mem_iUnion]
    constructor
    · rintro ⟨p, hp, q, hq, hz⟩
      rw [hreg p hp q hq] at hz
      obtain ⟨x, y, x1, x2, y1, y2, e⟩ := hz
      refine ⟨x, y, ?_, ?_, ?_, ?_, e⟩
      · rw [← hX0]; exact (hmono hX 0 p (Nat.zero_le _) hp.le).trans x1
      · rw [← hX1]; exact x2.trans (hmono hX (p + 1) n hp le_rfl)
      · rw [← hY0]; exact (hmono hY 0 q (Nat.zero_le _) hq.le).trans y1
      · rw [← hY1]; exact y2.trans (hmono hY (q + 1) m hq le_rfl)
    · rintro ⟨x, y, x1, x2, y1, y2, e⟩
      obtain ⟨p, hp, g1, g2⟩ := exists_step (f := X) (h := x) hn (by rw [hX0]; exact x1) (by rw [hX1]; exact x2)
      obtain ⟨q, hq, g3, g4⟩ := exists_step (f := Y) (h := y) hm (by rw [hY0]; exact y1) (by rw [hY1]; exact y2)
      exact ⟨p, hp, q, hq, by rw [hreg p hp q hq]; exact ⟨x, y, g1, g2, g3, g4, e⟩⟩
  · rintro hdx p p' hpp hp' q hq q' hq' z ⟨z1, z2⟩
    rw [hreg p (by omega) q hq] at z1
    rw [hreg p' hp' q' hq'] at z2
    obtain ⟨x, y, _, x2, y1, y2, rfl⟩ := z1
    obtain ⟨x', y', x1', _, y1', y2', e⟩ := z2
    obtain rfl := (hinj e).1 hdx
    obtain ⟨rfl, rfl⟩ := rising_apart hX hpp hp' x2 x1'
    refine ⟨rfl, ?_, ?_⟩
    · rw [hnode _ hp'.le q hq.le, hnode _ hp'.le (q + 1) hq]
      exact side_segment v dx dy _ y1 y2
    · rw [e, hnode _ hp'.le q' hq'.le, hnode _ hp'.le (q' + 1) hq']
      exact side_segment v dx dy _ y1' y2'
  · rintro hdy q q' hqq hq' p hp p' hp' z ⟨z1, z2⟩
    rw [hreg p hp q (by omega)] at z1
    rw [hreg p' hp' q' hq'] at z2
    obtain ⟨x, y, x1, x2, _, y2, rfl⟩ := z1
    obtain ⟨x', y', x1', x2', y1', _, e⟩ := z2
    obtain rfl := (hinj e).2 hdy
    obtain ⟨rfl, rfl⟩ := rising_apart hY hqq hq' y2 y1'
    refine ⟨rfl, ?_, ?_⟩
    · rw [hnode p hp.le _ hq'.le, hnode (p + 1) hp _ hq'.le]
      exact side_segment' v dx dy _ x1 x2
    · rw [e, hnode p' hp'.le _ hq'.le, hnode (p' + 1) hp' _ hq'.le]
      exact side_segment' v dx dy _ x1' x2'

theorem subdivision_pos {n : ℕ} {ts : List ℝ} (h : Subdivision n ts) : 0 < n := by
  rcases Nat.eq_zero_or_pos n with rfl | h0
  · have := h.first.symm.trans h.last
    norm_num at this
  · exact h0

theorem subdivision_getD {n : ℕ} {ts : List ℝ} (h : Subdivision n ts) {k : ℕ} (hk : k ≤ n) : ts[k]? = some (ts.getD k 0) := by
  have := h.size
  rw [List.getD_eq_getElem?_getD, List.getElem?_eq_getElem (by omega), Option.getD_some]

/-- Nodes at fractions of an angle and of a difference of radii. -/
theorem polar_tiles {v : V3 ℝ} {ri ro a b : ℝ} (hr : 0 ≤ ri ∧ ri < ro) {n m : ℕ} {ts rs : List ℝ} (st : Subdivision n ts)
    (sr : Subdivision m rs) (hs : ∀ (p : ℕ) t t', ts[p]? = some t → ts[p + 1]? = some t' → 0 < (t' - t) * (b - a) ∧ (t' - t) * (b - a) < 180)
    (hturn : b - a ≤ 360) {node : ℕ → ℕ → V3 ℝ}
    (hnode : ∀ p q t s, ts[p]? = some t → rs[q]? = some s → node p q = v + polar (ri + s * (ro - ri)) (a + t * (b - a))) :
    TilesRing v ri ro (fun k => a + ts.getD k 0 * (b - a)) n m node := by
  have t0 : ts.getD 0 0 = 0 := by rw [List.getD_eq_getElem?_getD, st.first]; rfl
  have t1 : ts.getD n 0 = 1 := by rw [List.getD_eq_getElem?_getD, st.last]; rfl
  have r0 : rs.getD 0 0 = 0 := by rw [List.getD_eq_getElem?_getD, sr.first]; rfl
  have r1 : rs.getD m 0 = 1 := by rw [List.getD_eq_getElem?_getD, sr.last]; rfl
  have := ring_tiles (v := v) (n := n) (m := m) (A := fun k => a + ts.getD k 0 * (b - a)) (R := fun q => ri + rs.getD q 0 * (ro - ri))
    (node := node) ?_ ?_ (subdivision_pos sr) ?_ ?_ ?_
  · simp only [r0, r1, zero_mul, one_mul, add_zero, add_sub_cancel] at this
    exact this
  · intro p hp
    have := hs p _ _ (subdivision_getD st hp.le) (subdivision_getD st hp)
    have e : a + ts.getD (p + 1) 0 * (b - a) - (a + ts.getD p 0 * (b - a)) = (ts.getD (p + 1) 0 - ts.getD p 0) * (b - a) := by ring
    simp only [e]
    exact this
  · simp only [t0, t1]; linarith
  · simp only [r0, zero_mul, add_zero]; exact hr.1
  · intro q hq
    have := divides_step sr (subdivision_getD sr hq.le) (subdivision_getD sr hq)
    have := mul_lt_mul_of_pos_right this (sub_pos.2 hr.2)
    linarith
  · intro p hp q hq
    exact hnode p q _ _ (subdivision_getD st hp) (subdivision_getD sr hq)

variable {δ : Type _} [OfNat δ 0] [OfNat δ 32]

/-- **C142 (Rectangle).** The cells fill the rectangle, and two of them share at most an edge.  The sides may be negative. -/
theorem C142_rectangle {area : Arr3 (V3 ℝ) → List ℝ} {dx dy : ℝ} {xres yres : Resolution ℝ}
    {xm ym : Option String} (fx : DividesUnit xres xm) (fy : DividesUnit yres ym) {c : Option (List ℝ)} {M : SGrid ℝ δ}
    (h : rectangle area dx dy xres yres xm ym c = .ok M) :
    ∃ v n m, IsCentre c v ∧ M.nodes.d = ![n + 1, m + 1, 1] ∧
      TilesRectangle v dx dy n m fun p q => M.points.getD (vtkId M.nodes.d ![p, q, 0]) 0 := by
  obtain ⟨xs, ys, v, h1, h2, h3, h4, h5⟩ := C84_rectangle_nodes h
  obtain ⟨n, sx⟩ := fx _ h1
  obtain ⟨m, sy⟩ := fy _ h2
  refine ⟨v, n, m, h3, by rw [h4, sx.size, sy.size], ?_⟩
  refine rectangle_tiles (X := fun p => xs.getD p 0) (Y := fun q => ys.getD q 0) (subdivision_pos sx) (subdivision_pos sy)
    (fun p hp => divides_step sx (subdivision_getD sx hp.le) (subdivision_getD sx hp))
    (fun q hq => divides_step sy (subdivision_getD sy hq.le) (subdivision_getD sy hq)) ?_ ?_ ?_ ?_ ?_
  · rw [List.getD_eq_getElem?_getD, sx.first]; rfl
  · rw [List.getD_eq_getElem?_getD, sx.last]; rfl
  · rw [List.getD_eq_getElem?_getD, sy.first]; rfl
  · rw [List.getD_eq_getElem?_getD, sy.last]; rfl
  · intro p hp q hq
    rw [List.getD_eq_getElem?_getD, h5 p q _ _ (subdivision_getD sx hp) (subdivision_getD sy hq), Option.getD_some]

/-- **C142 (AnnularSector).** Over at most a full turn, in steps of less than a half turn, the cells fill the polygonal piece of a ring, and two
of them share at most an edge, or the centre. -/
theorem C142_annularSector {area : Arr3 (V3 ℝ) → List ℝ} {ri ro a b : ℝ} {rres tres : Resolution ℝ}
    {rm tm : Option String} (fr : DividesUnit rres rm) (ft : DividesUnit tres tm) (hs : SmallSteps tres tm a b) (hturn : b - a ≤ 360)
    {c : Option (List ℝ)} {M : SGrid ℝ δ} (h : annularSector area ri ro a b rres tres rm tm c = .ok M) :
    ∃ ts v n m, resolutionToPerc tres tm = .ok ts ∧ ts.length = n + 1 ∧ IsCentre c v ∧ M.nodes.d = ![n + 1, m + 1, 1] ∧
      TilesRing v ri ro (fun k => a + ts.getD k 0 * (b - a)) n m fun p q => M.points.getD (vtkId M.nodes.d ![p, q, 0]) 0 := by
  have hr : 0 ≤ ri ∧ ri < ro := by
    unfold annularSector at h
    split at h
    · cases h
    · rename_i hr; exact not_not.1 hr
  obtain ⟨ts, rs, v, h1, h2, h3, h4, h5, _⟩ := C63_annularSector h
  obtain ⟨n, st⟩ := ft _ h1
  obtain ⟨m, sr⟩ := fr _ h2
  refine ⟨ts, v, n, m, h1, st.size, h3, by rw [h4, st.size, sr.size], ?_⟩
  refine polar_tiles hr st sr (hs _ h1) hturn fun p q t s ht hs' => ?_
  rw [List.getD_eq_getElem?_getD, h5 p q t s ht hs', Option.getD_some]

/-- **C142 (Annulus).** The same for a full ring: only its first and its last cells meet on the first ray. -/
theorem C142_annulus {area : Arr3 (V3 ℝ) → List ℝ} {ri ro : ℝ} {rres tres : Resolution ℝ}
    {rm tm : Option String} (fr : DividesUnit rres rm) (ft : DividesUnit tres tm) (hs : SmallSteps tres tm 0 360)
    {c : Option (List ℝ)} {M : SGrid ℝ δ} (h : annulus area ri ro rres tres rm tm c = .ok M) :
    ∃ ts v n m, resolutionToPerc tres tm = .ok ts ∧ ts.length = n + 1 ∧ IsCentre c v ∧ M.nodes.d = ![n + 1, m + 1, 1] ∧
      TilesRing v ri ro (fun k => 0 + ts.getD k 0 * (360 - 0)) n m fun p q => M.points.getD (vtkId M.nodes.d ![p, q, 0]) 0 :=
  C142_annularSector fr ft hs (by norm_num) h

/-- **C142 (Sector).** Over at most a full turn, in steps of less than a half turn, the triangles fill the polygonal sector, and two of
them share at most an edge, or the centre. -/
theorem C142_sector {radius a b : ℝ} {res : Resolution ℝ} {mth : Option String} (hd : DividesUnit res mth) (hs : SmallSteps res mth a b)
    (hturn : b - a ≤ 360) {c : Option (List ℝ)} {M : TriMesh ℝ} (h : sector radius a b res mth c = .ok M) :
    ∃ ts v n, resolutionToPerc res mth = .ok ts ∧ ts.length = n + 1 ∧ IsCentre c v ∧ M.cells.length = n ∧
      ∃ node : ℕ → ℕ → V3 ℝ, (∀ p, node p 0 = v) ∧ (∀ p < n + 1, M.points[p + 1]? = some (node p 1)) ∧
        (∀ p < n, ∃ cell, M.cells[p]? = some cell ∧ cornerHull M.points cell = quadRegion node p 0) ∧
        TilesRing v 0 radius (fun k => a + ts.getD k 0 * (b - a)) n 1 node := by
  have hr : 0 < radius := by
    unfold sector at h
    split at h
    · cases h
    · rename_i hr; exact not_le.1 hr
  obtain ⟨ts, v, h1, h2, h3, h4, h5, _, h7, h8⟩ := C63_sector h
  obtain ⟨n, st⟩ := hd _ h1
  have hsz := st.size
  refine ⟨ts, v, n, h1, hsz, h2, by omega, fun p q => if q = 0 then v else M.points.getD (p + 1) 0, fun p => if_pos rfl, ?_, ?_, ?_⟩
  · intro p hp
    change _ = some (M.points.getD (p + 1) 0)
    rw [List.getD_eq_getElem?_getD, h5 p _ (subdivision_getD st (by omega)), Option.getD_some]
  · intro p hp
    refine ⟨_, h8 p (by omega), ?_⟩
    have e1 := h5 p _ (subdivision_getD st hp.le)
    have e2 := h5 (p + 1) _ (subdivision_getD st hp)
    rw [cornerHull, quadRegion]
    congr 1
    ext x
    simp only [if_true, if_neg one_ne_zero, zero_add, List.getD_eq_getElem?_getD, e1, e2, Option.getD_some, List.mem_cons, List.not_mem_nil,
      or_false, Set.mem_insert_iff, Set.mem_singleton_iff, exists_eq_or_imp, exists_eq_left, h4, Option.some.injEq, Set.mem_ofPred_eq,
      show p + 2 = p + 1 + 1 from rfl, eq_comm (b := x)]
    tauto
  · refine polar_tiles (rs := [0, 1]) ⟨le_rfl, hr⟩ st ⟨rfl, rfl, rfl, by simp⟩ (hs _ h1) hturn fun p q t s ht hs' => ?_
    rcases q with _ | _ | q
    · obtain rfl : 0 = s := by simpa using hs'
      simp [polar_zero]
    · obtain rfl : 1 = s := by simpa using hs'
      rw [if_neg (by omega), List.getD_eq_getElem?_getD, h5 p _ ht, Option.getD_some]
      simp
    · simp at hs'

/-- A prism over a cell between two rays and two rings. -/
theorem wedge_column {v : V3 ℝ} {r r' α β : ℝ} (h0 : 0 ≤ r) (h1 : r < r') {q : Fin 2 × Fin 2 → V3 ℝ} (q00 : q (0, 0) = v + polar r α)
    (q10 : q (1, 0) = v + polar r β) (q01 : q (0, 1) = v + polar r' α) (q11 : q (1, 1) = v + polar r' β) (lo hi : ℝ) :
    column 2 quadWeights q (fun _ => lo) (fun _ => hi) =
      {x | ∃ w ∈ wedge v α β r r', ∃ h, lo ≤ h ∧ h ≤ hi ∧ x = Function.update w 2 h} := by
  have point : ∀ t u : ℝ, ∑ e : Fin 2 × Fin 2, (blend t e.1 * blend u e.2) • q e =
      v + (polar ((1 - t) * ((1 - u) * r + u * r')) α + polar (t * ((1 - u) * r + u * r')) β) := by
    intro t u
    rw [Fintype.sum_prod_type, Fin.sum_univ_two, Fin.sum_univ_two, Fin.sum_univ_two, q00, q10, q01, q11]
    simp only [blend, if_true, one_ne_zero, if_false]
    rw [← polar_smul, ← polar_smul, ← polar_comb, ← polar_comb]
    module
  have one : ∀ t u z : ℝ, ∑ e : Fin 2 × Fin 2, blend t e.1 * blend u e.2 * z = z := by
    intro t u z
    rw [Fintype.sum_prod_type, Fin.sum_univ_two, Fin.sum_univ_two, Fin.sum_univ_two]
    simp only [blend, if_true, one_ne_zero, if_false]
    ring
  ext x
  constructor
  · rintro ⟨_, ⟨t, u, t0, t1, u0, u1, rfl⟩, h, l1, l2, e⟩
    simp only [point, one] at l1 l2 e
    have hr : r ≤ (1 - u) * r + u * r' ∧ (1 - u) * r + u * r' ≤ r' := by constructor <;> nlinarith
    refine ⟨_, ⟨_, _, mul_nonneg (sub_nonneg.2 t1) (h0.trans hr.1), mul_nonneg t0 (h0.trans hr.1), ?_, ?_, rfl⟩, h, l1, l2, e⟩
    · rw [← add_mul, sub_add_cancel, one_mul]; exact hr.1
    · rw [← add_mul, sub_add_cancel, one_mul]; exact hr.2
  · rintro ⟨_, ⟨x', y', hx, hy, g1, g2, rfl⟩, h, l1, l2, e⟩
    obtain ⟨u, u0, u1, hu⟩ : ∃ u : ℝ, 0 ≤ u ∧ u ≤ 1 ∧ (1 - u) * r + u * r' = x' + y' := by
      refine ⟨(x' + y' - r) / (r' - r), div_nonneg (by linarith) (by linarith), ?_, ?_⟩
      · rw [div_le_one (by linarith)]; linarith
      · have : r' - r ≠ 0 := by linarith
        field_simp
        ring
    obtain ⟨t, t0, t1, e1, e2⟩ : ∃ t : ℝ, 0 ≤ t ∧ t ≤ 1 ∧ (1 - t) * (x' + y') = x' ∧ t * (x' + y') = y' := by
      rcases (add_nonneg hx hy).eq_or_lt with hz | hz
      · exact ⟨0, le_rfl, zero_le_one, by rw [← hz]; linarith, by rw [← hz]; linarith⟩
      · refine ⟨y' / (x' + y'), by positivity, ?_, ?_, ?_⟩
        · rw [div_le_one hz]; linarith
        · field_simp; ring
        · field_simp
    refine ⟨_, ⟨t, u, t0, t1, u0, u1, rfl⟩, h, ?_, ?_, ?_⟩
    · simp only [one]; exact l1
    · simp only [one]; exact l2
    · simp only [point, hu, e1, e2]; exact e

/-- **C142 (CylindricalShellSector).** Each cell is the prism over a cell of the plane ring between two consecutive levels, which rise from
half the height below the centre to half the height above it.  So the cells fill the polygonal shell and two of them share at most a face. -/
theorem C142_shell [Inhabited δ] {area vol : Arr3 (V3 ℝ) → List ℝ} {ri ro a b height : ℝ} (hh : 0 < height) {rres tres zres : Resolution ℝ}
    {rm tm zm : Option String} (fr : DividesUnit rres rm) (ft : DividesUnit tres tm) (hs : SmallSteps tres tm a b) (hturn : b - a ≤ 360)
    (fz : DividesUnit zres zm) {c : Option (List ℝ)} {M : SGrid ℝ δ}
    (h : cylindricalShellSector area vol ri ro a b height rres tres zres rm tm zm c = .ok M) :
    ∃ ts v n m l, ∃ Z : ℕ → ℝ, resolutionToPerc tres tm = .ok ts ∧ ts.length = n + 1 ∧ IsCentre c v ∧ M.nodes.d = ![n + 1, m + 1, l + 1] ∧
      Z 0 = v 2 - height / 2 ∧ Z l = v 2 + height / 2 ∧ (∀ k < l, Z k < Z (k + 1)) ∧
      ∃ node : ℕ → ℕ → V3 ℝ, TilesRing v ri ro (fun k => a + ts.getD k 0 * (b - a)) n m node ∧
        ∀ p < n, ∀ q < m, ∀ k < l, hexRegion (fun i => M.points.getD (vtkId M.nodes.d i) 0) ![p, q, k] =
          {x | Z k ≤ x 2 ∧ x 2 ≤ Z (k + 1) ∧ Function.update x 2 (v 2) ∈ quadRegion node p q} := by
  have hr := shell_radii h
  obtain ⟨ts, rs, zs, v, h1, h2, h3, h4, h5, h6⟩ := C63_shell h
  obtain ⟨n, st⟩ := ft _ h1
  obtain ⟨m, sr⟩ := fr _ h2
  obtain ⟨l, sz⟩ := fz _ h3
  have z0 : zs.getD 0 0 = 0 := by rw [List.getD_eq_getElem?_getD, sz.first]; rfl
  have z1 : zs.getD l 0 = 1 := by rw [List.getD_eq_getElem?_getD, sz.last]; rfl
  have rise : ∀ k < l, v 2 + (zs.getD k 0 - 1 / 2) * height < v 2 + (zs.getD (k + 1) 0 - 1 / 2) * height := by
    intro k hk
    have := mul_lt_mul_of_pos_right (divides_step sz (subdivision_getD sz hk.le) (subdivision_getD sz hk)) hh
    linarith
  refine ⟨ts, v, n, m, l, fun k => v 2 + (zs.getD k 0 - 1 / 2) * height, h1, st.size, h4, by rw [h5, st.size, sr.size, sz.size], ?_, ?_, rise,
    fun p q => v + polar (ri + rs.getD q 0 * (ro - ri)) (a + ts.getD p 0 * (b - a)), ?_, ?_⟩
  · simp only [z0]; ring
  · simp only [z1]; ring
  · refine polar_tiles hr st sr (hs _ h1) hturn fun p q t s ht hs' => ?_
    rw [List.getD_eq_getElem?_getD, List.getD_eq_getElem?_getD, ht, hs', Option.getD_some, Option.getD_some]
  · intro p hp q hq k hk
    have hcor : ∀ (a b : Fin 2) (u : ℕ), (![p, q, k] + corner 2 (a, b) u : Ix) = ![p + a, q + b, k + u] := by
      intro a b u
      funext ax
      fin_cases ax <;> rfl
    have hnode : ∀ (e : Fin 2 × Fin 2) (u : ℕ), u ≤ 1 →
        M.points.getD (vtkId M.nodes.d (![p, q, k] + corner 2 e u)) 0 =
          Function.update (v + polar (ri + rs.getD (q + e.2) 0 * (ro - ri)) (a + ts.getD (p + e.1) 0 * (b - a))) 2
            (v 2 + (zs.getD (k + u) 0 - 1 / 2) * height) := by
      rintro ⟨i, j⟩ u hu
      have hi := i.isLt
      have hj := j.isLt
      rw [hcor, List.getD_eq_getElem?_getD, h6 (p + i) (q + j) (k + u) _ _ _ (subdivision_getD st (by omega)) (subdivision_getD sr (by omega))
        (subdivision_getD sz (by omega)), Option.getD_some]
      funext ax
      fin_cases ax <;> simp [polar]
      rfl
    have rr : ri + rs.getD q 0 * (ro - ri) < ri + rs.getD (q + 1) 0 * (ro - ri) := by
      have := mul_lt_mul_of_pos_right (divides_step sr (subdivision_getD sr hq.le) (subdivision_getD sr hq)) (sub_pos.2 hr.2)
      linarith
    have r0 := (shell_rings hr sr q _ _ (subdivision_getD sr hq.le) (subdivision_getD sr hq)).1
    have hle := (rise k hk).le
    rw [hexRegion_level (axis := 2) (fun e => hnode e 0 (by norm_num)) (fun e => hnode e 1 le_rfl), add_zero, min_eq_left hle, max_eq_right hle,
      wedge_column r0 rr rfl rfl rfl rfl, quadRegion, wedge_hull v _ _ r0 rr.le]
    have flat : ∀ w ∈ wedge v (a + ts.getD p 0 * (b - a)) (a + ts.getD (p + 1) 0 * (b - a)) (ri + rs.getD q 0 * (ro - ri))
        (ri + rs.getD (q + 1) 0 * (ro - ri)), w 2 = v 2 := by
      rintro w ⟨x, y, _, _, _, _, rfl⟩
      simp [polar]
    ext x
    constructor
    · rintro ⟨w, hw, z, g1, g2, rfl⟩
      refine ⟨by simpa using g1, by simpa using g2, ?_⟩
      rw [Function.update_idem, ← flat w hw, Function.update_eq_self]
      exact hw
    · rintro ⟨g1, g2, hx⟩
      exact ⟨_, hx, x 2, g1, g2, by rw [Function.update_idem, Function.update_eq_self]⟩

theorem polar_turn (r θ : ℝ) : polar r (θ + 360) = polar r θ := by
  have : Real.pi * (θ + 360) / 180 = Real.pi * θ / 180 + 2 * Real.pi := by ring
  simp only [polar, this, Real.cos_add_two_pi, Real.sin_add_two_pi]

/-- **C142: over more than a full turn the cells overlap.** With five steps of a quarter turn the last cells are the first ones again. -/
theorem C142_overlap {area : Arr3 (V3 ℝ) → List ℝ} {ri ro a : ℝ} {rres : Resolution ℝ} {rm : Option String}
    (fr : DividesUnit rres rm) {c : Option (List ℝ)} {M : SGrid ℝ δ}
    (h : annularSector area ri ro a (a + 450) rres (.int 5) rm none c = .ok M) :
    ∃ m, 0 < m ∧ M.nodes.d = ![6, m + 1, 1] ∧ ∀ q < m,
      quadRegion (fun p q => M.points.getD (vtkId M.nodes.d ![p, q, 0]) 0) 0 q =
        quadRegion (fun p q => M.points.getD (vtkId M.nodes.d ![p, q, 0]) 0) 4 q := by
  obtain ⟨ts, rs, v, h1, h2, _, h4, h5, _⟩ := C63_annularSector h
  obtain ⟨ts', g, st, ct, _⟩ := C11_integer_resolution 5 none (Or.inl rfl)
  rw [g] at h1; cases h1
  obtain ⟨m, sr⟩ := fr _ h2
  refine ⟨m, subdivision_pos sr, by rw [h4, st.size, sr.size]; rfl, fun q hq => ?_⟩
  have hsz : ts.length = 6 := st.size
  have node : ∀ p ≤ 5, ∀ q ≤ m, M.points.getD (vtkId M.nodes.d ![p, q, 0]) 0 = v + polar (ri + rs.getD q 0 * (ro - ri)) (a + 90 * p) := by
    intro p hp q hq
    rw [List.getD_eq_getElem?_getD, h5 p q _ _ (ct rfl p (by omega)) (subdivision_getD sr hq), Option.getD_some]
    congr 2
    push_cast
    norm_num
    ring
  have turn : ∀ r x : ℝ, polar r (a + (x + 360)) = polar r (a + x) := fun r x => by rw [← add_assoc, polar_turn]
  simp only [quadRegion, node 0 (by norm_num) q hq.le, node (0 + 1) (by norm_num) q hq.le, node 0 (by norm_num) (q + 1) hq,
    node (0 + 1) (by norm_num) (q + 1) hq, node 4 (by norm_num) q hq.le, node (4 + 1) (by norm_num) q hq.le, node 4 (by norm_num) (q + 1) hq,
    node (4 + 1) (by norm_num) (q + 1) hq]
  have e4 : (90 : ℝ) * ((4 : ℕ) : ℝ) = 90 * ((0 : ℕ) : ℝ) + 360 := by norm_num
  have e5 : (90 : ℝ) * ((4 + 1 : ℕ) : ℝ) = 90 * ((0 + 1 : ℕ) : ℝ) + 360 := by norm_num
  rw [e4, e5]
  simp only [turn]

/-- Concrete case of C142: a ring of radii 1 and 2 in 3 x 4 cells; the point at distance 1.4 in the direction of 30 degrees is in a cell of
the first wedge. -/
example (area : Arr3 (V3 ℝ) → List ℝ) :
    ∃ M : SGrid ℝ ℤ, annulus area 1 2 (.int 3) (.int 4) (some "log") none none = .ok M ∧ M.nodes.d = ![5, 4, 1] ∧
      ∃ q < 3, polar (7 / 5) 30 ∈ quadRegion (fun p q => M.points.getD (vtkId M.nodes.d ![p, q, 0]) 0) 0 q := by
  obtain ⟨M, h⟩ := C63_annularSector_exists (δ := ℤ) area (ri := 1) (ro := 2) zero_le_one (by norm_num) 0 360 3 4 (rm := some "log")
    (tm := none) (Or.inr (Or.inl rfl)) (Or.inl rfl) (c := none) (v := 0) (Or.inl ⟨rfl, rfl⟩)
  obtain ⟨ts, v, n, m, h1, h2, h3, h4, h5⟩ := C142_annulus (divides_int 3 (Or.inr (Or.inl rfl))) (divides_int 4 (Or.inl rfl))
    (smallSteps_int (by norm_num) (by norm_num)) h
  obtain ⟨ts', g, st, ct, _⟩ := C11_integer_resolution 4 none (Or.inl rfl)
  rw [g] at h1; cases h1
  obtain ⟨ts'', rs, v', k1, k2, _, k4, _⟩ := C63_annularSector h
  obtain ⟨rs', g', sr, _⟩ := C11_integer_resolution 3 (some "log") (Or.inr (Or.inl rfl))
  rw [g'] at k2; cases k2
  rw [g] at k1; cases k1
  have hn : n = 4 := by have : ts.length = 5 := st.size; omega
  have hm : m = 3 := by
    have e := congrFun (h4.symm.trans k4) 1
    have : rs.length = 4 := sr.size
    simp only [Matrix.cons_val_one, Matrix.cons_val_zero] at e
    omega
  subst hn hm
  refine ⟨M, h, h4, ?_⟩
  have hv : v = 0 := by simpa [IsCentre] using h3
  have e0 : ts.getD 0 0 = 0 := by rw [List.getD_eq_getElem?_getD, st.first]; rfl
  have e1 : ts.getD 1 0 = 1 / 4 := by rw [List.getD_eq_getElem?_getD, ct rfl 1 (by norm_num)]; norm_num
  have := h5.covers 0 (by norm_num) 30 (by simp only [e0]; norm_num) (by simp only [zero_add, e1]; norm_num) (7 / 5) (by norm_num) (by
    simp only [zero_add, e0, e1]
    rw [show Real.pi * (1 / 4 * (360 - 0) - 0 * (360 - 0)) / 360 = Real.pi / 4 by ring, Real.cos_pi_div_four]
    have : (7 / 5 : ℝ) ≤ Real.sqrt 2 := Real.le_sqrt_of_sq_le (by norm_num)
    linarith)
  simpa [hv] using this

/-- Concrete case of C142: a rectangle with a negative side, in 4 x 2 cells. -/
example (area : Arr3 (V3 ℝ) → List ℝ) :
    ∃ M : SGrid ℝ ℤ, rectangle area 2 (-3) (.int 4) (.int 2) none (some "log") none = .ok M ∧
      ∃ v n m, IsCentre none v ∧ M.nodes.d = ![n + 1, m + 1, 1] ∧
        TilesRectangle v 2 (-3) n m fun p q => M.points.getD (vtkId M.nodes.d ![p, q, 0]) 0 := by
  obtain ⟨M, h⟩ := rectangle_exists (δ := ℤ) area 2 (-3) 4 2 (xm := none) (ym := some "log") (Or.inl rfl)
    (Or.inr (Or.inl rfl)) (c := none) (v := 0) (by simp [IsCentre])
  exact ⟨M, h, C142_rectangle (divides_int 4 (Or.inl rfl)) (divides_int 2 (Or.inr (Or.inl rfl))) h⟩

/-- Concrete case of C142: the eight triangles of three quarters of a disc. -/
example : ∃ M, sector 2 90 360 (.int 8) none none = .ok M ∧ ∃ node : ℕ → ℕ → V3 ℝ, ∃ A : ℕ → ℝ, TilesRing 0 0 2 A 8 1 node ∧
    ∀ p < 8, ∃ cell, M.cells[p]? = some cell ∧ cornerHull M.points cell = quadRegion node p 0 := by
  obtain ⟨M, h⟩ := C63_sector_exists (radius := 2) (by norm_num) 90 360 8 (m := none) (Or.inl rfl) (c := none) (v := 0) (Or.inl ⟨rfl, rfl⟩)
  obtain ⟨ts, v, n, h1, h2, h3, _, node, _, _, h7, h8⟩ := C142_sector (divides_int 8 (Or.inl rfl)) (smallSteps_int (by norm_num) (by norm_num))
    (by norm_num) h
  obtain ⟨ts', g, st, _⟩ := C11_integer_resolution 8 none (Or.inl rfl)
  rw [g] at h1; cases h1
  have hn : n = 8 := by have : ts.length = 9 := st.size; omega
  have hv : v = 0 := by simpa [IsCentre] using h3
  subst hn hv
  exact ⟨M, h, node, _, h8, h7⟩

/-- Concrete case of C142: a solid cylinder in 2 x 4 x 3 cells. -/
example (vol : Arr3 (V3 ℝ) → List ℝ) :
    ∃ M : SGrid ℝ ℤ, cylindricalShell (fun N => List.replicate (count (cells N.d)) 1) vol 0 2 3 (.int 2) (.int 4)
      (.int 3) none none (some "log") (some [1, 1, 1]) = .ok M ∧ ∃ (v : V3 ℝ) (n m : ℕ) (A : ℕ → ℝ) (node : ℕ → ℕ → V3 ℝ),
        IsCentre (some [1, 1, 1]) v ∧ TilesRing v 0 2 A n m node := by
  obtain ⟨M, h⟩ := C63_shell_exists (δ := ℤ) vol (area := fun N => List.replicate (count (cells N.d)) 1) (fun N => by simp) (ri := 0) (ro := 2)
    le_rfl (by norm_num) 0 360 3 2 4 3 (rm := none) (tm := none) (zm := some "log") (Or.inl rfl) (Or.inl rfl) (Or.inr (Or.inl rfl)) 1 1 1
  obtain ⟨ts, v, n, m, l, Z, _, _, h3, _, _, _, _, node, h8, _⟩ := C142_shell (by norm_num) (divides_int 2 (Or.inl rfl)) (divides_int 4 (Or.inl rfl))
    (smallSteps_int (by norm_num) (by norm_num)) (by norm_num) (divides_int 3 (Or.inr (Or.inl rfl))) h
  exact ⟨M, h, v, n, m, _, node, h3, h8⟩

/-- Concrete case of cells that overlap: a turn and a quarter of a ring, in 2 x 5 cells. -/
example (area : Arr3 (V3 ℝ) → List ℝ) :
    ∃ M : SGrid ℝ ℤ, annularSector area 1 2 0 450 (.int 2) (.int 5) none none none = .ok M ∧
      quadRegion (fun p q => M.points.getD (vtkId M.nodes.d ![p, q, 0]) 0) 0 0 =
        quadRegion (fun p q => M.points.getD (vtkId M.nodes.d ![p, q, 0]) 0) 4 0 := by
  obtain ⟨M, h⟩ := C63_annularSector_exists (δ := ℤ) area (ri := 1) (ro := 2) zero_le_one (by norm_num) 0 450 2 5 (rm := none)
    (tm := none) (Or.inl rfl) (Or.inl rfl) (c := none) (v := 0) (Or.inl ⟨rfl, rfl⟩)
  obtain ⟨m, hm, _, e⟩ := C142_overlap (M := M) (a := 0) (divides_int 2 (Or.inl rfl)) (by rw [zero_add]; exact h)
  exact ⟨M, h, e 0 hm⟩

end Gridder
