import Verif.Props.Volumes
import Verif.Props.Areas

/-!
# C141: the volumes of the cells of a cylindrical shell
-/

namespace Gridder
open Spec MeasureTheory

namespace Spec

/-- The sum of the volumes of the cells of a structured grid. -/
noncomputable def gridVolume {δ : Type _} (M : SGrid ℝ δ) : ENNReal :=
  ∑ p ∈ Finset.range (M.nodes.d 0 - 1), ∑ q ∈ Finset.range (M.nodes.d 1 - 1), ∑ k ∈ Finset.range (M.nodes.d 2 - 1),
    volume (hexRegion (fun i => M.points.getD (vtkId M.nodes.d i) 0) ![p, q, k])

end Spec

/-- A hexahedron with vertical sides between two levels, upside down or not. -/
theorem hexRegion_level {node : Ix → V3 ℝ} {i : Ix} {axis : Fin 3} {q : Fin 2 × Fin 2 → V3 ℝ} {lo hi : ℝ}
    (hlo : ∀ e, node (i + corner axis e 0) = Function.update (q e) axis lo)
    (hhi : ∀ e, node (i + corner axis e 1) = Function.update (q e) axis hi) :
    hexRegion node i = column axis quadWeights q (fun _ => min lo hi) fun _ => max lo hi := by
  rcases le_total lo hi with h | h
  · rw [min_eq_left h, max_eq_right h]
    exact hexRegion_column hlo hhi fun _ => h
  · rw [min_eq_right h, max_eq_left h]
    exact hexRegion_inverted hlo hhi fun _ => h

/-- The volume of a prism over a piece of a ring. -/
theorem ring_volume {r r' α β : ℝ} (h0 : 0 ≤ r) (h1 : r ≤ r') (g : 0 ≤ Real.sin (Real.pi * (β - α) / 180)) (v : V3 ℝ)
    {q : Fin 2 × Fin 2 → V3 ℝ} (q00 : q (0, 0) = v + polar r α) (q10 : q (1, 0) = v + polar r β) (q01 : q (0, 1) = v + polar r' α)
    (q11 : q (1, 1) = v + polar r' β) (z z' : ℝ) :
    volume (column 2 quadWeights q (fun _ => min z z') fun _ => max z z') =
      ENNReal.ofReal (Real.sin (Real.pi * (β - α) / 180) * ((r' ^ 2 - r ^ 2) / 2) * |z' - z|) := by
  have e2 : Real.sin (Real.pi * (α - β) / 180) = -Real.sin (Real.pi * (β - α) / 180) := by
    rw [← Real.sin_neg]; congr 1; ring
  have hc : ∀ x y : V3 ℝ, crossAlong 2 x y = crossXY x y := fun _ _ => rfl
  have hT : TurnsOneWay 2 q := by
    right
    have d : ∀ x y : V3 ℝ, v + x - (v + y) = x - y := fun x y => add_sub_add_left_eq_sub x y v
    have hp := mul_nonneg (mul_nonneg h0 (sub_nonneg.2 h1)) g
    have hp' := mul_nonneg (mul_nonneg (h0.trans h1) (sub_nonneg.2 h1)) g
    rintro ⟨i, j⟩
    rcases Fin.exists_fin_two.1 ⟨i, rfl⟩ with rfl | rfl <;> rcases Fin.exists_fin_two.1 ⟨j, rfl⟩ with rfl | rfl <;>
      simp only [cornerArea, q00, q10, q01, q11, d, hc, crossXY_sub_left, crossXY_sub_right, cross_polar, e2, sub_self, mul_zero, zero_div,
        Real.sin_zero] <;> nlinarith
  rw [volume_quad hT fun _ => min_le_max, quadVolume_even hT, max_sub_min_eq_abs]
  congr 2
  rw [q00, q11, q01, q10, hc, add_sub_add_left_eq_sub, add_sub_add_left_eq_sub]
  simp only [crossXY_sub_left, crossXY_sub_right, cross_polar, e2, sub_self, mul_zero, zero_div, Real.sin_zero]
  rw [show r' * r' * -Real.sin (Real.pi * (β - α) / 180) - 0 - (0 - r * r * Real.sin (Real.pi * (β - α) / 180)) =
      -(Real.sin (Real.pi * (β - α) / 180) * (r' ^ 2 - r ^ 2)) by ring, abs_neg, abs_of_nonneg (mul_nonneg g (by nlinarith))]
  ring

variable {δ : Type _}

/-- The volumes of the cells of a grid of nodes at polar coordinates and levels. -/
theorem tube_volume {M : SGrid ℝ δ} {ts rs zs : List ℝ} (hd : M.nodes.d = ![ts.length, rs.length, zs.length]) (v : V3 ℝ)
    {A R Z : ℝ → ℝ}
    (h : ∀ p q k t s w, ts[p]? = some t → rs[q]? = some s → zs[k]? = some w →
      M.points[vtkId M.nodes.d ![p, q, k]]? = some (v + polar (R s) (A t) + ![0, 0, Z w]))
    (ht : ∀ (p : ℕ) t t', ts[p]? = some t → ts[p + 1]? = some t' → 0 ≤ Real.sin (Real.pi * (A t' - A t) / 180))
    (hr : ∀ (q : ℕ) s s', rs[q]? = some s → rs[q + 1]? = some s' → 0 ≤ R s ∧ R s ≤ R s') :
    gridVolume M = ENNReal.ofReal (overSteps ts (fun t t' => Real.sin (Real.pi * (A t' - A t) / 180)) *
      overSteps rs (fun s s' => R s' ^ 2 / 2 - R s ^ 2 / 2) * overSteps zs fun w w' => |Z w' - Z w|) := by
  have e0 : M.nodes.d 0 = ts.length := by rw [hd]; rfl
  have e1 : M.nodes.d 1 = rs.length := by rw [hd]; rfl
  have e2 : M.nodes.d 2 = zs.length := by rw [hd]; rfl
  have get : ∀ p q k t s w, ts[p]? = some t → rs[q]? = some s → zs[k]? = some w →
      M.points.getD (vtkId M.nodes.d ![p, q, k]) 0 = v + polar (R s) (A t) + ![0, 0, Z w] := by
    intro p q k t s w a b c
    rw [List.getD_eq_getElem?_getD, h p q k t s w a b c, Option.getD_some]
  have nt : ∀ p ∈ Finset.range (ts.length - 1), 0 ≤ Real.sin (Real.pi * (A (ts.getD (p + 1) 0) - A (ts.getD p 0)) / 180) := by
    intro p hp
    have hp := Finset.mem_range.1 hp
    have t1 := List.getElem?_eq_getElem (show p < ts.length by omega)
    have t2 := List.getElem?_eq_getElem (show p + 1 < ts.length by omega)
    simp only [List.getD_eq_getElem?_getD, t1, t2, Option.getD_some]
    exact ht p _ _ t1 t2
  have nr : ∀ q ∈ Finset.range (rs.length - 1), 0 ≤ R (rs.getD (q + 1) 0) ^ 2 / 2 - R (rs.getD q 0) ^ 2 / 2 := by
    intro q hq
    have hq := Finset.mem_range.1 hq
    have s1 := List.getElem?_eq_getElem (show q < rs.length by omega)
    have s2 := List.getElem?_eq_getElem (show q + 1 < rs.length by omega)
    simp only [List.getD_eq_getElem?_getD, s1, s2, Option.getD_some]
    obtain ⟨a, b⟩ := hr q _ _ s1 s2
    nlinarith
  have cell : ∀ p ∈ Finset.range (ts.length - 1), ∀ q ∈ Finset.range (rs.length - 1), ∀ k ∈ Finset.range (zs.length - 1),
      volume (hexRegion (fun i => M.points.getD (vtkId M.nodes.d i) 0) ![p, q, k]) =
        ENNReal.ofReal (Real.sin (Real.pi * (A (ts.getD (p + 1) 0) - A (ts.getD p 0)) / 180) *
          (R (rs.getD (q + 1) 0) ^ 2 / 2 - R (rs.getD q 0) ^ 2 / 2) * |Z (zs.getD (k + 1) 0) - Z (zs.getD k 0)|) := by
    intro p hp q hq k hk
    have hp := Finset.mem_range.1 hp
    have hq := Finset.mem_range.1 hq
    have hk := Finset.mem_range.1 hk
    have t1 := List.getElem?_eq_getElem (show p < ts.length by omega)
    have t2 := List.getElem?_eq_getElem (show p + 1 < ts.length by omega)
    have s1 := List.getElem?_eq_getElem (show q < rs.length by omega)
    have s2 := List.getElem?_eq_getElem (show q + 1 < rs.length by omega)
    have w1 := List.getElem?_eq_getElem (show k < zs.length by omega)
    have w2 := List.getElem?_eq_getElem (show k + 1 < zs.length by omega)
    simp only [List.getD_eq_getElem?_getD, t1, t2, s1, s2, w1, w2, Option.getD_some]
    have hcor : ∀ (a b : Fin 2) (u : ℕ), (![p, q, k] + corner 2 (a, b) u : Ix) = ![p + a, q + b, k + u] := by
      intro a b u
      funext ax
      fin_cases ax <;> rfl
    have hnode : ∀ (e : Fin 2 × Fin 2) (u : ℕ) w, zs[k + u]? = some w →
        M.points.getD (vtkId M.nodes.d (![p, q, k] + corner 2 e u)) 0 =
          Function.update (v + polar (R (if e.2 = 0 then rs[q] else rs[q + 1])) (A (if e.1 = 0 then ts[p] else ts[p + 1]))) 2 (v 2 + Z w) := by
      rintro ⟨a, b⟩ u w hw
      rw [hcor, get (p + a) (q + b) (k + u) (if a = 0 then ts[p] else ts[p + 1]) (if b = 0 then rs[q] else rs[q + 1]) w
        (by fin_cases a <;> simp [t1, t2]) (by fin_cases b <;> simp [s1, s2]) hw]
      funext ax
      fin_cases ax <;> simp [polar]
      rfl
    obtain ⟨r0, r1⟩ := hr q _ _ s1 s2
    rw [hexRegion_level (axis := 2) (fun e => hnode e 0 _ w1) (fun e => hnode e 1 _ w2),
      ring_volume r0 r1 (ht p _ _ t1 t2) v (by simp) (by simp) (by simp) (by simp), add_sub_add_left_eq_sub]
    congr 2
    ring
  rw [gridVolume, e0, e1, e2]
  simp only [overSteps]
  rw [Finset.sum_congr rfl fun p hp => Finset.sum_congr rfl fun q hq => Finset.sum_congr rfl fun k hk => cell p hp q hq k hk]
  have nn : ∀ p ∈ Finset.range (ts.length - 1), ∀ q ∈ Finset.range (rs.length - 1), ∀ k ∈ Finset.range (zs.length - 1),
      0 ≤ Real.sin (Real.pi * (A (ts.getD (p + 1) 0) - A (ts.getD p 0)) / 180) *
          (R (rs.getD (q + 1) 0) ^ 2 / 2 - R (rs.getD q 0) ^ 2 / 2) * |Z (zs.getD (k + 1) 0) - Z (zs.getD k 0)| := fun p hp q hq k _ =>
    mul_nonneg (mul_nonneg (nt p hp) (nr q hq)) (abs_nonneg _)
  rw [Finset.sum_congr rfl fun p hp => (Finset.sum_congr rfl fun q hq => (ENNReal.ofReal_sum_of_nonneg (nn p hp q hq)).symm).trans
      (ENNReal.ofReal_sum_of_nonneg fun q hq => Finset.sum_nonneg (nn p hp q hq)).symm,
    ← ENNReal.ofReal_sum_of_nonneg fun p hp => Finset.sum_nonneg fun q hq => Finset.sum_nonneg (nn p hp q hq)]
  congr 1
  rw [Finset.sum_mul_sum, Finset.sum_mul]
  refine Finset.sum_congr rfl fun p _ => ?_
  rw [Finset.sum_mul]
  refine Finset.sum_congr rfl fun q _ => ?_
  rw [Finset.mul_sum]

variable [OfNat δ 0] [OfNat δ 32]

theorem shell_radii [Inhabited δ] {area vol : Arr3 (V3 ℝ) → List ℝ} {ri ro a b height : ℝ} {rres tres zres : Resolution ℝ}
    {rm tm zm : Option String} {c : Option (List ℝ)} {M : SGrid ℝ δ}
    (h : cylindricalShellSector area vol ri ro a b height rres tres zres rm tm zm c = .ok M) : 0 ≤ ri ∧ ri < ro := by
  unfold cylindricalShellSector at h
  simp only at h
  split at h
  · cases h
  simp only [bind_ok] at h
  obtain ⟨A, h1, _⟩ := h
  unfold annularSector at h1
  split at h1
  · cases h1
  · rename_i hr; exact not_not.1 hr

theorem shell_rings {ri ro : ℝ} (hr : 0 ≤ ri ∧ ri < ro) {n : ℕ} {rs : List ℝ} (sr : Subdivision n rs) : ∀ (q : ℕ) s s', rs[q]? = some s →
    rs[q + 1]? = some s' → 0 ≤ ri + s * (ro - ri) ∧ ri + s * (ro - ri) ≤ ri + s' * (ro - ri) := by
  intro q s s' a3 a4
  have ls := divides_step sr a3 a4
  have s0 : 0 ≤ s := by
    obtain ⟨hq, e⟩ := List.getElem?_eq_some_iff.1 a3
    rcases Nat.eq_zero_or_pos q with rfl | hq0
    · rw [sr.first] at a3; exact (Option.some.inj a3).le
    · obtain ⟨h0, e0⟩ := List.getElem?_eq_some_iff.1 sr.first
      rw [← e, ← e0]
      exact (List.pairwise_iff_getElem.1 sr.increasing 0 q h0 hq hq0).le
  have hro := sub_pos.2 hr.2
  exact ⟨add_nonneg hr.1 (mul_nonneg s0 hro.le), by nlinarith⟩

/-- **C141 (CylindricalShellSector).** The volumes of the cells add up to the height times half the difference of the squares of the radii
times the sum of the sines of the steps, whatever the radial and vertical subdivisions.  The inner radius may be 0, the height negative. -/
theorem C141_sum [Inhabited δ] {area vol : Arr3 (V3 ℝ) → List ℝ} {ri ro a b height : ℝ} {rres tres zres : Resolution ℝ}
    {rm tm zm : Option String} (fr : DividesUnit rres rm) (hs : SmallSteps tres tm a b) (fz : DividesUnit zres zm)
    {c : Option (List ℝ)} {M : SGrid ℝ δ}
    (h : cylindricalShellSector area vol ri ro a b height rres tres zres rm tm zm c = .ok M) :
    ∃ ts, resolutionToPerc tres tm = .ok ts ∧
      gridVolume M = ENNReal.ofReal ((ro ^ 2 - ri ^ 2) / 2 * sectorSines ts a b * |height|) := by
  have hr := shell_radii h
  obtain ⟨ts, rs, zs, v, h1, h2, h3, _, h5, h6⟩ := C63_shell h
  obtain ⟨n, sr⟩ := fr _ h2
  obtain ⟨n', sz⟩ := fz _ h3
  refine ⟨ts, h1, ?_⟩
  have e1 : ∀ t t' : ℝ, a + t' * (b - a) - (a + t * (b - a)) = (t' - t) * (b - a) := fun t t' => by ring
  rw [tube_volume h5 v (A := fun t => a + t * (b - a)) (R := fun s => ri + s * (ro - ri)) (Z := fun w => (w - 1 / 2) * height) h6]
  · rw [overSteps_telescope sr (fun s => (ri + s * (ro - ri)) ^ 2 / 2), overSteps_congr (f := fun w w' => |(w' - 1 / 2) * height - (w - 1 / 2) * height|)
      (g := fun w w' => w' * |height| - w * |height|), overSteps_telescope sz (fun w => w * |height|)]
    · simp only [e1, sectorSines]
      congr 1
      ring
    · intro p t t' a1 a2
      have := divides_step sz a1 a2
      rw [show (t' - 1 / 2) * height - (t - 1 / 2) * height = (t' - t) * height by ring, abs_mul, abs_of_pos (sub_pos.2 this)]
      ring
  · intro p t t' a1 a2
    obtain ⟨g1, g2⟩ := hs _ h1 p _ _ a1 a2
    rw [e1]
    exact (sin_step g1 g2).le
  · exact shell_rings hr sr

/-- **C141 (CylindricalShellSector).** The volumes of the cells add up to less than the volume of the piece of the shell. -/
theorem C141_below [Inhabited δ] {area vol : Arr3 (V3 ℝ) → List ℝ} {ri ro a b height : ℝ} (hh : 0 < height)
    {rres tres zres : Resolution ℝ} {rm tm zm : Option String} (fr : DividesUnit rres rm) (ft : DividesUnit tres tm)
    (hs : SmallSteps tres tm a b) (fz : DividesUnit zres zm) {c : Option (List ℝ)} {M : SGrid ℝ δ}
    (h : cylindricalShellSector area vol ri ro a b height rres tres zres rm tm zm c = .ok M) :
    gridVolume M < ENNReal.ofReal ((ro ^ 2 - ri ^ 2) / 2 * (Real.pi * (b - a) / 180) * height) := by
  have hr := shell_radii h
  obtain ⟨ts, h1, h2⟩ := C141_sum fr hs fz h
  have hA : 0 < (ro ^ 2 - ri ^ 2) / 2 := by nlinarith
  have hS := sines_le ft hs h1
  have hS0 : 0 ≤ sectorSines ts a b := by
    unfold sectorSines overSteps
    refine Finset.sum_nonneg fun p hp => ?_
    have hp := Finset.mem_range.1 hp
    have t1 := List.getElem?_eq_getElem (show p < ts.length by omega)
    have t2 := List.getElem?_eq_getElem (show p + 1 < ts.length by omega)
    simp only [List.getD_eq_getElem?_getD, t1, t2, Option.getD_some]
    obtain ⟨g1, g2⟩ := hs _ h1 p _ _ t1 t2
    exact (sin_step g1 g2).le
  rw [h2, abs_of_pos hh]
  refine (ENNReal.ofReal_lt_ofReal_iff ?_).2 (mul_lt_mul_of_pos_right (mul_lt_mul_of_pos_left hS hA) hh)
  exact mul_pos (mul_pos hA (hS0.trans_lt hS)) hh

/-- **C141 (CylindricalShellSector, equal parts).** With `N` equal steps of less than a half turn over the angle `θ` the volumes add up to
`N (R² - r²) sin(θ / N) / 2` times the height, which falls short of the volume by less than `(R² - r²) θ³ / (12 N²)` times the height. -/
theorem C141_equal [Inhabited δ] {area vol : Arr3 (V3 ℝ) → List ℝ} {ri ro a b height : ℝ} (hh : 0 < height) {rres zres : Resolution ℝ} {n : ℤ}
    {rm zm : Option String} (fr : DividesUnit rres rm) (hab : a < b) (hn : b - a < 180 * ((max 1 n : ℤ) : ℝ)) (fz : DividesUnit zres zm)
    {c : Option (List ℝ)} {M : SGrid ℝ δ}
    (h : cylindricalShellSector area vol ri ro a b height rres (.int n) zres rm none zm c = .ok M) :
    let N : ℝ := ((max 1 n : ℤ) : ℝ)
    let θ := Real.pi * (b - a) / 180
    gridVolume M = ENNReal.ofReal (N * ((ro ^ 2 - ri ^ 2) * Real.sin (θ / N) / 2) * height) ∧
      gridVolume M < ENNReal.ofReal ((ro ^ 2 - ri ^ 2) * θ / 2 * height) ∧
      ENNReal.ofReal ((ro ^ 2 - ri ^ 2) * θ / 2 * height) < gridVolume M + ENNReal.ofReal ((ro ^ 2 - ri ^ 2) * θ ^ 3 / (12 * N ^ 2) * height) := by
  intro N θ
  have hs := smallSteps_int hab hn
  have hr := shell_radii h
  obtain ⟨ts, h1, h2⟩ := C141_sum fr hs fz h
  obtain ⟨e1, e2⟩ := equal_sines hab h1
  change θ - θ ^ 3 / (6 * N ^ 2) < N * Real.sin (θ / N) at e2
  have hA : 0 < (ro ^ 2 - ri ^ 2) / 2 := by nlinarith
  have e : gridVolume M = ENNReal.ofReal (N * ((ro ^ 2 - ri ^ 2) * Real.sin (θ / N) / 2) * height) := by
    rw [h2, abs_of_pos hh, e1]
    congr 1
    simp only [N, θ]
    ring
  refine ⟨e, ?_, ?_⟩
  · refine lt_of_lt_of_eq (C141_below hh fr (divides_int n (Or.inl rfl)) hs fz h) ?_
    congr 1
    simp only [θ]
    ring
  · have hN : 0 < N := Int.cast_pos.2 (by omega)
    have hθ : 0 < θ := by have := Real.pi_pos; have := sub_pos.2 hab; positivity
    have hsin : 0 ≤ Real.sin (θ / N) := by
      refine Real.sin_nonneg_of_nonneg_of_le_pi (div_pos hθ hN).le ?_
      rw [div_le_iff₀ hN]
      simp only [θ]
      have := Real.pi_pos
      rw [div_le_iff₀ (by norm_num)]
      nlinarith
    have hA2 : 0 < ro ^ 2 - ri ^ 2 := by linarith
    rw [e, ← ENNReal.ofReal_add (by positivity) (by positivity)]
    refine (ENNReal.ofReal_lt_ofReal_iff (by positivity)).2 ?_
    have := mul_lt_mul_of_pos_right (mul_lt_mul_of_pos_left e2 hA) hh
    have e3 : (ro ^ 2 - ri ^ 2) * θ ^ 3 / (12 * N ^ 2) = (ro ^ 2 - ri ^ 2) / 2 * (θ ^ 3 / (6 * N ^ 2)) := by ring
    rw [e3]
    linarith

/-- **C141: the bound on the steps is needed.** A full cylindrical shell made in one or two parts around has no volume. -/
theorem C141_coarse [Inhabited δ] {area vol : Arr3 (V3 ℝ) → List ℝ} {ri ro height : ℝ} {rres zres : Resolution ℝ} {n : ℤ} (hn : n ≤ 2)
    {rm zm : Option String} (fr : DividesUnit rres rm) {c : Option (List ℝ)} {M : SGrid ℝ δ}
    (h : cylindricalShell area vol ri ro height rres (.int n) zres rm none zm c = .ok M) : gridVolume M = 0 := by
  have hr := shell_radii h
  obtain ⟨ts, rs, zs, v, h1, h2, h3, _, h5, h6⟩ := C63_shell h
  obtain ⟨m, sr⟩ := fr _ h2
  obtain ⟨ts', g, sub, ct, _⟩ := C11_integer_resolution n none (Or.inl rfl)
  rw [g] at h1; cases h1
  have hN : max 1 n = 1 ∨ max 1 n = 2 := by omega
  have key : ∀ (p : ℕ) t t', ts[p]? = some t → ts[p + 1]? = some t' →
      Real.sin (Real.pi * (0 + t' * (360 - 0) - (0 + t * (360 - 0))) / 180) = 0 := by
    intro p t t' a1 a2
    have hl := (List.getElem?_eq_some_iff.1 a2).1
    have hs := sub.size
    have t1 := ct rfl p (by omega)
    have t2 := ct rfl (p + 1) (by omega)
    rw [a1] at t1; rw [a2] at t2
    rw [Option.some.inj t1, Option.some.inj t2]
    rcases hN with hN | hN <;> rw [hN] <;> push_cast
    · rw [show Real.pi * (0 + ((p : ℝ) + 1) / 1 * (360 - 0) - (0 + (p : ℝ) / 1 * (360 - 0))) / 180 = 2 * Real.pi by ring]
      exact Real.sin_two_pi
    · rw [show Real.pi * (0 + ((p : ℝ) + 1) / 2 * (360 - 0) - (0 + (p : ℝ) / 2 * (360 - 0))) / 180 = Real.pi by ring]
      exact Real.sin_pi
  rw [tube_volume h5 v (A := fun t => 0 + t * (360 - 0)) (R := fun s => ri + s * (ro - ri)) (Z := fun w => (w - 1 / 2) * height) h6
    (fun p t t' a1 a2 => (key p t t' a1 a2).ge) (shell_rings hr sr), overSteps_congr (g := fun _ _ => 0) key]
  simp [overSteps]

/-- Concrete case of C141: a solid cylinder of radius 2 and height 3, in 2 x 4 x 3 cells, is a prism over a square of area 8. -/
example (vol : Arr3 (V3 ℝ) → List ℝ) :
    ∃ M : SGrid ℝ ℤ, cylindricalShell (fun N => List.replicate (count (cells N.d)) 1) vol 0 2 3 (.int 2) (.int 4)
      (.int 3) none none (some "log") (some [1, 1, 1]) = .ok M ∧ gridVolume M = 24 := by
  obtain ⟨M, h⟩ := C63_shell_exists (δ := ℤ) vol (area := fun N => List.replicate (count (cells N.d)) 1) (fun N => by simp) (ri := 0) (ro := 2)
    le_rfl (by norm_num) 0 360 3 2 4 3 (rm := none) (tm := none) (zm := some "log") (Or.inl rfl) (Or.inl rfl) (Or.inr (Or.inl rfl)) 1 1 1
  refine ⟨M, h, ?_⟩
  obtain ⟨e, _⟩ := C141_equal (by norm_num) (divides_int 2 (Or.inl rfl)) (by norm_num) (by norm_num) (divides_int 3 (Or.inr (Or.inl rfl))) h
  rw [e]
  have : Real.pi * (360 - 0) / 180 / (((max 1 4 : ℤ)) : ℝ) = Real.pi / 2 := by norm_num; ring
  rw [this, Real.sin_pi_div_two]
  norm_num

/-- Concrete case of a shell without volume: one of radii 1 and 2 and height 3, in 2 x 2 x 3 cells. -/
example (vol : Arr3 (V3 ℝ) → List ℝ) :
    ∃ M : SGrid ℝ ℤ, cylindricalShell (fun N => List.replicate (count (cells N.d)) 1) vol 1 2 3 (.int 2) (.int 2)
      (.int 3) none none none (some [1, 1, 1]) = .ok M ∧ gridVolume M = 0 := by
  obtain ⟨M, h⟩ := C63_shell_exists (δ := ℤ) vol (area := fun N => List.replicate (count (cells N.d)) 1) (fun N => by simp) (ri := 1) (ro := 2)
    zero_le_one (by norm_num) 0 360 3 2 2 3 (rm := none) (tm := none) (zm := none) (Or.inl rfl) (Or.inl rfl) (Or.inl rfl) 1 1 1
  exact ⟨M, h, C141_coarse le_rfl (divides_int 2 (Or.inl rfl)) h⟩

end Gridder
