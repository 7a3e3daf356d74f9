import Verif.Props.Well

/-!
# C128: the cells of the plane shapes and the way they turn
-/

namespace Gridder
open Spec

/-! ## The claim -/

/-- Seen from above, whether the path `a b c` turns left (positive) or right (negative) at `b`. -/
def Spec.turnZ (a b c : Fin 3 → ℝ) : ℝ := (b 0 - a 0) * (c 1 - b 1) - (b 1 - a 1) * (c 0 - b 0)

/-- Corner `i` of a cell, counted around it. -/
def Spec.cornerOf (c : List (Fin 3 → ℝ)) (i : ℕ) : Fin 3 → ℝ := c.getD (i % c.length) 0

/-- The way the outline of a cell turns at each of its corners. -/
def Spec.turnAt (c : List (Fin 3 → ℝ)) (i : ℕ) : ℝ := turnZ (cornerOf c i) (cornerOf c (i + 1)) (cornerOf c (i + 2))

/-- A strictly convex cell whose corners are listed counterclockwise. -/
def Spec.TurnsLeft (c : List (Fin 3 → ℝ)) : Prop := ∀ i < c.length, 0 < turnAt c i

/-- A strictly convex cell whose corners are listed clockwise. -/
def Spec.TurnsRight (c : List (Fin 3 → ℝ)) : Prop := ∀ i < c.length, turnAt c i < 0

/-- The subdivision runs from small to large within 0 and 1. -/
def Spec.Forward (res : Resolution ℝ) (m : Option String) : Prop :=
  ∀ ts, resolutionToPerc res m = .ok ts → ts.Pairwise (· < ·) ∧ ∀ t ∈ ts, 0 ≤ t ∧ t ≤ 1

/-- Each step of the subdivision of the angle from `a` to `b` is less than a half turn. -/
def Spec.SmallSteps (res : Resolution ℝ) (m : Option String) (a b : ℝ) : Prop :=
  ∀ ts, resolutionToPerc res m = .ok ts → ∀ (p : ℕ) (t t' : ℝ), ts[p]? = some t → ts[p + 1]? = some t' →
    0 < (t' - t) * (b - a) ∧ (t' - t) * (b - a) < 180

/-- A number of parts is such a subdivision. -/
theorem forward_int (n : ℤ) {m : Option String} (hm : Supported m) : Forward (.int n) m := by
  intro ts h
  obtain ⟨ts', g, sub, _⟩ := C11_integer_resolution n m hm
  rw [g] at h; cases h
  exact ⟨sub.increasing, (perc_mem hm g).2.2⟩

/-- Equal parts of less than a half turn. -/
theorem smallSteps_int {n : ℤ} {a b : ℝ} (hab : a < b) (h : b - a < 180 * ((max 1 n : ℤ) : ℝ)) :
    SmallSteps (.int n) none a b := by
  intro ts hts p t t' ht ht'
  obtain ⟨ts', g, sub, c, _⟩ := C11_integer_resolution n none (Or.inl rfl)
  rw [g] at hts; cases hts
  have h2 := (List.getElem?_eq_some_iff.1 ht').1
  have hs := sub.size
  have e1 := c rfl p (by omega)
  have e2 := c rfl (p + 1) (by omega)
  rw [ht] at e1; rw [ht'] at e2
  have hN : (0 : ℝ) < ((max 1 n : ℤ) : ℝ) := by exact_mod_cast (by omega : (0 : ℤ) < max 1 n)
  have e : (t' - t) * (b - a) = (b - a) / ((max 1 n : ℤ) : ℝ) := by
    rw [Option.some.inj e1, Option.some.inj e2]
    push_cast
    field_simp
    ring
  rw [e]
  exact ⟨div_pos (sub_pos.2 hab) hN, by rw [div_lt_iff₀ hN]; exact h⟩

/-! ## Cells of a grid -/

theorem turns_quad {a b c d : Fin 3 → ℝ} :
    (TurnsLeft [a, b, c, d] ↔ 0 < turnZ a b c ∧ 0 < turnZ b c d ∧ 0 < turnZ c d a ∧ 0 < turnZ d a b) ∧
    (TurnsRight [a, b, c, d] ↔ turnZ a b c < 0 ∧ turnZ b c d < 0 ∧ turnZ c d a < 0 ∧ turnZ d a b < 0) := by
  have e0 : turnAt [a, b, c, d] 0 = turnZ a b c := by simp [turnAt, cornerOf]
  have e1 : turnAt [a, b, c, d] 1 = turnZ b c d := by simp [turnAt, cornerOf]
  have e2 : turnAt [a, b, c, d] 2 = turnZ c d a := by simp [turnAt, cornerOf]
  have e3 : turnAt [a, b, c, d] 3 = turnZ d a b := by simp [turnAt, cornerOf]
  rw [← e0, ← e1, ← e2, ← e3]
  constructor <;> constructor
  · intro h
    exact ⟨h 0 (by simp), h 1 (by simp), h 2 (by simp), h 3 (by simp)⟩
  · rintro ⟨h0, h1, h2, h3⟩ i hi
    have : i = 0 ∨ i = 1 ∨ i = 2 ∨ i = 3 := by simp only [List.length_cons, List.length_nil] at hi; omega
    rcases this with rfl | rfl | rfl | rfl <;> assumption
  · intro h
    exact ⟨h 0 (by simp), h 1 (by simp), h 2 (by simp), h 3 (by simp)⟩
  · rintro ⟨h0, h1, h2, h3⟩ i hi
    have : i = 0 ∨ i = 1 ∨ i = 2 ∨ i = 3 := by simp only [List.length_cons, List.length_nil] at hi; omega
    rcases this with rfl | rfl | rfl | rfl <;> assumption

theorem turns_triangle {a b c : Fin 3 → ℝ} :
    (TurnsLeft [a, b, c] ↔ 0 < turnZ a b c) ∧ (TurnsRight [a, b, c] ↔ turnZ a b c < 0) := by
  have e : ∀ i < 3, turnAt [a, b, c] i = turnZ a b c := by
    intro i hi
    have : i = 0 ∨ i = 1 ∨ i = 2 := by omega
    rcases this with rfl | rfl | rfl <;> simp [turnAt, cornerOf, turnZ] <;> ring
  constructor <;> constructor
  · intro h; rw [← e 0 (by norm_num)]; exact h 0 (by simp)
  · intro h i hi; rw [e i hi]; exact h
  · intro h; rw [← e 0 (by norm_num)]; exact h 0 (by simp)
  · intro h i hi; rw [e i hi]; exact h

variable {δ : Type _}

/-- The cells of a grid in the XY plane. -/
theorem mem_gridQuads {M : SGrid ℝ δ} {ts rs : List ℝ} (hd : M.nodes.d = ![ts.length, rs.length, 1]) {f : ℝ → ℝ → V3 ℝ}
    (h : ∀ p q t s, ts[p]? = some t → rs[q]? = some s → M.points[vtkId M.nodes.d ![p, q, 0]]? = some (f t s))
    {c : List (V3 ℝ)} : c ∈ gridQuads M ↔ ∃ p q t t' s s', ts[p]? = some t ∧ ts[p + 1]? = some t' ∧ rs[q]? = some s ∧
      rs[q + 1]? = some s' ∧ c = [f t s, f t' s, f t' s', f t s'] := by
  have get : ∀ p q t s, ts[p]? = some t → rs[q]? = some s → M.nodes.get ![p, q, 0] = f t s := by
    intro p q t s ht hs
    have hin : InShape M.nodes.d ![p, q, 0] := by
      rw [hd]
      intro ax; fin_cases ax
      · exact (List.getElem?_eq_some_iff.1 ht).1
      · exact (List.getElem?_eq_some_iff.1 hs).1
      · exact Nat.one_pos
    have := h p q t s ht hs
    rw [SGrid.points, ravelF_get _ hin] at this
    exact Option.some.inj this
  simp only [gridQuads, List.mem_flatMap, List.mem_map, List.mem_range, hd, Matrix.cons_val_zero, Matrix.cons_val_one]
  constructor
  · rintro ⟨q, hq, p, hp, rfl⟩
    have t1 := List.getElem?_eq_getElem (show p < ts.length by omega)
    have t2 := List.getElem?_eq_getElem (show p + 1 < ts.length by omega)
    have s1 := List.getElem?_eq_getElem (show q < rs.length by omega)
    have s2 := List.getElem?_eq_getElem (show q + 1 < rs.length by omega)
    exact ⟨p, q, _, _, _, _, t1, t2, s1, s2, by
      rw [get p q _ _ t1 s1, get (p + 1) q _ _ t2 s1, get (p + 1) (q + 1) _ _ t2 s2, get p (q + 1) _ _ t1 s2]⟩
  · rintro ⟨p, q, t, t', s, s', t1, t2, s1, s2, rfl⟩
    have := (List.getElem?_eq_some_iff.1 t2).1
    have := (List.getElem?_eq_some_iff.1 s2).1
    exact ⟨q, by omega, p, by omega, by
      rw [get p q _ _ t1 s1, get (p + 1) q _ _ t2 s1, get (p + 1) (q + 1) _ _ t2 s2, get p (q + 1) _ _ t1 s2]⟩

/-- Product of two steps in the plane. -/
def crossXY (a b : Fin 3 → ℝ) : ℝ := a 0 * b 1 - a 1 * b 0

/-- The turns of a quadrilateral between two curves. -/
theorem turns_between (v A A' Q Q' : V3 ℝ) (s s' : ℝ) :
    turnZ (v + between s A Q) (v + between s A' Q') (v + between s' A' Q') =
      (s' - s) * ((1 - s) * crossXY (A' - A) (Q' - A') + s * crossXY (Q' - Q) (Q' - A')) ∧
    turnZ (v + between s A' Q') (v + between s' A' Q') (v + between s' A Q) =
      (s' - s) * ((1 - s') * crossXY (A' - A) (Q' - A') + s' * crossXY (Q' - Q) (Q' - A')) ∧
    turnZ (v + between s' A' Q') (v + between s' A Q) (v + between s A Q) =
      (s' - s) * ((1 - s') * crossXY (A' - A) (Q - A) + s' * crossXY (Q' - Q) (Q - A)) ∧
    turnZ (v + between s' A Q) (v + between s A Q) (v + between s A' Q') =
      (s' - s) * ((1 - s) * crossXY (A' - A) (Q - A) + s * crossXY (Q' - Q) (Q - A)) := by
  refine ⟨?_, ?_, ?_, ?_⟩ <;> simp only [turnZ, crossXY, between, Pi.add_apply, Pi.sub_apply] <;> ring

theorem mix_pos {s x y : ℝ} (h0 : 0 ≤ s) (h1 : s ≤ 1) (hx : 0 < x) (hy : 0 < y) : 0 < (1 - s) * x + s * y := by
  rcases h0.eq_or_lt with rfl | h
  · simpa using hx
  · have := mul_pos h hy
    have := mul_nonneg (sub_nonneg.2 h1) hx.le
    linarith

theorem mix_neg {s x y : ℝ} (h0 : 0 ≤ s) (h1 : s ≤ 1) (hx : x < 0) (hy : y < 0) : (1 - s) * x + s * y < 0 := by
  have := mix_pos h0 h1 (neg_pos.2 hx) (neg_pos.2 hy)
  linarith

theorem between_left {v A A' Q Q' : V3 ℝ} {s s' : ℝ} (hs : 0 ≤ s) (hss : s < s') (hs' : s' ≤ 1)
    (h1 : 0 < crossXY (A' - A) (Q - A)) (h2 : 0 < crossXY (A' - A) (Q' - A')) (h3 : 0 < crossXY (Q' - Q) (Q - A))
    (h4 : 0 < crossXY (Q' - Q) (Q' - A')) :
    TurnsLeft [v + between s A Q, v + between s A' Q', v + between s' A' Q', v + between s' A Q] := by
  obtain ⟨e1, e2, e3, e4⟩ := turns_between v A A' Q Q' s s'
  have d := sub_pos.2 hss
  refine turns_quad.1.2 ⟨?_, ?_, ?_, ?_⟩
  · rw [e1]; exact mul_pos d (mix_pos hs (hss.le.trans hs') h2 h4)
  · rw [e2]; exact mul_pos d (mix_pos (hs.trans hss.le) hs' h2 h4)
  · rw [e3]; exact mul_pos d (mix_pos (hs.trans hss.le) hs' h1 h3)
  · rw [e4]; exact mul_pos d (mix_pos hs (hss.le.trans hs') h1 h3)

theorem between_right {v A A' Q Q' : V3 ℝ} {s s' : ℝ} (hs : 0 ≤ s) (hss : s < s') (hs' : s' ≤ 1)
    (h1 : crossXY (A' - A) (Q - A) < 0) (h2 : crossXY (A' - A) (Q' - A') < 0) (h3 : crossXY (Q' - Q) (Q - A) < 0)
    (h4 : crossXY (Q' - Q) (Q' - A') < 0) :
    TurnsRight [v + between s A Q, v + between s A' Q', v + between s' A' Q', v + between s' A Q] := by
  obtain ⟨e1, e2, e3, e4⟩ := turns_between v A A' Q Q' s s'
  have d := sub_pos.2 hss
  refine turns_quad.2.2 ⟨?_, ?_, ?_, ?_⟩
  · rw [e1]; exact mul_neg_of_pos_of_neg d (mix_neg hs (hss.le.trans hs') h2 h4)
  · rw [e2]; exact mul_neg_of_pos_of_neg d (mix_neg (hs.trans hss.le) hs' h2 h4)
  · rw [e3]; exact mul_neg_of_pos_of_neg d (mix_neg (hs.trans hss.le) hs' h1 h3)
  · rw [e4]; exact mul_neg_of_pos_of_neg d (mix_neg hs (hss.le.trans hs') h1 h3)

/-- Successive entries. -/
theorem forward_step {ts : List ℝ} (h : ts.Pairwise (· < ·) ∧ ∀ t ∈ ts, 0 ≤ t ∧ t ≤ 1) {p : ℕ} {t t' : ℝ}
    (ht : ts[p]? = some t) (ht' : ts[p + 1]? = some t') : 0 ≤ t ∧ t < t' ∧ t' ≤ 1 := by
  obtain ⟨h1, e1⟩ := List.getElem?_eq_some_iff.1 ht
  obtain ⟨h2, e2⟩ := List.getElem?_eq_some_iff.1 ht'
  refine ⟨(h.2 t (List.mem_of_getElem? ht)).1, ?_, (h.2 t' (List.mem_of_getElem? ht')).2⟩
  rw [← e1, ← e2]
  exact List.pairwise_iff_getElem.1 h.1 p (p + 1) h1 h2 (by omega)

variable [OfNat δ 0] [OfNat δ 32]

/-! ## Rectangles, sectors and rings -/

/-- **C128 (Rectangle).** The cells are convex and counterclockwise.  Missing: the shapes for which C128 is false, below. -/
theorem C128_rectangle_partial {area : Arr3 (V3 ℝ) → List ℝ} {dx dy : ℝ} (hx : 0 < dx) (hy : 0 < dy) {xres yres : Resolution ℝ}
    {xm ym : Option String} (fx : Forward xres xm) (fy : Forward yres ym) {c : Option (List ℝ)} {M : SGrid ℝ δ}
    (h : rectangle area dx dy xres yres xm ym c = .ok M) : ∀ q ∈ gridQuads M, TurnsLeft q := by
  obtain ⟨xs, ys, v, h1, h2, _, h4, h5⟩ := C84_rectangle_nodes h
  intro q hq
  obtain ⟨p, r, t, t', s, s', a1, a2, a3, a4, rfl⟩ :=
    (mem_gridQuads h4 (f := fun s t => v + ![s * dx, t * dy, 0]) h5).1 hq
  obtain ⟨_, lt, _⟩ := forward_step (fx _ h1) a1 a2
  obtain ⟨s0, ls, s1⟩ := forward_step (fy _ h2) a3 a4
  have e : ∀ a b : ℝ, (![a * dx, b * dy, 0] : V3 ℝ) = between b ![a * dx, 0, 0] ![a * dx, dy, 0] := by
    intro a b; funext ax; fin_cases ax <;> simp [between] <;> ring
  simp only [e]
  have key : 0 < crossXY (![t' * dx, 0, 0] - ![t * dx, 0, 0]) (![t * dx, dy, 0] - ![t * dx, 0, 0]) := by
    simp only [crossXY, Pi.sub_apply, Matrix.cons_val_zero, Matrix.cons_val_one]
    nlinarith [mul_pos (mul_pos (sub_pos.2 lt) hx) hy]
  refine between_left s0 ls s1 key ?_ ?_ ?_ <;>
  · refine lt_of_lt_of_eq key ?_
    simp only [crossXY, Pi.sub_apply, Matrix.cons_val_zero, Matrix.cons_val_one]
    ring

theorem sin_step {x : ℝ} (h : 0 < x) (h' : x < 180) : 0 < Real.sin (Real.pi * x / 180) := by
  have hpi := Real.pi_pos
  apply Real.sin_pos_of_pos_of_lt_pi
  · positivity
  · rw [div_lt_iff₀ (by norm_num)]; nlinarith

theorem cross_polar (ρ ρ' α β : ℝ) : crossXY (polar ρ α) (polar ρ' β) = ρ * ρ' * Real.sin (Real.pi * (β - α) / 180) := by
  have : Real.pi * (β - α) / 180 = Real.pi * β / 180 - Real.pi * α / 180 := by ring
  rw [this, Real.sin_sub]
  simp only [crossXY, polar, Matrix.cons_val_zero, Matrix.cons_val_one]
  ring

theorem crossXY_sub_left (a b c : V3 ℝ) : crossXY (a - b) c = crossXY a c - crossXY b c := by
  simp only [crossXY, Pi.sub_apply]; ring

theorem crossXY_sub_right (a b c : V3 ℝ) : crossXY a (b - c) = crossXY a b - crossXY a c := by
  simp only [crossXY, Pi.sub_apply]; ring

/-- **C128 (Sector).** The triangles of a sector are counterclockwise.  Missing: as above. -/
theorem C128_sector_partial {radius a b : ℝ} {res : Resolution ℝ} {m : Option String} (hs : SmallSteps res m a b)
    {c : Option (List ℝ)} {M : TriMesh ℝ} (h : sector radius a b res m c = .ok M) :
    ∀ q ∈ M.cells, TurnsLeft (q.map fun k => M.points.getD k 0) := by
  have hr : 0 < radius := by
    unfold sector at h
    split at h
    · cases h
    · rename_i hr; exact not_le.1 hr
  obtain ⟨ts, v, h1, _, h3, h4, h5, _, h7, h8⟩ := C63_sector h
  intro q hq
  obtain ⟨k, hk⟩ := List.mem_iff_getElem?.1 hq
  have hkl := (List.getElem?_eq_some_iff.1 hk).1
  rw [h8 k (by omega)] at hk
  cases hk
  have t1 := List.getElem?_eq_getElem (show k < ts.length by omega)
  have t2 := List.getElem?_eq_getElem (show k + 1 < ts.length by omega)
  obtain ⟨g1, g2⟩ := hs _ h1 k _ _ t1 t2
  simp only [List.map_cons, List.map_nil, List.getD_eq_getElem?_getD, h4, h5 k _ t1, h5 (k + 1) _ t2, Option.getD_some]
  refine turns_triangle.1.2 ?_
  have e : turnZ v (v + polar radius (a + ts[k] * (b - a))) (v + polar radius (a + ts[k + 1] * (b - a))) =
      crossXY (polar radius (a + ts[k] * (b - a))) (polar radius (a + ts[k + 1] * (b - a))) := by
    simp only [turnZ, crossXY, Pi.add_apply]; ring
  rw [e, cross_polar]
  have : a + ts[k + 1] * (b - a) - (a + ts[k] * (b - a)) = (ts[k + 1] - ts[k]) * (b - a) := by ring
  rw [this]
  exact mul_pos (mul_pos hr hr) (sin_step g1 g2)

/-- A cell of a ring. -/
theorem ring_cell {ri ro α β s s' : ℝ} (hri : 0 < ri) (hr : ri < ro) (s0 : 0 ≤ s) (ls : s < s') (s1 : s' ≤ 1)
    (g1 : 0 < β - α) (g2 : β - α < 180) (v : V3 ℝ) :
    TurnsRight [v + polar (ri + s * (ro - ri)) α, v + polar (ri + s * (ro - ri)) β, v + polar (ri + s' * (ro - ri)) β,
      v + polar (ri + s' * (ro - ri)) α] := by
  have e : ∀ s θ : ℝ, polar (ri + s * (ro - ri)) θ = between s (polar ri θ) (polar ro θ) := by
    intro s θ; funext ax; fin_cases ax <;> simp [between, polar] <;> ring
  simp only [e]
  have sn := sin_step g1 g2
  have e2 : α - β = -(β - α) := by ring
  have hro : 0 < ro := hri.trans hr
  have key1 := mul_pos (mul_pos hri (sub_pos.2 hr)) sn
  have key2 := mul_pos (mul_pos hro (sub_pos.2 hr)) sn
  refine between_right s0 ls s1 ?_ ?_ ?_ ?_ <;>
    simp only [crossXY_sub_left, crossXY_sub_right, cross_polar, e2, sub_self, mul_zero, zero_div, Real.sin_zero,
      mul_neg, neg_div, Real.sin_neg] <;> linarith

/-- **C128 (AnnularSector).** The cells of a ring are convex and all clockwise.  Missing: as above. -/
theorem C128_annularSector_partial {area : Arr3 (V3 ℝ) → List ℝ} {ri ro a b : ℝ} (hri : 0 < ri) {rres tres : Resolution ℝ}
    {rm tm : Option String} (fr : Forward rres rm) (hs : SmallSteps tres tm a b) {c : Option (List ℝ)} {M : SGrid ℝ δ}
    (h : annularSector area ri ro a b rres tres rm tm c = .ok M) : ∀ q ∈ gridQuads M, TurnsRight q := by
  have hr : ri < ro := by
    unfold annularSector at h
    split at h
    · cases h
    · rename_i hr; exact (not_not.1 hr).2
  obtain ⟨ts, rs, v, h1, h2, _, h4, h5, _⟩ := C63_annularSector h
  intro q hq
  obtain ⟨p, k, t, t', s, s', a1, a2, a3, a4, rfl⟩ :=
    (mem_gridQuads h4 (f := fun t s => v + polar (ri + s * (ro - ri)) (a + t * (b - a))) h5).1 hq
  obtain ⟨s0, ls, s1⟩ := forward_step (fr _ h2) a3 a4
  obtain ⟨g1, g2⟩ := hs _ h1 p _ _ a1 a2
  have e1 : a + t' * (b - a) - (a + t * (b - a)) = (t' - t) * (b - a) := by ring
  exact ring_cell hri hr s0 ls s1 (by rw [e1]; exact g1) (by rw [e1]; exact g2) v

/-! ## Sectors in rectangles and rectangles in sectors -/

/-- Mirror image. -/
theorem cross_swap (a b : V3 ℝ) : crossXY (swapXY a) (swapXY b) = -crossXY a b := by
  simp only [crossXY, swapXY, Matrix.cons_val_zero, Matrix.cons_val_one]; ring

section
variable {u u' : ℝ} (h0 : 0 ≤ u) (h : u < u') (h1 : u' ≤ 1)
include h0 h h1

theorem half_angles :
    0 < Real.sin (Real.pi * (45 * (u' - u) / 2) / 180) ∧
    Real.sin (Real.pi * (45 * u') / 180) - Real.sin (Real.pi * (45 * u) / 180) =
      2 * Real.sin (Real.pi * (45 * (u' - u) / 2) / 180) * Real.cos (Real.pi * (45 * (u + u') / 2) / 180) ∧
    Real.cos (Real.pi * (45 * u) / 180) - Real.cos (Real.pi * (45 * u') / 180) =
      2 * Real.sin (Real.pi * (45 * (u' - u) / 2) / 180) * Real.sin (Real.pi * (45 * (u + u') / 2) / 180) ∧
    Real.sin (Real.pi * (45 * u' - 45 * u) / 180) =
      2 * Real.sin (Real.pi * (45 * (u' - u) / 2) / 180) * Real.cos (Real.pi * (45 * (u' - u) / 2) / 180) ∧
    0 < Real.cos (Real.pi * (45 * (u + u') / 2) / 180) ∧ 0 < Real.sin (Real.pi * (45 * (u + u') / 2) / 180) := by
  have hpi := Real.pi_pos
  obtain ⟨m, hm⟩ : ∃ m, m = Real.pi * (45 * (u + u') / 2) / 180 := ⟨_, rfl⟩
  obtain ⟨d, hd⟩ : ∃ d, d = Real.pi * (45 * (u' - u) / 2) / 180 := ⟨_, rfl⟩
  have e1 : Real.pi * (45 * u') / 180 = m + d := by rw [hm, hd]; ring
  have e2 : Real.pi * (45 * u) / 180 = m - d := by rw [hm, hd]; ring
  have e3 : Real.pi * (45 * u' - 45 * u) / 180 = 2 * d := by rw [hd]; ring
  have d0 : 0 < d := by rw [hd]; have := sub_pos.2 h; positivity
  have d1 : d < Real.pi := by rw [hd]; nlinarith
  have m0 : 0 < m := by rw [hm]; have : 0 < u + u' := by linarith
                        positivity
  have m1 : m < Real.pi / 2 := by rw [hm]; nlinarith
  rw [e1, e2, e3, ← hm, ← hd]
  refine ⟨Real.sin_pos_of_pos_of_lt_pi d0 d1, ?_, ?_, ?_, Real.cos_pos_of_mem_Ioo ⟨by linarith, m1⟩,
    Real.sin_pos_of_pos_of_lt_pi m0 (by linarith)⟩
  · rw [Real.sin_add, Real.sin_sub]; ring
  · rw [Real.cos_add, Real.cos_sub]; ring
  · rw [Real.sin_two_mul]

/-- The arc inside the rectangle. -/
theorem inside_arc {r dx dy w : ℝ} (hr : 0 < r) (hx : r < dx) (hy : r < dy) (hw : u ≤ w) :
    r * Real.sin (Real.pi * (45 * u' - 45 * u) / 180) <
      dx * (Real.sin (Real.pi * (45 * u') / 180) - Real.sin (Real.pi * (45 * u) / 180)) +
        w * dy * (Real.cos (Real.pi * (45 * u) / 180) - Real.cos (Real.pi * (45 * u') / 180)) := by
  obtain ⟨a, b, c, d, e, f⟩ := half_angles h0 h h1
  rw [b, c, d]
  have hpi := Real.pi_pos
  obtain ⟨θ, hθ⟩ : ∃ θ, θ = Real.pi * (45 * u) / 180 := ⟨_, rfl⟩
  have hcos : Real.cos (Real.pi * (45 * (u' - u) / 2) / 180) =
      Real.cos (Real.pi * (45 * (u + u') / 2) / 180) * Real.cos θ + Real.sin (Real.pi * (45 * (u + u') / 2) / 180) * Real.sin θ := by
    rw [← Real.cos_sub]; congr 1; rw [hθ]; ring
  rw [hcos]
  set S := Real.sin (Real.pi * (45 * (u' - u) / 2) / 180)
  set C := Real.cos (Real.pi * (45 * (u + u') / 2) / 180)
  set T := Real.sin (Real.pi * (45 * (u + u') / 2) / 180)
  have t0 : 0 ≤ θ := by rw [hθ]; positivity
  have s1 : Real.sin θ ≤ u := by
    refine (Real.sin_le t0).trans ?_
    rw [hθ]
    have := Real.pi_le_four
    nlinarith
  have k1 : C * Real.cos θ ≤ C := by nlinarith [Real.cos_le_one θ]
  have k2 : T * Real.sin θ ≤ T * u := mul_le_mul_of_nonneg_left s1 f.le
  have k3 : r * C < dx * C := mul_lt_mul_of_pos_right hx e
  have k4 : r * (T * u) ≤ w * dy * T := by
    have : r * u ≤ dy * w := mul_le_mul hy.le hw h0 (hr.trans hy).le
    nlinarith
  have : r * (C * Real.cos θ + T * Real.sin θ) < dx * C + w * dy * T := by
    have := mul_le_mul_of_nonneg_left (add_le_add k1 k2) hr.le
    linarith
  nlinarith

/-- The arc outside the rectangle. -/
theorem outside_arc {r dx dy w : ℝ} (hr : 0 < r) (hx : 2 * dx ^ 2 < r ^ 2) (hy : 2 * dy ^ 2 < r ^ 2) (hx0 : 0 < dx) (hy0 : 0 < dy)
    (hw0 : 0 ≤ w) (hw : w ≤ u') :
    dx * (Real.sin (Real.pi * (45 * u') / 180) - Real.sin (Real.pi * (45 * u) / 180)) +
        w * dy * (Real.cos (Real.pi * (45 * u) / 180) - Real.cos (Real.pi * (45 * u') / 180)) <
      r * Real.sin (Real.pi * (45 * u' - 45 * u) / 180) := by
  obtain ⟨a, b, c, d, e, f⟩ := half_angles h0 h h1
  rw [b, c, d]
  have hpi := Real.pi_pos
  set S := Real.sin (Real.pi * (45 * (u' - u) / 2) / 180) with hS
  obtain ⟨m, hm⟩ : ∃ m, m = Real.pi * (45 * (u + u') / 2) / 180 := ⟨_, rfl⟩
  obtain ⟨D, hD⟩ : ∃ D, D = Real.pi * (45 * (u' - u) / 2) / 180 := ⟨_, rfl⟩
  rw [← hm] at e f ⊢
  rw [← hD]
  have q2 : Real.sqrt 2 * Real.sqrt 2 = 2 := Real.mul_self_sqrt (by norm_num)
  have q0 : 0 < Real.sqrt 2 := Real.sqrt_pos.2 (by norm_num)
  have hx' : Real.sqrt 2 * dx < r := by
    apply lt_of_pow_lt_pow_left₀ 2 hr.le
    rw [mul_pow, Real.sq_sqrt (by norm_num)]; exact hx
  have hy' : Real.sqrt 2 * dy < r := by
    apply lt_of_pow_lt_pow_left₀ 2 hr.le
    rw [mul_pow, Real.sq_sqrt (by norm_num)]; exact hy
  -- cos m + sin m = √2 cos (π/4 - m) ≤ √2 cos D
  have hsum : Real.cos m + Real.sin m = Real.sqrt 2 * Real.cos (Real.pi / 4 - m) := by
    rw [Real.cos_sub, Real.cos_pi_div_four, Real.sin_pi_div_four]
    linear_combination (-(1 : ℝ) / 2) * (Real.cos m + Real.sin m) * q2
  have hle : Real.cos (Real.pi / 4 - m) ≤ Real.cos D := by
    apply Real.cos_le_cos_of_nonneg_of_le_pi
    · rw [hD]; have := sub_pos.2 h; positivity
    · rw [hm]; nlinarith
    · rw [hm, hD]; nlinarith
  have k1 : dx * Real.cos m < r / Real.sqrt 2 * Real.cos m := by
    apply mul_lt_mul_of_pos_right _ e
    rw [lt_div_iff₀ q0]; linarith
  have k2 : w * dy * Real.sin m ≤ r / Real.sqrt 2 * Real.sin m := by
    apply mul_le_mul_of_nonneg_right _ f.le
    rw [le_div_iff₀ q0]
    have : w * dy ≤ 1 * dy := mul_le_mul_of_nonneg_right (hw.trans h1) hy0.le
    nlinarith
  have k3 : r / Real.sqrt 2 * (Real.cos m + Real.sin m) ≤ r * Real.cos D := by
    rw [hsum]
    have : r / Real.sqrt 2 * (Real.sqrt 2 * Real.cos (Real.pi / 4 - m)) = r * Real.cos (Real.pi / 4 - m) := by
      field_simp
    rw [this]
    exact mul_le_mul_of_nonneg_left hle hr.le
  have : dx * Real.cos m + w * dy * Real.sin m < r * Real.cos D := by linarith
  nlinarith

end

/-- The corners of the lower half are where a side of the rectangle and an arc of 45 degrees are. -/
theorem cross_half (r dx dy a b τ : ℝ) :
    crossXY (polar r (45 * b) - polar r (45 * a)) (![dx, τ * dy, 0] - polar r (45 * τ)) =
      -r * (dx * (Real.sin (Real.pi * (45 * b) / 180) - Real.sin (Real.pi * (45 * a) / 180)) +
        τ * dy * (Real.cos (Real.pi * (45 * a) / 180) - Real.cos (Real.pi * (45 * b) / 180)) -
        r * (Real.sin (Real.pi * (45 * b - 45 * τ) / 180) - Real.sin (Real.pi * (45 * a - 45 * τ) / 180))) ∧
    crossXY (![dx, b * dy, 0] - ![dx, a * dy, 0]) (![dx, τ * dy, 0] - polar r (45 * τ)) =
      -((b - a) * dy * (dx - r * Real.cos (Real.pi * (45 * τ) / 180))) := by
  have e1 : Real.pi * (45 * b - 45 * τ) / 180 = Real.pi * (45 * b) / 180 - Real.pi * (45 * τ) / 180 := by ring
  have e2 : Real.pi * (45 * a - 45 * τ) / 180 = Real.pi * (45 * a) / 180 - Real.pi * (45 * τ) / 180 := by ring
  rw [e1, e2, Real.sin_sub, Real.sin_sub]
  constructor <;>
    simp only [crossXY, polar, Pi.sub_apply, Matrix.cons_val_zero, Matrix.cons_val_one] <;> ring

theorem steps_half (a b : ℝ) :
    Real.sin (Real.pi * (45 * b - 45 * a) / 180) - Real.sin (Real.pi * (45 * a - 45 * a) / 180) =
      Real.sin (Real.pi * (45 * b - 45 * a) / 180) ∧
    Real.sin (Real.pi * (45 * b - 45 * b) / 180) - Real.sin (Real.pi * (45 * a - 45 * b) / 180) =
      Real.sin (Real.pi * (45 * b - 45 * a) / 180) := by
  constructor
  · simp
  · rw [show Real.pi * (45 * a - 45 * b) / 180 = -(Real.pi * (45 * b - 45 * a) / 180) by ring, Real.sin_neg]
    simp

section
variable {r dx dy a b : ℝ} (h0 : 0 ≤ a) (h : a < b) (h1 : b ≤ 1)
include h0 h h1

theorem lower_cross (hr : 0 < r) (hx : r < dx) (hy : r < dy) :
    crossXY (polar r (45 * b) - polar r (45 * a)) (![dx, a * dy, 0] - polar r (45 * a)) < 0 ∧
    crossXY (polar r (45 * b) - polar r (45 * a)) (![dx, b * dy, 0] - polar r (45 * b)) < 0 ∧
    crossXY (![dx, b * dy, 0] - ![dx, a * dy, 0]) (![dx, a * dy, 0] - polar r (45 * a)) < 0 ∧
    crossXY (![dx, b * dy, 0] - ![dx, a * dy, 0]) (![dx, b * dy, 0] - polar r (45 * b)) < 0 := by
  have i1 := inside_arc h0 h h1 hr hx hy le_rfl
  have i2 := inside_arc h0 h h1 hr hx hy h.le
  have side : ∀ τ, 0 < (b - a) * dy * (dx - r * Real.cos (Real.pi * (45 * τ) / 180)) := by
    intro τ
    have := mul_le_mul_of_nonneg_left (Real.cos_le_one (Real.pi * (45 * τ) / 180)) hr.le
    exact mul_pos (mul_pos (sub_pos.2 h) (hr.trans hy)) (by linarith)
  refine ⟨?_, ?_, ?_, ?_⟩
  · rw [(cross_half r dx dy a b a).1, (steps_half a b).1]
    have := mul_pos hr (sub_pos.2 i1)
    linarith
  · rw [(cross_half r dx dy a b b).1, (steps_half a b).2]
    have := mul_pos hr (sub_pos.2 i2)
    linarith
  · rw [(cross_half r dx dy a b a).2]; linarith [side a]
  · rw [(cross_half r dx dy a b b).2]; linarith [side b]

theorem outer_cross (hr : 0 < r) (hx0 : 0 < dx) (hy0 : 0 < dy) (hx : 2 * dx ^ 2 < r ^ 2) (hy : 2 * dy ^ 2 < r ^ 2) :
    crossXY (polar r (45 * b) - polar r (45 * a)) (polar r (45 * a) - ![dx, a * dy, 0]) < 0 ∧
    crossXY (polar r (45 * b) - polar r (45 * a)) (polar r (45 * b) - ![dx, b * dy, 0]) < 0 ∧
    crossXY (![dx, b * dy, 0] - ![dx, a * dy, 0]) (polar r (45 * a) - ![dx, a * dy, 0]) < 0 ∧
    crossXY (![dx, b * dy, 0] - ![dx, a * dy, 0]) (polar r (45 * b) - ![dx, b * dy, 0]) < 0 := by
  have i1 := outside_arc h0 h h1 hr hx hy hx0 hy0 h0 h.le
  have i2 := outside_arc h0 h h1 hr hx hy hx0 hy0 (h0.trans h.le) le_rfl
  have neg : ∀ x y z : V3 ℝ, crossXY x (y - z) = -crossXY x (z - y) := by
    intro x y z; simp only [crossXY, Pi.sub_apply]; ring
  have side : ∀ τ, 0 ≤ τ → τ ≤ 1 → 0 < (b - a) * dy * (r * Real.cos (Real.pi * (45 * τ) / 180) - dx) := by
    intro τ t0 t1
    have hpi := Real.pi_pos
    have c : Real.sqrt 2 / 2 ≤ Real.cos (Real.pi * (45 * τ) / 180) := by
      rw [← Real.cos_pi_div_four]
      apply Real.cos_le_cos_of_nonneg_of_le_pi
      · positivity
      · linarith
      · nlinarith
    have hx' : Real.sqrt 2 * dx < r := by
      apply lt_of_pow_lt_pow_left₀ 2 hr.le
      rw [mul_pow, Real.sq_sqrt (by norm_num)]; exact hx
    have q2 : Real.sqrt 2 * Real.sqrt 2 = 2 := Real.mul_self_sqrt (by norm_num)
    have q0 : 0 < Real.sqrt 2 := Real.sqrt_pos.2 (by norm_num)
    have k1 := mul_le_mul_of_nonneg_left c hr.le
    have k2 : dx < r * (Real.sqrt 2 / 2) := by nlinarith
    exact mul_pos (mul_pos (sub_pos.2 h) hy0) (by linarith)
  refine ⟨?_, ?_, ?_, ?_⟩
  · rw [neg, (cross_half r dx dy a b a).1, (steps_half a b).1]
    have := mul_pos hr (sub_pos.2 i1)
    linarith
  · rw [neg, (cross_half r dx dy a b b).1, (steps_half a b).2]
    have := mul_pos hr (sub_pos.2 i2)
    linarith
  · rw [neg, (cross_half r dx dy a b a).2]; linarith [side a h0 (h.le.trans h1)]
  · rw [neg, (cross_half r dx dy a b b).2]; linarith [side b (h0.trans h.le) h1]

end

theorem cross_flip (x y z : V3 ℝ) : crossXY (x - y) z = -crossXY (y - x) z := by
  simp only [crossXY, Pi.sub_apply]; ring

theorem cross_swap_sub (a b c d : V3 ℝ) :
    crossXY (swapXY a - swapXY b) (swapXY c - swapXY d) = -crossXY (a - b) (c - d) := by
  simp only [crossXY, swapXY, Pi.sub_apply, Matrix.cons_val_zero, Matrix.cons_val_one]; ring

theorem upper_polar (r u : ℝ) : polar r (90 - 45 * u) = swapXY (polar r (45 * u)) := by
  have : Real.pi * (90 - 45 * u) / 180 = Real.pi / 2 - Real.pi * (45 * u) / 180 := by ring
  funext ax
  fin_cases ax <;> simp [polar, swapXY, this, Real.cos_pi_div_two_sub, Real.sin_pi_div_two_sub]

theorem upper_side (dx dy u : ℝ) : (![u * dx, dy, 0] : V3 ℝ) = swapXY ![dy, u * dx, 0] := by
  funext ax; fin_cases ax <;> simp [swapXY]

/-- **C128 (SectorRectangle, refuted).** The cells are all convex, but those below the diagonal are counterclockwise and
those above it clockwise: for every radius, size and subdivision. -/
theorem C128_sectorRectangle_refuted {area : Arr3 (V3 ℝ) → List ℝ} {radius dx dy : ℝ} {rres tres : Resolution ℝ}
    {rm tm : Option String} (fr : Forward rres rm) (ft : Forward tres tm)
    (same : resolutionToPerc tres tm = resolutionToPerc tres none) {c : Option (List ℝ)} {A B : SGrid ℝ δ}
    (h : sectorRectangle area radius dx dy rres tres rm tm c = .ok (A, B)) :
    (∀ q ∈ gridQuads A, TurnsLeft q) ∧ ∀ q ∈ gridQuads B, TurnsRight q := by
  obtain ⟨r0, rx, ry, ls, ts, rs, v, h1, h2, h3, _, h5, h6, _, h8⟩ := C63_sectorRectangle_nodes h
  have := ft _ h1
  rw [same, h2] at h1; cases h1
  have hft := this
  have hfr := fr _ h3
  have g1 : ∀ t : ℝ, (45 : ℝ) - 45 * t = 45 * (1 - t) := fun t => by ring
  have g2 : ∀ t : ℝ, (45 : ℝ) + 45 * t = 90 - 45 * (1 - t) := fun t => by ring
  constructor
  · intro q hq
    obtain ⟨p, k, t, t', s, s', a1, a2, a3, a4, rfl⟩ := (mem_gridQuads h5
      (f := fun t s => v + between s (polar radius (45 - 45 * t)) ![dx, (1 - t) * dy, 0])
      (fun p q t s ht hs => (h8 p q t t s ht ht hs).1)).1 hq
    obtain ⟨t0, lt, t1⟩ := forward_step hft a1 a2
    obtain ⟨s0, ls, s1⟩ := forward_step hfr a3 a4
    simp only [g1]
    obtain ⟨c1, c2, c3, c4⟩ := lower_cross (a := 1 - t') (b := 1 - t) (by linarith) (by linarith) (by linarith) r0 rx ry
    refine between_left s0 ls s1 ?_ ?_ ?_ ?_ <;> rw [cross_flip] <;> linarith
  · intro q hq
    obtain ⟨p, k, t, t', s, s', a1, a2, a3, a4, rfl⟩ := (mem_gridQuads h6
      (f := fun t s => v + between s (polar radius (45 + 45 * t)) ![(1 - t) * dx, dy, 0])
      (fun p q t s ht hs => (h8 p q t t s ht ht hs).2)).1 hq
    obtain ⟨t0, lt, t1⟩ := forward_step hft a1 a2
    obtain ⟨s0, ls, s1⟩ := forward_step hfr a3 a4
    simp only [g2, upper_polar, upper_side]
    obtain ⟨c1, c2, c3, c4⟩ := lower_cross (a := 1 - t') (b := 1 - t) (by linarith) (by linarith) (by linarith) r0 ry rx
    refine between_right s0 ls s1 ?_ ?_ ?_ ?_ <;> rw [cross_swap_sub, cross_flip] <;> linarith

/-- **C128 (RectangleSector, refuted).** If the arc leaves the largest square out (`radius > √2 max(dx, dy)`), the cells
are all convex, but those below the diagonal are counterclockwise and those above it clockwise. -/
theorem C128_rectangleSector_refuted {area : Arr3 (V3 ℝ) → List ℝ} {radius dx dy : ℝ} (hr : 0 < radius) (hx0 : 0 < dx)
    (hy0 : 0 < dy) (hx : 2 * dx ^ 2 < radius ^ 2) (hy : 2 * dy ^ 2 < radius ^ 2) {xres yres rres : Resolution ℝ}
    {xm ym rm : Option String} (fx : Forward xres xm) (fy : Forward yres ym) (fr : Forward rres rm)
    {c : Option (List ℝ)} {A B : SGrid ℝ δ}
    (h : rectangleSector area dx dy radius xres yres rres xm ym rm c = .ok (A, B)) :
    (∀ q ∈ gridQuads A, TurnsLeft q) ∧ ∀ q ∈ gridQuads B, TurnsRight q := by
  obtain ⟨xs, ys, rs, v, h1, h2, h3, _, h5, h6, h7, h8⟩ := C63_rectangleSector_nodes h
  have hfx := fx _ h1
  have hfy := fy _ h2
  have hfr := fr _ h3
  have g1 : ∀ t : ℝ, (45 : ℝ) - 45 * t = 45 * (1 - t) := fun t => by ring
  have g2 : ∀ t : ℝ, (45 : ℝ) + 45 * t = 90 - 45 * (1 - t) := fun t => by ring
  constructor
  · intro q hq
    obtain ⟨p, k, t, t', s, s', a1, a2, a3, a4, rfl⟩ := (mem_gridQuads h5
      (f := fun t s => v + between s ![dx, (1 - t) * dy, 0] (polar radius (45 - 45 * t))) h7).1 hq
    obtain ⟨t0, lt, t1⟩ := forward_step hfy a1 a2
    obtain ⟨s0, ls, s1⟩ := forward_step hfr a3 a4
    simp only [g1]
    obtain ⟨c1, c2, c3, c4⟩ := outer_cross (a := 1 - t') (b := 1 - t) (by linarith) (by linarith) (by linarith) hr hx0 hy0
      hx hy
    refine between_left s0 ls s1 ?_ ?_ ?_ ?_ <;> rw [cross_flip] <;> linarith
  · intro q hq
    obtain ⟨p, k, t, t', s, s', a1, a2, a3, a4, rfl⟩ := (mem_gridQuads h6
      (f := fun t s => v + between s ![(1 - t) * dx, dy, 0] (polar radius (45 + 45 * t))) h8).1 hq
    obtain ⟨t0, lt, t1⟩ := forward_step hfx a1 a2
    obtain ⟨s0, ls, s1⟩ := forward_step hfr a3 a4
    simp only [g2, upper_polar, upper_side]
    obtain ⟨c1, c2, c3, c4⟩ := outer_cross (a := 1 - t') (b := 1 - t) (by linarith) (by linarith) (by linarith) hr hy0 hx0
      hy hx
    refine between_right s0 ls s1 ?_ ?_ ?_ ?_ <;> rw [cross_swap_sub, cross_flip] <;> linarith

/-- **C128 (RectangleSector, reflex corners).** If the rectangle reaches beyond the point of the arc at 45 degrees
(`radius < √2 dx`, which is accepted as soon as the arc leaves the rectangle out), some cell below the diagonal has a
corner where it turns right and some cell a corner where it turns left, whatever the subdivision. -/
theorem C128_reflex_refuted {area : Arr3 (V3 ℝ) → List ℝ} {radius dx dy : ℝ} (hr : 0 < radius) (hy0 : 0 < dy)
    (hx0 : 0 < dx) (hx : radius ^ 2 < 2 * dx ^ 2) {xres : Resolution ℝ} {ny nr : ℤ} {xm ym rm : Option String}
    (hym : Supported ym) (hrm : Supported rm) {c : Option (List ℝ)} {A B : SGrid ℝ δ}
    (h : rectangleSector area dx dy radius xres (.int ny) (.int nr) xm ym rm c = .ok (A, B)) :
    (∃ q ∈ gridQuads A, ∃ i < 4, turnAt q i < 0) ∧ ∃ q ∈ gridQuads A, ∃ i < 4, 0 < turnAt q i := by
  have hdiag : Real.sqrt (dx ^ 2 + dy ^ 2) ≤ radius := by
    unfold rectangleSector at h
    split at h
    · cases h
    · rename_i hn
      by_contra hlt
      exact hn ⟨hr, not_le.1 hlt⟩
  have hrx : dx < radius := by
    refine lt_of_lt_of_le ?_ hdiag
    apply Real.lt_sqrt_of_sq_lt
    nlinarith [pow_pos hy0 2]
  obtain ⟨xs, ys, rs, v, h1, h2, h3, _, h5, h6, h7, h8⟩ := C63_rectangleSector_nodes h
  obtain ⟨ys', g, subY, _⟩ := C11_integer_resolution ny ym hym
  rw [h2] at g; cases g
  obtain ⟨rs', g, subR, _⟩ := C11_integer_resolution nr rm hrm
  rw [h3] at g; cases g
  have ny1 : 1 ≤ (max 1 ny).toNat := by omega
  have nr1 : 1 ≤ (max 1 nr).toNat := by omega
  have hfy := forward_int ny hym _ h2
  have hfr := forward_int nr hrm _ h3
  have sy := subY.size
  have sr := subR.size
  obtain ⟨y, y1⟩ : ∃ y, ys[1]? = some y := ⟨_, List.getElem?_eq_getElem (show 1 < ys.length by omega)⟩
  obtain ⟨ρ, r1⟩ : ∃ ρ, rs[1]? = some ρ := ⟨_, List.getElem?_eq_getElem (show 1 < rs.length by omega)⟩
  obtain ⟨_, ly, _⟩ := forward_step hfy subY.first y1
  obtain ⟨_, lr, _⟩ := forward_step hfr subR.first r1
  have corner : ∀ (q : List (V3 ℝ)) (a b c d : V3 ℝ), q = [a, b, c, d] → turnAt q 3 = turnZ d a b ∧ turnAt q 0 = turnZ a b c := by
    rintro q a b c d rfl
    exact ⟨by simp [turnAt, cornerOf], by simp [turnAt, cornerOf]⟩
  have q2 : Real.sqrt 2 * Real.sqrt 2 = 2 := Real.mul_self_sqrt (by norm_num)
  have q0 : 0 < Real.sqrt 2 := Real.sqrt_pos.2 (by norm_num)
  constructor
  · refine ⟨_, (mem_gridQuads h5 (f := fun t s => v + between s ![dx, (1 - t) * dy, 0] (polar radius (45 - 45 * t))) h7).2
      ⟨0, 0, _, _, _, _, subY.first, y1, subR.first, r1, rfl⟩, 3, by norm_num, ?_⟩
    rw [(corner _ _ _ _ _ rfl).1, (turns_between v _ _ _ _ _ _).2.2.2]
    have hlt : radius < Real.sqrt 2 * dx := by
      apply lt_of_pow_lt_pow_left₀ 2 (by positivity)
      rw [mul_pow, Real.sq_sqrt (by norm_num)]; exact hx
    have e45 : Real.pi * (45 - 45 * 0) / 180 = Real.pi / 4 := by ring
    have k : radius * (Real.sqrt 2 / 2) < dx := by nlinarith
    have e : crossXY (![dx, (1 - y) * dy, 0] - ![dx, (1 - 0) * dy, 0]) (polar radius (45 - 45 * 0) - ![dx, (1 - 0) * dy, 0]) =
        y * dy * (radius * (Real.sqrt 2 / 2) - dx) := by
      simp only [crossXY, polar, Pi.sub_apply, Matrix.cons_val_zero, Matrix.cons_val_one, e45, Real.cos_pi_div_four]
      ring
    rw [e]
    have := mul_pos (mul_pos lr (mul_pos ly hy0)) (sub_pos.2 k)
    nlinarith
  · have last := subY.last
    obtain ⟨m, hm⟩ : ∃ m, (max 1 ny).toNat = m + 1 := ⟨(max 1 ny).toNat - 1, by omega⟩
    rw [hm] at last
    obtain ⟨z, ym'⟩ : ∃ z, ys[m]? = some z := ⟨_, List.getElem?_eq_getElem (show m < ys.length by omega)⟩
    obtain ⟨_, lm, _⟩ := forward_step hfy ym' last
    refine ⟨_, (mem_gridQuads h5 (f := fun t s => v + between s ![dx, (1 - t) * dy, 0] (polar radius (45 - 45 * t))) h7).2
      ⟨m, 0, _, _, _, _, ym', last, subR.first, r1, rfl⟩, 0, by norm_num, ?_⟩
    rw [(corner _ _ _ _ _ rfl).2, (turns_between v _ _ _ _ _ _).1]
    have e : crossXY (![dx, (1 - 1) * dy, 0] - ![dx, (1 - z) * dy, 0]) (polar radius (45 - 45 * 1) - ![dx, (1 - 1) * dy, 0]) =
        (1 - z) * dy * (radius - dx) := by
      simp [crossXY, polar]
    rw [e]
    have := mul_pos (mul_pos lr (mul_pos (sub_pos.2 lm) hy0)) (sub_pos.2 hrx)
    nlinarith

/-- The shapes above, with cells, for every size and number of parts. -/
example (area : Arr3 (V3 ℝ) → List ℝ) {radius dx dy : ℝ} (hr : 0 < radius) (hx : radius < dx) (hy : radius < dy) (nr nt : ℤ) :
    ∃ A B : SGrid ℝ ℤ, sectorRectangle area radius dx dy (.int nr) (.int nt) (some "log") none none = .ok (A, B) ∧
      (∃ q ∈ gridQuads A, TurnsLeft q) ∧ ∃ q ∈ gridQuads B, TurnsRight q := by
  obtain ⟨A, B, h⟩ := C63_sectorRectangle_exists (δ := ℤ) area hr hx hy nr nt (rm := some "log") (Or.inr (Or.inl rfl))
    (tm := none) (Or.inl rfl) (c := none) (v := 0) (Or.inl ⟨rfl, rfl⟩)
  obtain ⟨k1, k2⟩ := C128_sectorRectangle_refuted (forward_int nr (Or.inr (Or.inl rfl))) (forward_int nt (Or.inl rfl)) rfl h
  obtain ⟨_, _, _, ls, ts, rs, v, _, g2, g3, _, g5, g6, _⟩ := C63_sectorRectangle_nodes h
  rw [partsOf_size (Or.inl rfl) g2, partsOf_size (Or.inr (Or.inl rfl)) g3] at g5 g6
  have pos : 0 < partsOf nt * partsOf nr := Nat.mul_pos (partsOf_pos nt) (partsOf_pos nr)
  obtain ⟨q, hq⟩ := List.exists_mem_of_length_pos (l := gridQuads A) (by rw [gridQuads_length g5]; exact pos)
  obtain ⟨q', hq'⟩ := List.exists_mem_of_length_pos (l := gridQuads B) (by rw [gridQuads_length g6]; exact pos)
  exact ⟨A, B, h, ⟨q, hq, k1 q hq⟩, q', hq', k2 q' hq'⟩

example (area : Arr3 (V3 ℝ) → List ℝ) : ∃ A B : SGrid ℝ ℤ,
    rectangleSector area 10 1 11 (.int 2) (.int 4) (.int 3) none none none none = .ok (A, B) ∧
      ∃ q ∈ gridQuads A, ∃ i < 4, turnAt q i < 0 := by
  obtain ⟨A, B, h⟩ := C63_rectangleSector_exists (δ := ℤ) area (radius := 11) (dx := 10) (dy := 1)
    (by rw [Real.sqrt_le_left (by norm_num)]; norm_num) 2 4 3 (xm := none) (ym := none) (rm := none) (Or.inl rfl) (Or.inl rfl) (Or.inl rfl) (c := none) (v := 0)
    (Or.inl ⟨rfl, rfl⟩)
  exact ⟨A, B, h, (C128_reflex_refuted (by norm_num) (by norm_num) (by norm_num) (by norm_num) (Or.inl rfl) (Or.inl rfl) h).1⟩

/-! ## The well -/

theorem turn_quarter (a b c : Fin 3 → ℝ) : turnZ (quarterTurn a) (quarterTurn b) (quarterTurn c) = turnZ a b c := by
  simp only [turnZ, quarterTurn, Matrix.cons_val_zero, Matrix.cons_val_one]; ring

theorem turn_quarters (k : ℕ) (a b c : Fin 3 → ℝ) :
    turnZ (quarterTurn^[k] a) (quarterTurn^[k] b) (quarterTurn^[k] c) = turnZ a b c := by
  induction k with
  | zero => rfl
  | succ k ih => simp only [Function.iterate_succ_apply', turn_quarter, ih]

theorem turnAt_quarters (k : ℕ) (c : List (Fin 3 → ℝ)) (i : ℕ) : turnAt (c.map quarterTurn^[k]) i = turnAt c i := by
  have h0 : ∀ k : ℕ, quarterTurn^[k] 0 = 0 := by
    intro k
    induction k with
    | zero => rfl
    | succ k ih => rw [Function.iterate_succ_apply', ih]; funext ax; fin_cases ax <;> simp [quarterTurn]
  have e : ∀ j, cornerOf (c.map quarterTurn^[k]) j = quarterTurn^[k] (cornerOf c j) := by
    intro j
    simp only [cornerOf, List.length_map, List.getD_eq_getElem?_getD, List.getElem?_map]
    cases c[j % c.length]? with
    | none => simp [h0]
    | some x => rfl
  simp only [turnAt, e, turn_quarters]

theorem rings_turn {area : Arr3 (V3 ℝ) → List ℝ} {m : ℤ} : ∀ (rings : List (ℝ × ℝ × ℤ × String)) {a b : ℝ}, 0 < a →
    RingsFit a rings b → ∀ {parts : List WellPart}, wellRings δ area m rings = .ok parts →
    ∀ p ∈ parts, ∀ c ∈ p.cells, TurnsRight c
  | [], _, _, _, _, parts, h => by cases h; simp
  | (ri, ro, nr, g) :: rest, a, b, h0, hf, parts, h => by
    obtain ⟨rfl, h1, h2⟩ := hf
    simp only at h0 h1 h2
    simp only [wellRings] at h
    obtain ⟨M, hM, h⟩ := bind_ok.1 h
    obtain ⟨more, hmore, h⟩ := bind_ok.1 h
    cases h
    intro p hp
    rcases List.mem_cons.1 hp with rfl | hp
    · have hn : (1 : ℝ) ≤ ((max 1 m : ℤ) : ℝ) := by exact_mod_cast (le_max_left 1 m)
      exact C128_annularSector_partial h0 (forward_int nr (Or.inl rfl)) (smallSteps_int (by norm_num) (by linarith)) hM
    · exact rings_turn rest (h0.trans h1) h2 hmore p hp

/-- The cells of the parts of a well. -/
theorem quarter_turn {area : Arr3 (V3 ℝ) → List ℝ} {w : WellNumbers} (hw : WellSizes w) {parts : List WellPart}
    (h : wellQuarter δ area w = .ok parts) : (∀ p ∈ parts, ∀ c ∈ p.cells, TurnsLeft c ∨ TurnsRight c) ∧
      (∃ p ∈ parts, ∃ c ∈ p.cells, TurnsLeft c) ∧ ∃ p ∈ parts, ∃ c ∈ p.cells, TurnsRight c := by
  have hcore : w.core ≤ w.radius := by
    have : ∀ (rings : List (ℝ × ℝ × ℤ × String)) {a b : ℝ}, RingsFit a rings b → a ≤ b := by
      intro rings
      induction rings with
      | nil => intro a b h; exact le_of_eq h
      | cons r rest ih =>
        rintro a b ⟨_, h1, h2⟩
        exact h1.le.trans (ih h2)
    exact this _ hw.rings
  have hside : 0 < w.side := (hw.core_pos.trans_le hcore).trans hw.side
  simp only [wellQuarter] at h
  obtain ⟨T, hT, h⟩ := bind_ok.1 h
  obtain ⟨rp, hrp, h⟩ := bind_ok.1 h
  obtain ⟨⟨A, B⟩, hAB, h⟩ := bind_ok.1 h
  obtain ⟨R1, h1, h⟩ := bind_ok.1 h
  obtain ⟨R2, h2, h⟩ := bind_ok.1 h
  obtain ⟨R3, h3, h⟩ := bind_ok.1 h
  cases h
  have hn : (1 : ℝ) ≤ ((max 1 w.angular : ℤ) : ℝ) := by exact_mod_cast (le_max_left 1 w.angular)
  have tT := C128_sector_partial (smallSteps_int (n := w.angular) (a := 0) (b := 90) (by norm_num) (by linarith)) hT
  have tR := rings_turn _ hw.core_pos hw.rings hrp
  obtain ⟨tA, tB⟩ := C128_sectorRectangle_refuted (forward_int w.radial hw.method) (forward_int w.half (Or.inl rfl)) rfl hAB
  have fI := fun n : ℤ => forward_int n (m := none) (Or.inl rfl)
  have t1 := C128_rectangle_partial hw.width hside (fI _) (fI _) h1
  have t2 := C128_rectangle_partial hw.width hw.width (fI _) (fI _) h2
  have t3 := C128_rectangle_partial hside hw.width (fI _) (fI _) h3
  obtain ⟨_, _, _, ls, ts, rs, v, _, g2, g3, _, g5, g6, _⟩ := C63_sectorRectangle_nodes hAB
  rw [partsOf_size (Or.inl rfl) g2, partsOf_size hw.method g3] at g5 g6
  have pos : 0 < partsOf w.half * partsOf w.radial := Nat.mul_pos (partsOf_pos _) (partsOf_pos _)
  obtain ⟨q, hq⟩ := List.exists_mem_of_length_pos (l := gridQuads A) (by rw [gridQuads_length g5]; exact pos)
  obtain ⟨q', hq'⟩ := List.exists_mem_of_length_pos (l := gridQuads B) (by rw [gridQuads_length g6]; exact pos)
  refine ⟨?_, ⟨halvesPart A B w.outerGroup, by simp, q, List.mem_append_left _ hq, tA q hq⟩,
    halvesPart A B w.outerGroup, by simp, q', List.mem_append_right _ hq', tB q' hq'⟩
  intro p hp c hc
  simp only [List.cons_append, List.mem_cons, List.mem_append, List.not_mem_nil, or_false] at hp
  rcases hp with rfl | hp | rfl | rfl | rfl | rfl
  · obtain ⟨q, hq, rfl⟩ := List.mem_map.1 hc
    exact Or.inl (tT q hq)
  · exact Or.inr (tR p hp c hc)
  · rcases List.mem_append.1 hc with hc | hc
    · exact Or.inl (tA c hc)
    · exact Or.inr (tB c hc)
  · exact Or.inl (t1 c hc)
  · exact Or.inl (t2 c hc)
  · exact Or.inl (t3 c hc)

/-- **C128 (the well, refuted).** The cells of load_well_2d are all convex, but some are counterclockwise and others
clockwise. -/
theorem C128_well_refuted {area : Arr3 (V3 ℝ) → List ℝ}
    {append : List (List (V3 ℝ) × Int) → List (List (V3 ℝ) × Int) → List (List (V3 ℝ) × Int)}
    (happ : ∀ a b, (append a b).Perm (a ++ b)) :
    ∃ out table, loadWell2d δ area append = .ok (out, table) ∧ (∀ gc ∈ out, TurnsLeft gc.1 ∨ TurnsRight gc.1) ∧
      (∃ gc ∈ out, TurnsLeft gc.1) ∧ ∃ gc ∈ out, TurnsRight gc.1 := by
  obtain ⟨parts, h1, h2, _⟩ := C127_conforming (δ := δ) area wellNumbers_fit
  obtain ⟨k1, ⟨p, hp, c, hc, hl⟩, p', hp', c', hc', hl'⟩ := quarter_turn wellNumbers_fit.toWellSizes h1
  have hcnt := wellQuarter_counts wellNumbers_fit.method h1
  have hname : ∀ p ∈ parts, p.group ≠ "" := by
    intro p hp
    have := List.mem_map_of_mem (f := fun p : WellPart => (p.group, p.cells.length)) hp
    rw [hcnt] at this
    simp only [wellCounts, wellNumbers, List.map_cons, List.map_nil, List.cons_append, List.nil_append, List.mem_cons,
      List.not_mem_nil, or_false, Prod.mk.injEq] at this
    rcases this with h | h | h | h | h | h | h | h | h | h | h <;> rw [h.1] <;> decide
  obtain ⟨out, table, g1, g2, g3, g4⟩ := C127_groups happ (List.ne_nil_of_mem hp) hname
  have turn : ∀ (k : ℕ) (c : List (V3 ℝ)), (TurnsLeft (c.map quarterTurn^[k]) ↔ TurnsLeft c) ∧
      (TurnsRight (c.map quarterTurn^[k]) ↔ TurnsRight c) := by
    intro k c
    simp only [TurnsLeft, TurnsRight, List.length_map, turnAt_quarters, and_self]
  have back : ∀ p ∈ parts, ∀ c ∈ p.cells, ∃ gc ∈ out, gc.1 = c := by
    intro p hp c hc
    have : (c, some p.group) ∈ (List.range 4).flatMap fun k => parts.flatMap fun p =>
        p.cells.map fun c => (c.map quarterTurn^[k], some p.group) := by
      refine List.mem_flatMap.2 ⟨0, by simp, List.mem_flatMap.2 ⟨p, hp, List.mem_map.2 ⟨c, hc, by simp⟩⟩⟩
    obtain ⟨gc, a, e⟩ := List.mem_map.1 (g4.mem_iff.2 this)
    exact ⟨gc, a, congrArg Prod.fst e⟩
  refine ⟨out, table, by simp only [loadWell2d, h1, g1], ?_, ?_, ?_⟩
  · intro gc hgc
    have := g4.mem_iff.1 (List.mem_map_of_mem (f := fun gc : List (V3 ℝ) × Int => (gc.1, nameOf table gc.2)) hgc)
    obtain ⟨k, _, hk⟩ := List.mem_flatMap.1 this
    obtain ⟨p, hp, hk⟩ := List.mem_flatMap.1 hk
    obtain ⟨c, hc, e⟩ := List.mem_map.1 hk
    have e1 : c.map quarterTurn^[k] = gc.1 := congrArg Prod.fst e
    rw [← e1, (turn k c).1, (turn k c).2]
    exact k1 p hp c hc
  · obtain ⟨gc, a, e⟩ := back p hp c hc
    exact ⟨gc, a, by rw [e]; exact hl⟩
  · obtain ⟨gc, a, e⟩ := back p' hp' c' hc'
    exact ⟨gc, a, by rw [e]; exact hl'⟩

end Gridder
