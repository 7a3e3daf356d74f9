import Verif.Props.Frames
import Verif.Props.WellAreas

/-!
# C149: the cells of the well cover the square
-/

namespace Gridder
open Spec

/-- The region of a cell with its corners in convex position. -/
def Spec.cellHull (c : List (Fin 3 → ℝ)) : Set (Fin 3 → ℝ) := convexHull ℝ {x | x ∈ c}

/-! ## Around a polygon -/

/-- Lines that begin on a polygon with its corners in a quarter plane and go away from its centre in both directions cover the points outside the
polygon. -/
theorem fans_covers_chord {σ z : ℝ} {n m : ℕ} {P Q : ℕ → V3 ℝ} {Y : ℕ → ℝ} {node : ℕ → ℕ → V3 ℝ}
    (hf : Fans σ z n P Q) (hn : 0 < n) (hm : 0 < m) (hY : ∀ q < m, Y q < Y (q + 1)) (hY0 : Y 0 = 0) (hY1 : Y m = 1)
    (hnode : ∀ p ≤ n, ∀ q ≤ m, node p q = between (Y q) (P p) (Q p)) {x : V3 ℝ} (hx : x 2 = z)
    (first : 0 ≤ σ * crossXY (x - P 0) (Q 0 - P 0)) (last : σ * crossXY (x - P n) (Q n - P n) ≤ 0)
    (high : ∀ p < n, σ * crossXY (Q (p + 1) - Q p) (x - Q p) ≤ 0)
    (away : ∀ p ≤ n, 0 ≤ Q p 0 - P p 0 ∧ 0 ≤ Q p 1 - P p 1 ∧ 0 < Q p 0 - P p 0 + (Q p 1 - P p 1))
    {a b d : ℝ} (ha : 0 < a) (hb : 0 < b) (below : ∀ p ≤ n, a * P p 0 + b * P p 1 ≤ d) (out : d ≤ a * x 0 + b * x 1) :
    ∃ p < n, ∃ q < m, x ∈ quadRegion node p q := by
  obtain ⟨p, hp, h1, h2⟩ := fans_strip hn first last
  refine ⟨p, hp, (fans_whole hf hm hY hY0 hY1 hnode hp).2 ?_⟩
  obtain ⟨u, v, u0, u1, v1, _, e⟩ := line_bends (hf.bends p (p + 1) (Nat.lt_succ_self p) hp) ⟨(hf.flat p hp.le).1,
    (hf.flat (p + 1) hp).1, (hf.flat p hp.le).2, (hf.flat (p + 1) hp).2, hx⟩ h1 h2 (high p hp)
  refine ⟨u, v, u0, u1, ?_, v1, e⟩
  by_contra hv
  push Not at hv
  have e0 := congrFun e 0
  have e1 := congrFun e 1
  rw [around_point] at e0 e1
  have w0 : 0 ≤ 1 - u := by linarith
  have step : ∀ k ≤ n, 0 < a * (Q k 0 - P k 0) + b * (Q k 1 - P k 1) := by
    intro k hk
    obtain ⟨a1, a2, a3⟩ := away k hk
    have m1 := mul_nonneg ha.le a1
    have m2 := mul_nonneg hb.le a2
    rcases a1.eq_or_lt with h | h
    · have := mul_pos hb (show 0 < Q k 1 - P k 1 by linarith); linarith
    · have := mul_pos ha h; linarith
  have g1 := step p hp.le
  have g2 := step (p + 1) hp
  have b1 := below p hp.le
  have b2 := below (p + 1) hp
  have eq : a * x 0 + b * x 1 = (1 - u) * (a * P p 0 + b * P p 1) + u * (a * P (p + 1) 0 + b * P (p + 1) 1) +
      v * ((1 - u) * (a * (Q p 0 - P p 0) + b * (Q p 1 - P p 1)) + u * (a * (Q (p + 1) 0 - P (p + 1) 0) + b * (Q (p + 1) 1 - P (p + 1) 1))) := by
    rw [e0, e1]; ring
  have pos : 0 < (1 - u) * (a * (Q p 0 - P p 0) + b * (Q p 1 - P p 1)) + u * (a * (Q (p + 1) 0 - P (p + 1) 0) + b * (Q (p + 1) 1 - P (p + 1) 1)) := by
    rcases u0.eq_or_lt with h | h
    · rw [← h]; simpa using g1
    · have := mul_nonneg w0 g1.le; have := mul_pos h g2; linarith
  have neg := mul_neg_of_neg_of_pos hv pos
  have c1 := mul_le_mul_of_nonneg_left b1 w0
  have c2 := mul_le_mul_of_nonneg_left b2 u0
  have : (1 - u) * d + u * d = d := by ring
  linarith

/-- The cells of SectorRectangle with equal parts of the arc cover every point of the rectangle beyond a chord. -/
theorem halves_cover {r dx dy : ℝ} (hr : 0 < r) (hx : r < dx) (hy : r < dy) {n m : ℕ} {ts rs : List ℝ} (st : Subdivision n ts)
    (sr : Subdivision m rs) {nodeA nodeB : ℕ → ℕ → V3 ℝ}
    (hA : ∀ p ≤ n, ∀ q ≤ m, nodeA p q = between (rs.getD q 0) (polar r (45 - 45 * ts.getD p 0)) ![dx, (1 - ts.getD p 0) * dy, 0])
    (hB : ∀ p ≤ n, ∀ q ≤ m, nodeB p q = between (rs.getD q 0) (polar r (45 + 45 * ts.getD p 0)) ![(1 - ts.getD p 0) * dx, dy, 0])
    {x : V3 ℝ} (z : x 2 = 0) (x0 : 0 ≤ x 0) (x1 : x 0 ≤ dx) (x2 : 0 ≤ x 1) (x3 : x 1 ≤ dy) {a b d : ℝ} (ha : 0 < a) (hb : 0 < b)
    (below : ∀ p ≤ n, a * polar r (45 - 45 * ts.getD p 0) 0 + b * polar r (45 - 45 * ts.getD p 0) 1 ≤ d ∧
      a * polar r (45 + 45 * ts.getD p 0) 0 + b * polar r (45 + 45 * ts.getD p 0) 1 ≤ d) (out : d ≤ a * x 0 + b * x 1) :
    ∃ p < n, ∃ q < m, x ∈ quadRegion nodeA p q ∪ quadRegion nodeB p q := by
  have hn := subdivision_pos st
  have hm := subdivision_pos sr
  have t0 : ts.getD 0 0 = 0 := by rw [List.getD_eq_getElem?_getD, st.first]; rfl
  have tn : ts.getD n 0 = 1 := by rw [List.getD_eq_getElem?_getD, st.last]; rfl
  have y0 : rs.getD 0 0 = 0 := by rw [List.getD_eq_getElem?_getD, sr.first]; rfl
  have y1 : rs.getD m 0 = 1 := by rw [List.getD_eq_getElem?_getD, sr.last]; rfl
  have hY : ∀ q < m, rs.getD q 0 < rs.getD (q + 1) 0 := fun q hq => (getD_rising sr (Nat.lt_succ_self q) hq).2.1
  have fA : Fans 1 0 n (fun p => polar r (45 - 45 * ts.getD p 0)) (fun p => ![dx, (1 - ts.getD p 0) * dy, 0]) := by
    refine ⟨fun p hp => ⟨by simp [polar], by simp⟩, fun p p' hpp hp' => ?_⟩
    obtain ⟨a, b, c⟩ := getD_rising st hpp hp'
    have := (inner_bends hr hx hy a b c b le_rfl le_rfl 0).1
    simpa only [zero_add] using this
  have fB : Fans (-1) 0 n (fun p => polar r (45 + 45 * ts.getD p 0)) (fun p => ![(1 - ts.getD p 0) * dx, dy, 0]) := by
    refine ⟨fun p hp => ⟨by simp [polar], by simp⟩, fun p p' hpp hp' => ?_⟩
    obtain ⟨a, b, c⟩ := getD_rising st hpp hp'
    have := (inner_bends hr hx hy a b c b le_rfl le_rfl 0).2
    simpa only [zero_add] using this
  have dx0 : 0 < dx := hr.trans hx
  have dy0 : 0 < dy := hr.trans hy
  rcases le_total 0 (1 * crossXY (x - polar r (45 - 45 * ts.getD 0 0)) (![dx, (1 - ts.getD 0 0) * dy, 0] - polar r (45 - 45 * ts.getD 0 0))) with hs | hs
  · suffices h : ∃ p < n, ∃ q < m, x ∈ quadRegion nodeA p q by
      obtain ⟨p, hp, q, hq, h⟩ := h
      exact ⟨p, hp, q, hq, Or.inl h⟩
    refine fans_covers_chord (x := x) fA hn hm hY y0 y1 hA z hs ?_ ?_ ?_ ha hb (fun p hp => (below p hp).1) out
    · simp only [tn, mul_one, sub_self, (polar_quarters r).1, crossXY, Pi.sub_apply, Matrix.cons_val_zero, Matrix.cons_val_one]
      have := mul_nonneg x2 (sub_nonneg.2 hx.le)
      linarith
    · intro p hp
      obtain ⟨k1, k2, k3⟩ := getD_rising st (Nat.lt_succ_self p) hp
      simp only [crossXY, Pi.sub_apply, Matrix.cons_val_zero, Matrix.cons_val_one]
      have := mul_nonneg (mul_nonneg (sub_nonneg.2 k2.le) dy0.le) (sub_nonneg.2 x1)
      linarith
    · intro p hp
      obtain ⟨a0, a1⟩ := getD_unit st hp
      obtain ⟨a2, a3, a4, a5⟩ := (eighth_polar hr a0 a1).1
      simp only [Matrix.cons_val_zero, Matrix.cons_val_one]
      have := mul_le_mul_of_nonneg_right hy.le (sub_nonneg.2 a1)
      refine ⟨?_, ?_, ?_⟩ <;> linarith
  · have hs' : 0 ≤ -1 * crossXY (x - polar r (45 + 45 * ts.getD 0 0)) (![(1 - ts.getD 0 0) * dx, dy, 0] - polar r (45 + 45 * ts.getD 0 0)) := by
      simp only [t0, mul_zero, sub_zero, add_zero, one_mul] at hs ⊢
      linarith
    suffices h : ∃ p < n, ∃ q < m, x ∈ quadRegion nodeB p q by
      obtain ⟨p, hp, q, hq, h⟩ := h
      exact ⟨p, hp, q, hq, Or.inr h⟩
    refine fans_covers_chord (x := x) fB hn hm hY y0 y1 hB z hs' ?_ ?_ ?_ ha hb (fun p hp => (below p hp).2) out
    · have : (45 : ℝ) + 45 * 1 = 90 := by norm_num
      simp only [tn, this, sub_self, (polar_quarters r).2, crossXY, Pi.sub_apply, Matrix.cons_val_zero, Matrix.cons_val_one]
      have := mul_nonneg x0 (sub_nonneg.2 hy.le)
      linarith
    · intro p hp
      obtain ⟨k1, k2, k3⟩ := getD_rising st (Nat.lt_succ_self p) hp
      simp only [crossXY, Pi.sub_apply, Matrix.cons_val_zero, Matrix.cons_val_one]
      have := mul_nonneg (mul_nonneg (sub_nonneg.2 k2.le) dx0.le) (sub_nonneg.2 x3)
      linarith
    · intro p hp
      obtain ⟨a0, a1⟩ := getD_unit st hp
      obtain ⟨a2, a3, a4, a5⟩ := (eighth_polar hr a0 a1).2.1
      simp only [Matrix.cons_val_zero, Matrix.cons_val_one]
      have := mul_le_mul_of_nonneg_right hx.le (sub_nonneg.2 a1)
      refine ⟨?_, ?_, ?_⟩ <;> linarith

/-! ## Points of a quarter plane -/

theorem quarter_polar {x : V3 ℝ} (x0 : 0 ≤ x 0) (x1 : 0 ≤ x 1) (x2 : x 2 = 0) : ∃ ρ γ, 0 ≤ ρ ∧ 0 ≤ γ ∧ γ ≤ 90 ∧ x = polar ρ γ := by
  have hpi := Real.pi_pos
  obtain ⟨w, hw⟩ : ∃ w : ℂ, w = ⟨x 0, x 1⟩ := ⟨_, rfl⟩
  have h0 : 0 ≤ w.arg := Complex.arg_nonneg_iff.2 (by rw [hw]; exact x1)
  have h1 : |w.arg| ≤ Real.pi / 2 := Complex.abs_arg_le_pi_div_two_iff.2 (by rw [hw]; exact x0)
  rw [abs_of_nonneg h0] at h1
  refine ⟨‖w‖, w.arg * 180 / Real.pi, norm_nonneg _, by positivity, ?_, ?_⟩
  · rw [div_le_iff₀ hpi]; linarith
  · have e : Real.pi * (w.arg * 180 / Real.pi) / 180 = w.arg := by field_simp
    funext i
    fin_cases i
    · simp only [polar, e]
      change x 0 = ‖w‖ * Real.cos w.arg
      rw [Complex.norm_mul_cos_arg, hw]
    · simp only [polar, e]
      change x 1 = ‖w‖ * Real.sin w.arg
      rw [Complex.norm_mul_sin_arg, hw]
    · exact x2

/-- The chord between two neighbouring fractions of a quarter turn has all corners on its inner side. -/
theorem chord_below {N p k : ℕ} (hp : p < N) (hk : k ≤ N) {r : ℝ} (hr : 0 ≤ r) :
    let mid := Real.pi / 2 * ((p + 1 / 2) / N)
    0 < Real.cos mid ∧ 0 < Real.sin mid ∧
    Real.cos mid * polar r (90 * (k / N)) 0 + Real.sin mid * polar r (90 * (k / N)) 1 ≤ r * Real.cos (Real.pi / 2 / (2 * N)) := by
  intro mid
  have hpi := Real.pi_pos
  have hN : (0 : ℝ) < N := by exact_mod_cast (by omega : 0 < N)
  have hp' : (p : ℝ) + 1 ≤ N := by exact_mod_cast hp
  have hk' : (k : ℝ) ≤ N := by exact_mod_cast hk
  have m0 : 0 < mid := by positivity
  have m1 : mid < Real.pi / 2 := by
    have : ((p : ℝ) + 1 / 2) / N < 1 := by rw [div_lt_one hN]; linarith
    have := mul_lt_mul_of_pos_left this (show 0 < Real.pi / 2 by positivity)
    rw [mul_one] at this
    exact this
  refine ⟨Real.cos_pos_of_mem_Ioo ⟨by linarith, m1⟩, Real.sin_pos_of_pos_of_lt_pi m0 (by linarith), ?_⟩
  have e : Real.pi * (90 * ((k : ℝ) / N)) / 180 = Real.pi / 2 * (k / N) := by ring
  simp only [polar, e, Matrix.cons_val_zero, Matrix.cons_val_one]
  have eq : Real.cos mid * (r * Real.cos (Real.pi / 2 * (k / N))) + Real.sin mid * (r * Real.sin (Real.pi / 2 * (k / N))) =
      r * Real.cos |mid - Real.pi / 2 * (k / N)| := by rw [Real.cos_abs, Real.cos_sub]; ring
  rw [eq]
  refine mul_le_mul_of_nonneg_left (Real.cos_le_cos_of_nonneg_of_le_pi (by positivity) ?_ ?_) hr
  · have g0 : 0 ≤ Real.pi / 2 * (k / N) := by positivity
    have g1 : Real.pi / 2 * (k / N) ≤ Real.pi / 2 := by
      have : (k : ℝ) / N ≤ 1 := by rw [div_le_one hN]; exact hk'
      have := mul_le_mul_of_nonneg_left this (show 0 ≤ Real.pi / 2 by positivity)
      linarith
    rw [abs_le]
    constructor <;> linarith
  · have d : mid - Real.pi / 2 * (k / N) = Real.pi / 2 / (2 * N) * (2 * p + 1 - 2 * k) := by
      simp only [mid]; field_simp
    rw [d, abs_mul, abs_of_pos (show 0 < Real.pi / 2 / (2 * N) by positivity)]
    have : (1 : ℝ) ≤ |2 * (p : ℝ) + 1 - 2 * k| := by
      have h : (1 : ℤ) ≤ |2 * (p : ℤ) + 1 - 2 * k| := Int.one_le_abs (by omega)
      exact_mod_cast h
    have := mul_le_mul_of_nonneg_left this (show 0 ≤ Real.pi / 2 / (2 * N) by positivity)
    linarith

theorem chord_point {N p : ℕ} (hp : p < N) (u t : ℝ) :
    Real.cos (Real.pi / 2 * ((p + 1 / 2) / N)) * (polar u (90 * (p / N)) + polar t (90 * ((p + 1 : ℕ) / N))) 0 +
      Real.sin (Real.pi / 2 * ((p + 1 / 2) / N)) * (polar u (90 * (p / N)) + polar t (90 * ((p + 1 : ℕ) / N))) 1 =
      (u + t) * Real.cos (Real.pi / 2 / (2 * N)) := by
  have hN : (0 : ℝ) < N := by exact_mod_cast (by omega : 0 < N)
  obtain ⟨mid, hm⟩ : ∃ m, m = Real.pi / 2 * (((p : ℝ) + 1 / 2) / N) := ⟨_, rfl⟩
  have e1 : Real.pi * (90 * ((p : ℝ) / N)) / 180 = mid - Real.pi / 2 / (2 * N) := by rw [hm]; field_simp; ring
  have e2 : Real.pi * (90 * (((p + 1 : ℕ) : ℝ) / N)) / 180 = mid + Real.pi / 2 / (2 * N) := by rw [hm]; push_cast; field_simp; ring
  rw [← hm]
  simp only [polar, e1, e2, Pi.add_apply, Matrix.cons_val_zero, Matrix.cons_val_one, Real.cos_sub, Real.cos_add, Real.sin_sub, Real.sin_add]
  linear_combination (u + t) * Real.cos (Real.pi / 2 / (2 * N)) * Real.sin_sq_add_cos_sq mid

theorem perc_equal {n : ℤ} {ts : List ℝ} (h : resolutionToPerc (.int n) none = .ok ts) {k : ℕ} (hk : k ≤ partsOf n) :
    ts.getD k 0 = k / partsOf n := by
  obtain ⟨ts', g, _, c, _⟩ := C11_integer_resolution n none (Or.inl rfl)
  rw [g] at h; cases h
  have m : ((max 1 n : ℤ) : ℝ) = ((partsOf n : ℕ) : ℝ) := by
    rw [← Int.cast_natCast]; congr 1; unfold partsOf; omega
  rw [List.getD_eq_getElem?_getD, c rfl k hk, m]
  rfl

variable {δ : Type _} [OfNat δ 0] [OfNat δ 32]

/-! ## Cells -/

omit [OfNat δ 0] [OfNat δ 32] in
theorem grid_hull {M : SGrid ℝ δ} {n m : ℕ} (hd : M.nodes.d = ![n + 1, m + 1, 1]) {p q : ℕ} (hp : p < n) (hq : q < m) :
    ∃ c ∈ gridQuads M, cellHull c = quadRegion (fun p q => M.points.getD (vtkId M.nodes.d ![p, q, 0]) 0) p q := by
  have get : ∀ p q : ℕ, p ≤ n → q ≤ m → M.points.getD (vtkId M.nodes.d ![p, q, 0]) 0 = M.nodes.get ![p, q, 0] := by
    intro p q hp hq
    have hin : InShape M.nodes.d ![p, q, 0] := by
      rw [hd]
      intro ax; fin_cases ax
      · exact Nat.lt_succ_of_le hp
      · exact Nat.lt_succ_of_le hq
      · exact Nat.one_pos
    rw [List.getD_eq_getElem?_getD, SGrid.points, ravelF_get _ hin]
    rfl
  refine ⟨[M.nodes.get ![p, q, 0], M.nodes.get ![p + 1, q, 0], M.nodes.get ![p + 1, q + 1, 0], M.nodes.get ![p, q + 1, 0]], ?_, ?_⟩
  · refine List.mem_flatMap.2 ⟨q, List.mem_range.2 (by rw [hd]; simpa using hq), List.mem_map.2 ⟨p, List.mem_range.2 (by rw [hd]; simpa using hp), rfl⟩⟩
  · simp only [cellHull, quadRegion]
    rw [get p q hp.le hq.le, get (p + 1) q hp hq.le, get p (q + 1) hp.le hq, get (p + 1) (q + 1) hp hq]
    congr 1
    ext x
    simp only [List.mem_cons, List.not_mem_nil, or_false, Set.mem_ofPred_eq, Set.mem_insert_iff, Set.mem_singleton_iff]
    tauto

theorem centre_none {v : V3 ℝ} (h : IsCentre none v) : v = 0 := by
  rcases h with ⟨_, h⟩ | h | ⟨h, _⟩
  · exact h
  · cases h
  · cases h

/-- The cells of a ring cover the points between its polygons. -/
theorem rings_hull {area : Arr3 (V3 ℝ) → List ℝ} {m : ℤ} (hm : 1 ≤ m) : ∀ (rings : List (ℝ × ℝ × ℤ × String)) {parts : List WellPart} {a b : ℝ}
    (_ : 0 ≤ a) (_ : RingsFit a rings b) (_ : wellRings δ area m rings = .ok parts) {p : ℕ} (_ : p < partsOf m) {u w : ℝ} (_ : 0 ≤ u) (_ : 0 ≤ w)
    (_ : a ≤ u + w) (_ : u + w < b), ∃ part ∈ parts, ∃ c ∈ part.cells,
      polar u (90 * (p / partsOf m)) + polar w (90 * ((p + 1 : ℕ) / partsOf m)) ∈ cellHull c
  | [], parts, a, b, _, hf, h, p, hp, u, w, u0, w0, h1, h2 => by
    cases hf
    linarith
  | (ri, ro, nr, g) :: rest, parts, a, b, a0, hf, h, p, hp, u, w, u0, w0, h1, h2 => by
    obtain ⟨rfl, f1, f2⟩ := hf
    simp only at a0 f1 f2 h1
    simp only [wellRings] at h
    obtain ⟨M, hM, h⟩ := bind_ok.1 h
    obtain ⟨more, hmore, h⟩ := bind_ok.1 h
    cases h
    rcases lt_or_ge (u + w) ro with hlt | hge
    · have hmax : max 1 m = m := by omega
      have hm' : (1 : ℝ) ≤ m := by exact_mod_cast hm
      obtain ⟨ts, v, n, k, t1, t2, t3, t4, t5⟩ := C142_annularSector (divides_int nr (Or.inl rfl)) (divides_int m (Or.inl rfl))
        (smallSteps_int (a := 0) (b := 90) (by norm_num) (n := m) (by rw [hmax]; linarith)) (by norm_num) hM
      obtain rfl := centre_none t3
      have hs := partsOf_size (Or.inl rfl) t1
      obtain rfl : n = partsOf m := by omega
      have hfill := t5.fills p hp
      rw [wedge_hull 0 _ _ a0 f1.le] at hfill
      have hx : polar u (90 * ((p : ℝ) / partsOf m)) + polar w (90 * ((p + 1 : ℕ) / partsOf m)) ∈
          wedge 0 (0 + ts.getD p 0 * (90 - 0)) (0 + ts.getD (p + 1) 0 * (90 - 0)) ri ro := by
        refine ⟨u, w, u0, w0, h1, hlt.le, ?_⟩
        rw [perc_equal t1 hp.le, perc_equal t1 hp, zero_add, zero_add, zero_add, sub_zero, mul_comm, mul_comm (((p + 1 : ℕ) : ℝ) / _)]
      rw [← hfill] at hx
      simp only [Set.mem_iUnion] at hx
      obtain ⟨q, hq, hx⟩ := hx
      obtain ⟨c, c1, c2⟩ := grid_hull t4 hp hq
      exact ⟨_, List.mem_cons_self, c, c1, by rw [c2]; exact hx⟩
    · obtain ⟨part, k1, k2⟩ := rings_hull hm rest (a0.trans f1.le) f2 hmore hp u0 w0 hge h2
      exact ⟨part, List.mem_cons_of_mem _ k1, k2⟩

/-- The cells of a rectangle cover it. -/
theorem rectangle_hull {area : Arr3 (V3 ℝ) → List ℝ} {dx dy a c : ℝ} (hx : 0 < dx) (hy : 0 < dy) {nx ny : ℤ} {M : SGrid ℝ δ}
    (h : rectangle area dx dy (.int nx) (.int ny) none none (some [a, c, 0]) = .ok M) {x : V3 ℝ} (hb : x ∈ boxRegion a (a + dx) c (c + dy)) :
    ∃ q ∈ gridQuads M, x ∈ cellHull q := by
  obtain ⟨v, n, m, h1, h2, h3⟩ := C142_rectangle (divides_int nx (Or.inl rfl)) (divides_int ny (Or.inl rfl)) h
  obtain ⟨b0, b1, b2, b3, b4⟩ := hb
  have hv : v = ![a, c, 0] := by
    rcases h1 with ⟨h, _⟩ | h | ⟨h, _⟩
    · cases h
    · simp only [Option.some.injEq, List.cons.injEq, and_true] at h
      funext ax; fin_cases ax
      · exact h.1.symm
      · exact h.2.1.symm
      · exact h.2.2.symm
    · simp at h
  subst hv
  have hmem : x ∈ convexHull ℝ {![a, c, 0], ![a, c, 0] + ![dx, 0, 0], ![a, c, 0] + ![0, dy, 0], ![a, c, 0] + ![dx, dy, (0 : ℝ)]} := by
    have e := patch_hull ![a, c, 0] dx dy (s := 0) (s' := 1) (t := 0) (t' := 1) zero_le_one zero_le_one
    simp only [zero_mul, one_mul] at e
    have z : (![a, c, 0] : V3 ℝ) + ![(0 : ℝ), 0, 0] = ![a, c, 0] := by funext i; fin_cases i <;> simp
    rw [z] at e
    rw [e]
    refine ⟨(x 0 - a) / dx, (x 1 - c) / dy, div_nonneg (by linarith) hx.le, by rw [div_le_one hx]; linarith, div_nonneg (by linarith) hy.le,
      by rw [div_le_one hy]; linarith, ?_⟩
    rw [div_mul_cancel₀ _ hx.ne', div_mul_cancel₀ _ hy.ne']
    funext i; fin_cases i <;> simp [b4]
  rw [← h3.fills] at hmem
  simp only [Set.mem_iUnion] at hmem
  obtain ⟨p, hp, q, hq, hx⟩ := hmem
  obtain ⟨c, c1, c2⟩ := grid_hull h2 hp hq
  exact ⟨c, c1, by rw [c2]; exact hx⟩

/-- **C149 (quarter).** The cells of the parts of a well whose numbers fit cover the quarter of the square. -/
theorem C149_quarter {area : Arr3 (V3 ℝ) → List ℝ} {w : WellNumbers} (hw : WellFits w) {parts : List WellPart}
    (h : wellQuarter δ area w = .ok parts) {x : Fin 3 → ℝ} (hx : x ∈ boxRegion 0 (w.side + w.width) 0 (w.side + w.width)) :
    ∃ part ∈ parts, ∃ c ∈ part.cells, x ∈ cellHull c := by
  simp only [wellQuarter] at h
  obtain ⟨T, hT, h⟩ := bind_ok.1 h
  obtain ⟨rp, hrp, h⟩ := bind_ok.1 h
  obtain ⟨⟨A, B⟩, hAB, h⟩ := bind_ok.1 h
  obtain ⟨R1, h1, h⟩ := bind_ok.1 h
  obtain ⟨R2, h2, h⟩ := bind_ok.1 h
  obtain ⟨R3, h3, h⟩ := bind_ok.1 h
  cases h
  obtain ⟨x0, x1, x2, x3, z⟩ := hx
  obtain ⟨r0, rs, _, ls, ts, qs, v, k1, k2, k3, k4, k5, k6, _, k8⟩ := C63_sectorRectangle_nodes hAB
  have s0 : 0 < w.side := r0.trans rs
  have last : ∀ P ∈ [halvesPart A B w.outerGroup, gridPart R1 w.outerGroup, gridPart R2 w.outerGroup, gridPart R3 w.outerGroup],
      (∃ c ∈ P.cells, x ∈ cellHull c) → ∃ part ∈ sectorPart T w.coreGroup :: rp ++ [halvesPart A B w.outerGroup, gridPart R1 w.outerGroup,
        gridPart R2 w.outerGroup, gridPart R3 w.outerGroup], ∃ c ∈ part.cells, x ∈ cellHull c :=
    fun P hP hc => ⟨P, List.mem_append_right _ hP, hc⟩
  rcases lt_or_ge w.side (x 0) with a | a <;> rcases lt_or_ge w.side (x 1) with b | b
  · exact last (gridPart R2 w.outerGroup) (by simp) (rectangle_hull hw.width hw.width h2 ⟨a.le, x1, b.le, x3, z⟩)
  · exact last (gridPart R1 w.outerGroup) (by simp) (rectangle_hull hw.width s0 h1 ⟨a.le, x1, x2, by linarith, z⟩)
  · exact last (gridPart R3 w.outerGroup) (by simp) (rectangle_hull s0 hw.width h3 ⟨x0, by linarith, b.le, x3, z⟩)
  have hhalf := hw.half
  have hang := hw.angular
  have hm1 : 1 ≤ w.angular := by omega
  have hN : partsOf w.angular = 2 * partsOf w.half := by unfold partsOf; omega
  have hn := partsOf_pos w.half
  obtain ⟨ρ, γ, hρ, g0, g1, rfl⟩ := quarter_polar x0 x2 z
  obtain ⟨N, hN'⟩ : ∃ N, N = partsOf w.angular := ⟨_, rfl⟩
  have Npos : 0 < N := by omega
  have NR : (0 : ℝ) < N := by exact_mod_cast Npos
  obtain ⟨p, hp, l0, l1⟩ := exists_step (f := fun k : ℕ => 90 * ((k : ℝ) / N)) (h := γ) Npos (by simpa using g0)
    (by simp only [div_self NR.ne', mul_one]; exact g1)
  have step : 90 * (((p + 1 : ℕ) : ℝ) / N) - 90 * ((p : ℝ) / N) = 90 / N := by push_cast; field_simp; ring
  have stepLt : (90 : ℝ) / N < 180 := by
    rw [div_lt_iff₀ NR]
    have : (1 : ℝ) ≤ N := by exact_mod_cast Npos
    linarith
  obtain ⟨u, t, u0, t0, _, _, e⟩ := polar_wedge (by rw [step]; positivity) (by rw [step]; exact stepLt) l0 l1 hρ
  by_cases hcore : u + t ≤ w.core
  · have hmax : max 1 w.angular = w.angular := by omega
    have hm' : (1 : ℝ) ≤ w.angular := by exact_mod_cast hm1
    obtain ⟨us, v', n', t1, t2, t3, _, node, n0, n1, t6, t7⟩ := C142_sector (divides_int w.angular (Or.inl rfl))
      (smallSteps_int (a := 0) (b := 90) (by norm_num) (n := w.angular) (by rw [hmax]; linarith)) (by norm_num) hT
    obtain rfl := centre_none t3
    have hs := partsOf_size (Or.inl rfl) t1
    obtain rfl : n' = N := by omega
    have hfill := t7.fills p hp
    rw [wedge_hull 0 _ _ le_rfl hw.core_pos.le] at hfill
    have hx : polar ρ γ ∈ wedge 0 (0 + us.getD p 0 * (90 - 0)) (0 + us.getD (p + 1) 0 * (90 - 0)) 0 w.core := by
      refine ⟨u, t, u0, t0, by linarith, hcore, ?_⟩
      rw [perc_equal t1 (by omega), perc_equal t1 (by omega), zero_add, zero_add, zero_add, sub_zero, mul_comm, mul_comm (((p + 1 : ℕ) : ℝ) / _),
        ← hN', e]
    rw [← hfill] at hx
    simp only [Set.mem_iUnion] at hx
    obtain ⟨q, hq, hx⟩ := hx
    obtain rfl : q = 0 := by omega
    obtain ⟨cell, c1, c2⟩ := t6 p hp
    rw [← c2] at hx
    refine ⟨_, List.mem_append_left _ List.mem_cons_self, _, List.mem_map.2 ⟨cell, List.mem_of_getElem? c1, rfl⟩, ?_⟩
    refine convexHull_mono ?_ hx
    rintro y ⟨k, hk, hy⟩
    exact List.mem_map.2 ⟨k, hk, by rw [List.getD_eq_getElem?_getD, hy]; rfl⟩
  by_cases hring : u + t < w.radius
  · rw [hN'] at hp e
    obtain ⟨part, q1, q2⟩ := rings_hull hm1 w.rings hw.core_pos.le hw.rings hrp hp u0 t0 (not_le.1 hcore).le hring
    exact ⟨part, List.mem_append_left _ (List.mem_cons_of_mem _ q1), by rw [e]; exact q2⟩
  · rw [k1] at k2; cases k2
    obtain rfl := centre_none k4
    obtain ⟨n, st⟩ := divides_int w.half (Or.inl rfl) _ k1
    obtain ⟨m, sr⟩ := divides_int w.radial hw.method _ k3
    have hsn := partsOf_size (Or.inl rfl) k1
    have := st.size
    obtain rfl : n = partsOf w.half := by omega
    have hAd : A.nodes.d = ![partsOf w.half + 1, m + 1, 1] := by rw [k5, st.size, sr.size]
    have hBd : B.nodes.d = ![partsOf w.half + 1, m + 1, 1] := by rw [k6, st.size, sr.size]
    have nodes := fun p (hp : p ≤ partsOf w.half) q (hq : q ≤ m) =>
      k8 p q _ _ _ (subdivision_getD st hp) (subdivision_getD st hp) (subdivision_getD sr hq)
    have halfR : (0 : ℝ) < partsOf w.half := by exact_mod_cast hn
    have NH : (N : ℝ) = 2 * partsOf w.half := by rw [hN', hN]; push_cast; ring
    have dn : ∀ k ≤ partsOf w.half, (45 : ℝ) - 45 * ls.getD k 0 = 90 * (((partsOf w.half - k : ℕ) : ℝ) / N) := by
      intro k hk
      rw [perc_equal k1 hk, Nat.cast_sub hk, NH]; field_simp; ring
    have up : ∀ k ≤ partsOf w.half, (45 : ℝ) + 45 * ls.getD k 0 = 90 * (((partsOf w.half + k : ℕ) : ℝ) / N) := by
      intro k hk
      rw [perc_equal k1 hk, NH]; push_cast; field_simp; ring
    have base := fun k (hk : k ≤ N) => chord_below (r := w.radius) hp hk r0.le
    obtain ⟨ha, hb, _⟩ := base 0 (Nat.zero_le _)
    have hc : 0 < Real.cos (Real.pi / 2 / (2 * N)) := by
      have hpi := Real.pi_pos
      have n1 : (1 : ℝ) ≤ N := by exact_mod_cast Npos
      refine Real.cos_pos_of_mem_Ioo ⟨?_, ?_⟩
      · have : 0 < Real.pi / 2 / (2 * N) := by positivity
        linarith
      · rw [div_lt_iff₀ (by positivity)]
        have := mul_le_mul_of_nonneg_left n1 hpi.le
        linarith
    obtain ⟨P, hP, Q, hQ, hmem⟩ := halves_cover r0 rs rs st sr
      (nodeA := fun p q => A.points.getD (vtkId A.nodes.d ![p, q, 0]) 0) (nodeB := fun p q => B.points.getD (vtkId B.nodes.d ![p, q, 0]) 0)
      (fun p hp q hq => by rw [List.getD_eq_getElem?_getD, (nodes p hp q hq).1, Option.getD_some, zero_add])
      (fun p hp q hq => by rw [List.getD_eq_getElem?_getD, (nodes p hp q hq).2, Option.getD_some, zero_add])
      z x0 a x2 b ha hb (d := w.radius * Real.cos (Real.pi / 2 / (2 * N)))
      (fun k hk => by
        rw [dn k hk, up k hk]
        exact ⟨(base _ (by omega)).2.2, (base _ (by omega)).2.2⟩)
      (by
        have s1 := chord_point (N := N) (p := p) hp u t
        rw [← e] at s1
        rw [s1]
        exact mul_le_mul_of_nonneg_right (not_lt.1 hring) hc.le)
    refine last (halvesPart A B w.outerGroup) (by simp) ?_
    rcases hmem with hmem | hmem
    · obtain ⟨c, c1, c2⟩ := grid_hull hAd hP hQ
      exact ⟨c, List.mem_append_left _ c1, by rw [c2]; exact hmem⟩
    · obtain ⟨c, c1, c2⟩ := grid_hull hBd hP hQ
      exact ⟨c, List.mem_append_right _ c1, by rw [c2]; exact hmem⟩

/-! ## The cells stay in the square -/

omit [OfNat δ 0] [OfNat δ 32] in
theorem gridQuads_corners {M : SGrid ℝ δ} {n m : ℕ} (hd : M.nodes.d = ![n, m, 1]) {c : List (V3 ℝ)} (hc : c ∈ gridQuads M) {y : V3 ℝ}
    (hy : y ∈ c) : y ∈ M.nodes.ravelF := by
  obtain ⟨j, hj, hc⟩ := List.mem_flatMap.1 hc
  obtain ⟨i, hi, rfl⟩ := List.mem_map.1 hc
  rw [List.mem_range, hd] at hi hj
  simp only [Matrix.cons_val_zero, Matrix.cons_val_one] at hi hj
  have hin : ∀ i' j', i' ≤ i + 1 → j' ≤ j + 1 → M.nodes.get ![i', j', 0] ∈ M.nodes.ravelF := by
    intro i' j' hi' hj'
    have : InShape M.nodes.d ![i', j', 0] := by
      rw [hd]
      intro ax; fin_cases ax
      · change i' < n; omega
      · change j' < m; omega
      · exact Nat.one_pos
    exact List.mem_of_getElem? (ravelF_get _ this)
  simp only [List.mem_cons, List.not_mem_nil, or_false] at hy
  rcases hy with rfl | rfl | rfl | rfl <;> exact hin _ _ (by omega) (by omega)

theorem rings_corners {area : Arr3 (V3 ℝ) → List ℝ} {m : ℤ} : ∀ (rings : List (ℝ × ℝ × ℤ × String)) {parts : List WellPart}
    (_ : wellRings δ area m rings = .ok parts), ∀ part ∈ parts, ∀ c ∈ part.cells, ∀ y ∈ c, y ∈ part.points
  | [], parts, h => by
    cases h
    intro p hp
    cases hp
  | (ri, ro, nr, g) :: rest, parts, h => by
    simp only [wellRings] at h
    obtain ⟨M, hM, h⟩ := bind_ok.1 h
    obtain ⟨more, hmore, h⟩ := bind_ok.1 h
    cases h
    intro p hp
    rcases List.mem_cons.1 hp with rfl | hp
    · obtain ⟨_, _, _, _, _, _, hd, _⟩ := C63_annularSector hM
      intro c hc y hy
      exact gridQuads_corners hd hc hy
    · exact rings_corners rest hmore p hp

theorem quarter_corners {area : Arr3 (V3 ℝ) → List ℝ} {w : WellNumbers} {parts : List WellPart}
    (h : wellQuarter δ area w = .ok parts) : ∀ part ∈ parts, ∀ c ∈ part.cells, ∀ y ∈ c, y ∈ part.points ∨ y = 0 := by
  simp only [wellQuarter] at h
  obtain ⟨T, hT, h⟩ := bind_ok.1 h
  obtain ⟨rp, hrp, h⟩ := bind_ok.1 h
  obtain ⟨⟨A, B⟩, hAB, h⟩ := bind_ok.1 h
  obtain ⟨R1, h1, h⟩ := bind_ok.1 h
  obtain ⟨R2, h2, h⟩ := bind_ok.1 h
  obtain ⟨R3, h3, h⟩ := bind_ok.1 h
  cases h
  have d0 : ∀ n, DividesUnit (.int n) none := fun n => divides_int n (Or.inl rfl)
  obtain ⟨_, _, _, _, _, _, _, _, _, _, _, kA, kB, _⟩ := C63_sectorRectangle_nodes hAB
  intro part hp c hc y hy
  rcases List.mem_append.1 hp with hp | hp
  · rcases List.mem_cons.1 hp with rfl | hp
    · obtain ⟨cell, _, rfl⟩ := List.mem_map.1 hc
      obtain ⟨k, _, rfl⟩ := List.mem_map.1 hy
      rw [List.getD_eq_getElem?_getD]
      cases e : T.points[k]? with
      | none => exact Or.inr rfl
      | some x => exact Or.inl (List.mem_of_getElem? e)
    · exact Or.inl (rings_corners _ hrp part hp c hc y hy)
  · simp only [List.mem_cons, List.not_mem_nil, or_false] at hp
    refine Or.inl ?_
    rcases hp with rfl | rfl | rfl | rfl
    · rcases List.mem_append.1 hc with hc | hc
      · exact List.mem_append_left _ (gridQuads_corners kA hc hy)
      · exact List.mem_append_right _ (gridQuads_corners kB hc hy)
    · obtain ⟨_, _, _, _, hd, _⟩ := C142_rectangle (d0 _) (d0 _) h1
      exact gridQuads_corners hd hc hy
    · obtain ⟨_, _, _, _, hd, _⟩ := C142_rectangle (d0 _) (d0 _) h2
      exact gridQuads_corners hd hc hy
    · obtain ⟨_, _, _, _, hd, _⟩ := C142_rectangle (d0 _) (d0 _) h3
      exact gridQuads_corners hd hc hy

theorem ringsFit_le : ∀ (rings : List (ℝ × ℝ × ℤ × String)) {a b : ℝ}, 0 < a → RingsFit a rings b → a ≤ b ∧ ∀ r ∈ rings, 0 < r.2.1 ∧ r.2.1 ≤ b
  | [], a, b, _, h => by
    cases h
    exact ⟨le_rfl, fun r hr => by cases hr⟩
  | r :: rest, a, b, ha, h => by
    obtain ⟨_, h1, h2⟩ := h
    obtain ⟨k1, k2⟩ := ringsFit_le rest (ha.trans h1) h2
    refine ⟨h1.le.trans k1, fun r' hr' => ?_⟩
    rcases List.mem_cons.1 hr' with rfl | hr'
    · exact ⟨ha.trans h1, k1⟩
    · exact k2 r' hr'

theorem regions_inside {w : WellNumbers} (hw : WellFits w) : ∀ D ∈ wellRegions w, D ⊆ boxRegion 0 (w.side + w.width) 0 (w.side + w.width) := by
  obtain ⟨f1, f2⟩ := ringsFit_le _ hw.core_pos hw.rings
  have hs := hw.side
  have h0 := hw.core_pos
  have h1 := hw.width
  have ring : ∀ ri ro : ℝ, 0 < ro → ro ≤ w.radius → ringRegion ri ro ⊆ boxRegion 0 (w.side + w.width) 0 (w.side + w.width) := by
    rintro ri ro r0 r1 x ⟨x0, x1, x2, _, x3⟩
    have a := abs_le_of_sq_le_sq (a := x 0) (b := ro) (by nlinarith) r0.le
    have b := abs_le_of_sq_le_sq (a := x 1) (b := ro) (by nlinarith) r0.le
    exact ⟨x0, by linarith [le_abs_self (x 0)], x1, by linarith [le_abs_self (x 1)], x2⟩
  intro D hD
  rcases List.mem_append.1 hD with hD | hD
  · rcases List.mem_cons.1 hD with rfl | hD
    · exact ring _ _ h0 f1
    · obtain ⟨r, hr, rfl⟩ := List.mem_map.1 hD
      exact ring _ _ (f2 r hr).1 (f2 r hr).2
  · simp only [List.mem_cons, List.not_mem_nil, or_false] at hD
    rcases hD with rfl | rfl | rfl | rfl
    · rintro x ⟨⟨a, b, c, d, e⟩, _⟩; exact ⟨a, by linarith, c, by linarith, e⟩
    all_goals rintro x ⟨a, b, c, d, e⟩; exact ⟨by linarith, by linarith, by linarith, by linarith, e⟩

theorem box_convex (a b c d : ℝ) : Convex ℝ (boxRegion a b c d) := by
  rintro x ⟨x0, x1, x2, x3, x4⟩ y ⟨y0, y1, y2, y3, y4⟩ s t hs ht hst
  simp only [boxRegion, Set.mem_ofPred_eq, Pi.add_apply, Pi.smul_apply, smul_eq_mul, x4, y4, mul_zero, add_zero, and_true]
  have e : ∀ k : ℝ, s * k + t * k = k := fun k => by rw [← add_mul, hst, one_mul]
  refine ⟨?_, ?_, ?_, ?_⟩
  · rw [← e a]; exact add_le_add (mul_le_mul_of_nonneg_left x0 hs) (mul_le_mul_of_nonneg_left y0 ht)
  · rw [← e b]; exact add_le_add (mul_le_mul_of_nonneg_left x1 hs) (mul_le_mul_of_nonneg_left y1 ht)
  · rw [← e c]; exact add_le_add (mul_le_mul_of_nonneg_left x2 hs) (mul_le_mul_of_nonneg_left y2 ht)
  · rw [← e d]; exact add_le_add (mul_le_mul_of_nonneg_left x3 hs) (mul_le_mul_of_nonneg_left y3 ht)

/-- The quarter turn as a linear map. -/
def turnMap : V3 ℝ →ₗ[ℝ] V3 ℝ where
  toFun := quarterTurn
  map_add' x y := by funext i; fin_cases i <;> simp [quarterTurn]; ring
  map_smul' s x := by funext i; fin_cases i <;> simp [quarterTurn]

theorem turned_hull (k : ℕ) (c : List (V3 ℝ)) : cellHull (c.map quarterTurn^[k]) = quarterTurn^[k] '' cellHull c := by
  have one : ∀ c : List (V3 ℝ), cellHull (c.map quarterTurn) = quarterTurn '' cellHull c := by
    intro c
    have := turnMap.image_convexHull {x | x ∈ c}
    change quarterTurn '' cellHull c = convexHull ℝ (quarterTurn '' {x | x ∈ c}) at this
    rw [this, cellHull]
    congr 1
    ext x
    simp only [List.mem_map, Set.mem_ofPred_eq, Set.mem_image]
  induction k generalizing c with
  | zero => simp
  | succ k ih => rw [Function.iterate_succ, ← List.map_map, ih, one, ← Set.image_comp]

/-- **C149.** The cells of a well whose numbers fit fill the square exactly. -/
theorem C149_well {area : Arr3 (V3 ℝ) → List ℝ} {w : WellNumbers} (hw : WellFits w) {parts : List WellPart}
    (h : wellQuarter δ area w = .ok parts) (hname : ∀ p ∈ parts, p.group ≠ "")
    {append : List (List (V3 ℝ) × Int) → List (List (V3 ℝ) × Int) → List (List (V3 ℝ) × Int)} (happ : ∀ a b, (append a b).Perm (a ++ b)) :
    ∃ out table, wellMerged append parts = .ok (out, table) ∧
      ⋃ gc ∈ out, cellHull gc.1 = {x | |x 0| ≤ w.side + w.width ∧ |x 1| ≤ w.side + w.width ∧ x 2 = 0} := by
  obtain ⟨parts', g1, g2, g3, _⟩ := C127_conforming (δ := δ) area hw
  rw [h] at g1; cases g1
  have hne : parts ≠ [] := by
    rintro rfl
    simp [wellRegions] at g2
  obtain ⟨out, table, k1, _, _, k4⟩ := C127_groups happ hne hname
  have S0 : 0 ≤ w.side + w.width := by
    have := (ringsFit_le _ hw.core_pos hw.rings).1
    have := hw.core_pos; have := hw.side; have := hw.width
    linarith
  have cells : ∀ x, (∃ gc ∈ out, x ∈ cellHull gc.1) ↔ ∃ k < 4, ∃ p ∈ parts, ∃ c ∈ p.cells, x ∈ quarterTurn^[k] '' cellHull c := by
    intro x
    have m := fun e => k4.mem_iff (a := e)
    constructor
    · rintro ⟨gc, h1, h2⟩
      have := (m _).1 (List.mem_map_of_mem (f := fun gc : List (V3 ℝ) × Int => (gc.1, nameOf table gc.2)) h1)
      obtain ⟨k, hk, hp⟩ := List.mem_flatMap.1 this
      obtain ⟨p, hp, hc⟩ := List.mem_flatMap.1 hp
      obtain ⟨c, hc, e⟩ := List.mem_map.1 hc
      refine ⟨k, List.mem_range.1 hk, p, hp, c, hc, ?_⟩
      rw [← turned_hull, show c.map quarterTurn^[k] = gc.1 from congrArg Prod.fst e]
      exact h2
    · rintro ⟨k, hk, p, hp, c, hc, hx⟩
      obtain ⟨gc, h1, h2⟩ := List.mem_map.1 ((m (c.map quarterTurn^[k], some p.group)).2 (List.mem_flatMap.2 ⟨k, List.mem_range.2 hk,
        List.mem_flatMap.2 ⟨p, hp, List.mem_map.2 ⟨c, hc, rfl⟩⟩⟩))
      refine ⟨gc, h1, ?_⟩
      rw [show gc.1 = c.map quarterTurn^[k] from congrArg Prod.fst h2, turned_hull]
      exact hx
  refine ⟨out, table, k1, ?_⟩
  ext x
  simp only [Set.mem_iUnion, exists_prop, Set.mem_ofPred_eq]
  rw [cells]
  constructor
  · rintro ⟨k, hk, p, hp, c, hc, y, hy, rfl⟩
    have hy' : y ∈ boxRegion 0 (w.side + w.width) 0 (w.side + w.width) := by
      refine convexHull_min (s := {x | x ∈ c}) ?_ (box_convex _ _ _ _) hy
      intro z hz
      obtain ⟨i, hi, rfl⟩ := List.getElem_of_mem hp
      have hi' : i < (wellRegions w).length := by omega
      rcases quarter_corners h _ (List.getElem_mem hi) c hc z hz with hz | rfl
      · exact regions_inside hw _ (List.getElem_mem hi')
          (g3 i _ _ (List.getElem?_eq_getElem hi) (List.getElem?_eq_getElem hi') z hz)
      · exact ⟨le_rfl, S0, le_rfl, S0, rfl⟩
    obtain ⟨y0, y1, y2, y3, y4⟩ := hy'
    clear hy
    have turn : ∀ y : V3 ℝ, |y 0| ≤ w.side + w.width ∧ |y 1| ≤ w.side + w.width ∧ y 2 = 0 →
        |quarterTurn y 0| ≤ w.side + w.width ∧ |quarterTurn y 1| ≤ w.side + w.width ∧ quarterTurn y 2 = 0 := by
      rintro y ⟨a, b, c⟩
      refine ⟨?_, a, c⟩
      change |-y 1| ≤ _
      rwa [abs_neg]
    have start : |y 0| ≤ w.side + w.width ∧ |y 1| ≤ w.side + w.width ∧ y 2 = 0 := by
      rw [abs_of_nonneg y0, abs_of_nonneg y2]; exact ⟨y1, y3, y4⟩
    clear hk
    induction k with
    | zero => exact start
    | succ k ih => rw [Function.iterate_succ_apply']; exact turn _ ih
  · rintro ⟨hx0, hx1, hx2⟩
    rw [abs_le] at hx0 hx1
    have turn : ∀ k < 4, ∀ y : V3 ℝ, quarterTurn^[k] y = x → 0 ≤ y 0 → 0 ≤ y 1 → y 2 = 0 →
        y 0 ≤ w.side + w.width → y 1 ≤ w.side + w.width → ∃ k < 4, ∃ p ∈ parts, ∃ c ∈ p.cells, x ∈ quarterTurn^[k] '' cellHull c := by
      intro k hk y e y0 y1 y2 z0 z1
      obtain ⟨p, hp, c, hc, hy⟩ := C149_quarter hw h (x := y) ⟨y0, z0, y1, z1, y2⟩
      exact ⟨k, hk, p, hp, c, hc, y, hy, e⟩
    rcases le_total 0 (x 0) with a | a <;> rcases le_total 0 (x 1) with b | b
    · exact turn 0 (by norm_num) x rfl a b hx2 hx0.2 hx1.2
    · refine turn 3 (by norm_num) ![-x 1, x 0, x 2] ?_ ?_ ?_ hx2 ?_ ?_
      · funext ax; fin_cases ax <;> simp [quarterTurn]
      all_goals simp only [Matrix.cons_val_zero, Matrix.cons_val_one]; linarith
    · refine turn 1 (by norm_num) ![x 1, -x 0, x 2] ?_ ?_ ?_ hx2 ?_ ?_
      · funext ax; fin_cases ax <;> simp [quarterTurn]
      all_goals simp only [Matrix.cons_val_zero, Matrix.cons_val_one]; linarith
    · refine turn 2 (by norm_num) ![-x 0, -x 1, x 2] ?_ ?_ ?_ hx2 ?_ ?_
      · funext ax; fin_cases ax <;> simp [quarterTurn]
      all_goals simp only [Matrix.cons_val_zero, Matrix.cons_val_one]; linarith

/-- **C149 (load_well_2d).** The cells fill the square of side 20. -/
theorem C149_load_well (area : Arr3 (V3 ℝ) → List ℝ)
    {append : List (List (V3 ℝ) × Int) → List (List (V3 ℝ) × Int) → List (List (V3 ℝ) × Int)} (happ : ∀ a b, (append a b).Perm (a ++ b)) :
    ∃ out table, loadWell2d δ area append = .ok (out, table) ∧ ⋃ gc ∈ out, cellHull gc.1 = {x | |x 0| ≤ 10 ∧ |x 1| ≤ 10 ∧ x 2 = 0} := by
  obtain ⟨parts, h1, _⟩ := C127_conforming (δ := δ) area wellNumbers_fit
  have hcnt := wellQuarter_areas wellNumbers_fit h1
  obtain ⟨out, table, k1, k2⟩ := C149_well wellNumbers_fit h1 (by
    intro p hp
    have := List.mem_map_of_mem (f := fun p : WellPart => (p.group, (p.cells.map flatArea).sum)) hp
    rw [hcnt] at this
    simp only [wellAreas, wellNumbers, List.map_cons, List.map_nil, List.cons_append, List.nil_append, List.mem_cons, List.not_mem_nil, or_false, Prod.mk.injEq] at this
    rcases this with h | h | h | h | h | h | h | h | h | h | h <;> rw [h.1] <;> decide) happ
  refine ⟨out, table, by simp only [loadWell2d, h1, k1], ?_⟩
  rw [k2, show wellNumbers.side + wellNumbers.width = 10 by norm_num [wellNumbers]]

end Gridder
