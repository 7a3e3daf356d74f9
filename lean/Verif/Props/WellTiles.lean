import Verif.Props.Turning
import Verif.Props.Volumes
import Verif.Props.WellCover

/-!
# C150: the cells of the well do not overlap

Convex cells that cover a square and whose areas add up to its area share no area.
-/

namespace Gridder
open Spec MeasureTheory

/-- Two sets share a square of some size in the plane. -/
def Spec.ShareArea (S T : Set (Fin 3 → ℝ)) : Prop :=
  ∃ (x : Fin 3 → ℝ) (r : ℝ), 0 < r ∧ ∀ y : Fin 3 → ℝ, |y 0 - x 0| < r → |y 1 - x 1| < r → y 2 = 0 → y ∈ S ∧ y ∈ T

/-! ## The area of a cell -/

theorem hull_four {a b c d x : V3 ℝ} (hx : x ∈ convexHull ℝ {a, b, c, d}) : ∃ α β γ δ : ℝ, 0 ≤ α ∧ 0 ≤ β ∧ 0 ≤ γ ∧ 0 ≤ δ ∧
    α + β + γ + δ = 1 ∧ x = α • a + β • b + γ • c + δ • d := by
  have hconv : Convex ℝ {x : V3 ℝ | ∃ α β γ δ : ℝ, 0 ≤ α ∧ 0 ≤ β ∧ 0 ≤ γ ∧ 0 ≤ δ ∧
      α + β + γ + δ = 1 ∧ x = α • a + β • b + γ • c + δ • d} := by
    rintro x ⟨α, β, γ, δ, h1, h2, h3, h4, h5, rfl⟩ y ⟨α', β', γ', δ', k1, k2, k3, k4, k5, rfl⟩ s t hs ht hst
    refine ⟨s * α + t * α', s * β + t * β', s * γ + t * γ', s * δ + t * δ', by positivity, by positivity, by positivity, by positivity, ?_, ?_⟩
    · linear_combination s * h5 + t * k5 + hst
    · funext i
      simp only [Pi.add_apply, Pi.smul_apply, smul_eq_mul]
      ring
  refine convexHull_min ?_ hconv hx
  rintro y (rfl | rfl | rfl | rfl)
  · exact ⟨1, 0, 0, 0, by norm_num, le_rfl, le_rfl, le_rfl, by norm_num, by simp⟩
  · exact ⟨0, 1, 0, 0, le_rfl, by norm_num, le_rfl, le_rfl, by norm_num, by simp⟩
  · exact ⟨0, 0, 1, 0, le_rfl, le_rfl, by norm_num, le_rfl, by norm_num, by simp⟩
  · exact ⟨0, 0, 0, 1, le_rfl, le_rfl, le_rfl, by norm_num, by norm_num, by simp⟩

/-- A diagonal cuts a convex quad into two triangles. -/
theorem quad_halves {a b c d : V3 ℝ} (z : a 2 = 0 ∧ b 2 = 0 ∧ c 2 = 0 ∧ d 2 = 0) {σ : ℝ} (h1 : 0 < σ * turnZ a b c) (h2 : 0 < σ * turnZ b c d)
    (h3 : 0 < σ * turnZ c d a) (h4 : 0 < σ * turnZ d a b) :
    convexHull ℝ {a, b, c, d} ⊆ convexHull ℝ {a, b, c} ∪ convexHull ℝ {a, c, d} := by
  obtain ⟨za, zb, zc, zd⟩ := z
  obtain ⟨T1, e1⟩ : ∃ T, T = σ * turnZ a b c := ⟨_, rfl⟩
  obtain ⟨T2, e2⟩ : ∃ T, T = σ * turnZ c d a := ⟨_, rfl⟩
  obtain ⟨T3, e3⟩ : ∃ T, T = σ * turnZ b c d := ⟨_, rfl⟩
  obtain ⟨T4, e4⟩ : ∃ T, T = σ * turnZ d a b := ⟨_, rfl⟩
  rw [← e1] at h1
  rw [← e2] at h3
  rw [← e3] at h2
  rw [← e4] at h4
  have eq : ∀ i, T2 * b i + T1 * d i = T3 * a i + T4 * c i := by
    intro i
    rw [e1, e2, e3, e4]
    fin_cases i
    · change σ * turnZ c d a * b 0 + σ * turnZ a b c * d 0 = σ * turnZ b c d * a 0 + σ * turnZ d a b * c 0
      simp only [turnZ]; ring
    · change σ * turnZ c d a * b 1 + σ * turnZ a b c * d 1 = σ * turnZ b c d * a 1 + σ * turnZ d a b * c 1
      simp only [turnZ]; ring
    · change σ * turnZ c d a * b 2 + σ * turnZ a b c * d 2 = σ * turnZ b c d * a 2 + σ * turnZ d a b * c 2
      rw [za, zb, zc, zd]; ring
  have sum : T1 + T2 = T3 + T4 := by rw [e1, e2, e3, e4]; simp only [turnZ]; ring
  intro x hx
  obtain ⟨α, β, γ, δ, a0, b0, c0, d0, one, rfl⟩ := hull_four hx
  rcases le_total (β * T1) (δ * T2) with h | h
  · right
    rw [triangle_hull]
    refine ⟨γ + β * (T4 / T2), δ - β * T1 / T2, by positivity, by rw [sub_nonneg, div_le_iff₀ h3]; exact h, ?_, ?_⟩
    · have : γ + β * (T4 / T2) + (δ - β * T1 / T2) = 1 - (α + β * (T3 / T2)) := by
        field_simp
        linear_combination T2 * one - β * sum
      rw [this]
      have : 0 ≤ α + β * (T3 / T2) := by positivity
      linarith
    · funext i
      have := eq i
      simp only [Pi.add_apply, Pi.smul_apply, Pi.sub_apply, smul_eq_mul]
      field_simp
      linear_combination β * this + (a i * T2) * one - β * a i * sum
  · left
    rw [triangle_hull]
    refine ⟨β - δ * T2 / T1, γ + δ * (T4 / T1), by rw [sub_nonneg, div_le_iff₀ h1]; exact h, by positivity, ?_, ?_⟩
    · have : β - δ * T2 / T1 + (γ + δ * (T4 / T1)) = 1 - (α + δ * (T3 / T1)) := by
        field_simp
        linear_combination T1 * one - δ * sum
      rw [this]
      have : 0 ≤ α + δ * (T3 / T1) := by positivity
      linarith
    · funext i
      have := eq i
      simp only [Pi.add_apply, Pi.smul_apply, Pi.sub_apply, smul_eq_mul]
      field_simp
      linear_combination δ * this + (a i * T1) * one - δ * a i * sum

/-- The unit vector upwards. -/
def upZ : V3 ℝ := ![0, 0, 1]

theorem swept_flat {a b c : V3 ℝ} (z : a 2 = 0 ∧ b 2 = 0 ∧ c 2 = 0) :
    volume (swept (convexHull ℝ {a, b, c}) upZ) = ENNReal.ofReal (|turnZ a b c| / 2) := by
  rw [volume_swept, det3_eq]
  congr 3
  simp only [upZ, Pi.sub_apply, z.1, z.2.1, z.2.2, turnZ, Matrix.cons_val_zero, Matrix.cons_val_one, Matrix.cons_val]
  ring

theorem swept_area {c : List (V3 ℝ)} (hl : c.length = 3 ∨ c.length = 4) (hz : ∀ y ∈ c, y 2 = 0) (ht : TurnsLeft c ∨ TurnsRight c) :
    volume (swept (cellHull c) upZ) ≤ ENNReal.ofReal (flatArea c) := by
  rcases hl with hl | hl
  · obtain ⟨p, q, r, rfl⟩ := List.length_eq_three.1 hl
    have zp := hz p (by simp)
    have zq := hz q (by simp)
    have zr := hz r (by simp)
    have e : cellHull [p, q, r] = convexHull ℝ {p, q, r} := by
      rw [cellHull]
      congr 1
      ext x
      simp only [List.mem_cons, List.not_mem_nil, or_false, Set.mem_ofPred_eq, Set.mem_insert_iff, Set.mem_singleton_iff]
    rw [e, swept_flat ⟨zp, zq, zr⟩, area_triangle (by rw [zp, zq]) (by rw [zp, zr])]
    have : crossXY (q - p) (r - p) = turnZ p q r := by simp only [crossXY, turnZ, Pi.sub_apply]; ring
    rw [this]
  · obtain ⟨p, q, r, s, rfl⟩ : ∃ p q r s, c = [p, q, r, s] := by
      match c, hl with
      | [p, q, r, s], _ => exact ⟨p, q, r, s, rfl⟩
    have zp := hz p (by simp)
    have zq := hz q (by simp)
    have zr := hz r (by simp)
    have zs := hz s (by simp)
    have e : cellHull [p, q, r, s] = convexHull ℝ {p, q, r, s} := by
      rw [cellHull]
      congr 1
      ext x
      simp only [List.mem_cons, List.not_mem_nil, or_false, Set.mem_ofPred_eq, Set.mem_insert_iff, Set.mem_singleton_iff]
    obtain ⟨σ, hσ, g1, g2, g3, g4⟩ : ∃ σ : ℝ, |σ| = 1 ∧ 0 < σ * turnZ p q r ∧ 0 < σ * turnZ q r s ∧ 0 < σ * turnZ r s p ∧ 0 < σ * turnZ s p q := by
      rcases ht with ht | ht
      · obtain ⟨g1, g2, g3, g4⟩ := turns_quad.1.1 ht
        exact ⟨1, by simp, by linarith, by linarith, by linarith, by linarith⟩
      · obtain ⟨g1, g2, g3, g4⟩ := turns_quad.2.1 ht
        exact ⟨-1, by simp, by linarith, by linarith, by linarith, by linarith⟩
    have sub : swept (cellHull [p, q, r, s]) upZ ⊆ swept (convexHull ℝ {p, q, r}) upZ ∪ swept (convexHull ℝ {p, r, s}) upZ := by
      rintro x ⟨y, hy, t, t0, t1, rfl⟩
      rw [e] at hy
      rcases quad_halves ⟨zp, zq, zr, zs⟩ g1 g2 g3 g4 hy with hy | hy
      · exact Or.inl ⟨y, hy, t, t0, t1, rfl⟩
      · exact Or.inr ⟨y, hy, t, t0, t1, rfl⟩
    refine (measure_mono sub).trans ((measure_union_le _ _).trans ?_)
    rw [swept_flat ⟨zp, zq, zr⟩, swept_flat ⟨zp, zr, zs⟩, ← ENNReal.ofReal_add (by positivity) (by positivity),
      area_quad (by rw [zp, zr]) (by rw [zq, zs])]
    refine ENNReal.ofReal_le_ofReal (le_of_eq ?_)
    have k : ∀ x : ℝ, |x| = |σ * x| := fun x => by rw [abs_mul, hσ, one_mul]
    have e2 : turnZ p r s = turnZ r s p := by simp only [turnZ]; ring
    have e3 : σ * crossXY (r - p) (s - q) = σ * turnZ p q r + σ * turnZ r s p := by simp only [crossXY, turnZ, Pi.sub_apply]; ring
    rw [e2, k, k (turnZ r s p), k (crossXY _ _), e3, abs_of_pos g1, abs_of_pos g3, abs_of_pos (by linarith)]
    ring

/-! ## Cells that cover a square -/

theorem flatArea_nonneg (c : List (V3 ℝ)) : 0 ≤ flatArea c := by unfold flatArea; positivity

/-- Convex cells that cover a square and whose areas add up to its area share no area. -/
theorem no_overlap {cells : List (List (V3 ℝ))} {S : ℝ} (hS : 0 ≤ S) (hl : ∀ c ∈ cells, c.length = 3 ∨ c.length = 4)
    (hz : ∀ c ∈ cells, ∀ y ∈ c, y 2 = 0) (ht : ∀ c ∈ cells, TurnsLeft c ∨ TurnsRight c)
    (cover : ∀ x : V3 ℝ, |x 0| ≤ S → |x 1| ≤ S → x 2 = 0 → ∃ c ∈ cells, x ∈ cellHull c) (area : (cells.map flatArea).sum = (2 * S) ^ 2)
    {i j : ℕ} {c c' : List (V3 ℝ)} (hij : i ≠ j) (hi : cells[i]? = some c) (hj : cells[j]? = some c') :
    ¬ ShareArea (cellHull c) (cellHull c') := by
  rintro ⟨x, r, hr, share⟩
  obtain ⟨hi', ei⟩ := List.getElem?_eq_some_iff.1 hi
  obtain ⟨hj', ej⟩ := List.getElem?_eq_some_iff.1 hj
  obtain ⟨V, hV⟩ : ∃ V : Fin cells.length → Set (V3 ℝ), V = fun k => swept (cellHull cells[k.1]) upZ := ⟨_, rfl⟩
  obtain ⟨D, hD⟩ : ∃ D : Set (V3 ℝ), D = Set.Icc ![x 0 - r / 2, x 1 - r / 2, 0] ![x 0 + r / 2, x 1 + r / 2, 1] := ⟨_, rfl⟩
  have lift : ∀ (T : Set (V3 ℝ)) (y : V3 ℝ), 0 ≤ y 2 → y 2 ≤ 1 → ![y 0, y 1, 0] ∈ T → y ∈ swept T upZ := by
    intro T y h0 h1 h
    refine ⟨_, h, y 2, h0, h1, ?_⟩
    funext ax; fin_cases ax <;> simp [upZ]
  have inD : ∀ y ∈ D, ![y 0, y 1, 0] ∈ cellHull c ∧ ![y 0, y 1, 0] ∈ cellHull c' ∧ 0 ≤ y 2 ∧ y 2 ≤ 1 := by
    rintro y hy
    rw [hD] at hy
    obtain ⟨lo, hi⟩ := hy
    have l0 : x 0 - r / 2 ≤ y 0 := lo 0
    have l1 : x 1 - r / 2 ≤ y 1 := lo 1
    have u0 : y 0 ≤ x 0 + r / 2 := hi 0
    have u1 : y 1 ≤ x 1 + r / 2 := hi 1
    obtain ⟨k1, k2⟩ := share ![y 0, y 1, 0] (by rw [abs_lt]; exact ⟨by simp; linarith, by simp; linarith⟩)
      (by rw [abs_lt]; exact ⟨by simp; linarith, by simp; linarith⟩) rfl
    exact ⟨k1, k2, lo 2, hi 2⟩
  have volD : 0 < volume D := by
    rw [hD, Real.volume_Icc_pi, Fin.prod_univ_three]
    simp only [Matrix.cons_val_zero, Matrix.cons_val_one, Matrix.cons_val]
    have e0 : x 0 + r / 2 - (x 0 - r / 2) = r := by ring
    have e1 : x 1 + r / 2 - (x 1 - r / 2) = r := by ring
    rw [e0, e1, sub_zero, ENNReal.ofReal_one, mul_one]
    have := ENNReal.ofReal_pos.2 hr
    exact ENNReal.mul_pos this.ne' this.ne'
  have mD : MeasurableSet D := by rw [hD]; exact measurableSet_Icc
  obtain ⟨I, hI⟩ : ∃ I : Fin cells.length, I = ⟨i, hi'⟩ := ⟨_, rfl⟩
  obtain ⟨J, hJ⟩ : ∃ J : Fin cells.length, J = ⟨j, hj'⟩ := ⟨_, rfl⟩
  have IJ : J ≠ I := by rw [hI, hJ]; intro h; exact hij (congrArg Fin.val h).symm
  have VI : D ⊆ V I := by
    intro y hy
    obtain ⟨h1, _, h3, h4⟩ := inD y hy
    rw [hV, hI]
    refine lift _ y h3 h4 ?_
    change _ ∈ cellHull cells[i]
    rw [ei]; exact h1
  have VJ : D ⊆ V J := by
    intro y hy
    obtain ⟨_, h1, h3, h4⟩ := inD y hy
    rw [hV, hJ]
    refine lift _ y h3 h4 ?_
    change _ ∈ cellHull cells[j]
    rw [ej]; exact h1
  have covered : Set.Icc ![-S, -S, 0] ![S, S, 1] ⊆ ⋃ k, Function.update V I (V I \ D) k := by
    rintro y ⟨lo, hi⟩
    obtain ⟨d, hd, hy⟩ := cover ![y 0, y 1, 0] (abs_le.2 ⟨lo 0, hi 0⟩) (abs_le.2 ⟨lo 1, hi 1⟩) rfl
    obtain ⟨k, hk, rfl⟩ := List.getElem_of_mem hd
    have hy' : y ∈ V ⟨k, hk⟩ := by rw [hV]; exact lift _ y (lo 2) (hi 2) hy
    rw [Set.mem_iUnion]
    by_cases yD : y ∈ D
    · exact ⟨J, by rw [Function.update_of_ne IJ]; exact VJ yD⟩
    · by_cases kI : (⟨k, hk⟩ : Fin cells.length) = I
      · exact ⟨I, by rw [Function.update_self]; exact ⟨by rw [← kI]; exact hy', yD⟩⟩
      · exact ⟨⟨k, hk⟩, by rw [Function.update_of_ne kI]; exact hy'⟩
  have total : ∑ k, volume (V k) ≤ ENNReal.ofReal ((2 * S) ^ 2) := by
    rw [← area, ← Fin.sum_univ_fun_getElem, ENNReal.ofReal_sum_of_nonneg fun k _ => flatArea_nonneg _]
    refine Finset.sum_le_sum fun k _ => ?_
    rw [hV]
    exact swept_area (hl _ (List.getElem_mem _)) (hz _ (List.getElem_mem _)) (ht _ (List.getElem_mem _))
  have square : volume (Set.Icc (![-S, -S, 0] : V3 ℝ) ![S, S, 1]) = ENNReal.ofReal ((2 * S) ^ 2) := by
    rw [Real.volume_Icc_pi, Fin.prod_univ_three]
    simp only [Matrix.cons_val_zero, Matrix.cons_val_one, Matrix.cons_val]
    rw [sub_zero, ENNReal.ofReal_one, mul_one, ← ENNReal.ofReal_mul (by linarith)]
    congr 1
    ring
  have split : ∑ k, volume (Function.update V I (V I \ D) k) + volume D = ∑ k, volume (V k) := by
    rw [← Finset.add_sum_erase _ _ (Finset.mem_univ I), ← Finset.add_sum_erase (a := I) _ (fun k => volume (V k)) (Finset.mem_univ I)]
    have rest : ∑ k ∈ Finset.univ.erase I, volume (Function.update V I (V I \ D) k) = ∑ k ∈ Finset.univ.erase I, volume (V k) :=
      Finset.sum_congr rfl fun k hk => by rw [Function.update_of_ne (Finset.ne_of_mem_erase hk)]
    have own : volume (V I \ D) + volume D = volume (V I) := by
      rw [← measure_sdiff_add_inter (V I) mD, Set.inter_eq_self_of_subset_right VI]
    rw [rest, Function.update_self, ← own, add_right_comm]
  have low := (measure_mono covered).trans (measure_iUnion_fintype_le volume _)
  rw [square] at low
  have := (add_le_add_left low (volume D)).trans (split.le.trans total)
  have fin : ENNReal.ofReal ((2 * S) ^ 2) ≠ ⊤ := ENNReal.ofReal_ne_top
  exact absurd this (not_le.2 (ENNReal.lt_add_right fin volD.ne'))

/-! ## The well -/

variable {δ : Type _} [OfNat δ 0] [OfNat δ 32]

omit [OfNat δ 0] [OfNat δ 32] in
theorem gridQuads_four {M : SGrid ℝ δ} {c : List (V3 ℝ)} (hc : c ∈ gridQuads M) : c.length = 4 := by
  obtain ⟨j, _, hc⟩ := List.mem_flatMap.1 hc
  obtain ⟨i, _, rfl⟩ := List.mem_map.1 hc
  rfl

theorem rings_four {area : Arr3 (V3 ℝ) → List ℝ} {m : ℤ} : ∀ (rings : List (ℝ × ℝ × ℤ × String)) {parts : List WellPart}
    (_ : wellRings δ area m rings = .ok parts), ∀ part ∈ parts, ∀ c ∈ part.cells, c.length = 4
  | [], parts, h => by
    cases h
    intro p hp
    cases hp
  | (ri, ro, nr, g) :: rest, parts, h => by
    simp only [wellRings] at h
    obtain ⟨M, hM, h⟩ := bind_ok.1 h
    obtain ⟨more, hmore, h⟩ := bind_ok.1 h
    cases h
    intro p hp
    rcases List.mem_cons.1 hp with rfl | hp
    · exact fun c hc => gridQuads_four hc
    · exact rings_four rest hmore p hp

theorem quarter_lengths {area : Arr3 (V3 ℝ) → List ℝ} {w : WellNumbers} {parts : List WellPart}
    (h : wellQuarter δ area w = .ok parts) : ∀ part ∈ parts, ∀ c ∈ part.cells, c.length = 3 ∨ c.length = 4 := by
  simp only [wellQuarter] at h
  obtain ⟨T, hT, h⟩ := bind_ok.1 h
  obtain ⟨rp, hrp, h⟩ := bind_ok.1 h
  obtain ⟨⟨A, B⟩, hAB, h⟩ := bind_ok.1 h
  obtain ⟨R1, h1, h⟩ := bind_ok.1 h
  obtain ⟨R2, h2, h⟩ := bind_ok.1 h
  obtain ⟨R3, h3, h⟩ := bind_ok.1 h
  cases h
  intro part hp c hc
  rcases List.mem_append.1 hp with hp | hp
  · rcases List.mem_cons.1 hp with rfl | hp
    · left
      obtain ⟨cell, hcell, rfl⟩ := List.mem_map.1 hc
      obtain ⟨ts, v, _, _, _, _, _, _, k7, k8⟩ := C63_sector hT
      obtain ⟨k, hk, rfl⟩ := List.getElem_of_mem hcell
      have := k8 k (by omega)
      rw [List.getElem?_eq_getElem hk] at this
      rw [Option.some.inj this]
      rfl
    · exact Or.inr (rings_four _ hrp part hp c hc)
  · right
    simp only [List.mem_cons, List.not_mem_nil, or_false] at hp
    rcases hp with rfl | rfl | rfl | rfl
    · rcases List.mem_append.1 hc with hc | hc <;> exact gridQuads_four hc
    all_goals exact gridQuads_four hc

/-- **C150.** No two cells of a well whose numbers fit share any area. -/
theorem C150_well {area : Arr3 (V3 ℝ) → List ℝ} {w : WellNumbers} (hw : WellFits w) {parts : List WellPart}
    (h : wellQuarter δ area w = .ok parts) (hname : ∀ p ∈ parts, p.group ≠ "")
    {append : List (List (V3 ℝ) × Int) → List (List (V3 ℝ) × Int) → List (List (V3 ℝ) × Int)} (happ : ∀ a b, (append a b).Perm (a ++ b)) :
    ∃ out table, wellMerged append parts = .ok (out, table) ∧ ∀ (i j : ℕ) gc gc', i ≠ j → out[i]? = some gc → out[j]? = some gc' →
      ¬ ShareArea (cellHull gc.1) (cellHull gc'.1) := by
  obtain ⟨out, table, k1, k2⟩ := C149_well hw h hname happ
  obtain ⟨out', table', m1, m2, _⟩ := C148_well hw h hname happ
  rw [k1] at m1; cases m1
  have hne : parts ≠ [] := by
    rintro rfl
    obtain ⟨parts', g1, g2, _⟩ := C127_conforming (δ := δ) area hw
    rw [h] at g1; cases g1
    simp [wellRegions] at g2
  obtain ⟨out', table', g1, _, _, g4⟩ := C127_groups happ hne hname
  rw [k1] at g1; cases g1
  have S0 : 0 ≤ w.side + w.width := by
    have := (ringsFit_le _ hw.core_pos hw.rings).1
    have := hw.core_pos; have := hw.side; have := hw.width
    linarith
  have origin : ∀ d ∈ out.map Prod.fst, ∃ k, ∃ p ∈ parts, ∃ c ∈ p.cells, c.map quarterTurn^[k] = d := by
    intro d hd
    obtain ⟨gc, hgc, rfl⟩ := List.mem_map.1 hd
    have := g4.mem_iff.1 (List.mem_map_of_mem (f := fun gc : List (V3 ℝ) × Int => (gc.1, nameOf table gc.2)) hgc)
    obtain ⟨k, _, hk⟩ := List.mem_flatMap.1 this
    obtain ⟨p, hp, hk⟩ := List.mem_flatMap.1 hk
    obtain ⟨c, hc, e⟩ := List.mem_map.1 hk
    exact ⟨k, p, hp, c, hc, congrArg Prod.fst e⟩
  refine ⟨out, table, k1, fun i j gc gc' hij hi hj => ?_⟩
  refine no_overlap (cells := out.map Prod.fst) S0 ?_ ?_ ?_ ?_ ?_ hij (by rw [List.getElem?_map, hi]; rfl) (by rw [List.getElem?_map, hj]; rfl)
  · intro d hd
    obtain ⟨k, p, hp, c, hc, rfl⟩ := origin d hd
    rw [List.length_map]
    exact quarter_lengths h p hp c hc
  · intro d hd y hy
    obtain ⟨gc, hgc, rfl⟩ := List.mem_map.1 hd
    have : y ∈ ⋃ gc ∈ out, cellHull gc.1 := Set.mem_iUnion₂.2 ⟨gc, hgc, subset_convexHull ℝ _ hy⟩
    rw [k2] at this
    exact this.2.2
  · intro d hd
    obtain ⟨k, p, hp, c, hc, rfl⟩ := origin d hd
    simp only [TurnsLeft, TurnsRight, List.length_map, turnAt_quarters]
    exact (quarter_turn hw.toWellSizes h).1 p hp c hc
  · intro x x0 x1 x2
    have : x ∈ ⋃ gc ∈ out, cellHull gc.1 := by rw [k2]; exact ⟨x0, x1, x2⟩
    obtain ⟨gc, hgc, hx⟩ := Set.mem_iUnion₂.1 this
    exact ⟨gc.1, List.mem_map_of_mem hgc, hx⟩
  · rw [List.map_map]
    exact m2

/-- **C150 (load_well_2d).** No two of the 704 cells share any area. -/
theorem C150_load_well (area : Arr3 (V3 ℝ) → List ℝ)
    {append : List (List (V3 ℝ) × Int) → List (List (V3 ℝ) × Int) → List (List (V3 ℝ) × Int)} (happ : ∀ a b, (append a b).Perm (a ++ b)) :
    ∃ out table, loadWell2d δ area append = .ok (out, table) ∧ out.length = 704 ∧ ∀ (i j : ℕ) gc gc', i ≠ j → out[i]? = some gc →
      out[j]? = some gc' → ¬ ShareArea (cellHull gc.1) (cellHull gc'.1) := by
  obtain ⟨parts, h1, _⟩ := C127_conforming (δ := δ) area wellNumbers_fit
  have hcnt := wellQuarter_areas wellNumbers_fit h1
  obtain ⟨out, table, k1, k2⟩ := C150_well wellNumbers_fit h1 (by
    intro p hp
    have := List.mem_map_of_mem (f := fun p : WellPart => (p.group, (p.cells.map flatArea).sum)) hp
    rw [hcnt] at this
    simp only [wellAreas, wellNumbers, List.map_cons, List.map_nil, List.cons_append, List.nil_append, List.mem_cons, List.not_mem_nil, or_false, Prod.mk.injEq] at this
    rcases this with h | h | h | h | h | h | h | h | h | h | h <;> rw [h.1] <;> decide) happ
  have e : loadWell2d δ area append = .ok (out, table) := by simp only [loadWell2d, h1, k1]
  obtain ⟨_, out', table', c1, _, _, c2, _⟩ := C127_load_well (δ := δ) area happ
  rw [e] at c1; cases c1
  exact ⟨out, table, e, c2, k2⟩

/-- The squares 0..2 and 1..3 share area, the squares 0..1 and 1..2 do not. -/
example : ShareArea (boxRegion 0 2 0 2) (boxRegion 1 3 1 3) ∧ ¬ ShareArea (boxRegion 0 1 0 1) (boxRegion 1 2 0 1) := by
  constructor
  · refine ⟨![3 / 2, 3 / 2, 0], 1 / 2, by norm_num, fun y h0 h1 h2 => ?_⟩
    rw [abs_lt] at h0 h1
    simp only [Matrix.cons_val_zero, Matrix.cons_val_one] at h0 h1
    exact ⟨⟨by linarith, by linarith, by linarith, by linarith, h2⟩, ⟨by linarith, by linarith, by linarith, by linarith, h2⟩⟩
  · rintro ⟨x, r, hr, h⟩
    obtain ⟨⟨_, a, _⟩, b, _⟩ := h ![x 0 + r / 2, x 1, 0] (by simp; rw [abs_of_pos (half_pos hr)]; linarith) (by simpa using hr) rfl
    obtain ⟨⟨_, a', _⟩, b', _⟩ := h ![x 0 - r / 2, x 1, 0] (by simp; rw [abs_of_pos (half_pos hr)]; linarith) (by simpa using hr) rfl
    simp only [Matrix.cons_val_zero] at a b a' b'
    linarith

end Gridder
