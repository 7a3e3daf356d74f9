import Mathlib.MeasureTheory.Measure.Lebesgue.EqHaar
import Mathlib.MeasureTheory.Constructions.Pi
import Mathlib.MeasureTheory.Measure.Prod
import Mathlib.MeasureTheory.Function.Jacobian
import Mathlib.MeasureTheory.Integral.IntervalIntegral.FundThmCalculus
import Mathlib.Analysis.SpecialFunctions.Integrals.Basic
import Mathlib.LinearAlgebra.Matrix.Determinant.Basic
import Mathlib.LinearAlgebra.Transvection.Basic

/-!
# Volumes of prisms

Lebesgue measure of the prism over the unit triangle between two planes, and of its images under affine maps.
-/

namespace Gridder
open MeasureTheory

/-- The volume of a set is the integral of the lengths of its fibres along a coordinate. -/
theorem volume_fibres (ax : Fin 3) {S : Set (Fin 3 → ℝ)} (hS : MeasurableSet S) :
    volume S = ∫⁻ y : Fin 2 → ℝ, volume {h : ℝ | (ax.insertNth h y : Fin 3 → ℝ) ∈ S} := by
  have hp := (volume_preserving_piFinSuccAbove (fun _ : Fin 3 => ℝ) ax).symm
  rw [← hp.measure_preimage hS.nullMeasurableSet]
  rw [Measure.volume_eq_prod, Measure.prod_apply_symm (hp.measurable hS)]
  rfl

/-- An integral, by the fibres along a coordinate. -/
theorem lintegral_fibres (ax : Fin 3) {f : (Fin 3 → ℝ) → ENNReal} (hf : Measurable f) :
    ∫⁻ x, f x = ∫⁻ y : Fin 2 → ℝ, ∫⁻ h : ℝ, f (ax.insertNth h y) := by
  have hp := (volume_preserving_piFinSuccAbove (fun _ : Fin 3 => ℝ) ax).symm
  rw [← hp.lintegral_comp hf, Measure.volume_eq_prod]
  exact lintegral_prod_symm _ (hf.comp hp.measurable).aemeasurable

theorem integral_twoArrow (g : ℝ × ℝ → ENNReal) :
    ∫⁻ y : Fin 2 → ℝ, g (y 0, y 1) = ∫⁻ z : ℝ × ℝ, g z := by
  have hp := volume_preserving_finTwoArrow ℝ
  exact hp.lintegral_comp_emb (MeasurableEquiv.measurableEmbedding _) g

theorem integral_unit {g : ℝ → ℝ} (hg : Continuous g) (h0 : ∀ x, 0 ≤ x → x ≤ 1 → 0 ≤ g x) :
    ∫⁻ x, (Set.Icc (0 : ℝ) 1).indicator (fun x => ENNReal.ofReal (g x)) x = ENNReal.ofReal (∫ x in (0 : ℝ)..1, g x) := by
  rw [lintegral_indicator measurableSet_Icc, ← ofReal_integral_eq_lintegral_ofReal, intervalIntegral.integral_of_le zero_le_one,
    integral_Icc_eq_integral_Ioc]
  · exact hg.continuousOn.integrableOn_Icc
  · rw [Filter.EventuallyLE, ae_restrict_iff' measurableSet_Icc]
    exact Filter.Eventually.of_forall fun x hx => h0 x hx.1 hx.2

/-- The unit triangle. -/
def unitTriangle : Set (ℝ × ℝ) := {z | 0 ≤ z.1 ∧ 0 ≤ z.2 ∧ z.1 + z.2 ≤ 1}

theorem measurable_unitTriangle : MeasurableSet unitTriangle := by
  refine ((measurableSet_le measurable_const measurable_fst).inter ((measurableSet_le measurable_const measurable_snd).inter
    (measurableSet_le (measurable_fst.add measurable_snd) measurable_const)))

/-- The integral of a coordinate over the unit triangle. -/
theorem triangle_snd : ∫⁻ z, unitTriangle.indicator (fun z => ENNReal.ofReal z.2) z = ENNReal.ofReal (1 / 6) := by
  have m2 : Measurable (unitTriangle.indicator fun z => ENNReal.ofReal z.2) :=
    (ENNReal.measurable_ofReal.comp measurable_snd).indicator measurable_unitTriangle
  rw [Measure.volume_eq_prod, lintegral_prod_symm _ m2.aemeasurable]
  have : ∀ y : ℝ, (∫⁻ x : ℝ, unitTriangle.indicator (fun z => ENNReal.ofReal z.2) (x, y)) =
      (Set.Icc (0 : ℝ) 1).indicator (fun y => ENNReal.ofReal (y * (1 - y))) y := by
    intro y
    by_cases hy : 0 ≤ y
    · have e : (fun x : ℝ => unitTriangle.indicator (fun z => ENNReal.ofReal z.2) (x, y)) =
          (Set.Icc (0 : ℝ) (1 - y)).indicator fun _ => ENNReal.ofReal y := by
        funext x
        simp only [Set.indicator, unitTriangle, Set.mem_ofPred_eq, Set.mem_Icc]
        congr 1
        simp only [eq_iff_iff]
        constructor
        · rintro ⟨a, _, c⟩; exact ⟨a, by linarith⟩
        · rintro ⟨a, c⟩; exact ⟨a, hy, by linarith⟩
      rw [e, lintegral_indicator_const measurableSet_Icc, Real.volume_Icc, sub_zero]
      by_cases h1 : y ≤ 1
      · rw [Set.indicator_of_mem (show y ∈ Set.Icc (0 : ℝ) 1 from ⟨hy, h1⟩), ENNReal.ofReal_mul hy]
      · rw [Set.indicator_of_notMem (fun h => h1 h.2), ENNReal.ofReal_of_nonpos (p := 1 - y) (by linarith), mul_zero]
    · rw [Set.indicator_of_notMem (fun h => hy h.1)]
      have e : (fun x : ℝ => unitTriangle.indicator (fun z => ENNReal.ofReal z.2) (x, y)) = fun _ => 0 := by
        funext x
        exact Set.indicator_of_notMem (fun h => hy h.2.1) _
      rw [e, lintegral_zero]
  rw [lintegral_congr this, integral_unit (by fun_prop) fun x h0 h1 => mul_nonneg h0 (by linarith)]
  congr 1
  have : ∀ x : ℝ, x * (1 - x) = x - x ^ 2 := fun x => by ring
  simp only [this]
  rw [intervalIntegral.integral_sub (Continuous.intervalIntegrable (by fun_prop) _ _) (Continuous.intervalIntegrable (by fun_prop) _ _)]
  simp
  norm_num

theorem triangle_fst : ∫⁻ z, unitTriangle.indicator (fun z => ENNReal.ofReal z.1) z = ENNReal.ofReal (1 / 6) := by
  rw [← triangle_snd, Measure.volume_eq_prod, ← lintegral_prod_swap]
  refine lintegral_congr fun z => ?_
  simp only [Set.indicator, unitTriangle, Set.mem_ofPred_eq, Prod.fst_swap, Prod.snd_swap]
  congr 1
  simp only [eq_iff_iff]
  constructor
  · rintro ⟨a, b, c⟩; exact ⟨b, a, by linarith⟩
  · rintro ⟨a, b, c⟩; exact ⟨b, a, by linarith⟩

/-- The area of the unit triangle. -/
theorem triangle_one : ∫⁻ z, unitTriangle.indicator (fun _ => 1) z = ENNReal.ofReal (1 / 2) := by
  rw [Measure.volume_eq_prod, lintegral_prod_symm _ (measurable_const.indicator measurable_unitTriangle).aemeasurable]
  have : ∀ y : ℝ, (∫⁻ x : ℝ, unitTriangle.indicator (fun _ => (1 : ENNReal)) (x, y)) =
      (Set.Icc (0 : ℝ) 1).indicator (fun y => ENNReal.ofReal (1 - y)) y := by
    intro y
    by_cases hy : 0 ≤ y
    · have e : (fun x : ℝ => unitTriangle.indicator (fun _ => (1 : ENNReal)) (x, y)) =
          (Set.Icc (0 : ℝ) (1 - y)).indicator fun _ => 1 := by
        funext x
        simp only [Set.indicator, unitTriangle, Set.mem_ofPred_eq, Set.mem_Icc]
        congr 1
        simp only [eq_iff_iff]
        constructor
        · rintro ⟨a, _, c⟩; exact ⟨a, by linarith⟩
        · rintro ⟨a, c⟩; exact ⟨a, hy, by linarith⟩
      rw [e, lintegral_indicator_const measurableSet_Icc, Real.volume_Icc, sub_zero, one_mul]
      by_cases h1 : y ≤ 1
      · rw [Set.indicator_of_mem (show y ∈ Set.Icc (0 : ℝ) 1 from ⟨hy, h1⟩)]
      · rw [Set.indicator_of_notMem (fun h => h1 h.2), ENNReal.ofReal_of_nonpos (by linarith)]
    · rw [Set.indicator_of_notMem (fun h => hy h.1)]
      have e : (fun x : ℝ => unitTriangle.indicator (fun _ => (1 : ENNReal)) (x, y)) = fun _ => 0 := by
        funext x
        exact Set.indicator_of_notMem (fun h => hy h.2.1) _
      rw [e, lintegral_zero]
  rw [lintegral_congr this, integral_unit (by fun_prop) fun x h0 h1 => by linarith]
  congr 1
  rw [intervalIntegral.integral_sub (Continuous.intervalIntegrable (by fun_prop) _ _) (Continuous.intervalIntegrable (by fun_prop) _ _)]
  simp
  norm_num

theorem triangle_third :
    ∫⁻ z, unitTriangle.indicator (fun z => ENNReal.ofReal (1 - z.1 - z.2)) z = ENNReal.ofReal (1 / 6) := by
  have m1 : Measurable (unitTriangle.indicator fun z => ENNReal.ofReal z.1) :=
    (ENNReal.measurable_ofReal.comp measurable_fst).indicator measurable_unitTriangle
  have m2 : Measurable (unitTriangle.indicator fun z => ENNReal.ofReal z.2) :=
    (ENNReal.measurable_ofReal.comp measurable_snd).indicator measurable_unitTriangle
  have key : ∫⁻ z, unitTriangle.indicator (fun _ => 1) z =
      ∫⁻ z, (unitTriangle.indicator (fun z => ENNReal.ofReal z.1) z + unitTriangle.indicator (fun z => ENNReal.ofReal z.2) z +
        unitTriangle.indicator (fun z => ENNReal.ofReal (1 - z.1 - z.2)) z) := by
    refine lintegral_congr fun z => ?_
    by_cases hz : z ∈ unitTriangle
    · obtain ⟨a, b, c⟩ := id hz
      simp only [Set.indicator_of_mem hz]
      rw [← ENNReal.ofReal_add a b, ← ENNReal.ofReal_add (by linarith) (by linarith), ← ENNReal.ofReal_one]
      congr 1
      ring
    · simp only [Set.indicator_of_notMem hz, add_zero]
  have m12 : Measurable fun z => unitTriangle.indicator (fun z => ENNReal.ofReal z.1) z +
      unitTriangle.indicator (fun z => ENNReal.ofReal z.2) z := m1.add m2
  rw [lintegral_add_left m12, lintegral_add_left m1, triangle_fst, triangle_snd, triangle_one] at key
  have e : ENNReal.ofReal (1 / 2) = ENNReal.ofReal (1 / 6) + ENNReal.ofReal (1 / 6) + ENNReal.ofReal (1 / 6) := by
    rw [← ENNReal.ofReal_add (by norm_num) (by norm_num), ← ENNReal.ofReal_add (by norm_num) (by norm_num)]
    norm_num
  rw [e] at key
  exact ((ENNReal.add_right_inj (by finiteness)).1 key).symm

/-- The prism over the unit triangle between two planes, given by the heights at the corners. -/
def unitPrism (lo hi : Fin 3 → ℝ) : Set (Fin 3 → ℝ) :=
  {y | 0 ≤ y 0 ∧ 0 ≤ y 1 ∧ y 0 + y 1 ≤ 1 ∧ (1 - y 0 - y 1) * lo 0 + y 0 * lo 1 + y 1 * lo 2 ≤ y 2 ∧
    y 2 ≤ (1 - y 0 - y 1) * hi 0 + y 0 * hi 1 + y 1 * hi 2}

theorem measurable_unitPrism (lo hi : Fin 3 → ℝ) : MeasurableSet (unitPrism lo hi) := by
  have : unitPrism lo hi = {y | 0 ≤ y 0} ∩ ({y | 0 ≤ y 1} ∩ ({y | y 0 + y 1 ≤ 1} ∩
      ({y | (1 - y 0 - y 1) * lo 0 + y 0 * lo 1 + y 1 * lo 2 ≤ y 2} ∩
        {y | y 2 ≤ (1 - y 0 - y 1) * hi 0 + y 0 * hi 1 + y 1 * hi 2}))) := rfl
  rw [this]
  refine IsClosed.measurableSet ?_
  refine IsClosed.inter (isClosed_le ?_ ?_) (IsClosed.inter (isClosed_le ?_ ?_) (IsClosed.inter (isClosed_le ?_ ?_)
    (IsClosed.inter (isClosed_le ?_ ?_) (isClosed_le ?_ ?_)))) <;> fun_prop

/-- The volume of a prism is its base area times its mean height. -/
theorem volume_unitPrism {lo hi : Fin 3 → ℝ} (h : ∀ i, lo i ≤ hi i) :
    volume (unitPrism lo hi) = ENNReal.ofReal (((hi 0 - lo 0) + (hi 1 - lo 1) + (hi 2 - lo 2)) / 6) := by
  have m0 : Measurable (unitTriangle.indicator fun z => ENNReal.ofReal (1 - z.1 - z.2)) :=
    (ENNReal.measurable_ofReal.comp (by fun_prop)).indicator measurable_unitTriangle
  have m1 : Measurable (unitTriangle.indicator fun z => ENNReal.ofReal z.1) :=
    (ENNReal.measurable_ofReal.comp measurable_fst).indicator measurable_unitTriangle
  have m2 : Measurable (unitTriangle.indicator fun z => ENNReal.ofReal z.2) :=
    (ENNReal.measurable_ofReal.comp measurable_snd).indicator measurable_unitTriangle
  rw [volume_fibres 2 (measurable_unitPrism lo hi)]
  obtain ⟨G, hG⟩ : ∃ G : ℝ × ℝ → ENNReal, G = fun z =>
      ENNReal.ofReal (hi 0 - lo 0) * unitTriangle.indicator (fun z => ENNReal.ofReal (1 - z.1 - z.2)) z +
        ENNReal.ofReal (hi 1 - lo 1) * unitTriangle.indicator (fun z => ENNReal.ofReal z.1) z +
        ENNReal.ofReal (hi 2 - lo 2) * unitTriangle.indicator (fun z => ENNReal.ofReal z.2) z := ⟨_, rfl⟩
  have key : ∀ y : Fin 2 → ℝ, volume {h : ℝ | ((2 : Fin 3).insertNth h y : Fin 3 → ℝ) ∈ unitPrism lo hi} = G (y 0, y 1) := by
    intro y
    have e : ∀ h : ℝ, ((2 : Fin 3).insertNth h y : Fin 3 → ℝ) = ![y 0, y 1, h] := by
      intro h
      funext i
      fin_cases i
      · exact Fin.insertNth_apply_succAbove (α := fun _ => ℝ) (2 : Fin 3) h y 0
      · exact Fin.insertNth_apply_succAbove (α := fun _ => ℝ) (2 : Fin 3) h y 1
      · exact Fin.insertNth_apply_same (α := fun _ => ℝ) (2 : Fin 3) h y
    simp only [e, hG]
    by_cases hz : (y 0, y 1) ∈ unitTriangle
    · obtain ⟨a, b, c⟩ := id hz
      simp only at a b c
      simp only [Set.indicator_of_mem hz]
      have : {h : ℝ | ![y 0, y 1, h] ∈ unitPrism lo hi} =
          Set.Icc ((1 - y 0 - y 1) * lo 0 + y 0 * lo 1 + y 1 * lo 2) ((1 - y 0 - y 1) * hi 0 + y 0 * hi 1 + y 1 * hi 2) := by
        ext h
        simp [unitPrism, a, b, c]
      rw [this, Real.volume_Icc]
      have d0 := sub_nonneg.2 (h 0)
      have d1 := sub_nonneg.2 (h 1)
      have d2 := sub_nonneg.2 (h 2)
      have c' : 0 ≤ 1 - y 0 - y 1 := by linarith
      rw [← ENNReal.ofReal_mul d0, ← ENNReal.ofReal_mul d1, ← ENNReal.ofReal_mul d2,
        ← ENNReal.ofReal_add (mul_nonneg d0 c') (mul_nonneg d1 a),
        ← ENNReal.ofReal_add (add_nonneg (mul_nonneg d0 c') (mul_nonneg d1 a)) (mul_nonneg d2 b)]
      congr 1
      ring
    · simp only [Set.indicator_of_notMem hz, mul_zero, add_zero]
      have : {h : ℝ | ![y 0, y 1, h] ∈ unitPrism lo hi} = ∅ := by
        ext h
        simp only [Set.mem_ofPred_eq, Set.mem_empty_iff_false, iff_false]
        rintro ⟨a, b, c, -⟩
        exact hz ⟨a, b, c⟩
      rw [this, measure_empty]
  have n0 : Measurable fun z => ENNReal.ofReal (hi 0 - lo 0) * unitTriangle.indicator (fun z => ENNReal.ofReal (1 - z.1 - z.2)) z :=
    m0.const_mul _
  have n01 : Measurable fun z => ENNReal.ofReal (hi 0 - lo 0) * unitTriangle.indicator (fun z => ENNReal.ofReal (1 - z.1 - z.2)) z +
      ENNReal.ofReal (hi 1 - lo 1) * unitTriangle.indicator (fun z => ENNReal.ofReal z.1) z := n0.add (m1.const_mul _)
  refine (lintegral_congr key).trans ((integral_twoArrow _).trans ?_)
  rw [hG, lintegral_add_left n01, lintegral_add_left n0,
    lintegral_const_mul _ m0, lintegral_const_mul _ m1, lintegral_const_mul _ m2, triangle_third, triangle_fst, triangle_snd]
  have d0 := sub_nonneg.2 (h 0)
  have d1 := sub_nonneg.2 (h 1)
  have d2 := sub_nonneg.2 (h 2)
  rw [← ENNReal.ofReal_mul d0, ← ENNReal.ofReal_mul d1, ← ENNReal.ofReal_mul d2,
    ← ENNReal.ofReal_add (by positivity) (by positivity), ← ENNReal.ofReal_add (by positivity) (by positivity)]
  congr 1
  ring

/-- Affine maps multiply volumes by their determinant. -/
theorem volume_affine (c : Fin 3 → ℝ) (f : (Fin 3 → ℝ) →ₗ[ℝ] (Fin 3 → ℝ)) (S : Set (Fin 3 → ℝ)) :
    volume ((fun y => c + f y) '' S) = ENNReal.ofReal |LinearMap.det f| * volume S := by
  rw [← Measure.addHaar_image_linearMap, show (fun y => c + f y) = (fun x => c + x) ∘ f from rfl, Set.image_comp,
    Set.image_add_left, measure_preimage_add]

end Gridder
