import Verif.Model.Shapes
import Verif.Props.Picking
import Verif.Props.Interpolate

/-!
# C65, C66, C86: curved and regular lines
-/

namespace Gridder
open Spec

/-! ## CurvedLine -/

theorem norm3_isNorm : IsNorm norm3 := by
  intro v
  refine ⟨Real.sqrt_nonneg _, ?_⟩
  rw [norm3, Real.sq_sqrt]
  · simp [sqLen, dot3, pow_two]
  · simp only [dot3]; nlinarith [mul_self_nonneg (v 0), mul_self_nonneg (v 1), mul_self_nonneg (v 2)]

theorem norm3_pos {v : V3 ℝ} (h : v ≠ 0) : 0 < norm3 v := norm_pos norm3_isNorm h

theorem norm3_sq (v : V3 ℝ) : norm3 v ^ 2 = dot3 v v := by
  rw [(norm3_isNorm v).2]; simp [sqLen, dot3, pow_two]

theorem unit_dot (u v : V3 ℝ) :
    dot3 (unit3 norm3 u) (unit3 norm3 v) = dot3 u v / (norm3 u * norm3 v) := by
  simp only [dot3, unit3]
  rw [div_mul_div_comm, div_mul_div_comm, div_mul_div_comm, ← add_div, ← add_div]

theorem unit_unit {v : V3 ℝ} (h : v ≠ 0) : dot3 (unit3 norm3 v) (unit3 norm3 v) = 1 := by
  rw [unit_dot, ← norm3_sq, pow_two]
  exact div_self (mul_ne_zero (norm3_pos h).ne' (norm3_pos h).ne')

/-- Cosine of the angle between two directions. -/
noncomputable def Spec.cosAngle (u v : Fin 3 → ℝ) : ℝ :=
  (u 0 * v 0 + u 1 * v 1 + u 2 * v 2) /
    (Real.sqrt (u 0 ^ 2 + u 1 ^ 2 + u 2 ^ 2) * Real.sqrt (v 0 ^ 2 + v 1 ^ 2 + v 2 ^ 2))

/-- The two directions are opposite. -/
def Spec.Opposite (u v : Fin 3 → ℝ) : Prop := ∃ k : ℝ, k < 0 ∧ v = k • u

theorem cosAngle_eq (u v : V3 ℝ) : cosAngle u v = dot3 (unit3 norm3 u) (unit3 norm3 v) := by
  rw [unit_dot]
  simp [cosAngle, norm3, dot3, pow_two]

theorem dot_le_one {s e : V3 ℝ} (hs : dot3 s s = 1) (he : dot3 e e = 1) :
    -1 ≤ dot3 s e ∧ dot3 s e ≤ 1 := by
  simp only [dot3] at *
  constructor
  · nlinarith [sq_nonneg (s 0 + e 0), sq_nonneg (s 1 + e 1), sq_nonneg (s 2 + e 2)]
  · nlinarith [sq_nonneg (s 0 - e 0), sq_nonneg (s 1 - e 1), sq_nonneg (s 2 - e 2)]

theorem not_opposite_lt {u v : V3 ℝ} (hu : u ≠ 0) (hv : v ≠ 0) (h : ¬ Opposite u v) :
    -1 < dot3 (unit3 norm3 u) (unit3 norm3 v) := by
  have h1 := unit_unit hu
  have h2 := unit_unit hv
  refine lt_of_le_of_ne (dot_le_one h1 h2).1 fun heq => h ?_
  refine ⟨-(norm3 v / norm3 u), by
    have := div_pos (norm3_pos hv) (norm3_pos hu); linarith, ?_⟩
  obtain ⟨s, hs⟩ : ∃ s, s = unit3 norm3 u := ⟨_, rfl⟩
  obtain ⟨e, he⟩ : ∃ e, e = unit3 norm3 v := ⟨_, rfl⟩
  rw [← hs] at h1 heq
  rw [← he] at h2 heq
  have hz : ∀ ax, s ax + e ax = 0 := by
    simp only [dot3] at h1 h2 heq
    have hsum : (s 0 + e 0) ^ 2 + (s 1 + e 1) ^ 2 + (s 2 + e 2) ^ 2 = 0 := by nlinarith
    intro ax
    have a0 := sq_nonneg (s 0 + e 0)
    have a1 := sq_nonneg (s 1 + e 1)
    have a2 := sq_nonneg (s 2 + e 2)
    have z0 : (s 0 + e 0) ^ 2 = 0 := by linarith
    have z1 : (s 1 + e 1) ^ 2 = 0 := by linarith
    have z2 : (s 2 + e 2) ^ 2 = 0 := by linarith
    fin_cases ax
    · exact pow_eq_zero_iff (two_ne_zero) |>.1 z0
    · exact pow_eq_zero_iff (two_ne_zero) |>.1 z1
    · exact pow_eq_zero_iff (two_ne_zero) |>.1 z2
  funext ax
  have := hz ax
  rw [hs, he] at this
  simp only [unit3] at this
  have nu := (norm3_pos hu).ne'
  have nv := (norm3_pos hv).ne'
  simp only [Pi.smul_apply, smul_eq_mul]
  field_simp at this ⊢
  linarith

/-- The facts about one interpolated direction. -/
theorem slerp_facts {s e : V3 ℝ} (hs : dot3 s s = 1) (he : dot3 e e = 1) {θ : ℝ}
    (hθ : Real.cos θ = dot3 s e) (hsin : Real.sin θ ≠ 0) (t : ℝ) :
    dot3 (slerp θ s e t) (slerp θ s e t) = 1 ∧ dot3 (slerp θ s e t) s = Real.cos (t * θ) ∧
      dot3 (slerp θ s e t) e = Real.cos ((1 - t) * θ) := by
  obtain ⟨A, hA⟩ : ∃ A, A = (1 - t) * θ := ⟨_, rfl⟩
  obtain ⟨B, hB⟩ : ∃ B, B = t * θ := ⟨_, rfl⟩
  have hAB : θ = A + B := by rw [hA, hB]; ring
  have e1 : dot3 (slerp θ s e t) (slerp θ s e t) =
      (Real.sin A ^ 2 * dot3 s s + Real.sin B ^ 2 * dot3 e e +
        2 * Real.sin A * Real.sin B * dot3 s e) / Real.sin θ ^ 2 := by
    rw [hA, hB]
    simp only [dot3, slerp]
    field_simp
    ring
  have e2 : dot3 (slerp θ s e t) s =
      (Real.sin A * dot3 s s + Real.sin B * dot3 s e) / Real.sin θ := by
    rw [hA, hB]
    simp only [dot3, slerp]
    field_simp
    ring
  have e3 : dot3 (slerp θ s e t) e =
      (Real.sin A * dot3 s e + Real.sin B * dot3 e e) / Real.sin θ := by
    rw [hA, hB]
    simp only [dot3, slerp]
    field_simp
    ring
  have sA := Real.sin_sq_add_cos_sq A
  have sB := Real.sin_sq_add_cos_sq B
  rw [e1, e2, e3, hs, he, ← hθ, ← hA, ← hB]
  have hc : Real.cos θ = Real.cos A * Real.cos B - Real.sin A * Real.sin B := by
    rw [hAB, Real.cos_add]
  have hsn : Real.sin θ = Real.sin A * Real.cos B + Real.cos A * Real.sin B := by
    rw [hAB, Real.sin_add]
  refine ⟨?_, ?_, ?_⟩
  · rw [div_eq_one_iff_eq (pow_ne_zero 2 hsin), hc, hsn]
    linear_combination (-(Real.sin B) ^ 2) * sA - (Real.sin A) ^ 2 * sB
      + 0 * sA
  · rw [div_eq_iff hsin, hc, hsn]
    linear_combination (- Real.sin A) * sB
  · rw [div_eq_iff hsin, hc, hsn]
    linear_combination (- Real.sin B) * sA

/-- The mean of two interpolated directions points in the interpolated direction half way. -/
theorem slerp_mean (θ : ℝ) (s e : V3 ℝ) (t u : ℝ) :
    (fun ax => 1 / 2 * (slerp θ s e t ax + slerp θ s e u ax)) =
      fun ax => Real.cos ((u - t) / 2 * θ) * slerp θ s e ((t + u) / 2) ax := by
  funext ax
  simp only [slerp]
  have h1 : Real.sin ((1 - t) * θ) + Real.sin ((1 - u) * θ) =
      2 * Real.cos ((u - t) / 2 * θ) * Real.sin ((1 - (t + u) / 2) * θ) := by
    have a : (1 - t) * θ = (1 - (t + u) / 2) * θ + (u - t) / 2 * θ := by ring
    have b : (1 - u) * θ = (1 - (t + u) / 2) * θ - (u - t) / 2 * θ := by ring
    rw [a, b, Real.sin_add, Real.sin_sub]; ring
  have h2 : Real.sin (t * θ) + Real.sin (u * θ) =
      2 * Real.cos ((u - t) / 2 * θ) * Real.sin ((t + u) / 2 * θ) := by
    have a : t * θ = (t + u) / 2 * θ - (u - t) / 2 * θ := by ring
    have b : u * θ = (t + u) / 2 * θ + (u - t) / 2 * θ := by ring
    rw [a, b, Real.sin_add, Real.sin_sub]; ring
  have : 1 / 2 * ((Real.sin ((1 - t) * θ) * s ax + Real.sin (t * θ) * e ax) / Real.sin θ +
      (Real.sin ((1 - u) * θ) * s ax + Real.sin (u * θ) * e ax) / Real.sin θ) =
      1 / 2 * (((Real.sin ((1 - t) * θ) + Real.sin ((1 - u) * θ)) * s ax +
        (Real.sin (t * θ) + Real.sin (u * θ)) * e ax) / Real.sin θ) := by ring
  rw [this, h1, h2]
  ring

theorem unit_scaled {c : ℝ} (hc : 0 < c) {d : V3 ℝ} (hd : dot3 d d = 1) :
    unit3 norm3 (fun ax => c * d ax) = d := by
  have : norm3 (fun ax => c * d ax) = c := by
    unfold norm3
    have : dot3 (fun ax => c * d ax) (fun ax => c * d ax) = c ^ 2 := by
      have : dot3 (fun ax => c * d ax) (fun ax => c * d ax) = c ^ 2 * dot3 d d := by
        simp only [dot3]; ring
      rw [this, hd, mul_one]
    rw [this, Real.sqrt_sq hc.le]
  funext ax
  simp only [unit3, this]
  field_simp

theorem curveLoop_length (dl : ℝ) : ∀ (ps : List (V3 ℝ × V3 ℝ)) (last : V3 ℝ),
    (curveLoop dl last ps).length = ps.length
  | [], _ => rfl
  | (d1, d2) :: rest, last => by simp [curveLoop, curveLoop_length dl rest]

theorem curveLoop_get (dl : ℝ) : ∀ (ps : List (V3 ℝ × V3 ℝ)) (last : V3 ℝ) (k : ℕ)
    (d1 d2 : V3 ℝ), ps[k]? = some (d1, d2) →
    ∃ p q, (last :: curveLoop dl last ps)[k]? = some p ∧
      (last :: curveLoop dl last ps)[k + 1]? = some q ∧
      ∀ ax, q ax = p ax + dl * unit3 norm3 (fun ax => 1 / 2 * (d1 ax + d2 ax)) ax
  | [], _, k, _, _, h => by simp at h
  | (a, b) :: rest, last, 0, d1, d2, h => by
    simp only [List.getElem?_cons_zero, Option.some.injEq, Prod.mk.injEq] at h
    obtain ⟨rfl, rfl⟩ := h
    exact ⟨last, _, rfl, rfl, fun ax => rfl⟩
  | (a, b) :: rest, last, k + 1, d1, d2, h => by
    simp only [List.getElem?_cons_succ] at h
    exact curveLoop_get dl rest _ k d1 d2 h

theorem linspace_get (n k : ℕ) (hk : k ≤ n) (a b : ℝ) :
    (linspace a b n)[k]? = some (a + k * ((b - a) / n)) := by
  unfold linspace
  rw [List.getElem?_map, List.getElem?_range (by omega)]
  rfl

/-- Consecutive pairs of a list. -/
theorem pairs_get {α : Type _} (l : List α) (k : ℕ) (a b : α) (ha : l[k]? = some a)
    (hb : l[k + 1]? = some b) : (l.dropLast.zip l.tail)[k]? = some (a, b) := by
  have hlt := (List.getElem?_eq_some_iff.1 hb).1
  rw [List.getElem?_zip_eq_some]
  refine ⟨?_, ?_⟩
  · rw [List.getElem?_dropLast, if_pos (by omega), ha]
  · rw [List.getElem?_tail, hb]

/-- **C86 (and C65).** A curved line starts at the origin; its k-th segment is `length / resolution`
times a unit vector in the plane of the two directions, at the angle (k + 1/2) / resolution of the way
from the first to the second: the line turns by the same angle at every point, half of that angle at
each end. -/
theorem C86_turns_evenly (origin : V3 ℝ) (length : ℝ) {start stop : V3 ℝ} (hs : start ≠ 0)
    (he : stop ≠ 0) (hop : ¬ Opposite start stop) {n : ℕ} (hn : 0 < n) :
    ∃ pts θ, curvedLine origin length start (some stop) n = .ok pts ∧ pts.length = n + 1 ∧
      pts[0]? = some origin ∧ 0 ≤ θ ∧ θ < Real.pi ∧ Real.cos θ = cosAngle start stop ∧
      ∀ k < n, ∃ p q d : Fin 3 → ℝ, pts[k]? = some p ∧ pts[k + 1]? = some q ∧
        q = p + (length / n) • d ∧ d 0 ^ 2 + d 1 ^ 2 + d 2 ^ 2 = 1 ∧
        (∃ α β : ℝ, d = α • start + β • stop) ∧
        cosAngle start d = Real.cos ((k + 1 / 2) / n * θ) ∧
        cosAngle d stop = Real.cos ((1 - (k + 1 / 2) / n) * θ) := by
  obtain ⟨s, hsd⟩ : ∃ s, s = unit3 norm3 start := ⟨_, rfl⟩
  obtain ⟨e, hed⟩ : ∃ e, e = unit3 norm3 stop := ⟨_, rfl⟩
  have s1 : dot3 s s = 1 := by rw [hsd]; exact unit_unit hs
  have e1 : dot3 e e = 1 := by rw [hed]; exact unit_unit he
  have hlow : -1 < dot3 s e := by rw [hsd, hed]; exact not_opposite_lt hs he hop
  have hhigh := (dot_le_one s1 e1).2
  have hclip : max (-1) (min 1 (dot3 s e)) = dot3 s e := by
    rw [min_eq_right hhigh, max_eq_right hlow.le]
  obtain ⟨θ, hθ⟩ : ∃ θ, θ = Real.arccos (dot3 s e) := ⟨_, rfl⟩
  have hcos : Real.cos θ = dot3 s e := by rw [hθ, Real.cos_arccos hlow.le hhigh]
  have θ0 : 0 ≤ θ := by rw [hθ]; exact Real.arccos_nonneg _
  have θ1 : θ < Real.pi := by
    refine lt_of_le_of_ne (by rw [hθ]; exact Real.arccos_le_pi _) fun h => ?_
    rw [h, Real.cos_pi] at hcos
    linarith
  have nR : (0 : ℝ) < n := by exact_mod_cast hn
  -- the unit vector of a unit vector is itself
  have hunit : ∀ d : V3 ℝ, dot3 d d = 1 → unit3 norm3 d = d := by
    intro d hd
    have := unit_scaled (c := 1) one_pos hd
    simpa using this
  have hspan : ∀ α β : ℝ, ∀ d : V3 ℝ, (∀ ax, d ax = α * s ax + β * e ax) →
      ∃ α' β' : ℝ, d = α' • start + β' • stop := by
    intro α β d hd
    refine ⟨α / norm3 start, β / norm3 stop, ?_⟩
    funext ax
    rw [hd ax, hsd, hed]
    simp only [unit3, Pi.add_apply, Pi.smul_apply, smul_eq_mul]
    ring
  -- the directions
  have key : ∃ dirs, curveDirections s e n = dirs ∧ dirs.length = n + 1 ∧
      ∀ k < n, ∃ d1 d2 d : V3 ℝ, dirs[k]? = some d1 ∧ dirs[k + 1]? = some d2 ∧
        unit3 norm3 (fun ax => 1 / 2 * (d1 ax + d2 ax)) = d ∧ dot3 d d = 1 ∧
        (∃ α β : ℝ, ∀ ax, d ax = α * s ax + β * e ax) ∧
        dot3 d s = Real.cos ((k + 1 / 2) / n * θ) ∧
        dot3 d e = Real.cos ((1 - (k + 1 / 2) / n) * θ) := by
    refine ⟨_, rfl, ?_, ?_⟩
    · simp only [curveDirections]
      split <;> simp [linspace]
    · intro k hk
      simp only [curveDirections, hclip, ← hθ]
      by_cases h0 : θ = 0
      · rw [if_pos h0]
        have hse : dot3 s e = 1 := by rw [← hcos, h0, Real.cos_zero]
        refine ⟨s, s, s, ?_, ?_, ?_, s1, ⟨1, 0, fun ax => by ring⟩, ?_, ?_⟩
        · rw [List.getElem?_replicate, if_pos (by omega)]
        · rw [List.getElem?_replicate, if_pos (by omega)]
        · have : (fun ax => 1 / 2 * (s ax + s ax)) = s := by funext ax; ring
          rw [this]; exact hunit s s1
        · rw [s1, h0]; simp
        · rw [hse, h0]; simp
      · rw [if_neg h0]
        have hsin : 0 < Real.sin θ :=
          Real.sin_pos_of_pos_of_lt_pi (lt_of_le_of_ne θ0 (Ne.symm h0)) θ1
        obtain ⟨f1, f2, f3⟩ := slerp_facts s1 e1 hcos hsin.ne' ((k + 1 / 2) / n)
        refine ⟨slerp θ s e (0 + k * ((1 - 0) / n)), slerp θ s e (0 + (k + 1 : ℕ) * ((1 - 0) / n)),
          slerp θ s e ((k + 1 / 2) / n), ?_, ?_, ?_, f1, ?_, f2, f3⟩
        · rw [List.getElem?_map, linspace_get n k (by omega)]; rfl
        · rw [List.getElem?_map, linspace_get n (k + 1) (by omega)]; rfl
        · rw [slerp_mean]
          have m : ((0 + (k : ℝ) * ((1 - 0) / n)) + (0 + ((k + 1 : ℕ) : ℝ) * ((1 - 0) / n))) / 2 =
              (k + 1 / 2) / n := by push_cast; ring
          rw [m]
          refine unit_scaled ?_ f1
          apply Real.cos_pos_of_mem_Ioo
          have w : ((0 + ((k + 1 : ℕ) : ℝ) * ((1 - 0) / n)) - (0 + (k : ℝ) * ((1 - 0) / n))) / 2 * θ =
              θ / n / 2 := by push_cast; ring
          rw [w]
          have hle : θ / n ≤ θ := div_le_self θ0 (by exact_mod_cast hn)
          have h0' : 0 ≤ θ / n := div_nonneg θ0 nR.le
          constructor <;> linarith
        · exact ⟨Real.sin ((1 - (k + 1 / 2) / n) * θ) / Real.sin θ,
            Real.sin ((k + 1 / 2) / n * θ) / Real.sin θ, fun ax => by simp only [slerp]; ring⟩
  obtain ⟨dirs, hd, hlen, hk⟩ := key
  refine ⟨origin :: curveLoop (length / n) origin (dirs.dropLast.zip dirs.tail), θ, ?_, ?_, rfl, θ0,
    θ1, ?_, ?_⟩
  · simp only [curvedLine, Option.getD_some]
    rw [if_neg (by omega), ← hsd, ← hed, hd]
  · simp [curveLoop_length, hlen]
  · rw [hcos, cosAngle_eq, hsd, hed]
  · intro k hkn
    obtain ⟨d1, d2, d, g1, g2, g3, g4, ⟨α, β, g5⟩, g6, g7⟩ := hk k hkn
    obtain ⟨p, q, p1, p2, p3⟩ := curveLoop_get (length / n) _ origin k d1 d2 (pairs_get _ _ _ _ g1 g2)
    refine ⟨p, q, d, p1, p2, ?_, ?_, hspan α β d g5, ?_, ?_⟩
    · funext ax
      rw [p3 ax, g3]; rfl
    · simpa [dot3, pow_two] using g4
    · rw [cosAngle_eq, ← hsd, hunit d g4, ← g6]; simp [dot3, mul_comm]
    · rw [cosAngle_eq, ← hed, hunit d g4, ← g7]

/-- **C65.** A curved line has `resolution + 1` points, starts at `origin`, and consecutive points are
`|length| / resolution` apart, so the line is `|length|` long; a zero resolution is refused. -/
theorem C65_curved_line (origin : V3 ℝ) (length : ℝ) {start : V3 ℝ} {stop : Option (V3 ℝ)}
    (hs : start ≠ 0) (he : ∀ v, stop = some v → v ≠ 0 ∧ ¬ Opposite start v) :
    (∀ n : ℕ, 0 < n → ∃ pts, curvedLine origin length start stop n = .ok pts ∧
      pts.length = n + 1 ∧ pts[0]? = some origin ∧
      ∀ k < n, ∃ p q : Fin 3 → ℝ, pts[k]? = some p ∧ pts[k + 1]? = some q ∧
        Real.sqrt ((q 0 - p 0) ^ 2 + (q 1 - p 1) ^ 2 + (q 2 - p 2) ^ 2) = |length| / n) ∧
    curvedLine origin length start stop 0 = .error .zeroDivision := by
  refine ⟨fun n hn => ?_, by simp [curvedLine]⟩
  have hd : curvedLine origin length start stop n =
      curvedLine origin length start (some (stop.getD start)) n := by
    cases stop <;> rfl
  have hv : stop.getD start ≠ 0 ∧ ¬ Opposite start (stop.getD start) := by
    cases stop with
    | some v => exact he v rfl
    | none =>
      refine ⟨hs, ?_⟩
      rintro ⟨k, hk, h⟩
      apply hs
      simp only [Option.getD_none] at h
      funext ax
      have := congrFun h ax
      simp only [Pi.smul_apply, smul_eq_mul] at this
      have : (1 - k) * start ax = 0 := by linarith
      rcases mul_eq_zero.1 this with h | h
      · linarith
      · exact h
  obtain ⟨pts, θ, h1, h2, h3, _, _, _, h4⟩ := C86_turns_evenly origin length hs hv.1 hv.2 hn
  refine ⟨pts, hd.trans h1, h2, h3, ?_⟩
  intro k hk
  obtain ⟨p, q, d, g1, g2, rfl, g4, _⟩ := h4 k hk
  refine ⟨p, _, g1, g2, ?_⟩
  have nR : (0 : ℝ) < n := by exact_mod_cast hn
  simp only [Pi.add_apply, Pi.smul_apply, smul_eq_mul, add_sub_cancel_left]
  have : (length / n * d 0) ^ 2 + (length / n * d 1) ^ 2 + (length / n * d 2) ^ 2 =
      (length / n) ^ 2 := by linear_combination (length / n) ^ 2 * g4
  rw [this, Real.sqrt_sq_eq_abs, abs_div, abs_of_pos nR]

/-- The hypotheses hold for a quarter turn from x to y. -/
example : (![1, 0, 0] : V3 ℝ) ≠ 0 ∧ (![0, 2, 0] : V3 ℝ) ≠ 0 ∧
    ¬ Opposite (![1, 0, 0] : V3 ℝ) ![0, 2, 0] := by
  refine ⟨fun h => ?_, fun h => ?_, ?_⟩
  · simpa using congrFun h 0
  · simpa using congrFun h 1
  · rintro ⟨k, _, h⟩
    simpa using congrFun h 1

/-! ## RegularLine -/

variable {K : Type _} [Field K] [LinearOrder K] [IsStrictOrderedRing K]

/-- Length of the polyline from its first point to point `k`. -/
def Spec.arcLength (nrm : (Fin 3 → K) → K) : List (Fin 3 → K) → ℕ → K
  | _, 0 => 0
  | p :: q :: rest, k + 1 => nrm (q - p) + arcLength nrm (q :: rest) k
  | _, _ + 1 => 0

theorem arcLength_nonneg {nrm : V3 K → K} (hn : IsNorm nrm) :
    ∀ (l : List (V3 K)) (k : ℕ), 0 ≤ arcLength nrm l k
  | _, 0 => by simp [arcLength]
  | [], _ + 1 => by simp [arcLength]
  | [_], _ + 1 => by simp [arcLength]
  | p :: q :: rest, k + 1 => by
    simp only [arcLength]
    exact add_nonneg (hn _).1 (arcLength_nonneg hn _ k)

theorem norm_eq_zero' {nrm : V3 K → K} (hn : IsNorm nrm) {v : V3 K} (h : nrm v = 0) : v = 0 := by
  by_contra hv
  exact (norm_pos hn hv).ne' h

/-- Points at arc length zero coincide with the first point. -/
theorem arcLength_zero {nrm : V3 K → K} (hn : IsNorm nrm) :
    ∀ (l : List (V3 K)) (p : V3 K) (k : ℕ) (a : V3 K), arcLength nrm (p :: l) k = 0 →
      (p :: l)[k]? = some a → a = p
  | _, p, 0, a, _, ha => by simpa using ha.symm
  | [], p, k + 1, a, _, ha => by simp at ha
  | q :: rest, p, k + 1, a, h, ha => by
    simp only [arcLength] at h
    have h1 := (hn (q - p)).1
    have h2 := arcLength_nonneg hn (q :: rest) k
    have hq : q - p = 0 := norm_eq_zero' hn (by linarith)
    have := arcLength_zero hn rest q k a (by linarith) (by simpa using ha)
    rw [this]
    exact sub_eq_zero.1 hq

/-- The samples after the current one, for coordinate `ax`. -/
def samples (nrm : V3 K → K) (x0 : K) (p : V3 K) (r : List (V3 K)) (ax : Fin 3) : List (K × K) :=
  (cumsumFrom x0 (segmentLengths nrm (p :: r))).zip (r.map fun v => v ax)

theorem samples_cons (nrm : V3 K → K) (x0 : K) (p q : V3 K) (r : List (V3 K)) (ax : Fin 3) :
    samples nrm x0 p (q :: r) ax =
      (x0 + nrm (q - p), q ax) :: samples nrm (x0 + nrm (q - p)) q r ax := rfl

theorem interp_inside {nrm : V3 K → K} (hn : IsNorm nrm) :
    ∀ (r : List (V3 K)) (p : V3 K) (x0 x : K), x0 ≤ x → x < x0 + arcLength nrm (p :: r) r.length →
      ∃ k a b, (p :: r)[k]? = some a ∧ (p :: r)[k + 1]? = some b ∧ b ≠ a ∧
        x0 + arcLength nrm (p :: r) k ≤ x ∧ x < x0 + arcLength nrm (p :: r) (k + 1) ∧
        ∀ ax, interpFrom x0 (p ax) (samples nrm x0 p r ax) x =
          a ax + (x - (x0 + arcLength nrm (p :: r) k)) / nrm (b - a) * (b ax - a ax)
  | [], p, x0, x, h1, h2 => by simp [arcLength] at h2; exact absurd h1 (not_le.2 h2)
  | q :: r, p, x0, x, h1, h2 => by
    by_cases hx : x < x0 + nrm (q - p)
    · refine ⟨0, p, q, rfl, rfl, ?_, by simpa [arcLength] using h1, by simpa [arcLength] using hx, ?_⟩
      · rintro rfl
        have : nrm (q - q) = 0 := by
          rw [sub_self]
          exact norm_zero hn (by simp [sqLen])
        rw [this] at hx
        linarith
      · intro ax
        rw [samples_cons]
        simp only [interpFrom, if_pos hx, arcLength, add_zero, add_sub_cancel_left]
        ring
    · have hx' := not_lt.1 hx
      obtain ⟨k, a, b, g1, g2, g3, g4, g5, g6⟩ := interp_inside hn r q (x0 + nrm (q - p)) x hx' (by
        simp only [List.length_cons, arcLength] at h2
        linarith)
      refine ⟨k + 1, a, b, by simpa using g1, by simpa using g2, g3, ?_, ?_, ?_⟩
      · simp only [arcLength]; linarith
      · simp only [arcLength] at g5 ⊢; linarith
      · intro ax
        rw [samples_cons]
        simp only [interpFrom, if_neg hx]
        rw [g6 ax]
        simp only [arcLength]
        ring

theorem interp_end {nrm : V3 K → K} (hn : IsNorm nrm) :
    ∀ (r : List (V3 K)) (p : V3 K) (x0 x : K), x0 + arcLength nrm (p :: r) r.length ≤ x →
      ∃ a, (p :: r).getLast? = some a ∧
        ∀ ax, interpFrom x0 (p ax) (samples nrm x0 p r ax) x = a ax
  | [], p, x0, x, _ => ⟨p, rfl, fun ax => rfl⟩
  | q :: r, p, x0, x, h => by
    simp only [List.length_cons, arcLength] at h
    have hx : ¬ x < x0 + nrm (q - p) := by
      have := arcLength_nonneg hn (q :: r) r.length
      rw [not_lt]; linarith
    obtain ⟨a, h1, h2⟩ := interp_end hn r q (x0 + nrm (q - p)) x (by linarith)
    refine ⟨a, by rw [List.getLast?_cons_cons]; exact h1, ?_⟩
    intro ax
    rw [samples_cons]
    simp only [interpFrom, if_neg hx]
    exact h2 ax

theorem cumsum_max {nrm : V3 K → K} (hn : IsNorm nrm) :
    ∀ (r : List (V3 K)) (p : V3 K) (x0 : K),
      (cumsumFrom x0 (segmentLengths nrm (p :: r))).foldl max x0 =
        x0 + arcLength nrm (p :: r) r.length
  | [], p, x0 => by simp [segmentLengths, cumsumFrom, arcLength]
  | q :: r, p, x0 => by
    have : segmentLengths nrm (p :: q :: r) = nrm (q - p) :: segmentLengths nrm (q :: r) := rfl
    rw [this]
    simp only [cumsumFrom, List.foldl_cons]
    rw [max_eq_right (by have := (hn (q - p)).1; linarith), cumsum_max hn r q]
    simp only [List.length_cons, arcLength]
    ring

theorem linspace_get' (n k : ℕ) (hk : k ≤ n) (a b : K) :
    (linspace a b n)[k]? = some (a + k * ((b - a) / n)) := by
  unfold linspace
  rw [List.getElem?_map, List.getElem?_range (by omega)]
  rfl

/-- **C66.** `RegularLine` returns `resolution + 1` points (`len(points) + 1` for a missing or zero
resolution); the first and the last are those of the input, and the i-th is on the input polyline, at
arc length i / resolution of the total.  Repeated points in the input do not matter. -/
theorem C66_regular_line {nrm : V3 K → K} (hn : IsNorm nrm) (points : List (V3 K))
    (hp : points ≠ []) (res : Option ℕ) :
    ∃ n pts, (n = points.length ∧ (res = none ∨ res = some 0) ∨ (res = some n ∧ n ≠ 0)) ∧
      regularLine nrm points res = .ok pts ∧ pts.length = n + 1 ∧
      pts[0]? = points.head? ∧ pts[n]? = points.getLast? ∧
      (0 < arcLength nrm points (points.length - 1) → ∀ i < n, ∃ k a b,
        points[k]? = some a ∧ points[k + 1]? = some b ∧ b ≠ a ∧
        arcLength nrm points k ≤ i / n * arcLength nrm points (points.length - 1) ∧
        (i / n * arcLength nrm points (points.length - 1) : K) < arcLength nrm points (k + 1) ∧
        pts[i]? = some (a + ((i / n * arcLength nrm points (points.length - 1) -
          arcLength nrm points k) / nrm (b - a)) • (b - a))) := by
  obtain ⟨p, r, rfl⟩ := List.exists_cons_of_ne_nil hp
  obtain ⟨n, hn0, hres, hcase⟩ : ∃ n : ℕ, 0 < n ∧ regularLine nrm (p :: r) res =
      .ok ((linspace 0 (listMax (cumsumFrom 0 (0 :: segmentLengths nrm (p :: r)))) n).map fun s =>
        fun ax : Fin 3 => npInterp ((cumsumFrom 0 (0 :: segmentLengths nrm (p :: r))).zip
          ((p :: r).map fun v => v ax)) s) ∧
      (n = (p :: r).length ∧ (res = none ∨ res = some 0) ∨ (res = some n ∧ n ≠ 0)) := by
    match res with
    | none => exact ⟨_, by simp, rfl, Or.inl ⟨rfl, Or.inl rfl⟩⟩
    | some 0 => exact ⟨_, by simp, rfl, Or.inl ⟨rfl, Or.inr rfl⟩⟩
    | some (k + 1) => exact ⟨k + 1, by omega, rfl, Or.inr ⟨rfl, by omega⟩⟩
  have hmax : listMax (cumsumFrom 0 (0 :: segmentLengths nrm (p :: r))) =
      arcLength nrm (p :: r) r.length := by
    simp only [cumsumFrom, listMax, List.headD_cons, List.foldl_cons, add_zero, max_self]
    rw [cumsum_max hn, zero_add]
  obtain ⟨T, hT⟩ : ∃ T, T = arcLength nrm (p :: r) r.length := ⟨_, rfl⟩
  have hT0 : 0 ≤ T := by rw [hT]; exact arcLength_nonneg hn _ _
  have hval : ∀ s ax, 0 ≤ s → npInterp ((cumsumFrom 0 (0 :: segmentLengths nrm (p :: r))).zip
      ((p :: r).map fun v => v ax)) s = interpFrom 0 (p ax) (samples nrm 0 p r ax) s := by
    intro s ax hs
    simp only [cumsumFrom, List.map_cons, List.zip_cons_cons, npInterp, add_zero]
    rw [if_neg (not_lt.2 hs)]
    rfl
  have nK : (0 : K) < n := by exact_mod_cast hn0
  have hget : ∀ i : ℕ, i ≤ n → ((linspace 0 (listMax (cumsumFrom 0 (0 :: segmentLengths nrm (p :: r)))) n).map
      fun s => fun ax : Fin 3 => npInterp ((cumsumFrom 0 (0 :: segmentLengths nrm (p :: r))).zip
        ((p :: r).map fun v => v ax)) s)[i]? =
      some fun ax => interpFrom 0 (p ax) (samples nrm 0 p r ax) ((i : K) / n * T) := by
    intro i hi
    rw [List.getElem?_map, linspace_get' n i hi, hmax, ← hT]
    simp only [Option.map_some, Option.some.injEq]
    funext ax
    have e : 0 + (i : K) * ((T - 0) / n) = i / n * T := by ring
    rw [e, hval]
    exact mul_nonneg (div_nonneg (Nat.cast_nonneg i) nK.le) hT0
  have hinside : 0 < T → ∀ i < n, ∃ k a b,
        (p :: r)[k]? = some a ∧ (p :: r)[k + 1]? = some b ∧ b ≠ a ∧
        arcLength nrm (p :: r) k ≤ i / n * T ∧
        (i / n * T : K) < arcLength nrm (p :: r) (k + 1) ∧
        ∀ ax, interpFrom 0 (p ax) (samples nrm 0 p r ax) ((i : K) / n * T) =
          a ax + (i / n * T - arcLength nrm (p :: r) k) / nrm (b - a) * (b ax - a ax) := by
    intro hpos i hi
    have h0 : (0 : K) ≤ i / n * T := mul_nonneg (div_nonneg (Nat.cast_nonneg i) nK.le) hT0
    have h1 : (i / n * T : K) < T := by
      have : (i / n : K) < 1 := by
        rw [div_lt_one nK]; exact_mod_cast hi
      nlinarith
    obtain ⟨k, a, b, g1, g2, g3, g4, g5, g6⟩ := interp_inside hn r p 0 _ h0 (by rw [zero_add, ← hT]; exact h1)
    simp only [zero_add] at g4 g5 g6
    exact ⟨k, a, b, g1, g2, g3, g4, g5, g6⟩
  refine ⟨n, _, hcase, hres, by simp [linspace], ?_, ?_, ?_⟩
  · rw [hget 0 (by omega)]
    simp only [List.head?_cons, Option.some.injEq, Nat.cast_zero, zero_div, zero_mul]
    rcases eq_or_lt_of_le hT0 with h | h
    · obtain ⟨a, h1, h2⟩ := interp_end hn r p 0 0 (by rw [zero_add, ← hT, ← h])
      have : a = p := by
        refine arcLength_zero hn r p r.length a (by rw [← hT, ← h]) ?_
        rw [List.getLast?_eq_getElem?] at h1
        simpa using h1
      funext ax
      rw [h2 ax, this]
    · obtain ⟨k, a, b, g1, g2, g3, g4, g5, g6⟩ := hinside h 0 hn0
      simp only [Nat.cast_zero, zero_div, zero_mul] at g4 g6
      have h0 := arcLength_nonneg hn (p :: r) k
      have hz : arcLength nrm (p :: r) k = 0 := le_antisymm g4 h0
      funext ax
      rw [g6 ax, hz, arcLength_zero hn r p k a hz g1]
      simp
  · rw [hget n le_rfl, div_self nK.ne', one_mul]
    obtain ⟨a, h1, h2⟩ := interp_end hn r p 0 T (by rw [zero_add, ← hT])
    rw [h1]
    congr 1
    funext ax
    exact h2 ax
  · simp only [List.length_cons, Nat.add_sub_cancel, ← hT]
    intro hpos i hi
    obtain ⟨k, a, b, g1, g2, g3, g4, g5, g6⟩ := hinside hpos i hi
    refine ⟨k, a, b, g1, g2, g3, g4, g5, ?_⟩
    rw [hget i hi.le]
    congr 1
    funext ax
    rw [g6 ax]
    rfl

/-- Without points there is no line. -/
theorem C66_empty (nrm : V3 K → K) (res : Option ℕ) :
    regularLine nrm [] res = .error .valueError := rfl

/-- A square corner with a repeated point, four subdivisions. -/
example : (regularLine (fun v : V3 ℚ => max |v 0| (max |v 1| |v 2|))
      [![0,0,0], ![2,0,0], ![2,0,0], ![2,2,0]] (some 4)).toOption.map
        (fun l => l.map fun p => [p 0, p 1, p 2]) =
    some [[0,0,0], [1,0,0], [2,0,0], [2,1,0], [2,2,0]] := by
  decide +kernel

end Gridder
