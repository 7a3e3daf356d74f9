import Verif.Model.Offset
import Verif.Props.Lines
import Verif.Props.Centers
import Mathlib.Tactic.Linarith
import Mathlib.Tactic.FieldSimp
import Mathlib.Tactic.LinearCombination
import Mathlib.Algebra.Order.Field.Basic
import Mathlib.Analysis.SpecialFunctions.Pow.NNReal

/-! # C47, C48, C49: offsetting polygons -/

namespace Gridder

namespace Spec
variable {K : Type*} [Field K] [LinearOrder K]

/-- A square root on the non-negative numbers. -/
def IsSqrt (sqrt : K → K) : Prop := ∀ x, 0 ≤ x → 0 ≤ sqrt x ∧ sqrt x ^ 2 = x

/-- Twice the signed area of the triangle `0 u v`. -/
def cross2 (u v : K × K) : K := u.1 * v.2 - v.1 * u.2

/-- Vertex number `k` of a ring, cyclically. -/
def vertex (ring : List (K × K)) (k : ℕ) : K × K := ring.getD (k % ring.length) 0

/-- Twice the signed area of a ring: positive for counterclockwise rings. -/
def area2 (ring : List (K × K)) : K :=
  ((List.range ring.length).map fun k => cross2 (vertex ring k) (vertex ring (k + 1))).sum

/-- Twice the signed area of a ring, the closing edge being counted twice: what the code computes. -/
def doubled (ring : List (K × K)) : K :=
  area2 ring + cross2 (vertex ring (ring.length - 1)) (vertex ring 0)

/-- Coordinates in the plane normal to `axis`. -/
def inPlane (axis : Fin 3) (p : V3 K) : K × K := (p (axis.succAbove 0), p (axis.succAbove 1))

/-- Squared length of the edge from vertex `k` to vertex `k + 1`. -/
def edgeSq (ring : List (K × K)) (k : ℕ) : K :=
  (vertex ring (k + 1) - vertex ring k).1 ^ 2 + (vertex ring (k + 1) - vertex ring k).2 ^ 2

/-- Signed area spanned by the edge from vertex `k` to `k + 1` and a displacement: the length of the edge times
the distance by which the displacement leaves the line of the edge, positive to the left. -/
def leftOf (ring : List (K × K)) (k : ℕ) (v : K × K) : K := cross2 (vertex ring (k + 1) - vertex ring k) v

/-- The edges meeting at vertex `k + 1` have a length, and the boundary does not turn back there. -/
def CornerOk (ring : List (K × K)) (k : ℕ) : Prop :=
  vertex ring k ≠ vertex ring (k + 1) ∧ vertex ring (k + 1) ≠ vertex ring (k + 2) ∧
  ¬ (cross2 (vertex ring k - vertex ring (k + 1)) (vertex ring (k + 2) - vertex ring (k + 1)) = 0 ∧
    0 < (vertex ring k - vertex ring (k + 1)).1 * (vertex ring (k + 2) - vertex ring (k + 1)).1 +
      (vertex ring k - vertex ring (k + 1)).2 * (vertex ring (k + 2) - vertex ring (k + 1)).2)

end Spec

open Spec

section
variable {K : Type*} [Field K] [LinearOrder K] [IsStrictOrderedRing K]

/-- Closed form of the displacement for unit directions. -/
theorem offset_displacement {sqrt : K → K} (hs : IsSqrt sqrt) {a b c d : K} (h1 : a ^ 2 + b ^ 2 = 1)
    (h2 : c ^ 2 + d ^ 2 = 1) (hne : a * c + b * d ≠ -1) {f : K} (hf : f ^ 2 = 1) (dist : K) :
    dist / sqrt (1 / 2 * (1 + (a * c + b * d))) *
      (unit2 sqrt ((a + c) * f * -1, (b + d) * f)).2 = dist * f * (b + d) / (1 + (a * c + b * d)) ∧
    dist / sqrt (1 / 2 * (1 + (a * c + b * d))) *
      (unit2 sqrt ((a + c) * f * -1, (b + d) * f)).1 = - (dist * f * (a + c) / (1 + (a * c + b * d))) := by
  set e := a * c + b * d with he
  have hle : -1 ≤ e := by nlinarith [sq_nonneg (a + c), sq_nonneg (b + d)]
  have hpos : 0 < 1 + e := by
    rcases lt_or_eq_of_le hle with h | h
    · linarith
    · exact absurd h.symm hne
  obtain ⟨p1, p2⟩ := hs (1 / 2 * (1 + e)) (by positivity)
  have hsum : (a + c) * f * -1 * ((a + c) * f * -1) + (b + d) * f * ((b + d) * f) = 2 * (1 + e) := by
    have : (a + c) * f * -1 * ((a + c) * f * -1) + (b + d) * f * ((b + d) * f) =
        f ^ 2 * (a ^ 2 + b ^ 2 + (c ^ 2 + d ^ 2) + 2 * e) := by rw [he]; ring
    rw [this, hf, h1, h2]; ring
  obtain ⟨q1, q2⟩ := hs (2 * (1 + e)) (by positivity)
  unfold unit2
  simp only [hsum]
  set s := sqrt (1 / 2 * (1 + e))
  set t := sqrt (2 * (1 + e))
  have hst : s * t = 1 + e := by
    have hsq : (s * t) ^ 2 = (1 + e) ^ 2 := by rw [mul_pow, p2, q2]; ring
    have := (sq_eq_sq₀ (mul_nonneg p1 q1) hpos.le).1 hsq
    exact this
  have hs0 : s ≠ 0 := by rintro h; rw [h, zero_mul] at hst; linarith
  have ht0 : t ≠ 0 := by rintro h; rw [h, mul_zero] at hst; linarith
  rw [← hst]
  constructor
  · field_simp
  · field_simp

theorem unit2_spec {sqrt : K → K} (hs : IsSqrt sqrt) {v : K × K} (hv : v ≠ 0) :
    0 < sqrt (v.1 * v.1 + v.2 * v.2) ∧ (unit2 sqrt v).1 ^ 2 + (unit2 sqrt v).2 ^ 2 = 1 ∧
    v.1 = sqrt (v.1 * v.1 + v.2 * v.2) * (unit2 sqrt v).1 ∧
    v.2 = sqrt (v.1 * v.1 + v.2 * v.2) * (unit2 sqrt v).2 := by
  have hpos : 0 < v.1 * v.1 + v.2 * v.2 := by
    rcases lt_or_eq_of_le (add_nonneg (mul_self_nonneg v.1) (mul_self_nonneg v.2)) with h | h
    · exact h
    · exfalso
      apply hv
      have h1 : v.1 * v.1 = 0 := by nlinarith [mul_self_nonneg v.1, mul_self_nonneg v.2]
      have h2 : v.2 * v.2 = 0 := by nlinarith [mul_self_nonneg v.1, mul_self_nonneg v.2]
      exact Prod.ext (mul_self_eq_zero.1 h1) (mul_self_eq_zero.1 h2)
  obtain ⟨p1, p2⟩ := hs _ hpos.le
  have hp : 0 < sqrt (v.1 * v.1 + v.2 * v.2) := by
    rcases lt_or_eq_of_le p1 with h | h
    · exact h
    · rw [← h] at p2; simp only [ne_eq, OfNat.ofNat_ne_zero, not_false_eq_true, zero_pow] at p2
      rw [← p2] at hpos; exact absurd hpos (lt_irrefl _)
  refine ⟨hp, ?_, ?_, ?_⟩
  · unfold unit2
    simp only [div_pow]
    rw [← add_div, p2]
    rw [div_eq_one_iff_eq hpos.ne']
    ring
  · unfold unit2; simp only; exact (mul_div_cancel₀ _ hp.ne').symm
  · unfold unit2; simp only; exact (mul_div_cancel₀ _ hp.ne').symm

/-- Signed distances of the new vertex from the lines of the two edges. -/
theorem offsetVertex_spec {sqrt : K → K} (hs : IsSqrt sqrt) {f : K} (hf : f ^ 2 = 1) (dist : K)
    {prev cur next : K × K} (h1 : prev ≠ cur) (h2 : cur ≠ next)
    (h3 : ¬ (cross2 (prev - cur) (next - cur) = 0 ∧
      0 < (prev - cur).1 * (next - cur).1 + (prev - cur).2 * (next - cur).2)) :
    cross2 (next - cur) (offsetVertex sqrt dist f prev cur next - cur) =
      - (dist * f) * sqrt ((next - cur).1 * (next - cur).1 + (next - cur).2 * (next - cur).2) ∧
    cross2 (cur - prev) (offsetVertex sqrt dist f prev cur next - cur) =
      - (dist * f) * sqrt ((cur - prev).1 * (cur - prev).1 + (cur - prev).2 * (cur - prev).2) := by
  obtain ⟨a1, a2, a3, a4⟩ := unit2_spec hs (v := next - cur) (sub_ne_zero.2 h2.symm)
  obtain ⟨b1, b2, b3, b4⟩ := unit2_spec hs (v := cur - prev) (sub_ne_zero.2 h1.symm)
  have e1 : prev - cur = -(cur - prev) := by rw [neg_sub]
  have ho : offsetVertex sqrt dist f prev cur next - cur =
      (dist / sqrt (1 / 2 * (1 + ((unit2 sqrt (next - cur)).1 * (unit2 sqrt (cur - prev)).1 +
        (unit2 sqrt (next - cur)).2 * (unit2 sqrt (cur - prev)).2))) *
        (unit2 sqrt (((unit2 sqrt (next - cur)).1 + (unit2 sqrt (cur - prev)).1) * f * -1,
          ((unit2 sqrt (next - cur)).2 + (unit2 sqrt (cur - prev)).2) * f)).2,
       dist / sqrt (1 / 2 * (1 + ((unit2 sqrt (next - cur)).1 * (unit2 sqrt (cur - prev)).1 +
        (unit2 sqrt (next - cur)).2 * (unit2 sqrt (cur - prev)).2))) *
        (unit2 sqrt (((unit2 sqrt (next - cur)).1 + (unit2 sqrt (cur - prev)).1) * f * -1,
          ((unit2 sqrt (next - cur)).2 + (unit2 sqrt (cur - prev)).2) * f)).1) := by
    unfold offsetVertex
    apply Prod.ext
    · simp only [Prod.fst_sub, add_sub_cancel_left]; rfl
    · simp only [Prod.snd_sub, add_sub_cancel_left]; rfl
  rw [e1] at h3
  rw [ho]
  generalize unit2 sqrt (next - cur) = u at *
  generalize unit2 sqrt (cur - prev) = w at *
  generalize hLn : sqrt ((next - cur).1 * (next - cur).1 + (next - cur).2 * (next - cur).2) = Ln at *
  generalize hLp : sqrt ((cur - prev).1 * (cur - prev).1 + (cur - prev).2 * (cur - prev).2) = Lp at *
  have hne : u.1 * w.1 + u.2 * w.2 ≠ -1 := by
    intro he
    apply h3
    have hu : u.1 = - w.1 ∧ u.2 = - w.2 := by
      have h0 : (u.1 + w.1) ^ 2 + (u.2 + w.2) ^ 2 = 0 := by
        have : (u.1 + w.1) ^ 2 + (u.2 + w.2) ^ 2 = (u.1 ^ 2 + u.2 ^ 2) + (w.1 ^ 2 + w.2 ^ 2) +
            2 * (u.1 * w.1 + u.2 * w.2) := by ring
        rw [this, a2, b2, he]; ring
      have g1 : (u.1 + w.1) ^ 2 = 0 := by nlinarith [sq_nonneg (u.1 + w.1), sq_nonneg (u.2 + w.2)]
      have g2 : (u.2 + w.2) ^ 2 = 0 := by nlinarith [sq_nonneg (u.1 + w.1), sq_nonneg (u.2 + w.2)]
      exact ⟨eq_neg_of_add_eq_zero_left (pow_eq_zero_iff (two_ne_zero) |>.1 g1),
        eq_neg_of_add_eq_zero_left (pow_eq_zero_iff (two_ne_zero) |>.1 g2)⟩
    unfold cross2
    simp only [Prod.fst_neg, Prod.snd_neg]
    rw [a3, a4, b3, b4, hu.1, hu.2]
    constructor
    · ring
    · have : -(Lp * w.1) * (Ln * -w.1) + -(Lp * w.2) * (Ln * -w.2) = Lp * Ln * (w.1 ^ 2 + w.2 ^ 2) := by ring
      rw [this, b2, mul_one]
      exact mul_pos b1 a1
  obtain ⟨d1, d2⟩ := offset_displacement hs a2 b2 hne hf dist
  rw [d1, d2]
  have hz : 1 + (u.1 * w.1 + u.2 * w.2) ≠ 0 := fun h => hne (by linarith)
  unfold cross2
  simp only
  constructor
  · rw [a3, a4]
    have hq : u.1 * (u.1 + w.1) + u.2 * (u.2 + w.2) = 1 + (u.1 * w.1 + u.2 * w.2) := by
      linear_combination a2
    calc Ln * u.1 * -(dist * f * (u.1 + w.1) / (1 + (u.1 * w.1 + u.2 * w.2))) -
          dist * f * (u.2 + w.2) / (1 + (u.1 * w.1 + u.2 * w.2)) * (Ln * u.2) =
          -(dist * f) * Ln * ((u.1 * (u.1 + w.1) + u.2 * (u.2 + w.2)) / (1 + (u.1 * w.1 + u.2 * w.2))) := by
          ring
      _ = -(dist * f) * Ln := by rw [hq, div_self hz, mul_one]
  · rw [b3, b4]
    have hq : w.1 * (u.1 + w.1) + w.2 * (u.2 + w.2) = 1 + (u.1 * w.1 + u.2 * w.2) := by
      linear_combination b2
    calc Lp * w.1 * -(dist * f * (u.1 + w.1) / (1 + (u.1 * w.1 + u.2 * w.2))) -
          dist * f * (u.2 + w.2) / (1 + (u.1 * w.1 + u.2 * w.2)) * (Lp * w.2) =
          -(dist * f) * Lp * ((w.1 * (u.1 + w.1) + w.2 * (u.2 + w.2)) / (1 + (u.1 * w.1 + u.2 * w.2))) := by
          ring
      _ = -(dist * f) * Lp := by rw [hq, div_self hz, mul_one]

/-! ## The ring -/

theorem vertex_lt {ring : List (K × K)} {k : ℕ} (h : k < ring.length) : vertex ring k = ring[k] := by
  unfold vertex
  rw [Nat.mod_eq_of_lt h, List.getD_eq_getElem?_getD, List.getElem?_eq_getElem h]
  rfl

theorem vertex_length (ring : List (K × K)) (k : ℕ) : vertex ring (ring.length + k) = vertex ring k := by
  unfold vertex
  rw [Nat.add_mod_left]

theorem wrapRing_cons (a : K × K) (l : List (K × K)) :
    wrapRing (a :: l) = vertex (a :: l) l.length :: (a :: l) ++ [vertex (a :: l) 0] := by
  unfold wrapRing
  rw [List.getLast?_eq_getElem?, vertex_lt (by simp), vertex_lt (by simp)]
  simp only [List.length_cons, Nat.add_sub_cancel, List.head?_cons, Option.toList_some,
    List.getElem_cons_zero]
  rw [List.getElem?_eq_getElem (by simp)]
  simp

theorem ring_snoc_get (a : K × K) (l : List (K × K)) (k : ℕ) (h : k < ((a :: l) ++ [vertex (a :: l) 0]).length) :
    ((a :: l) ++ [vertex (a :: l) 0])[k] = vertex (a :: l) k := by
  rcases Nat.lt_or_ge k (a :: l).length with hk | hk
  · rw [List.getElem_append_left hk, vertex_lt hk]
  · have : k = (a :: l).length := by simp only [List.length_append, List.length_singleton] at h; omega
    subst this
    rw [List.getElem_append_right (le_refl _)]
    have := vertex_length (a :: l) 0
    rw [Nat.add_zero] at this
    rw [this]
    simp

/-- The closing edge is counted twice. -/
theorem ringArea_wrap (ring : List (K × K)) (hne : ring ≠ []) :
    ringArea (wrapRing ring) = cross2 (vertex ring (ring.length - 1)) (vertex ring 0) + area2 ring := by
  cases ring with
  | nil => exact absurd rfl hne
  | cons a l =>
    rw [wrapRing_cons]
    unfold ringArea
    simp only [List.cons_append, List.tail_cons, List.zipWith_cons_cons, List.sum_cons]
    congr 1
    unfold area2
    congr 1
    apply List.ext_getElem
    · simp
    · intro k h1 h2
      rw [List.getElem_zipWith, List.getElem_map, List.getElem_range]
      have e1 := ring_snoc_get a l k (by simp at h2 ⊢; omega)
      have e2 := ring_snoc_get a l (k + 1) (by simp at h2 ⊢; omega)
      simp only [List.cons_append] at e1 e2
      rw [List.getElem_cons_succ] at e2
      rw [e1, e2]
      rfl

theorem offsetRing_length (sqrt : K → K) (dist fac : K) (ring : List (K × K)) :
    (offsetRing sqrt dist fac ring).length = ring.length := by
  cases ring with
  | nil => rfl
  | cons a l =>
    unfold offsetRing
    simp only [wrapRing_cons]
    simp
    omega

/-- Vertex `k + 1` of the offset ring. -/
theorem offsetRing_get (sqrt : K → K) (dist fac : K) (ring : List (K × K)) (k : ℕ) (hne : ring ≠ []) :
    vertex (offsetRing sqrt dist fac ring) (k + 1) =
      offsetVertex sqrt dist (fac * npSign (ringArea (wrapRing ring))) (vertex ring k) (vertex ring (k + 1))
        (vertex ring (k + 2)) := by
  cases ring with
  | nil => exact absurd rfl hne
  | cons a l =>
    have hlen := offsetRing_length sqrt dist fac (a :: l)
    obtain ⟨i, hi⟩ : ∃ i, i = (k + 1) % (a :: l).length := ⟨_, rfl⟩
    have hil : i < (a :: l).length := by rw [hi]; exact Nat.mod_lt _ (by simp)
    have hv : vertex (offsetRing sqrt dist fac (a :: l)) (k + 1) =
        (offsetRing sqrt dist fac (a :: l))[i]'(by omega) := by
      rw [← vertex_lt]
      unfold vertex
      rw [hlen, hi, Nat.mod_mod]
    have hmod : ∀ m, vertex (a :: l) (i + m) = vertex (a :: l) (k + 1 + m) := by
      intro m
      unfold vertex
      rw [hi, Nat.mod_add_mod]
    rw [hv]
    unfold offsetRing
    simp only [List.getElem_zipWith, List.getElem_zip]
    have e1 : (wrapRing (a :: l))[i]'(by rw [wrapRing_cons]; simp at hil ⊢; omega) = vertex (a :: l) k := by
      have : ∀ (w : List (K × K)) (hw : w = vertex (a :: l) l.length :: ((a :: l) ++ [vertex (a :: l) 0]))
          (h : i < w.length), w[i] = vertex (a :: l) k := by
        intro w hw h
        subst hw
        rcases i with _ | j
        · simp only [List.getElem_cons_zero]
          unfold vertex
          congr 1
          have hz : (k + 1) % (a :: l).length = 0 := hi.symm
          rw [Nat.mod_eq_of_lt (show l.length < (a :: l).length by simp)]
          have hd := Nat.dvd_of_mod_eq_zero hz
          obtain ⟨c, hc⟩ := hd
          have hc0 : c ≠ 0 := by rintro rfl; simp at hc
          obtain ⟨c, rfl⟩ := Nat.exists_eq_succ_of_ne_zero hc0
          have : k = l.length + (a :: l).length * c := by
            have : (a :: l).length * (c + 1) = (a :: l).length * c + (a :: l).length := by ring
            simp only [List.length_cons, Nat.succ_eq_add_one] at *
            omega
          rw [this, Nat.add_mul_mod_self_left, Nat.mod_eq_of_lt (by simp)]
        · simp only [List.getElem_cons_succ]
          rw [ring_snoc_get]
          unfold vertex
          congr 1
          have hj : (k + 1) % (a :: l).length = j + 1 := hi.symm
          have := Nat.div_add_mod (k + 1) (a :: l).length
          rw [hj] at this
          have hk : k = j + (a :: l).length * ((k + 1) / (a :: l).length) := by omega
          rw [hk, Nat.add_mul_mod_self_left]
      exact this _ (by rw [wrapRing_cons]; rfl) _
    have e2 : (a :: l)[i] = vertex (a :: l) (k + 1) := by
      rw [← vertex_lt hil]
      exact hmod 0
    have e3 : (wrapRing (a :: l)).tail.tail[i]'(by rw [wrapRing_cons]; simp at hil ⊢; omega) =
        vertex (a :: l) (k + 2) := by
      have : ∀ (w : List (K × K)) (hw : w = vertex (a :: l) l.length :: ((a :: l) ++ [vertex (a :: l) 0]))
          (h : i < w.tail.tail.length), w.tail.tail[i] = vertex (a :: l) (k + 2) := by
        intro w hw h
        subst hw
        have := ring_snoc_get a l (i + 1) (by simp at hil ⊢; omega)
        simp only [List.cons_append, List.getElem_cons_succ] at this
        simp only [List.tail_cons, List.cons_append]
        rw [this]
        exact hmod 1
      exact this _ (by rw [wrapRing_cons]; rfl) _
    rw [e1, e2, e3]

theorem dropAxis_eq (axis : Fin 3) (p : V3 K) : dropAxis axis p = inPlane axis p := by
  fin_cases axis <;> rfl

theorem inPlane_insert (axis : Fin 3) (p : K × K) : inPlane axis (insertAxis axis p) = p := by
  fin_cases axis <;> rfl

theorem insertAxis_axis (axis : Fin 3) (p : K × K) : insertAxis axis p axis = 0 := by
  fin_cases axis <;> rfl

theorem offsetAxis_ok {points : List (V3 K)} {axis : Fin 3} (h : offsetAxis points = .ok axis) :
    points ≠ [] ∧ ∀ p ∈ points, ∀ q ∈ points, p axis = q axis := by
  unfold offsetAxis at h
  split at h
  · cases h
  · rename_i hne
    refine ⟨hne, ?_⟩
    split at h
    · rename_i ax hax
      cases h
      have : axis ∈ ([0, 1, 2] : List (Fin 3)).filter (flatColumn points) := by rw [hax]; simp
      have := (List.mem_filter.1 this).2
      unfold flatColumn at this
      simp only [List.all_eq_true, decide_eq_true_eq] at this
      exact this
    · cases h

theorem npSign_sq {x : K} (h : x ≠ 0) : npSign x ^ 2 = 1 := by
  unfold npSign
  split
  · ring
  · split
    · ring
    · exact absurd (le_antisymm (not_lt.1 ‹_›) (not_lt.1 ‹_›)) h

/-- Result for one face. -/
structure OffsetOf (sqrt : K → K) (d : K) (pts res : List (V3 K)) (axis : Fin 3) : Prop where
  flat : ∀ p ∈ pts, ∀ q ∈ pts, p axis = q axis
  length : res.length = pts.length
  zero : ∀ p ∈ res, p axis = 0
  edges : doubled (pts.map (inPlane axis)) ≠ 0 → ∀ k, CornerOk (pts.map (inPlane axis)) k →
    leftOf (pts.map (inPlane axis)) k (vertex (res.map (inPlane axis)) (k + 1) -
      vertex (pts.map (inPlane axis)) (k + 1)) =
      - d * npSign (doubled (pts.map (inPlane axis))) * sqrt (edgeSq (pts.map (inPlane axis)) k) ∧
    leftOf (pts.map (inPlane axis)) (k + 1) (vertex (res.map (inPlane axis)) (k + 1) -
      vertex (pts.map (inPlane axis)) (k + 1)) =
      - d * npSign (doubled (pts.map (inPlane axis))) * sqrt (edgeSq (pts.map (inPlane axis)) (k + 1))

theorem offsetFace_axis {sqrt : K → K} (hs : IsSqrt sqrt) {dist fac d : K} (hf : fac ^ 2 = 1) (hd : dist * fac = d)
    {pts res : List (V3 K)} {axis : Fin 3} (hax : offsetAxis pts = .ok axis)
    (h : offsetFace sqrt dist fac pts = .ok res) : OffsetOf sqrt d pts res axis := by
  simp only [offsetFace, hax] at h
  obtain ⟨hne, hflat⟩ := offsetAxis_ok hax
  cases h
  refine ⟨hflat, ?_, ?_, ?_⟩
  · rw [List.length_map, offsetRing_length, List.length_map]
  · intro p hp
    obtain ⟨q, -, rfl⟩ := List.mem_map.1 hp
    exact insertAxis_axis axis q
  · intro hS k hk
    have hring : pts.map (dropAxis axis) = pts.map (inPlane axis) := by
      apply List.map_congr_left
      intro p _
      exact dropAxis_eq axis p
    rw [hring, List.map_map, show inPlane axis ∘ insertAxis axis = (id : K × K → K × K) from
      funext (inPlane_insert axis), List.map_id]
    have hne' : pts.map (inPlane axis) ≠ [] := by simpa using hne
    generalize pts.map (inPlane axis) = ring at *
    have hS' : ringArea (wrapRing ring) = doubled ring := by
      rw [ringArea_wrap ring hne', doubled, add_comm]
    rw [offsetRing_get sqrt dist fac ring k hne', hS']
    obtain ⟨c1, c2, c3⟩ := hk
    obtain ⟨e1, e2⟩ := offsetVertex_spec hs (f := fac * npSign (doubled ring))
      (by rw [mul_pow, hf, npSign_sq hS, mul_one]) dist c1 c2 c3
    unfold leftOf edgeSq
    refine ⟨?_, ?_⟩
    · rw [e2, ← hd]
      rw [show ∀ a : K, a ^ 2 = a * a from fun a => sq a, show ∀ a : K, a ^ 2 = a * a from fun a => sq a]
      ring
    · rw [e1, ← hd]
      rw [show ∀ a : K, a ^ 2 = a * a from fun a => sq a, show ∀ a : K, a ^ 2 = a * a from fun a => sq a]
      ring

theorem offsetFace_ok {sqrt : K → K} (hs : IsSqrt sqrt) {dist fac d : K} (hf : fac ^ 2 = 1) (hd : dist * fac = d)
    {pts res : List (V3 K)} (h : offsetFace sqrt dist fac pts = .ok res) :
    ∃ axis, OffsetOf sqrt d pts res axis := by
  cases hax : offsetAxis pts with
  | error e => simp only [offsetFace, hax] at h; cases h
  | ok axis => exact ⟨axis, offsetFace_axis hs hf hd hax h⟩

theorem offsetFaces_ok {sqrt : K → K} (hs : IsSqrt sqrt) {dist fac d : K} (hf : fac ^ 2 = 1)
    (hd : dist * fac = d) {points : List (V3 K)} :
    ∀ (faces : List (List ℕ)) (n : ℕ) (out : List (V3 K)) (cells : List (List ℕ)),
    offsetFaces sqrt dist fac points n faces = .ok (out, cells) → ∀ pre : List (V3 K), pre.length = n →
    List.Forall₂ (fun face cell => ∃ (axis : Fin 3) (pts res : List (V3 K)), along points face = pts.map some ∧
      along (pre ++ out) cell = res.map some ∧ OffsetOf sqrt d pts res axis) faces cells := by
  intro faces
  induction faces with
  | nil =>
    intro n out cells h pre _
    cases h
    exact .nil
  | cons face faces ih =>
    intro n out cells h pre hpre
    rw [offsetFaces] at h
    split at h
    · cases h
    · rename_i pts hpts
      split at h
      · cases h
      · rename_i res hres
        split at h
        · cases h
        · rename_i more rest hrest
          cases h
          refine .cons ?_ ?_
          · obtain ⟨axis, hax⟩ := offsetFace_ok hs hf hd hres
            refine ⟨axis, pts, res, (gather_ok_iff.1 hpts).symm, ?_, hax⟩
            unfold along
            apply List.ext_getElem?
            intro i
            simp only [List.getElem?_map, List.map_map]
            by_cases hi : i < res.length
            · rw [List.getElem?_range hi, List.getElem?_eq_getElem hi]
              simp only [Option.map_some, Function.comp_apply]
              rw [List.getElem?_append_right (by omega), hpre, Nat.add_sub_cancel,
                List.getElem?_append_left hi, List.getElem?_eq_getElem hi]
            · rw [List.getElem?_eq_none (by simpa using hi), List.getElem?_eq_none (by omega)]
              rfl
          · have := ih _ _ _ hrest (pre ++ res) (by rw [List.length_append, hpre])
            simpa using this

theorem offsetPolygon_ok {sqrt : K → K} (hs : IsSqrt sqrt) {d : K} (hd : d ≠ 0) {points out : List (V3 K)}
    {faces cells : List (List ℕ)} (h : offsetPolygon sqrt points faces d = .ok (out, cells)) :
    List.Forall₂ (fun face cell => ∃ (axis : Fin 3) (pts res : List (V3 K)), along points face = pts.map some ∧
      along out cell = res.map some ∧ OffsetOf sqrt d pts res axis) faces cells := by
  unfold offsetPolygon at h
  split at h
  · cases h
  · split at h
    · exact offsetFaces_ok hs (by ring) (by ring) faces 0 out cells h [] rfl
    · split at h
      · exact offsetFaces_ok hs (by ring) (by ring) faces 0 out cells h [] rfl
      · exact absurd (le_antisymm (not_lt.1 ‹_›) (not_lt.1 ‹_›)) hd

/-- **C47**: wherever the edges at a vertex have a length and do not turn back, the new vertex is at the
requested distance from the lines of both edges.  Missing: rings for which the sum computed by the code, which
counts the closing edge twice, is zero (see `C47_nan_refuted`). -/
theorem C47_distance_partial {sqrt : K → K} (hs : IsSqrt sqrt) {d : K} (hd : d ≠ 0) {points out : List (V3 K)}
    {faces cells : List (List ℕ)} (h : offsetPolygon sqrt points faces d = .ok (out, cells)) :
    List.Forall₂ (fun face cell => ∃ (axis : Fin 3) (pts res : List (V3 K)), along points face = pts.map some ∧
      along out cell = res.map some ∧ res.length = pts.length ∧ (∀ p ∈ pts, ∀ q ∈ pts, p axis = q axis) ∧
      (doubled (pts.map (inPlane axis)) ≠ 0 → ∀ k, CornerOk (pts.map (inPlane axis)) k →
        leftOf (pts.map (inPlane axis)) k (vertex (res.map (inPlane axis)) (k + 1) -
          vertex (pts.map (inPlane axis)) (k + 1)) ^ 2 = d ^ 2 * edgeSq (pts.map (inPlane axis)) k ∧
        leftOf (pts.map (inPlane axis)) (k + 1) (vertex (res.map (inPlane axis)) (k + 1) -
          vertex (pts.map (inPlane axis)) (k + 1)) ^ 2 = d ^ 2 * edgeSq (pts.map (inPlane axis)) (k + 1)))
      faces cells := by
  refine (offsetPolygon_ok hs hd h).imp ?_
  rintro face cell ⟨axis, pts, res, h1, h2, h3⟩
  refine ⟨axis, pts, res, h1, h2, h3.length, h3.flat, ?_⟩
  intro hS k hk
  obtain ⟨e1, e2⟩ := h3.edges hS k hk
  have hq : ∀ j, sqrt (edgeSq (pts.map (inPlane axis)) j) ^ 2 = edgeSq (pts.map (inPlane axis)) j := by
    intro j
    exact (hs _ (add_nonneg (sq_nonneg _) (sq_nonneg _))).2
  rw [e1, e2, mul_pow, mul_pow, npSign_sq hS, hq, mul_pow, mul_pow, npSign_sq hS, hq]
  constructor <;> ring

/-- **C48**: positive distances go outwards (to the right of the edges of a counterclockwise ring, to the left
for a clockwise ring), negative ones inwards.  Proved when the closing edge spans, with the origin, less than
the area of the polygon; false otherwise (`C48_far_refuted`). -/
theorem C48_outwards_partial {sqrt : K → K} (hs : IsSqrt sqrt) {d : K} (hd : d ≠ 0) {points out : List (V3 K)}
    {faces cells : List (List ℕ)} (h : offsetPolygon sqrt points faces d = .ok (out, cells)) :
    List.Forall₂ (fun face cell => ∃ (axis : Fin 3) (pts res : List (V3 K)), along points face = pts.map some ∧
      along out cell = res.map some ∧ res.length = pts.length ∧
      (|cross2 (vertex (pts.map (inPlane axis)) (pts.length - 1)) (vertex (pts.map (inPlane axis)) 0)| <
          |area2 (pts.map (inPlane axis))| →
        ∀ k, CornerOk (pts.map (inPlane axis)) k →
        ((0 < area2 (pts.map (inPlane axis)) →
          leftOf (pts.map (inPlane axis)) k (vertex (res.map (inPlane axis)) (k + 1) -
            vertex (pts.map (inPlane axis)) (k + 1)) = - d * sqrt (edgeSq (pts.map (inPlane axis)) k)) ∧
        (area2 (pts.map (inPlane axis)) < 0 →
          leftOf (pts.map (inPlane axis)) k (vertex (res.map (inPlane axis)) (k + 1) -
            vertex (pts.map (inPlane axis)) (k + 1)) = d * sqrt (edgeSq (pts.map (inPlane axis)) k)))))
      faces cells := by
  refine (offsetPolygon_ok hs hd h).imp ?_
  rintro face cell ⟨axis, pts, res, h1, h2, h3⟩
  refine ⟨axis, pts, res, h1, h2, h3.length, ?_⟩
  intro hlt k hk
  have hS : doubled (pts.map (inPlane axis)) = area2 (pts.map (inPlane axis)) +
      cross2 (vertex (pts.map (inPlane axis)) (pts.length - 1)) (vertex (pts.map (inPlane axis)) 0) := by
    unfold doubled; rw [List.length_map]
  obtain ⟨l1, l2⟩ := abs_lt.1 hlt
  constructor
  · intro hpos
    rw [abs_of_pos hpos] at l1
    have hp : 0 < doubled (pts.map (inPlane axis)) := by rw [hS]; linarith
    rw [(h3.edges hp.ne' k hk).1, npSign, if_pos hp, mul_one]
  · intro hneg
    rw [abs_of_neg hneg] at l2
    have hp : doubled (pts.map (inPlane axis)) < 0 := by rw [hS]; linarith
    rw [(h3.edges hp.ne k hk).1, npSign, if_neg (not_lt.2 hp.le), if_pos hp]
    ring

/-- **C49**: the offset polygon is in the coordinate plane through the origin parallel to the polygon, hence in
the plane of the polygon if that one contains the origin. -/
theorem C49_plane_partial {sqrt : K → K} (hs : IsSqrt sqrt) {d : K} (hd : d ≠ 0) {points out : List (V3 K)}
    {faces cells : List (List ℕ)} (h : offsetPolygon sqrt points faces d = .ok (out, cells)) :
    List.Forall₂ (fun face cell => ∃ (axis : Fin 3) (pts res : List (V3 K)), along points face = pts.map some ∧
      along out cell = res.map some ∧ (∀ p ∈ pts, ∀ q ∈ pts, p axis = q axis) ∧ (∀ p ∈ res, p axis = 0) ∧
      ((∀ p ∈ pts, p axis = 0) → ∀ p ∈ pts, ∀ q ∈ res, p axis = q axis)) faces cells := by
  refine (offsetPolygon_ok hs hd h).imp ?_
  rintro face cell ⟨axis, pts, res, h1, h2, h3⟩
  exact ⟨axis, pts, res, h1, h2, h3.flat, h3.zero, fun h p hp q hq => (h p hp).trans (h3.zero q hq).symm⟩

end

/-! ## Concrete polygons -/

/-- The square with corner `(a, b)` and side 1, counterclockwise, at height `z`. -/
def squareAt {K : Type*} [Field K] (a b z : K) : List (V3 K) :=
  [![a, b, z], ![a + 1, b, z], ![a + 1, b + 1, z], ![a, b + 1, z]]

theorem isSqrt_real : IsSqrt Real.sqrt := fun _ h => ⟨Real.sqrt_nonneg _, Real.sq_sqrt h⟩

theorem offsetAxis_square {a b z : ℝ} : offsetAxis (squareAt a b z) = .ok 2 := by
  unfold offsetAxis flatColumn squareAt
  simp [List.filter]

theorem square_vertices (a b z : ℝ) :
    (squareAt a b z).map (inPlane 2) = [(a, b), (a + 1, b), (a + 1, b + 1), (a, b + 1)] := rfl

theorem square_area (a b z : ℝ) : area2 ((squareAt a b z).map (inPlane 2)) = 2 := by
  rw [square_vertices]
  simp [area2, vertex, cross2, List.range_succ]
  ring

theorem square_doubled (a b z : ℝ) : doubled ((squareAt a b z).map (inPlane 2)) = 2 - a := by
  unfold doubled
  rw [square_area, square_vertices]
  simp [vertex, cross2]
  ring

theorem square_corner (a b z : ℝ) : CornerOk ((squareAt a b z).map (inPlane 2)) 0 := by
  rw [square_vertices]
  simp [CornerOk, vertex, cross2]

theorem square_edge (a b z : ℝ) : edgeSq ((squareAt a b z).map (inPlane 2)) 0 = 1 := by
  rw [square_vertices]
  simp [edgeSq, vertex]

/-- The call for a square returns one polygon. -/
theorem square_offset (a b z d : ℝ) (hd : d ≠ 0) : ∃ out, offsetPolygon Real.sqrt (squareAt a b z) [[0, 1, 2, 3]] d =
    .ok (out, [[0, 1, 2, 3]]) ∧ OffsetOf Real.sqrt d (squareAt a b z) out 2 := by
  have hg : gather (squareAt a b z) [0, 1, 2, 3] = .ok (squareAt a b z) := rfl
  have key : ∀ dist fac : ℝ, fac ^ 2 = 1 → dist * fac = d → ∃ out,
      offsetFaces Real.sqrt dist fac (squareAt a b z) 0 [[0, 1, 2, 3]] = .ok (out, [[0, 1, 2, 3]]) ∧
      OffsetOf Real.sqrt d (squareAt a b z) out 2 := by
    intro dist fac hf hdf
    have hface : offsetFace Real.sqrt dist fac (squareAt a b z) =
        .ok ((offsetRing Real.sqrt dist fac ((squareAt a b z).map (dropAxis 2))).map (insertAxis 2)) := by
      unfold offsetFace; rw [offsetAxis_square]
    obtain ⟨axis, hax⟩ := offsetFace_ok isSqrt_real hf hdf hface
    have h2 : axis = 2 := by
      have h1 := hax.flat ![a, b, z] (by simp [squareAt]) ![a + 1, b + 1, z] (by simp [squareAt])
      fin_cases axis
      · simp at h1
      · simp at h1
      · rfl
    subst h2
    have hl := hax.length
    rw [show (squareAt a b z).length = 4 from rfl] at hl
    refine ⟨_, ?_, hax⟩
    simp only [offsetFaces, hg, hface, hl, List.append_nil]
    rfl
  unfold offsetPolygon
  rw [if_neg (by simp)]
  rcases lt_trichotomy d 0 with h | h | h
  · rw [if_neg (not_lt.2 h.le), if_pos h]
    exact key _ _ (by ring) (by ring)
  · exact absurd h hd
  · rw [if_pos h]
    exact key _ _ (by ring) (by ring)

/-- The claim is false away from the origin: a counterclockwise unit square whose corner is at `x = 3`, offset
by 1 / 10, has its edges moved by 1 / 10 to the left, that is inwards. -/
theorem C48_far_refuted : ∃ out, offsetPolygon Real.sqrt (squareAt 3 0 0) [[0, 1, 2, 3]] (1 / 10) =
    .ok (out, [[0, 1, 2, 3]]) ∧ 0 < area2 ((squareAt (3 : ℝ) 0 0).map (inPlane 2)) ∧
    leftOf ((squareAt (3 : ℝ) 0 0).map (inPlane 2)) 0 (vertex (out.map (inPlane 2)) 1 -
      vertex ((squareAt (3 : ℝ) 0 0).map (inPlane 2)) 1) = 1 / 10 := by
  obtain ⟨out, h1, h2⟩ := square_offset 3 0 0 (1 / 10) (by norm_num)
  refine ⟨out, h1, by rw [square_area]; norm_num, ?_⟩
  have := (h2.edges (by rw [square_doubled]; norm_num) 0 (square_corner _ _ _)).1
  rw [square_doubled, square_edge, npSign, if_neg (by norm_num), if_pos (by norm_num)] at this
  rw [this]
  norm_num

/-- At the origin, the hypotheses of `C48_outwards_partial` hold and the edge moves to the right. -/
example : ∃ out, offsetPolygon Real.sqrt (squareAt 0 0 0) [[0, 1, 2, 3]] (1 / 10) =
    .ok (out, [[0, 1, 2, 3]]) ∧
    leftOf ((squareAt (0 : ℝ) 0 0).map (inPlane 2)) 0 (vertex (out.map (inPlane 2)) 1 -
      vertex ((squareAt (0 : ℝ) 0 0).map (inPlane 2)) 1) = - (1 / 10) := by
  obtain ⟨out, h1, h2⟩ := square_offset 0 0 0 (1 / 10) (by norm_num)
  refine ⟨out, h1, ?_⟩
  have := (h2.edges (by rw [square_doubled]; norm_num) 0 (square_corner _ _ _)).1
  rw [square_doubled, square_edge, npSign, if_pos (by norm_num)] at this
  rw [this]
  norm_num

/-- The claim of C47 is false for the unit square with its corner at `x = 2`: the sum computed is zero, no
direction is left and numpy returns nan (0 / 0); with Lean's `0 / 0 = 0` the vertices do not move. -/
theorem C47_nan_refuted : area2 ((squareAt (2 : ℝ) 0 0).map (inPlane 2)) = 2 ∧
    ringArea (wrapRing ((squareAt (2 : ℝ) 0 0).map (inPlane 2))) = 0 ∧
    ∀ d : ℝ, offsetRing Real.sqrt d 1 ((squareAt (2 : ℝ) 0 0).map (inPlane 2)) =
      (squareAt (2 : ℝ) 0 0).map (inPlane 2) := by
  have h0 : ringArea (wrapRing ((squareAt (2 : ℝ) 0 0).map (inPlane 2))) = 0 := by
    rw [ringArea_wrap _ (by rw [square_vertices]; simp), add_comm]
    have := square_doubled 2 0 0
    unfold doubled at this
    rw [this]
    norm_num
  refine ⟨square_area _ _ _, h0, ?_⟩
  intro d
  unfold offsetRing
  simp only [h0]
  rw [square_vertices]
  simp [wrapRing, npSign, offsetVertex, unit2]

/-- The claim is false for polygons whose plane is not through the origin: a square at height 5 is returned at
height 0. -/
theorem C49_height_refuted : ∃ out, offsetPolygon Real.sqrt (squareAt 0 0 5) [[0, 1, 2, 3]] (1 / 10) =
    .ok (out, [[0, 1, 2, 3]]) ∧ (∀ p ∈ squareAt (0 : ℝ) 0 5, p 2 = 5) ∧ out ≠ [] ∧ ∀ p ∈ out, p 2 = 0 := by
  obtain ⟨out, h1, h2⟩ := square_offset 0 0 5 (1 / 10) (by norm_num)
  refine ⟨out, h1, by simp [squareAt], ?_, h2.zero⟩
  have := h2.length
  rintro rfl
  simp [squareAt] at this

/-- Distance 0 returns a copy, and meshes without polygons are rejected. -/
theorem C47_zero_distance {K : Type*} [Field K] [LinearOrder K] (sqrt : K → K) (points : List (V3 K))
    (faces : List (List ℕ)) : offsetPolygon sqrt points faces 0 =
      if faces = [] then .error .valueError else .ok (points, faces) := by
  unfold offsetPolygon
  simp

end Gridder
