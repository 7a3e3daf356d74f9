import Verif.Props.Voronoi

/-!
# C47, C48, C50: exact conditions, and failure of every polygon at some place

The signs used by `offset_polygon` and by the orientation of Voronoi cells depend on the position of the polygon; every
polygon can be moved, without being changed otherwise, to a place where the result is wrong.
-/

namespace Gridder
open Spec

namespace Spec
variable {K : Type*} [Field K] [LinearOrder K]

/-- A polygon in the plane moved by a vector. -/
def shift2 (v : K × K) (ring : List (K × K)) : List (K × K) := ring.map (· + v)

/-- A polygon in space moved by a vector. -/
def shift3 (v : V3 K) (pts : List (V3 K)) : List (V3 K) := pts.map (· + v)

end Spec

section
variable {K : Type*} [Field K] [LinearOrder K] [IsStrictOrderedRing K]

omit [LinearOrder K] [IsStrictOrderedRing K] in
theorem cross2_shift (a b v : K × K) : cross2 (a + v) (b + v) = cross2 a b + cross2 v (b - a) := by
  simp only [cross2, Prod.fst_add, Prod.snd_add, Prod.fst_sub, Prod.snd_sub]; ring

omit [LinearOrder K] [IsStrictOrderedRing K] in
theorem vertex_shift {ring : List (K × K)} (hne : ring ≠ []) (v : K × K) (k : ℕ) :
    vertex (shift2 v ring) k = vertex ring k + v := by
  have hk : k % ring.length < ring.length := Nat.mod_lt _ (List.length_pos_of_ne_nil hne)
  simp only [vertex, shift2, List.length_map, List.getD_eq_getElem?_getD, List.getElem?_map,
    List.getElem?_eq_getElem hk, Option.map_some, Option.getD_some]

omit [LinearOrder K] [IsStrictOrderedRing K] in
/-- Moving a polygon keeps its area. -/
theorem area2_shift (ring : List (K × K)) (v : K × K) : area2 (shift2 v ring) = area2 ring := by
  rcases eq_or_ne ring [] with rfl | hne
  · rfl
  have hsum : ∀ n, ((List.range n).map fun k => cross2 (vertex (shift2 v ring) k) (vertex (shift2 v ring) (k + 1))).sum =
      ((List.range n).map fun k => cross2 (vertex ring k) (vertex ring (k + 1))).sum +
        cross2 v (vertex ring n - vertex ring 0) := by
    intro n
    induction n with
    | zero => simp [cross2]
    | succ n ih =>
      rw [List.range_succ, List.map_append, List.sum_append, ih, List.map_append, List.sum_append]
      simp only [List.map_cons, List.map_nil, List.sum_cons, List.sum_nil, vertex_shift hne, cross2_shift]
      simp only [cross2, Prod.fst_sub, Prod.snd_sub]
      ring
  unfold area2
  rw [show (shift2 v ring).length = ring.length by simp [shift2], hsum,
    show vertex ring ring.length = vertex ring 0 by simp [vertex]]
  simp [cross2]

omit [LinearOrder K] [IsStrictOrderedRing K] in
theorem doubled_shift {ring : List (K × K)} (hne : ring ≠ []) (v : K × K) :
    doubled (shift2 v ring) = doubled ring + cross2 v (vertex ring 0 - vertex ring (ring.length - 1)) := by
  unfold doubled
  rw [area2_shift, show (shift2 v ring).length = ring.length by simp [shift2], vertex_shift hne, vertex_shift hne,
    cross2_shift]
  ring

/-- Vectors with a given signed area with a vector other than 0. -/
theorem exists_cross2 {w : K × K} (hw : w ≠ 0) (x : K) : ∃ v, cross2 v w = x := by
  have h : w.1 ^ 2 + w.2 ^ 2 ≠ 0 := by
    intro h
    apply hw
    have h1 : w.1 = 0 := by nlinarith [sq_nonneg w.1, sq_nonneg w.2]
    have h2 : w.2 = 0 := by nlinarith [sq_nonneg w.1, sq_nonneg w.2]
    exact Prod.ext h1 h2
  refine ⟨(x * w.2 / (w.1 ^ 2 + w.2 ^ 2), - (x * w.1 / (w.1 ^ 2 + w.2 ^ 2))), ?_⟩
  simp only [cross2]
  field_simp
  ring

/-! ### C50: orientation of Voronoi cells -/

/-- The area after the orientation, in terms of the sum over the first two edges. -/
theorem orientCell_area (a b c : K × K) (l : List (K × K)) :
    area2 (orientCell true (a :: b :: c :: l)) =
      (if cross2 a b + cross2 b c < 0 then -area2 (a :: b :: c :: l) else area2 (a :: b :: c :: l)) ∧
    area2 (orientCell false (a :: b :: c :: l)) =
      (if 0 < cross2 a b + cross2 b c then -area2 (a :: b :: c :: l) else area2 (a :: b :: c :: l)) := by
  have ho : openArea ((a :: b :: c :: l).take 3) = 1 / 2 * (cross2 a b + cross2 b c) := by
    unfold openArea cross2
    simp
  have hr := area2_reverse (a :: b :: c :: l)
  have hneg : 1 / 2 * (cross2 a b + cross2 b c) < 0 ↔ cross2 a b + cross2 b c < 0 := by
    constructor <;> intro h <;> linarith
  have hpos : 0 < 1 / 2 * (cross2 a b + cross2 b c) ↔ 0 < cross2 a b + cross2 b c := by
    constructor <;> intro h <;> linarith
  unfold orientCell
  rw [ho]
  simp only [hneg, hpos]
  constructor
  · by_cases h : cross2 a b + cross2 b c < 0
    · rw [if_pos (Or.inl ⟨trivial, h⟩), if_pos h, hr]
    · rw [if_neg (by simp [h]), if_neg h]
  · by_cases h : 0 < cross2 a b + cross2 b c
    · rw [if_pos (Or.inr ⟨trivial, h⟩), if_pos h, hr]
    · rw [if_neg (by simp [h]), if_neg h]

/-- **C50 (exact).** `orientation="CCW"` gives a counterclockwise cell exactly when the sum over the first two edges is
negative and the cell is clockwise, or it is not negative and the cell is counterclockwise; `"CW"` likewise. -/
theorem C50_orientation_iff (a b c : K × K) (l : List (K × K)) :
    (0 < area2 (orientCell true (a :: b :: c :: l)) ↔
      (cross2 a b + cross2 b c < 0 ∧ area2 (a :: b :: c :: l) < 0) ∨
      (0 ≤ cross2 a b + cross2 b c ∧ 0 < area2 (a :: b :: c :: l))) ∧
    (area2 (orientCell false (a :: b :: c :: l)) < 0 ↔
      (0 < cross2 a b + cross2 b c ∧ 0 < area2 (a :: b :: c :: l)) ∨
      (cross2 a b + cross2 b c ≤ 0 ∧ area2 (a :: b :: c :: l) < 0)) := by
  obtain ⟨h1, h2⟩ := orientCell_area a b c l
  rw [h1, h2]
  constructor
  · split
    · rename_i h
      constructor
      · intro h'; exact Or.inl ⟨h, by linarith⟩
      · rintro (⟨_, h'⟩ | ⟨h', _⟩) <;> linarith
    · rename_i h
      constructor
      · intro h'; exact Or.inr ⟨not_lt.1 h, h'⟩
      · rintro (⟨h', _⟩ | ⟨_, h'⟩)
        · exact absurd h' h
        · exact h'
  · split
    · rename_i h
      constructor
      · intro h'; exact Or.inl ⟨h, by linarith⟩
      · rintro (⟨_, h'⟩ | ⟨h', _⟩) <;> linarith
    · rename_i h
      constructor
      · intro h'; exact Or.inr ⟨not_lt.1 h, h'⟩
      · rintro (⟨h', _⟩ | ⟨_, h'⟩)
        · exact absurd h' h
        · exact h'

/-- **C50 (refuted for every cell).** Whatever the cell, if its first and third vertices differ and it has an area, there
is a place where both orientations come out wrong. -/
theorem C50_every_cell_refuted (a b c : K × K) (l : List (K × K)) (hac : a ≠ c)
    (hA : area2 (a :: b :: c :: l) ≠ 0) :
    ∃ v, area2 (orientCell true (shift2 v (a :: b :: c :: l))) < 0 ∧
      0 < area2 (orientCell false (shift2 v (a :: b :: c :: l))) := by
  obtain ⟨v, hv⟩ := exists_cross2 (w := c - a) (sub_ne_zero.2 hac.symm)
    (-(cross2 a b + cross2 b c) - area2 (a :: b :: c :: l))
  have hsum : cross2 (a + v) (b + v) + cross2 (b + v) (c + v) = - area2 (a :: b :: c :: l) := by
    rw [cross2_shift, cross2_shift]
    have : cross2 v (b - a) + cross2 v (c - b) = cross2 v (c - a) := by
      simp only [cross2, Prod.fst_sub, Prod.snd_sub]; ring
    linear_combination hv + this
  refine ⟨v, ?_⟩
  have hsh : shift2 v (a :: b :: c :: l) = (a + v) :: (b + v) :: (c + v) :: shift2 v l := rfl
  have harea := area2_shift (a :: b :: c :: l) v
  rw [hsh] at harea ⊢
  obtain ⟨h1, h2⟩ := orientCell_area (a + v) (b + v) (c + v) (shift2 v l)
  rw [h1, h2, hsum, harea]
  rcases lt_or_gt_of_ne hA with h | h
  · rw [if_neg (by linarith), if_pos (by linarith)]
    exact ⟨h, by linarith⟩
  · rw [if_pos (by linarith), if_neg (by linarith)]
    exact ⟨by linarith, h⟩

/-- Concrete case: the triangle at the origin, and its translate by (10, 10) of `C50_away_from_origin_refuted` with its
vertices renumbered. -/
example : let t : List (ℚ × ℚ) := [(0, 1), (0, 0), (1, 0)]
    area2 t = 1 ∧ area2 (orientCell true t) = 1 ∧ area2 (orientCell true (shift2 (10, 10) t)) = -1 := by decide +kernel

/-! ### C48: direction of `offset_polygon` -/

/-- The call for a polygon in a coordinate plane. -/
theorem offsetPolygon_one {sqrt : K → K} (hs : IsSqrt sqrt) {d : K} (hd : d ≠ 0) {pts : List (V3 K)} {axis : Fin 3}
    (hax : offsetAxis pts = .ok axis) : ∃ out, offsetPolygon sqrt pts [List.range pts.length] d =
      .ok (out, [List.range pts.length]) ∧ OffsetOf sqrt d pts out axis := by
  have hg : gather pts (List.range pts.length) = .ok pts := by
    rw [gather_ok_iff, along]
    apply List.ext_getElem?
    intro i
    rw [List.getElem?_map, List.getElem?_map]
    by_cases h : i < pts.length
    · rw [List.getElem?_range h, List.getElem?_eq_getElem h]
      simp [List.getElem?_eq_getElem h]
    · rw [List.getElem?_eq_none (by omega), List.getElem?_eq_none (by simpa using h)]; rfl
  have key : ∀ dist fac : K, fac ^ 2 = 1 → dist * fac = d → ∃ out,
      offsetFaces sqrt dist fac pts 0 [List.range pts.length] = .ok (out, [List.range pts.length]) ∧
      OffsetOf sqrt d pts out axis := by
    intro dist fac hf hdf
    have hface : offsetFace sqrt dist fac pts =
        .ok ((offsetRing sqrt dist fac (pts.map (dropAxis axis))).map (insertAxis axis)) := by
      unfold offsetFace; rw [hax]
    have hok := offsetFace_axis hs hf hdf hax hface
    refine ⟨_, ?_, hok⟩
    have hl := hok.length
    simp only [offsetFaces, hg, hface, hl, List.append_nil, Nat.add_zero, List.map_id']
  unfold offsetPolygon
  rw [if_neg (by simp)]
  rcases lt_trichotomy d 0 with h | h | h
  · rw [if_neg (not_lt.2 h.le), if_pos h]
    exact key _ _ (by ring) (by ring)
  · exact absurd h hd
  · rw [if_pos h]
    exact key _ _ (by ring) (by ring)

/-- Where the offset moves the edges: outwards if the sum of the code has the sign of the area, inwards if it has the
other sign. -/
theorem C48_outwards_iff {sqrt : K → K} (hs : IsSqrt sqrt) {d : K} (hd : d ≠ 0) {pts : List (V3 K)} {axis : Fin 3}
    (hax : offsetAxis pts = .ok axis) (hA : area2 (pts.map (inPlane axis)) ≠ 0)
    (hD : doubled (pts.map (inPlane axis)) ≠ 0) :
    ∃ out, offsetPolygon sqrt pts [List.range pts.length] d = .ok (out, [List.range pts.length]) ∧
      out.length = pts.length ∧
      ∀ k, CornerOk (pts.map (inPlane axis)) k →
        (leftOf (pts.map (inPlane axis)) k (vertex (out.map (inPlane axis)) (k + 1) -
            vertex (pts.map (inPlane axis)) (k + 1)) =
          - d * npSign (area2 (pts.map (inPlane axis))) * sqrt (edgeSq (pts.map (inPlane axis)) k) ↔
          0 < doubled (pts.map (inPlane axis)) * area2 (pts.map (inPlane axis))) ∧
        (leftOf (pts.map (inPlane axis)) k (vertex (out.map (inPlane axis)) (k + 1) -
            vertex (pts.map (inPlane axis)) (k + 1)) =
          d * npSign (area2 (pts.map (inPlane axis))) * sqrt (edgeSq (pts.map (inPlane axis)) k) ↔
          doubled (pts.map (inPlane axis)) * area2 (pts.map (inPlane axis)) < 0) := by
  obtain ⟨out, h1, h2⟩ := offsetPolygon_one hs hd hax
  refine ⟨out, h1, h2.length, fun k hk => ?_⟩
  rw [(h2.edges hD k hk).1]
  have hE : sqrt (edgeSq (pts.map (inPlane axis)) k) ≠ 0 := by
    intro h0
    have hsq := (hs (edgeSq (pts.map (inPlane axis)) k) (add_nonneg (sq_nonneg _) (sq_nonneg _))).2
    rw [h0] at hsq
    apply hk.1
    simp only [edgeSq] at hsq
    have e1 : (vertex (pts.map (inPlane axis)) (k + 1) - vertex (pts.map (inPlane axis)) k).1 = 0 := by
      nlinarith [sq_nonneg (vertex (pts.map (inPlane axis)) (k + 1) - vertex (pts.map (inPlane axis)) k).1,
        sq_nonneg (vertex (pts.map (inPlane axis)) (k + 1) - vertex (pts.map (inPlane axis)) k).2]
    have e2 : (vertex (pts.map (inPlane axis)) (k + 1) - vertex (pts.map (inPlane axis)) k).2 = 0 := by
      nlinarith [sq_nonneg (vertex (pts.map (inPlane axis)) (k + 1) - vertex (pts.map (inPlane axis)) k).1,
        sq_nonneg (vertex (pts.map (inPlane axis)) (k + 1) - vertex (pts.map (inPlane axis)) k).2]
    exact (sub_eq_zero.1 (Prod.ext e1 e2 : _ = (0 : K × K))).symm
  generalize sqrt (edgeSq (pts.map (inPlane axis)) k) = E at *
  generalize doubled (pts.map (inPlane axis)) = D at *
  generalize area2 (pts.map (inPlane axis)) = A at *
  have hdE : d * E ≠ 0 := mul_ne_zero hd hE
  have h1' : - d * npSign D * E = - (d * E) * npSign D := by ring
  have h2' : - d * npSign A * E = - (d * E) * npSign A := by ring
  have h3' : d * npSign A * E = (d * E) * npSign A := by ring
  rw [h1', h2', h3']
  have hne : d * E ≠ -(d * E) := by
    intro h; apply hdE; linarith
  rcases lt_or_gt_of_ne hA with ha | ha <;> rcases lt_or_gt_of_ne hD with hd' | hd'
  · have := mul_pos_of_neg_of_neg hd' ha
    simp [npSign, ha, hd', ha.not_gt, hd'.not_gt, this, this.not_gt, hne]
  · have := mul_neg_of_pos_of_neg hd' ha
    simp [npSign, ha, hd', ha.not_gt, hd'.not_gt, this, this.not_gt, hne.symm]
  · have := mul_neg_of_neg_of_pos hd' ha
    simp [npSign, ha, hd', ha.not_gt, hd'.not_gt, this, this.not_gt, hne]
  · have := mul_pos hd' ha
    simp [npSign, ha, hd', ha.not_gt, hd'.not_gt, this, this.not_gt, hne.symm]

/-- **C48 (refuted for every polygon).** Whatever the polygon (in a coordinate plane, with an area, its first and last
vertices different), there is a place in that plane where every positive offset moves its edges inwards and every
negative one outwards: an edge of a counterclockwise polygon moves by `d` to its left. -/
theorem C48_every_polygon_refuted {sqrt : K → K} (hs : IsSqrt sqrt) {pts : List (V3 K)} {axis : Fin 3}
    (hax : offsetAxis pts = .ok axis) (hA : area2 (pts.map (inPlane axis)) ≠ 0)
    (hfl : vertex (pts.map (inPlane axis)) 0 ≠ vertex (pts.map (inPlane axis)) (pts.length - 1)) :
    ∃ v : V3 K, v axis = 0 ∧ ∀ d : K, d ≠ 0 →
      ∃ out, offsetPolygon sqrt (shift3 v pts) [List.range pts.length] d = .ok (out, [List.range pts.length]) ∧
      ∀ k, CornerOk (pts.map (inPlane axis)) k →
        leftOf (pts.map (inPlane axis)) k (vertex (out.map (inPlane axis)) (k + 1) -
            vertex ((shift3 v pts).map (inPlane axis)) (k + 1)) =
          d * npSign (area2 (pts.map (inPlane axis))) * sqrt (edgeSq (pts.map (inPlane axis)) k) := by
  have hne : pts ≠ [] := (offsetAxis_ok hax).1
  have hring : pts.map (inPlane axis) ≠ [] := by simpa using hne
  obtain ⟨w, hw⟩ := exists_cross2 (sub_ne_zero.2 hfl)
    (-area2 (pts.map (inPlane axis)) - doubled (pts.map (inPlane axis)))
  have hv : inPlane axis (insertAxis axis w) = w := inPlane_insert axis w
  have hadd : ∀ p q : V3 K, inPlane axis (p + q) = inPlane axis p + inPlane axis q := fun _ _ => rfl
  have hmap : (shift3 (insertAxis axis w) pts).map (inPlane axis) = shift2 w (pts.map (inPlane axis)) := by
    simp only [shift3, shift2, List.map_map]
    apply List.map_congr_left
    intro p _
    simp only [Function.comp_apply, hadd, hv]
  have hax' : offsetAxis (shift3 (insertAxis axis w) pts) = .ok axis := by
    have hf : ∀ ax, flatColumn (shift3 (insertAxis axis w) pts) ax = flatColumn pts ax := by
      intro ax
      simp only [flatColumn, shift3, List.all_map, Function.comp_def, Pi.add_apply, add_left_inj]
    rw [← hax]
    unfold offsetAxis
    rw [show flatColumn (shift3 (insertAxis axis w) pts) = flatColumn pts from funext hf]
    have h1 : shift3 (insertAxis axis w) pts ≠ [] := by simpa [shift3] using hne
    rw [if_neg h1, if_neg hne]
  have hdbl : doubled (shift2 w (pts.map (inPlane axis))) = - area2 (pts.map (inPlane axis)) := by
    rw [doubled_shift hring, List.length_map, hw]; ring
  have hlen : (shift3 (insertAxis axis w) pts).length = pts.length := by simp [shift3]
  refine ⟨insertAxis axis w, insertAxis_axis axis w, fun d hd => ?_⟩
  obtain ⟨out, h1, _, h3⟩ := C48_outwards_iff hs hd hax' (by rw [hmap, area2_shift]; exact hA)
    (by rw [hmap, hdbl]; exact neg_ne_zero.2 hA)
  rw [hlen] at h1
  refine ⟨out, h1, fun k hk => ?_⟩
  have hcross : ∀ i j, vertex (shift2 w (pts.map (inPlane axis))) i - vertex (shift2 w (pts.map (inPlane axis))) j =
      vertex (pts.map (inPlane axis)) i - vertex (pts.map (inPlane axis)) j := by
    intro i j
    rw [vertex_shift hring, vertex_shift hring]; abel
  have hne' : ∀ i j, vertex (shift2 w (pts.map (inPlane axis))) i ≠ vertex (shift2 w (pts.map (inPlane axis))) j ↔
      vertex (pts.map (inPlane axis)) i ≠ vertex (pts.map (inPlane axis)) j := by
    intro i j
    rw [← sub_ne_zero, hcross, sub_ne_zero]
  have := (h3 k (by
    rw [hmap]
    obtain ⟨c1, c2, c3⟩ := hk
    refine ⟨(hne' _ _).2 c1, (hne' _ _).2 c2, ?_⟩
    rw [hcross, hcross]; exact c3)).2.2 (by
      rw [hmap, hdbl, area2_shift]
      have := mul_self_pos.2 hA
      linarith)
  rw [hmap] at this ⊢
  have hleft : ∀ x, leftOf (shift2 w (pts.map (inPlane axis))) k x = leftOf (pts.map (inPlane axis)) k x := by
    intro x; unfold leftOf; rw [hcross]
  have hedge : edgeSq (shift2 w (pts.map (inPlane axis))) k = edgeSq (pts.map (inPlane axis)) k := by
    unfold edgeSq; rw [hcross]
  rw [hleft, area2_shift, hedge] at this
  exact this

/-- **C47 (refuted for every polygon).** The same polygons have a place where the sum used as area is 0, so that all
corners become nan. -/
theorem C47_every_polygon_refuted {pts : List (V3 K)} {axis : Fin 3} (hax : offsetAxis pts = .ok axis)
    (hfl : vertex (pts.map (inPlane axis)) 0 ≠ vertex (pts.map (inPlane axis)) (pts.length - 1)) :
    ∃ v : V3 K, v axis = 0 ∧ area2 ((shift3 v pts).map (inPlane axis)) = area2 (pts.map (inPlane axis)) ∧
      ringArea (wrapRing ((shift3 v pts).map (dropAxis axis))) = 0 := by
  have hne : pts ≠ [] := (offsetAxis_ok hax).1
  have hring : pts.map (inPlane axis) ≠ [] := by simpa using hne
  obtain ⟨w, hw⟩ := exists_cross2 (sub_ne_zero.2 hfl) (- doubled (pts.map (inPlane axis)))
  have hv : inPlane axis (insertAxis axis w) = w := inPlane_insert axis w
  have hadd : ∀ p q : V3 K, inPlane axis (p + q) = inPlane axis p + inPlane axis q := fun _ _ => rfl
  have hmap : (shift3 (insertAxis axis w) pts).map (inPlane axis) = shift2 w (pts.map (inPlane axis)) := by
    simp only [shift3, shift2, List.map_map]
    apply List.map_congr_left
    intro p _
    simp only [Function.comp_apply, hadd, hv]
  refine ⟨insertAxis axis w, insertAxis_axis axis w, by rw [hmap, area2_shift], ?_⟩
  rw [show dropAxis axis = inPlane axis from funext (dropAxis_eq axis), hmap,
    ringArea_wrap _ (by simpa [shift2] using hring)]
  have := doubled_shift hring w
  rw [List.length_map, hw] at this
  unfold doubled at this
  linear_combination this

end

/-- Concrete case: the unit square satisfies the hypotheses. -/
example : offsetAxis (squareAt (0 : ℝ) 0 0) = .ok 2 ∧ area2 ((squareAt (0 : ℝ) 0 0).map (inPlane 2)) ≠ 0 ∧
    vertex ((squareAt (0 : ℝ) 0 0).map (inPlane 2)) 0 ≠
      vertex ((squareAt (0 : ℝ) 0 0).map (inPlane 2)) ((squareAt (0 : ℝ) 0 0).length - 1) ∧
    CornerOk ((squareAt (0 : ℝ) 0 0).map (inPlane 2)) 0 := by
  refine ⟨offsetAxis_square, by rw [square_area]; norm_num, ?_, square_corner 0 0 0⟩
  rw [square_vertices]
  simp [squareAt, vertex]

end Gridder
