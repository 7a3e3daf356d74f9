import Verif.Props.Cover

/-!
# C143: the mesh of a quadrilateral
-/

namespace Gridder
open Spec

namespace Spec

/-- A row of an array of points in the plane or in space. -/
def rowPoint (row : List ℝ) : Fin 3 → ℝ := fun ax => row.getD ax 0

/-- The corners of a quadrilateral given by its points one after the other. -/
def aroundQuad (p0 p1 p2 p3 : Fin 3 → ℝ) (e : Fin 2 × Fin 2) : Fin 3 → ℝ :=
  if e.1 = 0 then if e.2 = 0 then p0 else p3 else if e.2 = 0 then p1 else p2

/-- The points of a cell of a grid of quads: the bilinear interpolations of its corners. -/
def cellPatch (node : ℕ → ℕ → Fin 3 → ℝ) (p q : ℕ) : Set (Fin 3 → ℝ) := quadPatch fun e => node (p + e.1) (q + e.2)

/-- The cells of an `n` by `m` grid fill a quadrilateral with its corners at the corners of the grid, and two of them share at most an edge
if the quadrilateral is convex. -/
structure TilesQuad (q : Fin 2 × Fin 2 → Fin 3 → ℝ) (n m : ℕ) (node : ℕ → ℕ → Fin 3 → ℝ) : Prop where
  corners : node 0 0 = q (0, 0) ∧ node n 0 = q (1, 0) ∧ node 0 m = q (0, 1) ∧ node n m = q (1, 1)
  fills : (⋃ i, ⋃ (_ : i < n), ⋃ j, ⋃ (_ : j < m), cellPatch node i j) = quadPatch q
  apart : (∃ axis, ConvexAlong axis q) → ∀ i i', i < i' → i' < n → ∀ j < m, ∀ j' < m, ∀ x ∈ cellPatch node i j ∩ cellPatch node i' j',
    i' = i + 1 ∧ x ∈ segment ℝ (node i' j) (node i' (j + 1)) ∩ segment ℝ (node i' j') (node i' (j' + 1))
  above : (∃ axis, ConvexAlong axis q) → ∀ j j', j < j' → j' < m → ∀ i < n, ∀ i' < n, ∀ x ∈ cellPatch node i j ∩ cellPatch node i' j',
    j' = j + 1 ∧ x ∈ segment ℝ (node i j') (node (i + 1) j') ∩ segment ℝ (node i' j') (node (i' + 1) j')

end Spec

theorem quadPoint_eq (q : Fin 2 × Fin 2 → V3 ℝ) (u v : ℝ) : quadPoint q u v =
    ((1 - u) * (1 - v)) • q (0, 0) + ((1 - u) * v) • q (0, 1) + (u * (1 - v)) • q (1, 0) + (u * v) • q (1, 1) := by
  rw [quadPoint, Fintype.sum_prod_type, Fin.sum_univ_two, Fin.sum_univ_two, Fin.sum_univ_two]
  simp only [blend, if_true, one_ne_zero, if_false]
  abel

theorem quadPoint_comb_left (q : Fin 2 × Fin 2 → V3 ℝ) {a b : ℝ} (h : a + b = 1) (u u' v : ℝ) :
    a • quadPoint q u v + b • quadPoint q u' v = quadPoint q (a * u + b * u') v := by
  obtain rfl : b = 1 - a := by linarith
  simp only [quadPoint_eq]
  module

theorem quadPoint_comb_right (q : Fin 2 × Fin 2 → V3 ℝ) {a b : ℝ} (h : a + b = 1) (u v v' : ℝ) :
    a • quadPoint q u v + b • quadPoint q u v' = quadPoint q u (a * v + b * v') := by
  obtain rfl : b = 1 - a := by linarith
  simp only [quadPoint_eq]
  module

/-- A part of a quadrilateral between fractions of its sides. -/
theorem quadPoint_part (q : Fin 2 × Fin 2 → V3 ℝ) (X Y : ℕ → ℝ) (i j : ℕ) (a b : ℝ) :
    quadPoint (fun e => quadPoint q (X (i + e.1)) (Y (j + e.2))) a b =
      quadPoint q ((1 - a) * X i + a * X (i + 1)) ((1 - b) * Y j + b * Y (j + 1)) := by
  rw [quadPoint_eq]
  simp only [Fin.val_zero, Fin.val_one, add_zero]
  rw [← quadPoint_comb_left q (sub_add_cancel 1 a), ← quadPoint_comb_right q (sub_add_cancel 1 b),
    ← quadPoint_comb_right q (sub_add_cancel 1 b)]
  module

theorem quadPoint_inj {axis : Fin 3} {q : Fin 2 × Fin 2 → V3 ℝ} (hq : ConvexAlong axis q) {u v u' v' : ℝ} (hu : 0 ≤ u ∧ u ≤ 1)
    (hv : 0 ≤ v ∧ v ≤ 1) (hu' : 0 ≤ u' ∧ u' ≤ 1) (hv' : 0 ≤ v' ∧ v' ≤ 1) (e : quadPoint q u v = quadPoint q u' v') : u = u' ∧ v = v' := by
  have hT := convex_turns hq
  have hne : ∀ e, cornerArea axis q e ≠ 0 := by
    obtain ⟨s, h1, h2, h3, h4⟩ := hq
    rintro ⟨i, j⟩ h
    rcases Fin.exists_fin_two.1 ⟨i, rfl⟩ with rfl | rfl <;> rcases Fin.exists_fin_two.1 ⟨j, rfl⟩ with rfl | rfl <;>
      simp only [cornerArea] at h
    · rw [h] at h1; simp at h1
    · rw [h] at h3; simp at h3
    · rw [h] at h2; simp at h2
    · rw [h] at h4; simp at h4
  have hp : ∀ {u v : ℝ}, 0 ≤ u ∧ u ≤ 1 → 0 ≤ v ∧ v ≤ 1 → pointArea axis q u v ≠ 0 := by
    intro u v hu hv h
    have h := abs_eq_zero.2 h
    rw [pointArea_abs hT hu hv] at h
    have nn : ∀ e ∈ (Finset.univ : Finset (Fin 2 × Fin 2)), 0 ≤ blend u e.1 * blend v e.2 * |cornerArea axis q e| := fun e _ =>
      mul_nonneg (mul_nonneg (blend_nonneg hu.1 hu.2 _) (blend_nonneg hv.1 hv.2 _)) (abs_nonneg _)
    have hz := (Finset.sum_eq_zero_iff_of_nonneg nn).1 h
    have z : ∀ e : Fin 2 × Fin 2, blend u e.1 * blend v e.2 = 0 := fun e =>
      (mul_eq_zero.1 (hz e (Finset.mem_univ _))).resolve_right (abs_ne_zero.2 (hne e))
    have z0 := z (0, 0)
    have z1 := z (0, 1)
    have z2 := z (1, 0)
    have z3 := z (1, 1)
    simp only [blend, if_true, one_ne_zero, if_false] at z0 z1 z2 z3
    have : (1 : ℝ) = 0 := by linear_combination z0 + z1 + z2 + z3
    exact one_ne_zero this
  have key := quadMap_inj hT (fun _ => 0) (fun _ => 0) (x₁ := ![u, v, 0]) (x₂ := ![u', v', 0])
    ⟨mem_unitBox.2 ⟨by simpa using hu, by simpa using hv, by simp, by simp⟩, by simpa using hp hu hv⟩
    ⟨mem_unitBox.2 ⟨by simpa using hu', by simpa using hv', by simp, by simp⟩, by simpa using hp hu' hv'⟩ (by
      rw [quadMap_update, quadMap_update]
      exact congrArg (fun x => Function.update x axis 0) e)
  exact ⟨by simpa using congrFun key 0, by simpa using congrFun key 1⟩

/-- Nodes at fractions of the sides of a quadrilateral. -/
theorem quad_tiles {q : Fin 2 × Fin 2 → V3 ℝ} {n m : ℕ} {X Y : ℕ → ℝ} (hn : 0 < n) (hm : 0 < m) (hX : ∀ p < n, X p < X (p + 1))
    (hY : ∀ q < m, Y q < Y (q + 1)) (hX0 : X 0 = 0) (hX1 : X n = 1) (hY0 : Y 0 = 0) (hY1 : Y m = 1) {node : ℕ → ℕ → V3 ℝ}
    (hnode : ∀ i ≤ n, ∀ j ≤ m, node i j = quadPoint q (X i) (Y j)) : TilesQuad q n m node := by
  have hmono : ∀ {f : ℕ → ℝ} {k : ℕ}, (∀ p < k, f p < f (p + 1)) → ∀ q q', q ≤ q' → q' ≤ k → f q ≤ f q' := by
    intro f k h q q' hq
    induction q', hq using Nat.le_induction with
    | base => intro _; exact le_rfl
    | succ q' g ih => intro hm'; exact (ih (by omega)).trans (h q' (by omega)).le
  have hpatch : ∀ i < n, ∀ j < m, cellPatch node i j = {x | ∃ u v, X i ≤ u ∧ u ≤ X (i + 1) ∧ Y j ≤ v ∧ v ≤ Y (j + 1) ∧ x = quadPoint q u v} := by
    intro i hi j hj
    have e : (fun e : Fin 2 × Fin 2 => node (i + e.1) (j + e.2)) = fun e => quadPoint q (X (i + e.1)) (Y (j + e.2)) := by
      funext e
      exact hnode _ (by omega) _ (by omega)
    have between : ∀ {a s s' : ℝ}, 0 ≤ a → a ≤ 1 → s ≤ s' → s ≤ (1 - a) * s + a * s' ∧ (1 - a) * s + a * s' ≤ s' := by
      intro a s s' h0 h1 h; constructor <;> nlinarith
    have fraction : ∀ {s s' x : ℝ}, s < s' → s ≤ x → x ≤ s' → ∃ a, 0 ≤ a ∧ a ≤ 1 ∧ (1 - a) * s + a * s' = x := by
      intro s s' x h h1 h2
      have : s' - s ≠ 0 := (sub_pos.2 h).ne'
      refine ⟨(x - s) / (s' - s), div_nonneg (by linarith) (by linarith), ?_, ?_⟩
      · rw [div_le_one (by linarith)]; linarith
      · field_simp; ring
    rw [cellPatch, e]
    ext x
    constructor
    · rintro ⟨a, b, a0, a1, b0, b1, rfl⟩
      obtain ⟨k1, k2⟩ := between a0 a1 (hX i hi).le
      obtain ⟨k3, k4⟩ := between b0 b1 (hY j hj).le
      exact ⟨_, _, k1, k2, k3, k4, quadPoint_part q X Y i j a b⟩
    · rintro ⟨u, v, k1, k2, k3, k4, rfl⟩
      obtain ⟨a, a0, a1, rfl⟩ := fraction (hX i hi) k1 k2
      obtain ⟨b, b0, b1, rfl⟩ := fraction (hY j hj) k3 k4
      exact ⟨a, b, a0, a1, b0, b1, (quadPoint_part q X Y i j a b).symm⟩
  have unitX : ∀ {i u}, i < n → X i ≤ u → u ≤ X (i + 1) → 0 ≤ u ∧ u ≤ 1 := by
    intro i u hi h1 h2
    refine ⟨?_, ?_⟩
    · rw [← hX0]; exact (hmono hX 0 i (Nat.zero_le _) hi.le).trans h1
    · rw [← hX1]; exact h2.trans (hmono hX (i + 1) n hi le_rfl)
  have unitY : ∀ {j v}, j < m → Y j ≤ v → v ≤ Y (j + 1) → 0 ≤ v ∧ v ≤ 1 := by
    intro j v hj h1 h2
    refine ⟨?_, ?_⟩
    · rw [← hY0]; exact (hmono hY 0 j (Nat.zero_le _) hj.le).trans h1
    · rw [← hY1]; exact h2.trans (hmono hY (j + 1) m hj le_rfl)
  have edgeY : ∀ {i j v}, i ≤ n → j < m → Y j ≤ v → v ≤ Y (j + 1) → quadPoint q (X i) v ∈ segment ℝ (node i j) (node i (j + 1)) := by
    intro i j v hi hj h1 h2
    obtain ⟨a, b, a0, b0, ab, e⟩ : v ∈ segment ℝ (Y j) (Y (j + 1)) := by rw [segment_eq_Icc (h1.trans h2)]; exact ⟨h1, h2⟩
    refine ⟨a, b, a0, b0, ab, ?_⟩
    simp only [smul_eq_mul] at e
    rw [hnode i hi j hj.le, hnode i hi (j + 1) hj, quadPoint_comb_right q ab, e]
  have edgeX : ∀ {i j u}, i < n → j ≤ m → X i ≤ u → u ≤ X (i + 1) → quadPoint q u (Y j) ∈ segment ℝ (node i j) (node (i + 1) j) := by
    intro i j u hi hj h1 h2
    obtain ⟨a, b, a0, b0, ab, e⟩ : u ∈ segment ℝ (X i) (X (i + 1)) := by rw [segment_eq_Icc (h1.trans h2)]; exact ⟨h1, h2⟩
    refine ⟨a, b, a0, b0, ab, ?_⟩
    simp only [smul_eq_mul] at e
    rw [hnode i hi.le j hj, hnode (i + 1) hi j hj, quadPoint_comb_left q ab, e]
  refine ⟨⟨?_, ?_, ?_, ?_⟩, ?_, ?_, ?_⟩
  · rw [hnode 0 (Nat.zero_le _) 0 (Nat.zero_le _), hX0, hY0, quadPoint_eq]; simp
  · rw [hnode n le_rfl 0 (Nat.zero_le _), hX1, hY0, quadPoint_eq]; simp
  · rw [hnode 0 (Nat.zero_le _) m le_rfl, hX0, hY1, quadPoint_eq]; simp
  · rw [hnode n le_rfl m le_rfl, hX1, hY1, quadPoint_eq]; simp
  · ext x
    simp only [Set.mem_iUnion]
    constructor
    · rintro ⟨i, hi, j, hj, hx⟩
      rw [hpatch i hi j hj] at hx
      obtain ⟨u, v, k1, k2, k3, k4, e⟩ := hx
      exact ⟨u, v, (unitX hi k1 k2).1, (unitX hi k1 k2).2, (unitY hj k3 k4).1, (unitY hj k3 k4).2, e⟩
    · rintro ⟨u, v, u0, u1, v0, v1, e⟩
      obtain ⟨i, hi, g1, g2⟩ := exists_step (f := X) (h := u) hn (by rw [hX0]; exact u0) (by rw [hX1]; exact u1)
      obtain ⟨j, hj, g3, g4⟩ := exists_step (f := Y) (h := v) hm (by rw [hY0]; exact v0) (by rw [hY1]; exact v1)
      exact ⟨i, hi, j, hj, by rw [hpatch i hi j hj]; exact ⟨u, v, g1, g2, g3, g4, e⟩⟩
  · rintro ⟨axis, hq⟩ i i' hii hi' j hj j' hj' x ⟨x1, x2⟩
    rw [hpatch i (by omega) j hj] at x1
    rw [hpatch i' hi' j' hj'] at x2
    obtain ⟨u, v, k1, k2, k3, k4, rfl⟩ := x1
    obtain ⟨u', v', k1', k2', k3', k4', e⟩ := x2
    obtain ⟨rfl, rfl⟩ := quadPoint_inj hq (unitX (by omega) k1 k2) (unitY hj k3 k4) (unitX hi' k1' k2') (unitY hj' k3' k4') e
    obtain ⟨rfl, rfl⟩ := rising_apart hX hii hi' k2 k1'
    exact ⟨rfl, edgeY hi'.le hj k3 k4, edgeY hi'.le hj' k3' k4'⟩
  · rintro ⟨axis, hq⟩ j j' hjj hj' i hi i' hi' x ⟨x1, x2⟩
    rw [hpatch i hi j (by omega)] at x1
    rw [hpatch i' hi' j' hj'] at x2
    obtain ⟨u, v, k1, k2, k3, k4, rfl⟩ := x1
    obtain ⟨u', v', k1', k2', k3', k4', e⟩ := x2
    obtain ⟨rfl, rfl⟩ := quadPoint_inj hq (unitX hi k1 k2) (unitY (by omega) k3 k4) (unitX hi' k1' k2') (unitY hj' k3' k4') e
    obtain ⟨rfl, rfl⟩ := rising_apart hY hjj hj' k4 k3'
    exact ⟨rfl, edgeX hi hj'.le k1 k2, edgeX hi' hj'.le k1' k2'⟩

/-! ## Quadrilateral -/

theorem rowPoint_two (x y : ℝ) : rowPoint [x, y] = ![x, y, 0] := by
  funext ax
  fin_cases ax <;> rfl

theorem segmentLine_rows {a b : List ℝ} {res : Resolution ℝ} {m : Option String} {ts : List ℝ} (hl : a.length = b.length)
    (h23 : a.length = 2 ∨ a.length = 3) (h : resolutionToPerc res m = .ok ts) :
    segmentLine a b res m = .ok (ts.map fun t => between t (rowPoint a) (rowPoint b)) := by
  rcases h23 with h2 | h3
  · obtain ⟨x, y, rfl⟩ := List.length_eq_two.1 h2
    obtain ⟨x', y', rfl⟩ := List.length_eq_two.1 (hl.symm.trans h2)
    rw [segmentLine_eq h, rowPoint_two, rowPoint_two]
  · obtain ⟨x, y, z, rfl⟩ := List.length_eq_three.1 h3
    obtain ⟨x', y', z', rfl⟩ := List.length_eq_three.1 (hl.symm.trans h3)
    simp only [segmentLine, generateLine_points [x, y, z] [x', y', z'] res m ts rfl (Or.inr rfl) h]
    rw [List.map_map]
    congr 1
    apply List.map_congr_left
    intro t _
    funext ax
    simp only [Function.comp, onSegment, between, rowPoint]
    fin_cases ax <;> simp [pad3]

variable {δ : Type _} [OfNat δ 0] [OfNat δ 32]

/-- **C143 (Quadrilateral).** The nodes are the bilinear interpolations of the four points at the fractions of the two subdivisions. -/
theorem C143_nodes {area : Arr3 (V3 ℝ) → List ℝ} {r0 r1 r2 r3 : List ℝ} {rest : List (List ℝ)} {k : ℕ} (hk : k = 2 ∨ k = 3)
    (hl : r0.length = k ∧ r1.length = k ∧ r2.length = k ∧ r3.length = k) {xres yres : Resolution ℝ} {xm ym : Option String}
    {c : Option (List ℝ)} {M : SGrid ℝ δ} (h : quadrilateral area (some (r0 :: r1 :: r2 :: r3 :: rest)) xres yres xm ym c = .ok M) :
    ∃ xs ys v, resolutionToPerc xres xm = .ok xs ∧ resolutionToPerc yres ym = .ok ys ∧ IsCentre c v ∧
      M.nodes.d = ![xs.length, ys.length, 1] ∧ ∀ p q s t, xs[p]? = some s → ys[q]? = some t →
        M.points[vtkId M.nodes.d ![p, q, 0]]? =
          some (v + quadPoint (aroundQuad (rowPoint r0) (rowPoint r1) (rowPoint r2) (rowPoint r3)) s t) := by
  obtain ⟨l0, l1, l2, l3⟩ := hl
  unfold quadrilateral at h
  simp only [Option.getD_some, bind_ok] at h
  obtain ⟨la, h1, lb, h2, M', h3, h4⟩ := h
  cases hx : resolutionToPerc xres xm with
  | error e =>
    simp [segmentLine, generateLine, hx, l0, l1] at h1
  | ok xs =>
    rw [segmentLine_rows (l0.trans l1.symm) (by rw [l0]; exact hk) hx] at h1
    rw [segmentLine_rows (l3.trans l2.symm) (by rw [l3]; exact hk) hx] at h2
    cases h1; cases h2
    obtain ⟨ys, v, g1, g2, g3, g4⟩ := surface_moved h3 h4
    refine ⟨xs, ys, v, rfl, g1, g2, by simpa using g3, ?_⟩
    intro p q s t hs ht
    rw [g4 p q _ _ t (by rw [List.getElem?_map, hs]; rfl) (by rw [List.getElem?_map, hs]; rfl) ht, quadPoint_eq]
    congr 2
    funext ax
    simp [between, aroundQuad]
    ring

/-- **C143 (Quadrilateral).** The cells fill the quadrilateral, the corners of the mesh are the given points, and if the quadrilateral is convex
seen from somewhere, two cells share at most an edge. -/
theorem C143_tiles {area : Arr3 (V3 ℝ) → List ℝ} {r0 r1 r2 r3 : List ℝ} {rest : List (List ℝ)} {k : ℕ} (hk : k = 2 ∨ k = 3)
    (hl : r0.length = k ∧ r1.length = k ∧ r2.length = k ∧ r3.length = k) {xres yres : Resolution ℝ} {xm ym : Option String}
    (fx : DividesUnit xres xm) (fy : DividesUnit yres ym) {c : Option (List ℝ)} {M : SGrid ℝ δ}
    (h : quadrilateral area (some (r0 :: r1 :: r2 :: r3 :: rest)) xres yres xm ym c = .ok M) :
    ∃ v n m, IsCentre c v ∧ M.nodes.d = ![n + 1, m + 1, 1] ∧
      TilesQuad (fun e => v + aroundQuad (rowPoint r0) (rowPoint r1) (rowPoint r2) (rowPoint r3) e) n m
        fun p q => M.points.getD (vtkId M.nodes.d ![p, q, 0]) 0 := by
  obtain ⟨xs, ys, v, h1, h2, h3, h4, h5⟩ := C143_nodes hk hl h
  obtain ⟨n, sx⟩ := fx _ h1
  obtain ⟨m, sy⟩ := fy _ h2
  refine ⟨v, n, m, h3, by rw [h4, sx.size, sy.size], ?_⟩
  refine quad_tiles (X := fun p => xs.getD p 0) (Y := fun q => ys.getD q 0) (subdivision_pos sx) (subdivision_pos sy)
    (fun p hp => divides_step sx (subdivision_getD sx hp.le) (subdivision_getD sx hp))
    (fun q hq => divides_step sy (subdivision_getD sy hq.le) (subdivision_getD sy hq)) ?_ ?_ ?_ ?_ ?_
  · rw [List.getD_eq_getElem?_getD, sx.first]; rfl
  · rw [List.getD_eq_getElem?_getD, sx.last]; rfl
  · rw [List.getD_eq_getElem?_getD, sy.first]; rfl
  · rw [List.getD_eq_getElem?_getD, sy.last]; rfl
  · intro p hp q hq
    rw [List.getD_eq_getElem?_getD, h5 p q _ _ (subdivision_getD sx hp) (subdivision_getD sy hq), Option.getD_some, quadPoint_eq, quadPoint_eq]
    module

/-- **C143 (Quadrilateral).** The areas of the cells of a convex quadrilateral in the plane add up to its area. -/
theorem C143_area {area : Arr3 (V3 ℝ) → List ℝ} {x0 y0 x1 y1 x2 y2 x3 y3 : ℝ} {rest : List (List ℝ)}
    (hq : TurnsOneWay 2 (aroundQuad ![x0, y0, 0] ![x1, y1, 0] ![x2, y2, 0] ![x3, y3, 0])) {xres yres : Resolution ℝ}
    {xm ym : Option String} (fx : DividesUnit xres xm) (fy : DividesUnit yres ym) {c : Option (List ℝ)} {M : SGrid ℝ δ}
    (h : quadrilateral area (some ([x0, y0] :: [x1, y1] :: [x2, y2] :: [x3, y3] :: rest)) xres yres xm ym c = .ok M) :
    ((gridQuads M).map flatArea).sum = |(x2 - x0) * (y3 - y1) - (y2 - y0) * (x3 - x1)| / 2 := by
  obtain ⟨xs, ys, v, h1, h2, _, h4, h5⟩ := C143_nodes (k := 2) (Or.inl rfl) ⟨rfl, rfl, rfl, rfl⟩ h
  obtain ⟨n, sx⟩ := fx _ h1
  obtain ⟨k, sy⟩ := fy _ h2
  simp only [rowPoint_two] at h5
  obtain ⟨Q, hQ⟩ : ∃ Q, Q = aroundQuad ![x0, y0, 0] ![x1, y1, 0] ![x2, y2, 0] ![x3, y3, 0] := ⟨_, rfl⟩
  rw [← hQ] at h5 hq
  obtain ⟨σ, hσ, hs⟩ : ∃ σ : ℝ, (σ = 1 ∨ σ = -1) ∧ ∀ e, 0 ≤ σ * cornerArea 2 Q e := by
    rcases hq with hq | hq
    · exact ⟨1, Or.inl rfl, fun e => by rw [one_mul]; exact hq e⟩
    · exact ⟨-1, Or.inr rfl, fun e => by have := hq e; linarith⟩
  have habs : ∀ {z : ℝ}, 0 ≤ σ * z → |z| = σ * z := by
    intro z hz
    rcases hσ with rfl | rfl
    · rw [one_mul] at hz ⊢; exact abs_of_nonneg hz
    · rw [neg_one_mul] at hz ⊢; exact abs_of_nonpos (by linarith)
  have c00 : cornerArea 2 Q (0, 0) = (x1 - x0) * (y3 - y0) - (y1 - y0) * (x3 - x0) := by
    simp [hQ, cornerArea, aroundQuad, crossAlong]
  have c10 : cornerArea 2 Q (1, 0) = (x1 - x0) * (y2 - y1) - (y1 - y0) * (x2 - x1) := by
    simp [hQ, cornerArea, aroundQuad, crossAlong]
  have c01 : cornerArea 2 Q (0, 1) = (x2 - x3) * (y3 - y0) - (y2 - y3) * (x3 - x0) := by
    simp [hQ, cornerArea, aroundQuad, crossAlong]
  have c11 : cornerArea 2 Q (1, 1) = (x2 - x3) * (y2 - y1) - (y2 - y3) * (x2 - x1) := by
    simp [hQ, cornerArea, aroundQuad, crossAlong]
  obtain ⟨C, hC⟩ : ∃ C, C = cornerArea 2 Q := ⟨_, rfl⟩
  rw [← hC] at hs c00 c10 c01 c11
  have lin : C (1, 1) = C (1, 0) + C (0, 1) - C (0, 0) := by rw [c00, c10, c01, c11]; ring
  rw [grid_areas_over h4 (f := fun s t => v + quadPoint Q s t) h5 (F := fun t t' s s' =>
    (σ * C (0, 0) * (t' - t) + σ * (C (1, 0) - C (0, 0)) * (t' ^ 2 / 2 - t ^ 2 / 2)) * (s' - s) +
      (σ * (C (0, 1) - C (0, 0)) * (t' - t)) * (s' ^ 2 / 2 - s ^ 2 / 2))]
  · have row : ∀ s s' : ℝ, (overSteps xs fun t t' =>
        (σ * C (0, 0) * (t' - t) + σ * (C (1, 0) - C (0, 0)) * (t' ^ 2 / 2 - t ^ 2 / 2)) * (s' - s) +
          (σ * (C (0, 1) - C (0, 0)) * (t' - t)) * (s' ^ 2 / 2 - s ^ 2 / 2)) =
        (σ * C (0, 0) + σ * (C (1, 0) - C (0, 0)) / 2) * (s' - s) + (σ * (C (0, 1) - C (0, 0))) * (s' ^ 2 / 2 - s ^ 2 / 2) := by
      intro s s'
      refine (overSteps_congr (g := fun t t' => (fun t =>
        (σ * C (0, 0) * t + σ * (C (1, 0) - C (0, 0)) * (t ^ 2 / 2)) * (s' - s) +
          (σ * (C (0, 1) - C (0, 0)) * t) * (s' ^ 2 / 2 - s ^ 2 / 2)) t' - (fun t =>
        (σ * C (0, 0) * t + σ * (C (1, 0) - C (0, 0)) * (t ^ 2 / 2)) * (s' - s) +
          (σ * (C (0, 1) - C (0, 0)) * t) * (s' ^ 2 / 2 - s ^ 2 / 2)) t) fun _ t t' _ _ => by ring).trans ?_
      rw [overSteps_telescope sx]
      ring
    simp only [row]
    refine (overSteps_congr (g := fun s s' => (fun s => (σ * C (0, 0) + σ * (C (1, 0) - C (0, 0)) / 2) * s +
      (σ * (C (0, 1) - C (0, 0))) * (s ^ 2 / 2)) s' - (fun s => (σ * C (0, 0) + σ * (C (1, 0) - C (0, 0)) / 2) * s +
      (σ * (C (0, 1) - C (0, 0))) * (s ^ 2 / 2)) s) fun _ s s' _ _ => by ring).trans ?_
    rw [overSteps_telescope sy]
    have e : (x2 - x0) * (y3 - y1) - (y2 - y0) * (x3 - x1) = C (1, 0) + C (0, 1) := by rw [c10, c01]; ring
    rw [e, habs (by have := hs (1, 0); have := hs (0, 1); linarith)]
    ring
  · intro p q t t' s s' a1 a2 a3 a4
    have lt := sub_pos.2 (divides_step sx a1 a2)
    have ls := sub_pos.2 (divides_step sy a3 a4)
    obtain ⟨t0, _⟩ := subdivision_range sx a1
    obtain ⟨_, t1⟩ := subdivision_range sx a2
    obtain ⟨s0, _⟩ := subdivision_range sy a3
    obtain ⟨_, s1⟩ := subdivision_range sy a4
    have flat : ∀ a b, quadPoint Q a b 2 = 0 := by
      intro a b
      rw [quadPoint_eq, hQ]
      simp [aroundQuad]
    rw [area_quad (by simp [flat]) (by simp [flat])]
    obtain ⟨J, hJ⟩ : ∃ J, J = (1 - (t + t') / 2) * (1 - (s + s') / 2) * C (0, 0) + (1 - (t + t') / 2) * ((s + s') / 2) * C (0, 1) +
      (t + t') / 2 * (1 - (s + s') / 2) * C (1, 0) + (t + t') / 2 * ((s + s') / 2) * C (1, 1) := ⟨_, rfl⟩
    have hJ0 : 0 ≤ σ * J := by
      have w1 : 0 ≤ 1 - (t + t') / 2 := by linarith
      have w2 : 0 ≤ 1 - (s + s') / 2 := by linarith
      have w3 : 0 ≤ (t + t') / 2 := by linarith
      have w4 : 0 ≤ (s + s') / 2 := by linarith
      have k1 := mul_nonneg (mul_nonneg w1 w2) (hs (0, 0))
      have k2 := mul_nonneg (mul_nonneg w1 w4) (hs (0, 1))
      have k3 := mul_nonneg (mul_nonneg w3 w2) (hs (1, 0))
      have k4 := mul_nonneg (mul_nonneg w3 w4) (hs (1, 1))
      have : σ * J = (1 - (t + t') / 2) * (1 - (s + s') / 2) * (σ * C (0, 0)) + (1 - (t + t') / 2) * ((s + s') / 2) * (σ * C (0, 1)) +
        (t + t') / 2 * (1 - (s + s') / 2) * (σ * C (1, 0)) + (t + t') / 2 * ((s + s') / 2) * (σ * C (1, 1)) := by rw [hJ]; ring
      rw [this]; linarith
    have hcross : crossXY (v + quadPoint Q t' s' - (v + quadPoint Q t s)) (v + quadPoint Q t s' - (v + quadPoint Q t' s)) =
        2 * ((t' - t) * (s' - s)) * J := by
      rw [hJ, c00, c10, c01, c11]
      simp only [quadPoint_eq, hQ, aroundQuad, crossXY, Pi.sub_apply, Pi.add_apply, Pi.smul_apply, smul_eq_mul, if_true, one_ne_zero, if_false,
        Matrix.cons_val_zero, Matrix.cons_val_one]
      ring
    rw [hcross, abs_mul, abs_of_pos (by positivity), habs hJ0, hJ, lin]
    ring

/-- **C143: the order of the points matters.** If the points of a parallelogram are given row by row instead of around it, and its sides are cut
into an even number of equal parts in the second direction, all nodes of the middle row are in the same place. -/
theorem C143_order_refuted {area : Arr3 (V3 ℝ) → List ℝ} {x y a b a' b' : ℝ} {xres : Resolution ℝ} {xm : Option String} {n : ℕ} (hn : 0 < n)
    {c : Option (List ℝ)} {M : SGrid ℝ δ} (h : quadrilateral area
      (some [[x, y], [x + a, y + b], [x + a', y + b'], [x + a + a', y + b + b']]) xres (.int (2 * n)) xm none c = .ok M) :
    ∃ v xs, IsCentre c v ∧ resolutionToPerc xres xm = .ok xs ∧ M.nodes.d = ![xs.length, 2 * n + 1, 1] ∧ ∀ p < xs.length,
      M.points[vtkId M.nodes.d ![p, n, 0]]? = some (v + ![x + (a + a') / 2, y + (b + b') / 2, 0]) := by
  obtain ⟨xs, ys, v, h1, h2, h3, h4, h5⟩ := C143_nodes (k := 2) (Or.inl rfl) ⟨rfl, rfl, rfl, rfl⟩ h
  obtain ⟨ys', g, st, ct, _⟩ := C11_integer_resolution (2 * n) none (Or.inl rfl)
  rw [g] at h2; cases h2
  have hm : max 1 (2 * (n : ℤ)) = 2 * n := by omega
  have hsz : ys.length = 2 * n + 1 := by
    have := st.size; omega
  refine ⟨v, xs, h3, h1, by rw [h4, hsz], fun p hp => ?_⟩
  have hy := ct rfl n (by omega)
  have half : ((n : ℝ) / ((max 1 (2 * (n : ℤ)) : ℤ) : ℝ)) = 1 / 2 := by
    rw [hm]
    have : (n : ℝ) ≠ 0 := by positivity
    push_cast
    field_simp
  rw [half] at hy
  rw [h5 p n _ _ (List.getElem?_eq_getElem hp) hy, quadPoint_eq]
  simp only [rowPoint_two]
  congr 2
  funext ax
  fin_cases ax <;> simp [aroundQuad] <;> ring

/-- Meshes of a quadrilateral exist. -/
theorem quadrilateral_exists (area : Arr3 (V3 ℝ) → List ℝ) {r0 r1 r2 r3 : List ℝ} {k : ℕ} (hk : k = 2 ∨ k = 3)
    (hl : r0.length = k ∧ r1.length = k ∧ r2.length = k ∧ r3.length = k) (nx ny : ℤ) {xm ym : Option String}
    (hxm : Supported xm) (hym : Supported ym) {c : Option (List ℝ)} {v : V3 ℝ} (hc : IsCentre c v) :
    ∃ M : SGrid ℝ δ, quadrilateral area (some [r0, r1, r2, r3]) (.int nx) (.int ny) xm ym c = .ok M := by
  obtain ⟨l0, l1, l2, l3⟩ := hl
  obtain ⟨xs, h1, _⟩ := C11_integer_resolution nx xm hxm
  obtain ⟨ys, h2, _⟩ := C11_integer_resolution ny ym hym
  obtain ⟨M, hM, _⟩ := surface_lines (δ := δ) area
    (la := xs.map fun t => between t (rowPoint r0) (rowPoint r1))
    (lb := xs.map fun t => between t (rowPoint r3) (rowPoint r2)) (by simp) h2
  unfold quadrilateral
  exact ⟨_, bind_ok.2 ⟨_, segmentLine_rows (l0.trans l1.symm) (by rw [l0]; exact hk) h1, bind_ok.2
    ⟨_, segmentLine_rows (l3.trans l2.symm) (by rw [l3]; exact hk) h1, bind_ok.2 ⟨_, hM, translateGrid_eq hc⟩⟩⟩⟩

/-- Concrete case of C143: the trapezium (0, 0), (4, 0), (3, 2), (1, 2) in 3 x 2 cells has area 6, and its cells meet only in edges. -/
example (area : Arr3 (V3 ℝ) → List ℝ) :
    ∃ M : SGrid ℝ ℤ, quadrilateral area (some [[0, 0], [4, 0], [3, 2], [1, 2]]) (.int 3) (.int 2) (some "log") none none = .ok M ∧
      ((gridQuads M).map flatArea).sum = 6 ∧ ConvexAlong 2 (aroundQuad (rowPoint [0, 0]) (rowPoint [4, 0]) (rowPoint [3, 2]) (rowPoint [1, 2])) := by
  obtain ⟨M, h⟩ := quadrilateral_exists (δ := ℤ) area (r0 := [0, 0]) (r1 := [4, 0]) (r2 := [3, 2]) (r3 := [1, 2]) (Or.inl rfl)
    ⟨rfl, rfl, rfl, rfl⟩ 3 2 (xm := some "log") (ym := none) (Or.inr (Or.inl rfl)) (Or.inl rfl) (c := none) (v := 0) (Or.inl ⟨rfl, rfl⟩)
  have hc : ConvexAlong 2 (aroundQuad (rowPoint [0, 0]) (rowPoint [4, 0]) (rowPoint [3, 2]) (rowPoint [1, 2])) := by
    refine ⟨1, ?_, ?_, ?_, ?_⟩ <;> simp [aroundQuad, crossAlong, rowPoint]
  refine ⟨M, h, ?_, hc⟩
  rw [C143_area (by simpa only [rowPoint_two] using convex_turns hc) (divides_int 3 (Or.inr (Or.inl rfl))) (divides_int 2 (Or.inl rfl)) h]
  norm_num

/-- Concrete case of C143: a quadrilateral in space, and a square whose points are not given around it. -/
example (area : Arr3 (V3 ℝ) → List ℝ) :
    (∃ M : SGrid ℝ ℤ, quadrilateral area (some [[0, 0, 0], [4, 0, 1], [3, 2, 5], [1, 2, 2]]) (.int 3) (.int 2) none none none = .ok M ∧
      ∃ v n m, IsCentre none v ∧ M.nodes.d = ![n + 1, m + 1, 1] ∧ TilesQuad (fun e => v + aroundQuad (rowPoint [0, 0, 0])
        (rowPoint [4, 0, 1]) (rowPoint [3, 2, 5]) (rowPoint [1, 2, 2]) e) n m fun p q => M.points.getD (vtkId M.nodes.d ![p, q, 0]) 0) ∧
    ∃ M : SGrid ℝ ℤ, quadrilateral area (some [[0, 0], [0 + 1, 0 + 0], [0 + 0, 0 + 1], [0 + 1 + 0, 0 + 0 + 1]]) (.int 3) (.int (2 * (1 : ℕ))) none
      none none = .ok M ∧ M.points[vtkId M.nodes.d ![0, 1, 0]]? = M.points[vtkId M.nodes.d ![3, 1, 0]]? := by
  constructor
  · obtain ⟨M, h⟩ := quadrilateral_exists (δ := ℤ) area (r0 := [0, 0, 0]) (r1 := [4, 0, 1]) (r2 := [3, 2, 5]) (r3 := [1, 2, 2]) (Or.inr rfl)
      ⟨rfl, rfl, rfl, rfl⟩ 3 2 (xm := none) (ym := none) (Or.inl rfl) (Or.inl rfl) (c := none) (v := 0) (Or.inl ⟨rfl, rfl⟩)
    exact ⟨M, h, C143_tiles (Or.inr rfl) ⟨rfl, rfl, rfl, rfl⟩ (divides_int 3 (Or.inl rfl)) (divides_int 2 (Or.inl rfl)) h⟩
  · obtain ⟨M, h⟩ := quadrilateral_exists (δ := ℤ) area (r0 := [0, 0]) (r1 := [0 + 1, 0 + 0]) (r2 := [0 + 0, 0 + 1]) (r3 := [0 + 1 + 0, 0 + 0 + 1])
      (Or.inl rfl) ⟨rfl, rfl, rfl, rfl⟩ 3 (2 * (1 : ℕ)) (xm := none) (ym := none) (Or.inl rfl) (Or.inl rfl) (c := none) (v := 0) (Or.inl ⟨rfl, rfl⟩)
    obtain ⟨v, xs, _, hx, _, e⟩ := C143_order_refuted one_pos h
    obtain ⟨xs', g, st, _⟩ := C11_integer_resolution 3 none (Or.inl rfl)
    rw [g] at hx; cases hx
    have hsz : xs.length = 4 := st.size
    exact ⟨M, h, by rw [e 0 (by omega), e 3 (by omega)]⟩

end Gridder
