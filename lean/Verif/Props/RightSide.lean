import Verif.Props.Turning
import Verif.Props.Geometry
import Verif.Props.Extrude

/-!
# C129: which way the faces of extruded cells point
-/

namespace Gridder
open Spec

/-! ## The claim -/

/-- Six times the signed volume of the tetrahedron `a b c x`: positive if `x` is on the side the normal of `a b c` points
to. -/
def Spec.sideOf (a b c x : Fin 3 → ℝ) : ℝ :=
  ((b 1 - a 1) * (c 2 - a 2) - (b 2 - a 2) * (c 1 - a 1)) * (x 0 - a 0) +
    ((b 2 - a 2) * (c 0 - a 0) - (b 0 - a 0) * (c 2 - a 2)) * (x 1 - a 1) +
    ((b 0 - a 0) * (c 1 - a 1) - (b 1 - a 1) * (c 0 - a 0)) * (x 2 - a 2)

/-- The normal of each face points away from every corner not on the face. -/
def Spec.FacesOut (faces : List (List (Fin 3 → ℝ))) : Prop :=
  ∀ f ∈ faces, ∀ g ∈ faces, ∀ x ∈ g, x ∉ f → sideOf (f.getD 0 0) (f.getD 1 0) (f.getD 2 0) x < 0

/-- The normal of each face points towards every corner not on the face. -/
def Spec.FacesIn (faces : List (List (Fin 3 → ℝ))) : Prop :=
  ∀ f ∈ faces, ∀ g ∈ faces, ∀ x ∈ g, x ∉ f → 0 < sideOf (f.getD 0 0) (f.getD 1 0) (f.getD 2 0) x

/-- Seen from the end of `v`, the cell turns left everywhere. -/
def Spec.SeenLeft (v : Fin 3 → ℝ) (c : List (Fin 3 → ℝ)) : Prop := TurnsLeft c ∧ 0 < v 2 ∨ TurnsRight c ∧ v 2 < 0

/-- Seen from the end of `v`, the cell turns right everywhere. -/
def Spec.SeenRight (v : Fin 3 → ℝ) (c : List (Fin 3 → ℝ)) : Prop := TurnsRight c ∧ 0 < v 2 ∨ TurnsLeft c ∧ v 2 < 0

/-! ## Prisms -/

/-- `p` moved by `v`. -/
def up (v p : V3 ℝ) : V3 ℝ := p + v

theorem side_wall {v a b x : V3 ℝ} (e1 : b 2 = a 2) (e2 : x 2 = a 2) :
    sideOf a b (up v b) x = -(v 2 * turnZ a b x) ∧ sideOf b (up v b) (up v a) x = -(v 2 * turnZ a b x) ∧
    sideOf a b (up v b) (up v x) = -(v 2 * turnZ a b x) ∧ sideOf b (up v b) (up v a) (up v x) = -(v 2 * turnZ a b x) := by
  refine ⟨?_, ?_, ?_, ?_⟩ <;> simp only [sideOf, turnZ, up, Pi.add_apply, e1, e2] <;> ring

theorem side_base {a b c x : V3 ℝ} (e1 : b 2 = a 2) (e2 : c 2 = a 2) :
    sideOf a b c x = turnZ a b c * (x 2 - a 2) := by
  simp only [sideOf, turnZ, e1, e2]; ring

theorem turn_cycle (a b c : V3 ℝ) : turnZ b c a = turnZ a b c := by
  simp only [turnZ]; ring

/-- The corners of the prism over a cell. -/
def prismCorners (v : V3 ℝ) (c : List (V3 ℝ)) : List (V3 ℝ) := c ++ c.map (up v)

section
variable {σ z : ℝ} {v : V3 ℝ}

theorem wall_sign1 {a b x : V3 ℝ} (ht : 0 < σ * v 2 * turnZ a b x) (ha : a 2 = z) (hb : b 2 = z) (hx : x 2 = z) :
    σ * sideOf a b (up v b) x < 0 := by
  obtain ⟨h, _⟩ := side_wall (v := v) (a := a) (b := b) (x := x) (by rw [ha, hb]) (by rw [ha, hx])
  rw [h]; linarith

theorem wall_sign2 {a b x : V3 ℝ} (ht : 0 < σ * v 2 * turnZ a b x) (ha : a 2 = z) (hb : b 2 = z) (hx : x 2 = z) :
    σ * sideOf b (up v b) (up v a) x < 0 := by
  obtain ⟨_, h, _⟩ := side_wall (v := v) (a := a) (b := b) (x := x) (by rw [ha, hb]) (by rw [ha, hx])
  rw [h]; linarith

theorem wall_sign3 {a b x : V3 ℝ} (ht : 0 < σ * v 2 * turnZ a b x) (ha : a 2 = z) (hb : b 2 = z) (hx : x 2 = z) :
    σ * sideOf a b (up v b) (up v x) < 0 := by
  obtain ⟨_, _, h, _⟩ := side_wall (v := v) (a := a) (b := b) (x := x) (by rw [ha, hb]) (by rw [ha, hx])
  rw [h]; linarith

theorem wall_sign4 {a b x : V3 ℝ} (ht : 0 < σ * v 2 * turnZ a b x) (ha : a 2 = z) (hb : b 2 = z) (hx : x 2 = z) :
    σ * sideOf b (up v b) (up v a) (up v x) < 0 := by
  obtain ⟨_, _, _, h⟩ := side_wall (v := v) (a := a) (b := b) (x := x) (by rw [ha, hb]) (by rw [ha, hx])
  rw [h]; linarith

theorem floor_sign {a b c x : V3 ℝ} (ha : a 2 = z) (hb : b 2 = z) (hc : c 2 = z) (hx : x 2 = z)
    (ht : 0 < σ * v 2 * turnZ a b c) :
    σ * sideOf a c b (up v x) < 0 ∧ σ * sideOf (up v a) (up v b) (up v c) x < 0 := by
  have e1 : turnZ a c b = -turnZ a b c := by simp only [turnZ]; ring
  have e2 : turnZ (up v a) (up v b) (up v c) = turnZ a b c := by simp [turnZ, up]
  constructor
  · rw [side_base (by rw [hc, ha]) (by rw [hb, ha]), e1]
    have : (up v x) 2 - a 2 = v 2 := by simp [up, hx, ha]
    rw [this]; linarith
  · rw [side_base (by simp [up, ha, hb]) (by simp [up, ha, hc]), e2]
    have : x 2 - (up v a) 2 = -v 2 := by simp [up, hx, ha]
    rw [this]; linarith

attribute [local irreducible] up Spec.sideOf Spec.turnZ

set_option maxHeartbeats 400000 in
/-- Faces of a hexahedron over a convex quadrilateral. -/
theorem hex_sign {p0 p1 p2 p3 : V3 ℝ} (z0 : p0 2 = z) (z1 : p1 2 = z) (z2 : p2 2 = z) (z3 : p3 2 = z)
    (t0 : 0 < σ * v 2 * turnZ p0 p1 p2) (t1 : 0 < σ * v 2 * turnZ p1 p2 p3) (t2 : 0 < σ * v 2 * turnZ p2 p3 p0)
    (t3 : 0 < σ * v 2 * turnZ p3 p0 p1) {f : List (V3 ℝ)}
    (hf : f ∈ [[p0, p3, p2, p1], [up v p0, up v p1, up v p2, up v p3], [p0, p1, up v p1, up v p0],
      [p1, p2, up v p2, up v p1], [p2, p3, up v p3, up v p2], [p0, up v p0, up v p3, p3]])
    {x : V3 ℝ} (hx : x ∈ prismCorners v [p0, p1, p2, p3]) (hxf : x ∉ f) :
    σ * sideOf (f.getD 0 0) (f.getD 1 0) (f.getD 2 0) x < 0 := by
  have c012 := turn_cycle p0 p1 p2
  have c123 := turn_cycle p1 p2 p3
  have c230 := turn_cycle p2 p3 p0
  have c301 := turn_cycle p3 p0 p1
  have t0' : 0 < σ * v 2 * turnZ p1 p2 p0 := by rw [c012]; exact t0
  have t1' : 0 < σ * v 2 * turnZ p2 p3 p1 := by rw [c123]; exact t1
  have t2' : 0 < σ * v 2 * turnZ p3 p0 p2 := by rw [c230]; exact t2
  have t2'' : 0 < σ * v 2 * turnZ p0 p2 p3 := by rw [turn_cycle p3 p0 p2]; exact t2'
  have t3' : 0 < σ * v 2 * turnZ p0 p1 p3 := by rw [c301]; exact t3
  simp only [prismCorners, List.map_cons, List.map_nil, List.cons_append, List.nil_append, List.mem_cons,
    List.not_mem_nil, or_false] at hf hx
  rcases hf with rfl | rfl | rfl | rfl | rfl | rfl <;>
    simp only [List.mem_cons, List.not_mem_nil, or_false, not_or] at hxf <;>
    rcases hx with rfl | rfl | rfl | rfl | rfl | rfl | rfl | rfl <;>
    (try simp only [not_true_eq_false, false_and, and_false] at hxf) <;>
    simp only [List.getD_cons_zero, List.getD_cons_succ] <;>
    first
      | exact (floor_sign z0 z2 z3 (by assumption) t2'').1
      | exact (floor_sign z0 z1 z2 (by assumption) t0).2
      | exact wall_sign1 (by assumption) (by assumption) (by assumption) (by assumption)
      | exact wall_sign3 (by assumption) (by assumption) (by assumption) (by assumption)
      | exact wall_sign2 (by assumption) (by assumption) (by assumption) (by assumption)
      | exact wall_sign4 (by assumption) (by assumption) (by assumption) (by assumption)

/-- Faces of a wedge over a triangle. -/
theorem wedge_sign {p0 p1 p2 : V3 ℝ} (z0 : p0 2 = z) (z1 : p1 2 = z) (z2 : p2 2 = z) (t0 : 0 < σ * v 2 * turnZ p0 p1 p2)
    {f : List (V3 ℝ)} (hf : f ∈ [[p0, p2, p1], [up v p0, up v p1, up v p2], [p0, p1, up v p1, up v p0],
      [p1, p2, up v p2, up v p1], [p0, up v p0, up v p2, p2]])
    {x : V3 ℝ} (hx : x ∈ prismCorners v [p0, p1, p2]) (hxf : x ∉ f) :
    σ * sideOf (f.getD 0 0) (f.getD 1 0) (f.getD 2 0) x < 0 := by
  have t1 : 0 < σ * v 2 * turnZ p1 p2 p0 := by rw [turn_cycle p0 p1 p2]; exact t0
  have t2 : 0 < σ * v 2 * turnZ p2 p0 p1 := by rw [turn_cycle p1 p2 p0]; exact t1
  simp only [prismCorners, List.map_cons, List.map_nil, List.cons_append, List.nil_append, List.mem_cons,
    List.not_mem_nil, or_false] at hf hx
  rcases hf with rfl | rfl | rfl | rfl | rfl <;>
    simp only [List.mem_cons, List.not_mem_nil, or_false, not_or] at hxf <;>
    rcases hx with rfl | rfl | rfl | rfl | rfl | rfl <;>
    (try simp only [not_true_eq_false, false_and, and_false] at hxf) <;>
    simp only [List.getD_cons_zero, List.getD_cons_succ] <;>
    first
      | exact (floor_sign z0 z1 z2 (by assumption) t0).1
      | exact (floor_sign z0 z1 z2 (by assumption) t0).2
      | exact wall_sign1 (by assumption) (by assumption) (by assumption) (by assumption)
      | exact wall_sign3 (by assumption) (by assumption) (by assumption) (by assumption)
      | exact wall_sign2 (by assumption) (by assumption) (by assumption) (by assumption)
      | exact wall_sign4 (by assumption) (by assumption) (by assumption) (by assumption)

end

/-! ## The faces listed by `extract_cell_geometry` -/

/-- Whichever way the base turns (`σ` = 1: left, `σ` = -1: right): the faces of the cell over it. -/
theorem prism_faces {same : Bool} {pts : ℕ → V3 ℝ} {σ z : ℝ} {v : V3 ℝ} {t : ℕ} {conn conn' : List ℕ}
    (ht : t = 13 ∧ conn.length = 3 ∨ t = 12 ∧ conn.length = 4) (hz : ∀ i ∈ conn, pts i 2 = z)
    (hu : conn'.map pts = (conn.map pts).map (up v)) (turn : ∀ k < conn.length, 0 < σ * v 2 * turnAt (conn.map pts) k) :
    ∃ fs, cellFaces same t (.nodes (conn ++ conn')) = .ok fs ∧
      (∀ x, (∃ f ∈ fs, x ∈ f) ↔ x ∈ conn ++ conn') ∧
      ∀ f ∈ fs.map (·.map pts), ∀ g ∈ fs.map (·.map pts), ∀ x ∈ g, x ∉ f →
        σ * sideOf (f.getD 0 0) (f.getD 1 0) (f.getD 2 0) x < 0 := by
  rcases ht with ⟨rfl, hl⟩ | ⟨rfl, hl⟩
  · obtain ⟨i0, i1, i2, rfl⟩ := List.length_eq_three.1 hl
    have hl' := congrArg List.length hu
    simp only [List.length_map, List.length_cons, List.length_nil, zero_add] at hl'
    obtain ⟨j0, j1, j2, rfl⟩ := List.length_eq_three.1 hl'
    simp only [List.map_cons, List.map_nil, List.cons.injEq, and_true] at hu
    obtain ⟨u0, u1, u2⟩ := hu
    have t0 := turn 0 (by simp)
    simp only [turnAt, cornerOf, List.map_cons, List.map_nil, List.length_cons, List.length_nil, zero_add, Nat.zero_mod,
      List.getD_cons_zero, List.getD_cons_succ] at t0
    refine ⟨[[i0, i2, i1], [j0, j1, j2], [i0, i1, j1, j0], [i1, i2, j2, j1], [i0, j0, j2, i2]], rfl, ?_, ?_⟩
    · intro x
      simp only [List.mem_cons, List.not_mem_nil, or_false, exists_eq_or_imp, exists_eq_left, List.cons_append,
        List.nil_append]
      tauto
    · simp only [List.map_cons, List.map_nil, u0, u1, u2]
      intro f hf g hg x hx hxf
      refine wedge_sign (hz i0 (by simp)) (hz i1 (by simp)) (hz i2 (by simp)) t0 hf ?_ hxf
      simp only [prismCorners, List.map_cons, List.map_nil, List.cons_append, List.nil_append, List.mem_cons,
        List.not_mem_nil, or_false] at hg ⊢
      rcases hg with rfl | rfl | rfl | rfl | rfl <;>
        simp only [List.mem_cons, List.not_mem_nil, or_false] at hx <;> tauto
  · obtain ⟨i0, i1, i2, i3, rfl⟩ : ∃ a b c d, conn = [a, b, c, d] := by
      match conn, hl with
      | [a, b, c, d], _ => exact ⟨a, b, c, d, rfl⟩
    have hl' := congrArg List.length hu
    simp only [List.length_map, List.length_cons, List.length_nil, zero_add] at hl'
    obtain ⟨j0, j1, j2, j3, rfl⟩ : ∃ a b c d, conn' = [a, b, c, d] := by
      match conn', hl' with
      | [a, b, c, d], _ => exact ⟨a, b, c, d, rfl⟩
    simp only [List.map_cons, List.map_nil, List.cons.injEq, and_true] at hu
    obtain ⟨u0, u1, u2, u3⟩ := hu
    have t0 := turn 0 (by simp)
    have t1 := turn 1 (by simp)
    have t2 := turn 2 (by simp)
    have t3 := turn 3 (by simp)
    simp only [turnAt, cornerOf, List.map_cons, List.map_nil, List.length_cons, List.length_nil, zero_add, Nat.zero_mod,
      Nat.reduceMod, Nat.reduceAdd, List.getD_cons_zero, List.getD_cons_succ] at t0 t1 t2 t3
    refine ⟨[[i0, i3, i2, i1], [j0, j1, j2, j3], [i0, i1, j1, j0], [i1, i2, j2, j1], [i2, i3, j3, j2],
      [i0, j0, j3, i3]], rfl, ?_, ?_⟩
    · intro x
      simp only [List.mem_cons, List.not_mem_nil, or_false, exists_eq_or_imp, exists_eq_left, List.cons_append,
        List.nil_append]
      tauto
    · simp only [List.map_cons, List.map_nil, u0, u1, u2, u3]
      intro f hf g hg x hx hxf
      refine hex_sign (hz i0 (by simp)) (hz i1 (by simp)) (hz i2 (by simp)) (hz i3 (by simp)) t0 t1 t2 t3 hf ?_ hxf
      simp only [prismCorners, List.map_cons, List.map_nil, List.cons_append, List.nil_append, List.mem_cons,
        List.not_mem_nil, or_false] at hg ⊢
      rcases hg with rfl | rfl | rfl | rfl | rfl | rfl <;>
        simp only [List.mem_cons, List.not_mem_nil, or_false] at hx <;> tauto

/-- The faces listed for a cell with the nodes `ids`, all of them, by position. -/
def Spec.FacesOf (same : Bool) (t : ℕ) (ids : List ℕ) (pts : List (Fin 3 → ℝ)) (faces : List (List (Fin 3 → ℝ))) : Prop :=
  ∃ fs, cellFaces same t (.nodes ids) = .ok fs ∧ (∀ x, (∃ f ∈ fs, x ∈ f) ↔ x ∈ ids) ∧
    faces = fs.map (·.map fun k => pts.getD k 0)

theorem faces_of_turns {same : Bool} {pts : List (V3 ℝ)} {z : ℝ} {v : V3 ℝ} {t : ℕ} {conn conn' : List ℕ}
    (ht : t = 13 ∧ conn.length = 3 ∨ t = 12 ∧ conn.length = 4) (hz : ∀ i ∈ conn, (pts.getD i 0) 2 = z)
    (hu : conn'.map (fun k => pts.getD k 0) = (conn.map fun k => pts.getD k 0).map (up v)) :
    (SeenLeft v (conn.map fun k => pts.getD k 0) →
      ∃ faces, FacesOf same t (conn ++ conn') pts faces ∧ FacesOut faces) ∧
    (SeenRight v (conn.map fun k => pts.getD k 0) →
      ∃ faces, FacesOf same t (conn ++ conn') pts faces ∧ FacesIn faces) := by
  constructor
  · intro hc
    obtain ⟨fs, h1, h2, h3⟩ := prism_faces (same := same) (pts := fun k => pts.getD k 0) (σ := 1) ht hz hu (by
      intro k hk
      rcases hc with ⟨hc, hv⟩ | ⟨hc, hv⟩
      · have := mul_pos hv (hc k (by simpa using hk))
        linarith
      · have := mul_pos_of_neg_of_neg hv (hc k (by simpa using hk))
        linarith)
    refine ⟨_, ⟨fs, h1, h2, rfl⟩, ?_⟩
    intro f hf g hg x hx hxf
    have := h3 f hf g hg x hx hxf
    linarith
  · intro hc
    obtain ⟨fs, h1, h2, h3⟩ := prism_faces (same := same) (pts := fun k => pts.getD k 0) (σ := -1) ht hz hu (by
      intro k hk
      rcases hc with ⟨hc, hv⟩ | ⟨hc, hv⟩
      · have := mul_neg_of_pos_of_neg hv (hc k (by simpa using hk))
        linarith
      · have := mul_neg_of_neg_of_pos hv (hc k (by simpa using hk))
        linarith)
    refine ⟨_, ⟨fs, h1, h2, rfl⟩, ?_⟩
    intro f hf g hg x hx hxf
    have := h3 f hf g hg x hx hxf
    linarith

/-! ## Moving a cell -/

theorem turnAt_up (w : V3 ℝ) {c : List (V3 ℝ)} (hc : c ≠ []) (i : ℕ) : turnAt (c.map (up w)) i = turnAt c i := by
  have hl : 0 < c.length := List.length_pos_of_ne_nil hc
  have e : ∀ i, cornerOf (c.map (up w)) i = cornerOf c i + w := by
    intro i
    have hi : i % c.length < c.length := Nat.mod_lt _ hl
    simp [cornerOf, List.getD_eq_getElem?_getD, List.getElem?_map, List.getElem?_eq_getElem hi, up]
  simp only [turnAt, e, turnZ, Pi.add_apply]
  ring

theorem turnsLeft_up (w : V3 ℝ) (c : List (V3 ℝ)) : TurnsLeft (c.map (up w)) ↔ TurnsLeft c := by
  rcases eq_or_ne c [] with rfl | hc
  · rfl
  · simp only [TurnsLeft, List.length_map, turnAt_up w hc]

theorem turnsRight_up (w : V3 ℝ) (c : List (V3 ℝ)) : TurnsRight (c.map (up w)) ↔ TurnsRight c := by
  rcases eq_or_ne c [] with rfl | hc
  · rfl
  · simp only [TurnsRight, List.length_map, turnAt_up w hc]

theorem seen_up (v w : V3 ℝ) {u : ℝ} (hu : 0 < u) (c : List (V3 ℝ)) :
    (SeenLeft (u • v) (c.map (up w)) ↔ SeenLeft v c) ∧ (SeenRight (u • v) (c.map (up w)) ↔ SeenRight v c) := by
  have h1 : 0 < (u • v) 2 ↔ 0 < v 2 := by
    simp only [Pi.smul_apply, smul_eq_mul]; exact mul_pos_iff_of_pos_left hu
  have h2 : (u • v) 2 < 0 ↔ v 2 < 0 := by
    simp only [Pi.smul_apply, smul_eq_mul]; exact mul_neg_iff.trans ⟨fun h => h.elim (·.2) (fun h => absurd h.1 hu.not_gt), fun h => Or.inl ⟨hu, h⟩⟩
  simp only [SeenLeft, SeenRight, turnsLeft_up, turnsRight_up, h1, h2, and_self]

theorem between_up (t : ℝ) (p v : V3 ℝ) : between t p (p + v) = up (t • v) p := by
  funext ax; simp [between, up]; ring

theorem up_up (t t' : ℝ) (v p : V3 ℝ) : up ((t' - t) • v) (up (t • v) p) = up (t' • v) p := by
  funext ax; simp [up]; ring

/-- A cell between two levels of an extrusion. -/
theorem faces_between {same : Bool} {pts : List (V3 ℝ)} {z : ℝ} {v : V3 ℝ} {ct : ℕ} {conn conn' : List ℕ} {t t' : ℝ}
    {c : List (V3 ℝ)} (ht : ct = 13 ∧ c.length = 3 ∨ ct = 12 ∧ c.length = 4) (hz : ∀ x ∈ c, x 2 = z) (hlt : t < t')
    (h1 : conn.map (fun k => pts.getD k 0) = c.map (up (t • v)))
    (h2 : conn'.map (fun k => pts.getD k 0) = c.map (up (t' • v))) :
    (SeenLeft v c → ∃ faces, FacesOf same ct (conn ++ conn') pts faces ∧ FacesOut faces) ∧
    (SeenRight v c → ∃ faces, FacesOf same ct (conn ++ conn') pts faces ∧ FacesIn faces) := by
  have hl : conn.length = c.length := by simpa using congrArg List.length h1
  obtain ⟨k1, k2⟩ := faces_of_turns (same := same) (pts := pts) (z := z + t * v 2) (v := (t' - t) • v) (t := ct)
    (conn := conn) (conn' := conn') (by rw [hl]; exact ht)
    (by
      intro i hi
      have : pts.getD i 0 ∈ c.map (up (t • v)) := by rw [← h1]; exact List.mem_map_of_mem hi
      obtain ⟨x, hx, e⟩ := List.mem_map.1 this
      rw [← e]
      simp [up, hz x hx])
    (by
      rw [h1, h2, List.map_map]
      refine List.map_congr_left fun x _ => ?_
      rw [Function.comp_apply, up_up])
  rw [h1] at k1 k2
  obtain ⟨s1, s2⟩ := seen_up v (t • v) (sub_pos.2 hlt) c
  exact ⟨fun h => k1 (s1.2 h), fun h => k2 (s2.2 h)⟩

/-! ## Extruding unstructured surfaces -/

section
variable {δ : Type _} [OfNat δ 0] [OfNat δ 32]

/-- The corners of a triangle, quadrilateral or pixel in the order of its boundary. -/
def Spec.ringOf (t : ℕ) (conn : List ℕ) : List ℕ :=
  match t, conn with
  | 8, [a, b, c, d] => [a, b, d, c]
  | _, _ => conn

/-- **C129 (unstructured surfaces).** Extrude a horizontal surface along any vector that is not horizontal: the faces of
the cell over a convex triangle, quadrilateral or pixel point outwards if the base turns left seen from the end of the
vector, and all inwards if it turns right.  Missing: surfaces of other directions and the shells for which it is false
(`C129_shell_refuted`). -/
theorem C129_unstructured_partial {invert : Bool} {a b : UGrid ℝ δ} {res : Resolution ℝ} {m : Option String} (fw : Forward res m)
    {M : VolumeOut ℝ δ} {after : List (ℕ × List ℕ)} (hv : ValidSurface a)
    (h : generateVolumeU invert a b res m = .ok (M, after)) {v : V3 ℝ} (hb : b.points = a.points.map (· + v)) {z : ℝ}
    (hz : ∀ p ∈ a.points, p 2 = z) :
    ∃ L perc, readCells (· == 42) M.celltypes M.cells = some L ∧ resolutionToPerc res m = .ok perc ∧
      ∀ (k c t : ℕ) (conn : List ℕ), k + 1 < perc.length → a.cells[c]? = some (t, conn) →
        (t = 5 ∧ conn.length = 3 ∨ (t = 9 ∨ t = 8) ∧ conn.length = 4) →
        ∃ (ids : List ℕ) (t' : ℕ), L[k * a.cells.length + c]? = some (.nodes ids) ∧
          M.celltypes[k * a.cells.length + c]? = some (t' : ℤ) ∧ ∀ same,
          (SeenLeft v ((ringOf t conn).map fun i => a.points.getD i 0) →
            ∃ faces, FacesOf same t' ids M.points faces ∧ FacesOut faces) ∧
          (SeenRight v ((ringOf t conn).map fun i => a.points.getD i 0) →
            ∃ faces, FacesOf same t' ids M.points faces ∧ FacesIn faces) := by
  simp only [generateVolumeU] at h
  split at h
  · cases h
  split at h
  · cases h
  split at h
  · cases h
  · cases h
  split at h
  · cases h
  rename_i perc hperc
  obtain ⟨L, hL⟩ := extrusion_of_ok hv h
  refine ⟨L, perc, hL.read, hperc, ?_⟩
  intro k c t conn hk hc ht
  obtain ⟨cell, t', c1, c2, c3, _⟩ := hL.cell k c t conn (by omega) hc
  have hids := hv.ids _ (List.mem_of_getElem? hc)
  have t1 := List.getElem?_eq_getElem (show k < perc.length by omega)
  have t2 := List.getElem?_eq_getElem hk
  obtain ⟨_, lt, _⟩ := forward_step (fw _ hperc) t1 t2
  have pos : ∀ (k' : ℕ) u, perc[k']? = some u → ∀ f : List ℕ, (∀ x ∈ f, x < a.points.length) →
      (shift (k' * a.points.length) f).map (fun i => M.points.getD i 0) =
        (f.map fun i => a.points.getD i 0).map (up (u • v)) := by
    intro k' u hu f hf
    rw [shift, List.map_map, List.map_map]
    refine List.map_congr_left fun x hx => ?_
    have hxl := hf x hx
    have e1 := List.getElem?_eq_getElem hxl
    have e2 : b.points[x]? = some (a.points[x] + v) := by rw [hb, List.getElem?_map, e1]; rfl
    have := hL.point k' x u _ _ hu e1 e2
    simp only [Function.comp_apply, List.getD_eq_getElem?_getD, this, e1, Option.getD_some, between_up]
  have hz' : ∀ f : List ℕ, (∀ x ∈ f, x < a.points.length) → ∀ x ∈ f.map fun i => a.points.getD i 0, x 2 = z := by
    intro f hf x hx
    obtain ⟨i, hi, rfl⟩ := List.mem_map.1 hx
    refine hz _ ?_
    simp only [List.getD_eq_getElem?_getD, List.getElem?_eq_getElem (hf i hi), Option.getD_some]
    exact List.getElem_mem _
  have run : ∀ (ct : ℕ) (f : List ℕ), (∀ x ∈ f, x < a.points.length) → (ct = 13 ∧ f.length = 3 ∨ ct = 12 ∧ f.length = 4) →
      ∀ same, _ := fun ct f hf hct same =>
    faces_between (same := same) (pts := M.points) (z := z) (v := v) (ct := ct) (c := f.map fun i => a.points.getD i 0)
      (by simpa using hct) (hz' f hf) lt (pos k _ t1 f hf) (pos (k + 1) _ t2 f hf)
  rcases c3 with ⟨ht', rfl⟩ | ⟨rfl, rfl, i0, i1, i2, i3, rfl, rfl⟩ | ⟨rfl, _⟩
  · have hr : ringOf t conn = conn := by
      rcases ht' with ⟨rfl, _⟩ | ⟨rfl, _⟩ <;> rfl
    rw [hr]
    rcases ht' with ⟨rfl, rfl⟩ | ⟨rfl, rfl⟩
    · exact ⟨_, 13, c1, c2, run 13 conn hids (by omega)⟩
    · exact ⟨_, 12, c1, c2, run 12 conn hids (by omega)⟩
  · refine ⟨_, 12, c1, c2, run 12 [i0, i1, i3, i2] ?_ (Or.inr ⟨rfl, rfl⟩)⟩
    intro x hx
    apply hids
    simp only [List.mem_cons, List.not_mem_nil, or_false] at hx ⊢
    tauto
  · omega

/-! ## Extruding structured surfaces -/

/-- The corners of cell (p, q, k) of a structured grid, in the order of VTK_HEXAHEDRON. -/
def Spec.hexIds (d : Fin 3 → ℕ) (p q k : ℕ) : List ℕ :=
  [vtkId d ![p, q, k], vtkId d ![p + 1, q, k], vtkId d ![p + 1, q + 1, k], vtkId d ![p, q + 1, k]] ++
    [vtkId d ![p, q, k + 1], vtkId d ![p + 1, q, k + 1], vtkId d ![p + 1, q + 1, k + 1], vtkId d ![p, q + 1, k + 1]]

theorem grid_faces {same : Bool} {pts : List (V3 ℝ)} {d : Fin 3 → ℕ} {p q k : ℕ} {z t t' : ℝ} {v : V3 ℝ}
    {g : ℕ → ℕ → V3 ℝ} (hz : ∀ i j, i ≤ 1 → j ≤ 1 → g (p + i) (q + j) 2 = z) (hlt : t < t')
    (h : ∀ i j, i ≤ 1 → j ≤ 1 → pts[vtkId d ![p + i, q + j, k]]? = some (up (t • v) (g (p + i) (q + j))) ∧
      pts[vtkId d ![p + i, q + j, k + 1]]? = some (up (t' • v) (g (p + i) (q + j)))) :
    (SeenLeft v [g p q, g (p + 1) q, g (p + 1) (q + 1), g p (q + 1)] →
      ∃ faces, FacesOf same 12 (hexIds d p q k) pts faces ∧ FacesOut faces) ∧
    (SeenRight v [g p q, g (p + 1) q, g (p + 1) (q + 1), g p (q + 1)] →
      ∃ faces, FacesOf same 12 (hexIds d p q k) pts faces ∧ FacesIn faces) := by
  have a00 := h 0 0 (by omega) (by omega)
  have a10 := h 1 0 (by omega) (by omega)
  have a11 := h 1 1 (by omega) (by omega)
  have a01 := h 0 1 (by omega) (by omega)
  have z00 := hz 0 0 (by omega) (by omega)
  have z10 := hz 1 0 (by omega) (by omega)
  have z11 := hz 1 1 (by omega) (by omega)
  have z01 := hz 0 1 (by omega) (by omega)
  simp only [add_zero] at a00 a10 a11 a01 z00 z10 z11 z01
  refine faces_between (z := z) (Or.inr ⟨rfl, rfl⟩) ?_ hlt ?_ ?_
  · intro x hx
    simp only [List.mem_cons, List.not_mem_nil, or_false] at hx
    rcases hx with rfl | rfl | rfl | rfl <;> assumption
  · simp only [List.map_cons, List.map_nil, List.getD_eq_getElem?_getD, a00, a10, a11, a01, Option.getD_some]
  · simp only [List.map_cons, List.map_nil, List.getD_eq_getElem?_getD, a00, a10, a11, a01, Option.getD_some]

/-- **C129 (structured surfaces).** The same for a structured surface in a horizontal plane.
Missing: as above. -/
theorem C129_structured_partial [Inhabited δ] {volume : Arr3 (V3 ℝ) → List ℝ} {a b M : SGrid ℝ δ} {res : Resolution ℝ}
    {m : Option String} (fw : Forward res m) (h : generateVolumeS volume a b res m = .ok M) (hd : a.nodes.d 2 = 1)
    {v : V3 ℝ} (hb : ∀ i, InShape a.nodes.d i → b.nodes.get i = a.nodes.get i + v) {z : ℝ}
    (hz : ∀ i, InShape a.nodes.d i → a.nodes.get i 2 = z) {p q k : ℕ} (hp : p + 1 < M.nodes.d 0)
    (hq : q + 1 < M.nodes.d 1) (hk : k + 1 < M.nodes.d 2) (same : Bool) :
    (SeenLeft v [a.nodes.get ![p, q, 0], a.nodes.get ![p + 1, q, 0], a.nodes.get ![p + 1, q + 1, 0],
        a.nodes.get ![p, q + 1, 0]] →
      ∃ faces, FacesOf same 12 (hexIds M.nodes.d p q k) M.points faces ∧ FacesOut faces) ∧
    (SeenRight v [a.nodes.get ![p, q, 0], a.nodes.get ![p + 1, q, 0], a.nodes.get ![p + 1, q + 1, 0],
        a.nodes.get ![p, q + 1, 0]] →
      ∃ faces, FacesOf same 12 (hexIds M.nodes.d p q k) M.points faces ∧ FacesIn faces) := by
  obtain ⟨zs, h9, h10, h11⟩ := generateVolumeS_nodes h
  have hax : flatAxis a.nodes.d = 2 := by
    unfold dimOfShape at h10
    unfold flatAxis
    by_cases e0 : a.nodes.d 0 = 1
    · simp [e0, hd] at h10
      split at h10 <;> omega
    · by_cases e1 : a.nodes.d 1 = 1
      · simp [e1, hd, e0] at h10
      · simp [e0, e1]
  have hdM : M.nodes.d = Function.update a.nodes.d 2 zs.length := by
    rw [h11]; simp only [volumeNodes, hax]
  have d0 : M.nodes.d 0 = a.nodes.d 0 := by rw [hdM]; rfl
  have d1 : M.nodes.d 1 = a.nodes.d 1 := by rw [hdM]; rfl
  have d2 : M.nodes.d 2 = zs.length := by rw [hdM]; rfl
  have t1 := List.getElem?_eq_getElem (show k < zs.length by omega)
  have t2 := List.getElem?_eq_getElem (show k + 1 < zs.length by omega)
  obtain ⟨_, lt, _⟩ := forward_step (fw _ h9) t1 t2
  have hin : ∀ i j, i ≤ 1 → j ≤ 1 → InShape a.nodes.d ![p + i, q + j, 0] := by
    intro i j hi hj ax
    fin_cases ax
    · show p + i < a.nodes.d 0; omega
    · show q + j < a.nodes.d 1; omega
    · show 0 < a.nodes.d 2; omega
  have pos : ∀ i j k' u, i ≤ 1 → j ≤ 1 → zs[k']? = some u →
      M.points[vtkId M.nodes.d ![p + i, q + j, k']]? = some (up (u • v) (a.nodes.get ![p + i, q + j, 0])) := by
    intro i j k' u hi hj hu
    have hk' := (List.getElem?_eq_some_iff.1 hu).1
    have hinM : InShape M.nodes.d ![p + i, q + j, k'] := by
      intro ax
      fin_cases ax
      · show p + i < M.nodes.d 0; omega
      · show q + j < M.nodes.d 1; omega
      · show k' < M.nodes.d 2; omega
    rw [SGrid.points, ravelF_get _ hinM, h11]
    have hup : Function.update ![p + i, q + j, k'] 2 0 = ![p + i, q + j, 0] := by
      funext ax; fin_cases ax <;> rfl
    have hget : zs.getD ((![p + i, q + j, k'] : Fin 3 → ℕ) 2) 0 = u := by
      rw [List.getD_eq_getElem?_getD]
      show (zs[k']?).getD 0 = u
      rw [hu]; rfl
    simp only [volumeNodes, hax, hup, hget, hb _ (hin i j hi hj)]
    congr 1
    funext ax
    simp [lerp, up]
  exact grid_faces (g := fun i j => a.nodes.get ![i, j, 0]) (fun i j hi hj => hz _ (hin i j hi hj)) lt
    (fun i j hi hj => ⟨pos i j k _ hi hj t1, pos i j (k + 1) _ hi hj t2⟩)

/-- **C129 (Rectangle).** The faces of all cells of an extruded rectangle point outwards.
Missing: the other shapes. -/
theorem C129_rectangle_partial [Inhabited δ] {area volume : Arr3 (V3 ℝ) → List ℝ} {dx dy : ℝ} (hx : 0 < dx) (hy : 0 < dy)
    {xres yres res : Resolution ℝ} {xm ym m : Option String} (fx : Forward xres xm) (fy : Forward yres ym)
    (fw : Forward res m) {c : Option (List ℝ)} {a b M : SGrid ℝ δ} (h : rectangle area dx dy xres yres xm ym c = .ok a)
    {v : V3 ℝ} (hv : 0 < v 2) (hb : ∀ i, InShape a.nodes.d i → b.nodes.get i = a.nodes.get i + v)
    (hM : generateVolumeS volume a b res m = .ok M) {p q k : ℕ} (hp : p + 1 < M.nodes.d 0)
    (hq : q + 1 < M.nodes.d 1) (hk : k + 1 < M.nodes.d 2) (same : Bool) :
    ∃ faces, FacesOf same 12 (hexIds M.nodes.d p q k) M.points faces ∧ FacesOut faces := by
  obtain ⟨xs, ys, u, h1, h2, _, h4, h5⟩ := C84_rectangle_nodes h
  have hd : a.nodes.d 2 = 1 := by rw [h4]; rfl
  have get : ∀ i j s t, xs[i]? = some s → ys[j]? = some t → a.nodes.get ![i, j, 0] = u + ![s * dx, t * dy, 0] := by
    intro i j s t hs ht
    have hin : InShape a.nodes.d ![i, j, 0] := by
      rw [h4]
      intro ax; fin_cases ax
      · exact (List.getElem?_eq_some_iff.1 hs).1
      · exact (List.getElem?_eq_some_iff.1 ht).1
      · exact Nat.one_pos
    have := h5 i j s t hs ht
    rw [SGrid.points, ravelF_get _ hin] at this
    exact Option.some.inj this
  have hz : ∀ i, InShape a.nodes.d i → a.nodes.get i 2 = u 2 := by
    intro i hi
    have i0 : i 0 < xs.length := by have := hi 0; rw [h4] at this; exact this
    have i1 : i 1 < ys.length := by have := hi 1; rw [h4] at this; exact this
    have i2 : i 2 = 0 := by have := hi 2; rw [h4] at this; exact Nat.lt_one_iff.1 this
    have e : i = ![i 0, i 1, 0] := by
      funext ax; fin_cases ax
      · rfl
      · rfl
      · exact i2
    rw [e, get _ _ _ _ (List.getElem?_eq_getElem i0) (List.getElem?_eq_getElem i1)]
    simp
  refine (C129_structured_partial fw hM hd hb hz hp hq hk same).1 (Or.inl ⟨?_, hv⟩)
  obtain ⟨zs, _, h10, h11⟩ := generateVolumeS_nodes hM
  have d0 : M.nodes.d 0 = xs.length ∧ M.nodes.d 1 = ys.length := by
    have hax : flatAxis a.nodes.d = 2 := by
      unfold dimOfShape at h10
      unfold flatAxis
      by_cases e0 : a.nodes.d 0 = 1
      · simp [e0, hd] at h10
        split at h10 <;> omega
      · by_cases e1 : a.nodes.d 1 = 1
        · simp [e1, hd, e0] at h10
        · simp [e0, e1]
    rw [h11]
    simp only [volumeNodes, hax]
    rw [h4]
    exact ⟨rfl, rfl⟩
  have a1 := List.getElem?_eq_getElem (show p < xs.length by omega)
  have a2 := List.getElem?_eq_getElem (show p + 1 < xs.length by omega)
  have a3 := List.getElem?_eq_getElem (show q < ys.length by omega)
  have a4 := List.getElem?_eq_getElem (show q + 1 < ys.length by omega)
  refine C128_rectangle_partial hx hy fx fy h _ ?_
  rw [mem_gridQuads h4 (f := fun s t => u + ![s * dx, t * dy, 0]) h5]
  refine ⟨p, q, _, _, _, _, a1, a2, a3, a4, ?_⟩
  rw [get _ _ _ _ a1 a3, get _ _ _ _ a2 a3, get _ _ _ _ a2 a4, get _ _ _ _ a1 a4]

/-- **C129 (CylindricalShell, refuted).** The faces of every cell of every cylindrical shell with a hole point inwards. -/
theorem C129_shell_refuted [Inhabited δ] {area volume : Arr3 (V3 ℝ) → List ℝ} {ri ro a b height : ℝ} (hri : 0 < ri)
    (hh : 0 < height) {rres tres zres : Resolution ℝ} {rm tm zm : Option String} (fr : Forward rres rm)
    (hs : SmallSteps tres tm a b) (fz : Forward zres zm) {c : Option (List ℝ)} {M : SGrid ℝ δ}
    (h : cylindricalShellSector area volume ri ro a b height rres tres zres rm tm zm c = .ok M) {p q k : ℕ}
    (hp : p + 1 < M.nodes.d 0) (hq : q + 1 < M.nodes.d 1) (hk : k + 1 < M.nodes.d 2) (same : Bool) :
    ∃ faces, FacesOf same 12 (hexIds M.nodes.d p q k) M.points faces ∧ FacesIn faces := by
  have hr : ri < ro := by
    unfold cylindricalShellSector at h
    simp only at h
    split at h
    · cases h
    simp only [bind_ok] at h
    obtain ⟨A, h1, _⟩ := h
    unfold annularSector at h1
    split at h1
    · cases h1
    · rename_i hr; exact (not_not.1 hr).2
  obtain ⟨ts, rs, zs, v0, h1, h2, h3, hv0, hd, hpt⟩ := C63_shell h
  rw [hd] at hp hq hk
  replace hp : p + 1 < ts.length := hp
  replace hq : q + 1 < rs.length := hq
  replace hk : k + 1 < zs.length := hk
  have w1 := List.getElem?_eq_getElem (show k < zs.length by omega)
  have w2 := List.getElem?_eq_getElem hk
  have a1 := List.getElem?_eq_getElem (show p < ts.length by omega)
  have a2 := List.getElem?_eq_getElem hp
  have a3 := List.getElem?_eq_getElem (show q < rs.length by omega)
  have a4 := List.getElem?_eq_getElem hq
  obtain ⟨_, lt, _⟩ := forward_step (fz _ h3) w1 w2
  obtain ⟨s0, ls, s1⟩ := forward_step (fr _ h2) a3 a4
  obtain ⟨g1, g2⟩ := hs _ h1 p _ _ a1 a2
  have e1 : ∀ t t' : ℝ, a + t' * (b - a) - (a + t * (b - a)) = (t' - t) * (b - a) := fun t t' => by ring
  have cell := ring_cell hri hr s0 ls s1 (α := a + ts[p] * (b - a)) (β := a + ts[p + 1] * (b - a)) (by rw [e1]; exact g1)
    (by rw [e1]; exact g2) (v0 + ![0, 0, -height / 2])
  refine (grid_faces (same := same) (pts := M.points) (d := M.nodes.d) (p := p) (q := q) (k := k)
    (z := v0 2 + -height / 2) (t := zs[k]) (t' := zs[k + 1]) (v := ![0, 0, height])
    (g := fun i j => v0 + ![0, 0, -height / 2] + polar (ri + rs.getD j 0 * (ro - ri)) (a + ts.getD i 0 * (b - a)))
    ?_ lt ?_).2 (Or.inl ⟨?_, by simpa using hh⟩)
  · intro i j _ _
    simp [polar]
    rfl
  · intro i j hi hj
    have b1 := List.getElem?_eq_getElem (show p + i < ts.length by omega)
    have b2 := List.getElem?_eq_getElem (show q + j < rs.length by omega)
    have key : ∀ w : ℝ, v0 + polar (ri + rs[q + j] * (ro - ri)) (a + ts[p + i] * (b - a)) + ![0, 0, (w - 1 / 2) * height] =
        up (w • ![0, 0, height]) (v0 + ![0, 0, -height / 2] +
          polar (ri + rs.getD (q + j) 0 * (ro - ri)) (a + ts.getD (p + i) 0 * (b - a))) := by
      intro w
      simp only [List.getD_eq_getElem?_getD, b1, b2, Option.getD_some]
      funext ax; fin_cases ax <;> simp [up, polar]; ring
    rw [← key, ← key]
    exact ⟨hpt _ _ k _ _ _ b1 b2 w1, hpt _ _ (k + 1) _ _ _ b1 b2 w2⟩
  · simpa only [List.getD_eq_getElem?_getD, a1, a2, a3, a4, Option.getD_some] using cell

/-- There are such shells and they have such cells: a tube of 8 x 2 x 3 cells. -/
example : ∃ M : SGrid ℝ ℤ, cylindricalShellSector (fun a => List.replicate (count (cells a.d)) 1) (fun _ => []) 1 2 0 360 5
    (.int 2) (.int 8) (.int 3) none none none (some [0, 0, 0]) = .ok M ∧ ∀ (p q k : ℕ), p < 8 → q < 2 → k < 3 →
      ∃ faces, FacesOf true 12 (hexIds M.nodes.d p q k) M.points faces ∧ FacesIn faces := by
  have hsup : Supported none := Or.inl rfl
  obtain ⟨M, hM⟩ := C63_shell_exists (δ := ℤ) (area := fun a => List.replicate (count (cells a.d)) 1) (fun _ => [])
    (fun N => by simp) (ri := 1) (ro := 2) (by norm_num) (by norm_num) 0 360 5 2 8 3 hsup hsup hsup 0 0 0
  refine ⟨M, hM, fun p q k hp hq hk => ?_⟩
  obtain ⟨ts, rs, zs, _, h1, h2, h3, _, hd, _⟩ := C63_shell hM
  obtain ⟨_, e1, s1, _⟩ := C11_integer_resolution 8 none hsup
  obtain ⟨_, e2, s2, _⟩ := C11_integer_resolution 2 none hsup
  obtain ⟨_, e3, s3, _⟩ := C11_integer_resolution 3 none hsup
  have l1 := s1.size
  have l2 := s2.size
  have l3 := s3.size
  rw [e1] at h1
  rw [e2] at h2
  rw [e3] at h3
  cases h1
  cases h2
  cases h3
  refine C129_shell_refuted (by norm_num) (by norm_num) (forward_int 2 hsup)
    (smallSteps_int (by norm_num) (by norm_num)) (forward_int 3 hsup) hM ?_ ?_ ?_ true
  · rw [hd]; show p + 1 < ts.length; omega
  · rw [hd]; show q + 1 < rs.length; omega
  · rw [hd]; show k + 1 < zs.length; omega

/-- A triangle and a square side by side, extruded upwards along an oblique vector: the faces of both cells point
outwards. -/
example : ∃ (M : VolumeOut ℝ ℤ) (after : List (ℕ × List ℕ)) (L : List Cell),
    generateVolumeU true (⟨[![0, 0, 0], ![1, 0, 0], ![1, 1, 0], ![0, 1, 0], ![2, 0, 0]],
      [(9, [0, 1, 2, 3]), (5, [1, 4, 2])], [], []⟩ : UGrid ℝ ℤ)
      ⟨[![1, 0, 2], ![2, 0, 2], ![2, 1, 2], ![1, 1, 2], ![3, 0, 2]], [(9, [0, 1, 2, 3]), (5, [1, 4, 2])], [], []⟩
      (.int 3) none = .ok (M, after) ∧ readCells (· == 42) M.celltypes M.cells = some L ∧ ∀ k c, k < 3 → c < 2 →
      ∃ (ids : List ℕ) (t' : ℕ) (faces : List (List (V3 ℝ))), L[k * 2 + c]? = some (.nodes ids) ∧
        FacesOf false t' ids M.points faces ∧ FacesOut faces := by
  have hsup : Supported none := Or.inl rfl
  obtain ⟨perc, e1, s1, _⟩ := C11_integer_resolution 3 none hsup
  have l1 := s1.size
  have hv : ValidSurface (⟨[![0, 0, 0], ![1, 0, 0], ![1, 1, 0], ![0, 1, 0], ![2, 0, 0]],
      [(9, [0, 1, 2, 3]), (5, [1, 4, 2])], [], []⟩ : UGrid ℝ ℤ) := by
    refine ⟨?_, ?_, ?_, ?_⟩
    · intro tc htc x hx
      simp only [List.mem_cons, List.not_mem_nil, or_false] at htc
      rcases htc with rfl | rfl <;> simp at hx ⊢ <;> omega
    · intro tc htc h8
      simp only [List.mem_cons, List.not_mem_nil, or_false] at htc
      rcases htc with rfl | rfl <;> simp at h8
    · exact ⟨by simp, by simp⟩
    · exact ⟨by simp, by simp⟩
  obtain ⟨M, after, L0, hM, _⟩ := C20_unstructured_extrusion true _
    ⟨[![1, 0, 2], ![2, 0, 2], ![2, 1, 2], ![1, 1, 2], ![3, 0, 2]], [(9, [0, 1, 2, 3]), (5, [1, 4, 2])], [], []⟩ (.int 3)
    none perc hv rfl (by simp) rfl e1 (by omega) (by simp)
  obtain ⟨L, perc', h1, h2, h3⟩ := C129_unstructured_partial (forward_int 3 hsup) hv hM (v := ![1, 0, 2]) (z := 0)
    (by
      simp only [List.map_cons, List.map_nil, List.cons.injEq, and_true]
      refine ⟨?_, ?_, ?_, ?_, ?_⟩ <;> funext ax <;> fin_cases ax <;> simp <;> norm_num)
    (by
      intro p hp
      simp only [List.mem_cons, List.not_mem_nil, or_false] at hp
      rcases hp with rfl | rfl | rfl | rfl | rfl <;> rfl)
  rw [e1] at h2
  cases h2
  refine ⟨M, after, L, hM, h1, ?_⟩
  intro k c hk hc
  obtain rfl | rfl : c = 0 ∨ c = 1 := by omega
  · obtain ⟨ids, t', g1, _, g3⟩ := h3 k 0 9 [0, 1, 2, 3] (by omega) rfl (Or.inr ⟨Or.inl rfl, rfl⟩)
    obtain ⟨faces, g4, g5⟩ := (g3 false).1 (Or.inl ⟨by
      intro i hi
      simp only [ringOf, List.map_cons, List.map_nil, List.length_cons, List.length_nil] at hi
      obtain rfl | rfl | rfl | rfl : i = 0 ∨ i = 1 ∨ i = 2 ∨ i = 3 := by omega
      all_goals simp [ringOf, turnAt, cornerOf, turnZ], by simp⟩)
    exact ⟨ids, t', faces, g1, g4, g5⟩
  · obtain ⟨ids, t', g1, _, g3⟩ := h3 k 1 5 [1, 4, 2] (by omega) rfl (Or.inl ⟨rfl, rfl⟩)
    obtain ⟨faces, g4, g5⟩ := (g3 false).1 (Or.inl ⟨by
      intro i hi
      simp only [ringOf, List.map_cons, List.map_nil, List.length_cons, List.length_nil] at hi
      obtain rfl | rfl | rfl : i = 0 ∨ i = 1 ∨ i = 2 := by omega
      all_goals simp [ringOf, turnAt, cornerOf, turnZ] <;> norm_num, by simp⟩)
    exact ⟨ids, t', faces, g1, g4, g5⟩

end

end Gridder
