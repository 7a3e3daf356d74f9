import Verif.Model.Examples
import Verif.Props.ExtrudeGeom
import Verif.Props.Polygon
import Verif.Props.Resolution

/-!
# C121: the prisms of the examples
-/

namespace Gridder
open Spec

variable {δ : Type} [OfNat δ 0] [OfNat δ 32]

/-- The polygon as a grid without data. -/
def oneCell (δ : Type) (pts : List (V3 ℝ)) : UGrid ℝ δ := ⟨pts, [(7, List.range pts.length)], [], []⟩

theorem oneCell_valid (pts : List (V3 ℝ)) : ValidSurface (oneCell δ pts) := by
  refine ⟨?_, ?_, ⟨by simp [oneCell], by simp [oneCell]⟩, ⟨by simp [oneCell], by simp [oneCell]⟩⟩
  · simp [oneCell]
  · simp [oneCell]

theorem pt_map_add {pts : List (V3 ℝ)} {d : V3 ℝ} {v : ℕ} (hv : v < pts.length) :
    pt (pts.map (· + d)) v = fun ax => pt pts v ax + d ax := by
  simp only [pt, List.getD_eq_getElem?_getD, List.getElem?_map, List.getElem?_eq_getElem hv, Option.map_some,
    Option.getD_some]
  rfl

/-- **C121.** The volume between the polygon through three points or more and its translate by (0, 0, 1) is one closed
polyhedron, consistently oriented: its points are the given ones and their translates, its faces the polygon, its
translate and one quadrilateral per edge; Gmsh is not called.  Its base and its top point outwards if the second corner
turns the same way as the whole polygon seen from above. -/
theorem C121_prism (g : Gmsh ℝ) (nrm : V3 ℝ → ℝ) {outline pts : List (V3 ℝ)} (hs : Encloses (.three outline) pts)
    (h3 : 3 ≤ pts.length) (tr : List (GmshCall ℝ)) :
    ∃ (M : VolumeOut ℝ δ) (f base top : List ℕ) (sides : List (List ℕ)),
      polygonPrism g nrm outline tr = (.ok M, tr) ∧
      M.points.length = 2 * pts.length ∧
      (∀ (i : ℕ) (p : V3 ℝ), pts[i]? = some p →
        M.points[i]? = some p ∧ M.points[pts.length + i]? = some (p + ![0, 0, 1])) ∧
      readCells (· == 42) M.celltypes M.cells = some [.polyhedron (base :: top :: sides)] ∧
      (f = List.range pts.length ∨ f = (List.range pts.length).reverse) ∧
      base = f ∧ top = f.reverse.map (pts.length + ·) ∧
      sides = (edges f).map (fun e => [pts.length + e.1, pts.length + e.2, e.2, e.1]) ∧
      ClosedOriented (base :: top :: sides) ∧
      (0 < det (pt pts 1 - pt pts 0) (pt pts 2 - pt pts 0) ![0, 0, 1] *
          areaAlong (pt pts) ![0, 0, 1] (List.range pts.length) →
        areaAlong (pt M.points) ![0, 0, 1] base < 0 ∧ 0 < areaAlong (pt M.points) ![0, 0, 1] top) := by
  set a : UGrid ℝ δ := oneCell δ pts with ha
  set b : UGrid ℝ δ := ⟨pts.map (· + ![0, 0, 1]), [(7, List.range pts.length)], [], []⟩ with hb
  have hv : ValidSurface a := oneCell_valid pts
  obtain ⟨perc, hperc, sub, _, hnone⟩ := C11_integer_resolution 1 none (Or.inl rfl)
  have hn : resolutionToPerc .none none = .ok perc := by rw [hnone]; exact hperc
  have hlen : perc.length = 2 := sub.size
  have hp0 : perc[0]? = some 0 := sub.first
  have hp1 : perc[1]? = some 1 := sub.last
  obtain ⟨M, after, L, hM, hE⟩ := C20_unstructured_extrusion true a b .none none perc hv (by simp [ha, hb, oneCell])
    (by simp [ha, oneCell]) (by simp [ha, hb, oneCell]) hn (by omega) (by simp [ha, oneCell, h3])
  have hMu : generateVolumeUnstructured true a b perc = .ok (M, after) := by
    have := hM
    unfold generateVolumeU at this
    rw [if_neg (by simp [ha, hb, oneCell])] at this
    split at this
    · cases this
    · simp only [show (a.cells.map Prod.fst) = [7] from rfl, show (b.cells.map Prod.fst) = [7] from rfl,
        celltypesMatch_self, hn] at this
      exact this
  have hc : a.cells[0]? = some (7, List.range pts.length) := rfl
  obtain ⟨cell, t', c1, _, hP, _⟩ := hE.cell 0 0 7 _ (by omega) hc
  obtain ⟨L', faces, r1, r2, r3, _⟩ := C21_polyhedra_closed true a b perc M after hv hMu 0 0 _ (by omega) hc
    List.nodup_range (by simpa using h3)
  rcases hP with ⟨h, _⟩ | ⟨h, _⟩ | ⟨_, _, f, hf, rfl⟩
  · omega
  · omega
  rw [hE.read] at r1
  cases r1
  rw [c1] at r2
  obtain rfl : _ = faces := by simpa using r2
  have hap : a.points.length = pts.length := rfl
  have hLl : L.length = 1 := by rw [hE.nCells, hlen]; rfl
  have hL : L = [.polyhedron (prismFaces true (0 * a.points.length) ((0 + 1) * a.points.length) f)] := by
    match L, hLl, c1 with
    | [l], _, c1 => simpa using c1
  have hpoints : ∀ (i : ℕ) (p : V3 ℝ), pts[i]? = some p →
      M.points[i]? = some p ∧ M.points[pts.length + i]? = some (p + ![0, 0, 1]) := by
    intro i p hi
    have hbi : b.points[i]? = some (p + ![0, 0, 1]) := by
      show (pts.map (· + ![0, 0, 1]))[i]? = _
      rw [List.getElem?_map, hi]; rfl
    have e0 := hE.point 0 i 0 p _ hp0 hi hbi
    have e1 := hE.point 1 i 1 p _ hp1 hi hbi
    rw [hap] at e0 e1
    rw [Nat.zero_mul, Nat.zero_add] at e0
    rw [Nat.one_mul] at e1
    refine ⟨e0.trans ?_, e1.trans ?_⟩ <;> congr 1 <;> funext ax <;> simp [between]
  refine ⟨M, f, f, f.reverse.map (pts.length + ·), (edges f).map (fun e => [pts.length + e.1, pts.length + e.2, e.2, e.1]),
    ?_, ?_, hpoints, ?_, ?_, rfl, rfl, rfl, ?_, ?_⟩
  · unfold polygonPrism
    rw [Gm.bind, C68_polygon g nrm hs (Or.inl rfl)]
    show Gm.lift _ tr = _
    rw [Gm.lift]
    have : generateVolumeU true a b .none none = .ok (M, after) := hM
    rw [show (⟨pts, [(7, List.range pts.length)], [], []⟩ : UGrid ℝ δ) = a from rfl, this]
    rfl
  · rw [hE.nPoints, hlen]; rfl
  · rw [hE.read, hL]
    simp [prismFaces, shift, hap]
  · simpa using hf
  · have := r3 rfl
    simpa [prismFaces, shift, hap] using this
  · intro hcorner
    obtain ⟨n, hn3⟩ : ∃ n, pts.length = n + 3 := ⟨pts.length - 3, by omega⟩
    have hr : List.range pts.length = 0 :: 1 :: 2 :: (List.range n).map (· + 3) := by
      rw [hn3, List.range_succ_eq_map, List.range_succ_eq_map, List.range_succ_eq_map]
      simp [Function.comp_def]
    obtain ⟨L', base, top, sides, q1, q2, _, _, q5⟩ := C22_outward_normals_partial a b perc M after hv hMu 0 0 0 1 2
      ((List.range n).map (· + 3)) 0 1 0 1 ![0, 0, 1] (by rw [hc, hr])
      (by
        intro v hvm
        rw [← hr, List.mem_range] at hvm
        exact pt_map_add hvm)
      hp0 hp1 hp0 hp1 (by norm_num) (by norm_num) (by rw [← hr]; exact hcorner)
    rw [hE.read] at q1
    cases q1
    rw [c1] at q2
    simp only [prismFaces, Option.some.injEq, Cell.polyhedron.injEq, List.cons.injEq] at q2
    obtain ⟨hbase, htop, _⟩ := q2
    have hb' : f = base := by rw [← hbase]; simp [shift]
    have ht' : f.reverse.map (pts.length + ·) = top := by rw [← htop]; simp [shift, hap]
    have h0 : (0 : ℕ) ∈ base := by
      rw [← hb']
      have : (0 : ℕ) ∈ List.range pts.length := List.mem_range.2 (by omega)
      rcases hf with rfl | ⟨_, rfl⟩
      · exact this
      · exact List.mem_reverse.2 this
    obtain ⟨_, s1, s2⟩ := q5 0 h0
    have hdir : pt M.points (0 + a.points.length) - pt M.points 0 = ![0, 0, 1] := by
      obtain ⟨e0, e1⟩ := hpoints 0 _ (List.getElem?_eq_getElem (show 0 < pts.length by omega))
      simp only [pt, List.getD_eq_getElem?_getD, Nat.zero_add, hap]
      rw [Nat.add_zero] at e1
      rw [e0, e1]
      simp
    rw [hdir] at s1 s2
    rw [ht', hb']
    exact ⟨s1, s2⟩

/-! ## Half stadium -/

/-- Two points of the half circle, seen from the corner (1, -1), are in counter-clockwise order. -/
theorem stadium_turn {u v : ℝ} (hu : 0 ≤ u) (huv : u ≤ v) (hv : v ≤ Real.pi) :
    0 ≤ (Real.cos u - 1) * (Real.sin v + 1) - (Real.sin u + 1) * (Real.cos v - 1) := by
  set m := (u + v) / 2 with hm
  set h := (v - u) / 2 with hh
  have e1 : u = m - h := by rw [hm, hh]; ring
  have e2 : v = m + h := by rw [hm, hh]; ring
  have e : (Real.cos u - 1) * (Real.sin v + 1) - (Real.sin u + 1) * (Real.cos v - 1) =
      2 * Real.sin h * (Real.cos h + Real.sin m - Real.cos m) := by
    have s1 := Real.sin_sq_add_cos_sq m
    rw [e1, e2, Real.cos_sub, Real.sin_sub, Real.cos_add, Real.sin_add]
    linear_combination (2 * Real.sin h * Real.cos h) * s1
  rw [e]
  have hpi := Real.pi_pos
  have h0 : 0 ≤ Real.sin h := Real.sin_nonneg_of_nonneg_of_le_pi (by linarith) (by linarith)
  have h1 : 0 ≤ Real.sin m := Real.sin_nonneg_of_nonneg_of_le_pi (by linarith) (by linarith)
  have h2 : Real.cos m ≤ Real.cos h := Real.cos_le_cos_of_nonneg_of_le_pi (by linarith) (by linarith) (by linarith)
  exact mul_nonneg (mul_nonneg (by norm_num) h0) (by linarith)

/-- The angle of point `i` of the half circle. -/
noncomputable def stadiumAngle (r i : ℕ) : ℝ := Real.pi * ((i : ℝ) / r)

/-- The points of the outline one by one. -/
theorem stadium_points {r : ℕ} (hr : 1 ≤ r) :
    stadiumOutline r = ![1, -1, 0] :: (List.range (r + 1)).map (fun i =>
      (![Real.cos (stadiumAngle r i), Real.sin (stadiumAngle r i), 0] : V3 ℝ)) ++ [![-1, -1, 0]] := by
  have hr0 : (r : ℝ) ≠ 0 := by exact_mod_cast (by omega : r ≠ 0)
  have hang : ∀ i : ℕ, (0 + (i : ℝ) * ((180 - 0) / (r : ℝ))) * (Real.pi / 180) = stadiumAngle r i := by
    intro i; unfold stadiumAngle; field_simp; ring
  unfold stadiumOutline linspace
  simp only [List.map_map, Function.comp_def, hang]
  congr 1
  · congr 1
    rw [List.range_succ_eq_map]
    simp only [List.map_cons, List.headD_cons]
    funext ax; fin_cases ax <;> simp [stadiumAngle]
  · congr 1
    rw [List.range_succ]
    simp only [List.map_append, List.map_cons, List.map_nil]
    rw [List.getLastD_concat]
    funext ax; fin_cases ax <;> simp [stadiumAngle, hr0]

theorem stadium_length {r : ℕ} (hr : 1 ≤ r) : (stadiumOutline r).length = r + 3 := by
  rw [stadium_points hr]; simp

theorem stadium_first {r : ℕ} (hr : 1 ≤ r) : pt (stadiumOutline r) 0 = ![1, -1, 0] := by
  rw [stadium_points hr]; simp [pt]

theorem stadium_arc {r : ℕ} (hr : 1 ≤ r) {i : ℕ} (hi : i ≤ r) : pt (stadiumOutline r) (i + 1) =
    ![Real.cos (stadiumAngle r i), Real.sin (stadiumAngle r i), 0] := by
  rw [stadium_points hr]
  simp only [pt, List.getD_eq_getElem?_getD]
  rw [List.getElem?_append_left (by simp; omega), List.getElem?_cons_succ, List.getElem?_map,
    List.getElem?_range (by omega)]
  rfl

theorem stadium_last {r : ℕ} (hr : 1 ≤ r) : pt (stadiumOutline r) (r + 2) = ![-1, -1, 0] := by
  rw [stadium_points hr]
  simp only [pt, List.getD_eq_getElem?_getD]
  rw [List.getElem?_append_right (by simp)]
  simp

theorem stadium_encloses {r : ℕ} (hr : 1 ≤ r) : Encloses (.three (stadiumOutline r)) (stadiumOutline r) := by
  refine ⟨?_, ?_, Or.inl rfl⟩
  · rw [stadium_points hr]; simp
  · rw [stadium_points hr, List.getLast?_concat]
    simp only [List.cons_append, List.head?_cons, ne_eq, Option.some.injEq]
    intro h
    have := congrFun h 0
    simp at this
    norm_num at this

/-- The half stadium is convex: its second corner turns the same way as the whole outline. -/
theorem stadium_corner {r : ℕ} (hr : 1 ≤ r) :
    0 < det (pt (stadiumOutline r) 1 - pt (stadiumOutline r) 0) (pt (stadiumOutline r) 2 - pt (stadiumOutline r) 0)
        ![0, 0, 1] *
      areaAlong (pt (stadiumOutline r)) ![0, 0, 1] (List.range (stadiumOutline r).length) := by
  have hr0 : (0 : ℝ) < r := by exact_mod_cast hr
  have hpi := Real.pi_pos
  have hlist : List.range (stadiumOutline r).length = 0 :: 1 :: 2 :: (List.range r).map (· + 3) := by
    rw [stadium_length hr, List.range_succ_eq_map, List.range_succ_eq_map, List.range_succ_eq_map]
    simp [Function.comp_def]
  rw [hlist]
  have a0 : stadiumAngle r 0 = 0 := by simp [stadiumAngle]
  have ar : stadiumAngle r r = Real.pi := by
    unfold stadiumAngle; rw [div_self hr0.ne', mul_one]
  have amono : ∀ i j : ℕ, i ≤ j → stadiumAngle r i ≤ stadiumAngle r j := by
    intro i j hij
    unfold stadiumAngle
    have : (i : ℝ) ≤ j := by exact_mod_cast hij
    gcongr
  apply convex_corner _ _ _ _ _ _ 1
  · rw [one_mul, stadium_first hr, stadium_arc hr (i := 0) (by omega), stadium_arc hr (i := 1) hr, a0]
    simp only [det, Pi.sub_apply]
    have : Real.cos (stadiumAngle r 1) < 1 := by
      have h1 : 0 < stadiumAngle r 1 := by unfold stadiumAngle; positivity
      have h2 : stadiumAngle r 1 ≤ Real.pi := by rw [← ar]; exact amono 1 r hr
      have := Real.cos_lt_cos_of_nonneg_of_le_pi le_rfl h2 h1
      simpa using this
    simp
    linarith
  · intro e he
    rw [one_mul]
    obtain ⟨i, hi, rfl⟩ : ∃ i : ℕ, i < r ∧ e = (i + 2, i + 3) := by
      obtain ⟨i, hi, hie⟩ := List.mem_iff_getElem.1 he
      simp only [List.length_zip, List.length_cons, List.length_map, List.length_range] at hi
      refine ⟨i, by omega, ?_⟩
      rw [← hie, List.getElem_zip]
      rcases i with _ | i <;> simp
    rcases Nat.lt_or_ge (i + 1) r with hlt | hge
    · show 0 ≤ det (pt (stadiumOutline r) (i + 2) - _) (pt (stadiumOutline r) (i + 3) - _) _
      rw [stadium_first hr, stadium_arc hr (i := i + 1) (by omega), stadium_arc hr (i := i + 2) (by omega)]
      have := stadium_turn (u := stadiumAngle r (i + 1)) (v := stadiumAngle r (i + 2))
        (by rw [← a0]; exact amono _ _ (by omega)) (amono _ _ (by omega)) (by rw [← ar]; exact amono _ _ (by omega))
      simp only [det, Pi.sub_apply]
      simp
      linarith
    · obtain rfl : i + 1 = r := by omega
      show 0 ≤ det (pt (stadiumOutline (i + 1)) (i + 2) - _) (pt (stadiumOutline (i + 1)) (i + 3) - _) _
      rw [stadium_first hr, stadium_arc hr (i := i + 1) le_rfl, stadium_last hr, ar]
      simp [det]

/-- **C121 (half stadium).** For every resolution from 1 on the half stadium is one closed polyhedron of
`2 (resolution + 3)` points and `resolution + 5` faces, its base and top pointing outwards, the points of its arcs on the
half circles of radius 1 around the axis. -/
theorem C121_half_stadium (g : Gmsh ℝ) (nrm : V3 ℝ → ℝ) {r : ℕ} (hr : 1 ≤ r) (tr : List (GmshCall ℝ)) :
    ∃ (M : VolumeOut ℝ δ) (base top : List ℕ) (sides : List (List ℕ)),
      loadHalfStadium g nrm r tr = (.ok M, tr) ∧ M.points.length = 2 * (r + 3) ∧
      readCells (· == 42) M.celltypes M.cells = some [.polyhedron (base :: top :: sides)] ∧
      sides.length = r + 3 ∧ (∀ s ∈ sides, s.length = 4) ∧ ClosedOriented (base :: top :: sides) ∧
      areaAlong (pt M.points) ![0, 0, 1] base < 0 ∧ 0 < areaAlong (pt M.points) ![0, 0, 1] top ∧
      (∀ i ≤ r, ∃ p, M.points[i + 1]? = some p ∧ p 0 ^ 2 + p 1 ^ 2 = 1 ∧ 0 ≤ p 1 ∧ p 2 = 0 ∧
        M.points[r + 3 + (i + 1)]? = some (p + ![0, 0, 1])) := by
  obtain ⟨M, f, base, top, sides, h1, h2, h3, h4, h5, h6, h7, h8, h9, h10⟩ := C121_prism (δ := δ) g nrm
    (stadium_encloses hr) (by rw [stadium_length hr]; omega) tr
  obtain ⟨n1, n2⟩ := h10 (stadium_corner hr)
  have hl := stadium_length hr
  refine ⟨M, base, top, sides, h1, by rw [h2, hl], h4, ?_, ?_, h9, n1, n2, ?_⟩
  · rw [h8, List.length_map]
    have : (edges f).length = f.length := by simp [edges]
    rw [this]
    rcases h5 with rfl | rfl <;> simp [hl]
  · rw [h8]
    intro s hs
    obtain ⟨e, _, rfl⟩ := List.mem_map.1 hs
    rfl
  · intro i hi
    have hlt : i + 1 < (stadiumOutline r).length := by omega
    have hp : (stadiumOutline r)[i + 1]? = some (pt (stadiumOutline r) (i + 1)) := by
      simp [pt, List.getD_eq_getElem?_getD, List.getElem?_eq_getElem hlt]
    obtain ⟨g1, g2⟩ := h3 _ _ hp
    rw [hl] at g2
    refine ⟨_, g1, ?_, ?_, ?_, g2⟩
    · rw [stadium_arc hr hi]
      simp only [Matrix.cons_val_zero, Matrix.cons_val_one]
      exact Real.cos_sq_add_sin_sq _
    · rw [stadium_arc hr hi]
      simp only [Matrix.cons_val_one, Matrix.cons_val_zero]
      have hr0 : (0 : ℝ) < r := by exact_mod_cast hr
      have : (i : ℝ) / r ≤ 1 := by rw [div_le_one hr0]; exact_mod_cast hi
      have hpi := Real.pi_pos
      apply Real.sin_nonneg_of_nonneg_of_le_pi <;> unfold stadiumAngle
      · positivity
      · nlinarith
    · rw [stadium_arc hr hi]; rfl

/-- **C121 (concave polyhedron).** The L-shaped polyhedron is closed, its base and top point outwards although the polygon
is not convex: its second corner is. -/
theorem C121_concave (g : Gmsh ℝ) (nrm : V3 ℝ → ℝ) (tr : List (GmshCall ℝ)) :
    ∃ (M : VolumeOut ℝ δ) (base top : List ℕ) (sides : List (List ℕ)),
      loadConcavePolyhedron g nrm tr = (.ok M, tr) ∧ M.points.length = 12 ∧
      readCells (· == 42) M.celltypes M.cells = some [.polyhedron (base :: top :: sides)] ∧
      sides.length = 6 ∧ ClosedOriented (base :: top :: sides) ∧
      areaAlong (pt M.points) ![0, 0, 1] base < 0 ∧ 0 < areaAlong (pt M.points) ![0, 0, 1] top := by
  have henc : Encloses (.three concaveOutline) concaveOutline := by
    refine ⟨by simp [concaveOutline], ?_, Or.inl rfl⟩
    simp only [concaveOutline, List.head?_cons, List.getLast?_cons_cons, List.getLast?_singleton, ne_eq,
      Option.some.injEq]
    intro h
    have := congrFun h 1
    simp at this
  obtain ⟨M, f, base, top, sides, h1, h2, h3, h4, h5, h6, h7, h8, h9, h10⟩ := C121_prism (δ := δ) g nrm
    henc (by simp [concaveOutline]) tr
  obtain ⟨n1, n2⟩ := h10 (by
    have hr : List.range concaveOutline.length = [0, 1, 2, 3, 4, 5] := rfl
    rw [hr]
    simp [areaAlong, edges, List.rotate, det, pt, concaveOutline]
    norm_num)
  refine ⟨M, base, top, sides, h1, by rw [h2]; rfl, h4, ?_, h9, n1, n2⟩
  rw [h8, List.length_map]
  have : (edges f).length = f.length := by simp [edges]
  rw [this]
  rcases h5 with rfl | rfl <;> simp [concaveOutline]

end Gridder
