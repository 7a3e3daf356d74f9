import Verif.Model.Shapes
import Verif.Props.VolumeS

/-!
# C63, C64, C83, C84, C85: geometric objects with radii
-/

namespace Gridder
open Spec

variable {δ : Type _} [OfNat δ 0] [OfNat δ 32]

/-- The point of the plane z = 0 at distance `r` from the origin in the direction of `deg` degrees. -/
noncomputable def Spec.polar (r deg : ℝ) : Fin 3 → ℝ :=
  ![r * Real.cos (Real.pi * deg / 180), r * Real.sin (Real.pi * deg / 180), 0]

/-- Square of the distance between two points. -/
noncomputable def Spec.sqDist (p q : Fin 3 → ℝ) : ℝ :=
  (p 0 - q 0) ^ 2 + (p 1 - q 1) ^ 2 + (p 2 - q 2) ^ 2

/-- The point meant by a `center` argument: the origin if missing, z = 0 if it has two components. -/
def Spec.IsCentre (c : Option (List ℝ)) (v : Fin 3 → ℝ) : Prop :=
  (c = none ∧ v = 0) ∨ c = some [v 0, v 1, v 2] ∨ (c = some [v 0, v 1] ∧ v 2 = 0)

/-! ## Helpers -/

theorem bind_ok {α β : Type _} {x : Py α} {f : α → Py β} {r : β} :
    (x >>= f) = .ok r ↔ ∃ a, x = .ok a ∧ f a = .ok r := by
  cases x with
  | error e => simp [bind, Except.bind]
  | ok a => simp [bind, Except.bind]

theorem generateArc_eq {r a b : ℝ} {res : Resolution ℝ} {m : Option String} {ts : List ℝ}
    (h : resolutionToPerc res m = .ok ts) :
    generateArc r a b res m = .ok (ts.map fun t => polar r (a + t * (b - a))) := by
  simp only [generateArc, h]
  congr 1
  apply List.map_congr_left
  intro t _
  have : deg2rad (a + t * (b - a)) = Real.pi * (a + t * (b - a)) / 180 := by
    unfold deg2rad; ring
  simp only [this, polar, mul_zero]

theorem generateArc_ok {r a b : ℝ} {res : Resolution ℝ} {m : Option String} {pts : List (V3 ℝ)}
    (h : generateArc r a b res m = .ok pts) :
    ∃ ts, resolutionToPerc res m = .ok ts ∧ pts = ts.map fun t => polar r (a + t * (b - a)) := by
  cases hr : resolutionToPerc res m with
  | error e => simp [generateArc, hr] at h
  | ok ts =>
    rw [generateArc_eq hr] at h
    exact ⟨ts, rfl, (Except.ok.inj h).symm⟩

theorem pad3_two (x y : ℝ) : pad3 [x, y] = [x, y, 0] := by simp [pad3]

theorem segmentLine_eq {x y x' y' : ℝ} {res : Resolution ℝ} {m : Option String} {ts : List ℝ}
    (h : resolutionToPerc res m = .ok ts) :
    segmentLine [x, y] [x', y'] res m =
      .ok (ts.map fun t => between t ![x, y, 0] ![x', y', 0]) := by
  simp only [segmentLine, generateLine_points [x, y] [x', y'] res m ts rfl (Or.inl rfl) h]
  rw [List.map_map]
  congr 1
  apply List.map_congr_left
  intro t _
  funext ax
  simp only [Function.comp, pad3_two, onSegment, between]
  fin_cases ax <;> simp

theorem segmentLine_ok {x y x' y' : ℝ} {res : Resolution ℝ} {m : Option String}
    {pts : List (V3 ℝ)} (h : segmentLine [x, y] [x', y'] res m = .ok pts) :
    ∃ ts, resolutionToPerc res m = .ok ts ∧
      pts = ts.map fun t => between t ![x, y, 0] ![x', y', 0] := by
  cases hr : resolutionToPerc res m with
  | error e => simp [segmentLine, generateLine, hr] at h
  | ok ts =>
    rw [segmentLine_eq hr] at h
    exact ⟨ts, rfl, (Except.ok.inj h).symm⟩

@[simp] theorem lineMesh_points {K : Type _} [Field K] {δ : Type _} (pts : List (V3 K)) :
    (lineMesh (δ := δ) pts).points = pts := by
  simp only [lineMesh, LineArg.points]
  apply List.ext_getElem?
  intro i
  rw [List.getElem?_map]
  by_cases hi : i < pts.length
  · rw [List.getElem?_range hi, List.getElem?_eq_getElem hi]
    simp [List.getElem?_eq_getElem hi]
  · rw [List.getElem?_eq_none (by simpa using hi), List.getElem?_eq_none (by simpa using hi)]
    rfl

theorem translationVector_ok {c : Option (List ℝ)} {v : V3 ℝ} :
    translationVector c = .ok v ↔ IsCentre c v := by
  constructor
  · intro h
    unfold translationVector at h
    split at h <;> first | cases h | skip
    · exact Or.inl ⟨rfl, rfl⟩
    · exact Or.inr (Or.inl (by simp))
    · exact Or.inr (Or.inr ⟨by simp, by simp⟩)
  · rintro (⟨rfl, rfl⟩ | rfl | ⟨rfl, h⟩)
    · rfl
    · simp only [translationVector]; congr 1; funext ax; fin_cases ax <;> rfl
    · simp only [translationVector]; congr 1; funext ax; fin_cases ax
      · rfl
      · rfl
      · exact h.symm

theorem moveGrid_points {K : Type _} [Field K] (v : V3 K) (M : SGrid K δ) :
    (moveGrid v M).points = M.points.map (· + v) := by
  simp [SGrid.points, Arr3.ravelF, moveGrid, List.map_map, Function.comp_def]

theorem translateGrid_ok {M N : SGrid ℝ δ} {c : Option (List ℝ)} (h : translateGrid M c = .ok N) :
    ∃ v, IsCentre c v ∧ N = moveGrid v M := by
  unfold translateGrid at h
  split at h
  · cases h
  · rename_i v hv
    exact ⟨v, translationVector_ok.1 hv, (Except.ok.inj h).symm⟩

theorem translateGrid_eq {M : SGrid ℝ δ} {c : Option (List ℝ)} {v : V3 ℝ} (h : IsCentre c v) :
    translateGrid M c = .ok (moveGrid v M) := by
  simp [translateGrid, translationVector_ok.2 h]

/-- A surface between two line meshes of the same length. -/
theorem surface_lines (area : Arr3 (V3 ℝ) → List ℝ) {la lb : List (V3 ℝ)} {res : Resolution ℝ}
    {m : Option String} {ts : List ℝ} (hl : la.length = lb.length)
    (h : resolutionToPerc res m = .ok ts) :
    ∃ M : SGrid ℝ δ, generateSurface area (lineMesh la) (lineMesh lb) "xy" res m = .ok M ∧
      M.pointData = [] ∧ M.cellData = flagHidden (count (cells (planeShape "xy" la.length ts.length)))
        ((area M.nodes).map fun x => decide (x = 0)) [] := by
  obtain ⟨pl, hpl⟩ := parsePlane_ok (show isPlane "xy" from Or.inl rfl)
  simp only [generateSurface, h]
  rw [if_neg (by simp [hl])]
  simp only [generateSurfaceCore]
  rw [if_neg (by simp [hl])]
  simp only [hpl, lineMesh, copyArrays]
  refine ⟨_, rfl, rfl, ?_⟩
  simp only
  congr 1
  · have := surfaceNodes_shape (Or.inl rfl) hpl ts (lineMesh (δ := δ) la).points
      (lineMesh (δ := δ) lb).points
    rw [lineMesh_points, lineMesh_points] at this
    have e : (LineArg.poly la (List.range la.length) ([] : Dict String (DArr δ)) []).points = la :=
      lineMesh_points la
    have e' : (LineArg.poly lb (List.range lb.length) ([] : Dict String (DArr δ)) []).points = lb :=
      lineMesh_points lb
    rw [e, e', this, sizeOfShape_eq, cellShape_eq]

theorem planeIx_xy (p q : ℕ) : planeIx "xy" p q = ![p, q, 0] := by
  funext ax; fin_cases ax <;> rfl

theorem planeShape_xy (p q : ℕ) : planeShape "xy" p q = ![p, q, 1] := by
  funext ax; fin_cases ax <;> rfl

/-- A translated surface between two line meshes. -/
theorem surface_moved {area : Arr3 (V3 ℝ) → List ℝ} {la lb : List (V3 ℝ)} {res : Resolution ℝ}
    {m : Option String} {c : Option (List ℝ)} {M N : SGrid ℝ δ}
    (h : generateSurface area (lineMesh la) (lineMesh lb) "xy" res m = .ok M)
    (h' : translateGrid M c = .ok N) :
    ∃ rs v, resolutionToPerc res m = .ok rs ∧ IsCentre c v ∧ N.nodes.d = ![la.length, rs.length, 1] ∧
      ∀ p q a b t, la[p]? = some a → lb[p]? = some b → rs[q]? = some t →
        N.points[vtkId N.nodes.d ![p, q, 0]]? = some (v + between t a b) := by
  obtain ⟨v, hv, rfl⟩ := translateGrid_ok h'
  obtain ⟨rs, h1, h2, _, h4⟩ := (C15_surface_nodes area _ _ "xy" res m).1 M h
  rw [lineMesh_points] at h2 h4
  rw [lineMesh_points] at h4
  refine ⟨rs, v, h1, hv, ?_, ?_⟩
  · show M.nodes.d = _
    rw [h2, planeShape_xy]
  · intro p q a b t ha hb ht
    have := h4 p q a b t ha hb ht
    rw [moveGrid_points, List.getElem?_map]
    show Option.map _ M.points[vtkId M.nodes.d _]? = _
    rw [← planeIx_xy, this]
    simp [add_comm]

theorem centre_unique {c : Option (List ℝ)} {v w : V3 ℝ} (hv : IsCentre c v) (hw : IsCentre c w) :
    v = w := by
  rw [← translationVector_ok] at hv hw
  rw [hv] at hw
  exact Except.ok.inj hw

theorem between_polar (r r' deg s : ℝ) :
    between s (polar r deg) (polar r' deg) = polar (r + s * (r' - r)) deg := by
  funext ax
  fin_cases ax <;> simp [between, polar] <;> ring

theorem sqDist_polar (v : V3 ℝ) (r deg : ℝ) : sqDist (v + polar r deg) v = r ^ 2 := by
  have e : sqDist (v + polar r deg) v =
      (v 0 + r * Real.cos (Real.pi * deg / 180) - v 0) ^ 2 +
        (v 1 + r * Real.sin (Real.pi * deg / 180) - v 1) ^ 2 + (v 2 + 0 - v 2) ^ 2 := rfl
  rw [e]
  have := Real.cos_sq_add_sin_sq (Real.pi * deg / 180)
  linear_combination r ^ 2 * this

/-! ## C63 -/

/-- **C63 (Sector).** The first node of a sector is its centre, the others are on the arc, at distance
`radius` from the centre, in the order of the subdivision of the angle; there is one triangle for
each two consecutive nodes of the arc, made of the centre and these two. -/
theorem C63_sector {radius a b : ℝ} {res : Resolution ℝ} {m : Option String}
    {c : Option (List ℝ)} {M : TriMesh ℝ} (h : sector radius a b res m c = .ok M) :
    ∃ ts v, resolutionToPerc res m = .ok ts ∧ IsCentre c v ∧
      M.points.length = ts.length + 1 ∧ M.points[0]? = some v ∧
      (∀ k t, ts[k]? = some t → M.points[k + 1]? = some (v + polar radius (a + t * (b - a)))) ∧
      (∀ k p, M.points[k + 1]? = some p → sqDist p v = radius ^ 2 ∧ p 2 = v 2) ∧
      M.cells.length = ts.length - 1 ∧
      (∀ k, k + 1 < ts.length → M.cells[k]? = some [0, k + 1, k + 2]) := by
  unfold sector at h
  split at h
  · cases h
  simp only [bind_ok] at h
  obtain ⟨pts, h1, v, h2, h3⟩ := h
  obtain ⟨ts, hts, rfl⟩ := generateArc_ok h1
  cases h3
  have hn : ∀ k t, ts[k]? = some t →
      (((0 : V3 ℝ) :: ts.map fun t => polar radius (a + t * (b - a))).map (· + v))[k + 1]? =
        some (v + polar radius (a + t * (b - a))) := by
    intro k t ht
    simp [ht, add_comm]
  refine ⟨ts, v, hts, translationVector_ok.1 h2, by simp, by simp, hn, ?_, by simp, ?_⟩
  · intro k p hp
    have hk : k < ts.length := by
      have := (List.getElem?_eq_some_iff.1 hp).1
      simpa using this
    have := hn k _ (List.getElem?_eq_getElem hk)
    simp only at hp
    rw [hp] at this
    cases this
    exact ⟨sqDist_polar _ _ _, by simp [polar]⟩
  · intro k hk
    simp only [List.length_map]
    rw [List.getElem?_map, List.getElem?_range (by omega)]
    rfl

/-- Sectors are generated for every positive radius, supported method and proper centre. -/
theorem C63_sector_exists {radius : ℝ} (hr : 0 < radius) (a b : ℝ) (n : ℤ) {m : Option String}
    (hm : Supported m) {c : Option (List ℝ)} {v : V3 ℝ} (hc : IsCentre c v) :
    ∃ M, sector radius a b (.int n) m c = .ok M := by
  obtain ⟨ts, hts, _⟩ := C11_integer_resolution n m hm
  unfold sector
  rw [if_neg (not_le.2 hr)]
  refine ⟨_, bind_ok.2 ⟨_, generateArc_eq hts, bind_ok.2 ⟨_, translationVector_ok.2 hc, rfl⟩⟩⟩

/-- **C63 (Circle).** With an integer resolution the arc of a circle closes: its last node coincides
with its first (and `clean` merges the two). -/
theorem C63_circle {radius : ℝ} {n : ℤ} {m : Option String} (hm : Supported m)
    {c : Option (List ℝ)} {M : TriMesh ℝ} (h : circle radius (.int n) m c = .ok M) :
    M.points.length = (max 1 n).toNat + 2 ∧ M.cells.length = (max 1 n).toNat ∧
    M.points[1]? = M.points[(max 1 n).toNat + 1]? := by
  obtain ⟨ts, v, h1, h2, h3, h4, h5, _, h7, _⟩ := C63_sector h
  obtain ⟨ts', hts', hsub, _⟩ := C11_integer_resolution n m hm
  rw [hts'] at h1
  cases h1
  refine ⟨by rw [h3, hsub.size], by rw [h7, hsub.size]; omega, ?_⟩
  rw [h5 0 0 hsub.first, h5 _ 1 hsub.last]
  congr 2
  simp only [polar]
  have e0 : Real.pi * (0 + 0 * (360 - 0)) / 180 = 0 := by ring
  have e1 : Real.pi * (0 + 1 * (360 - 0)) / 180 = 2 * Real.pi := by ring
  rw [e0, e1]
  simp

/-- **C63 (AnnularSector).** Node (p, q) is at angle fraction `t_p` and radius fraction `s_q`: at
distance `inner + s_q (outer - inner)` from the centre. -/
theorem C63_annularSector {area : Arr3 (V3 ℝ) → List ℝ} {ri ro a b : ℝ} {rres tres : Resolution ℝ}
    {rm tm : Option String} {c : Option (List ℝ)} {M : SGrid ℝ δ}
    (h : annularSector area ri ro a b rres tres rm tm c = .ok M) :
    ∃ ts rs v, resolutionToPerc tres tm = .ok ts ∧ resolutionToPerc rres rm = .ok rs ∧
      IsCentre c v ∧ M.nodes.d = ![ts.length, rs.length, 1] ∧
      (∀ p q t s, ts[p]? = some t → rs[q]? = some s →
        M.points[vtkId M.nodes.d ![p, q, 0]]? =
          some (v + polar (ri + s * (ro - ri)) (a + t * (b - a)))) ∧
      ((∀ s ∈ rs, 0 ≤ s ∧ s ≤ 1) → ∀ x ∈ M.points,
        ri ^ 2 ≤ sqDist x v ∧ sqDist x v ≤ ro ^ 2 ∧ x 2 = v 2) := by
  unfold annularSector at h
  split at h
  · cases h
  rename_i hr
  rw [not_not] at hr
  simp only [bind_ok] at h
  obtain ⟨la, h1, lb, h2, M', h3, h4⟩ := h
  obtain ⟨ts, hts, rfl⟩ := generateArc_ok h1
  obtain ⟨ts', hts', rfl⟩ := generateArc_ok h2
  rw [hts] at hts'
  cases hts'
  obtain ⟨rs, v, h5, h6, h7, h8⟩ := surface_moved h3 h4
  have h7' : M.nodes.d = ![ts.length, rs.length, 1] := by simpa using h7
  have hn : ∀ p q t s, ts[p]? = some t → rs[q]? = some s →
        M.points[vtkId M.nodes.d ![p, q, 0]]? =
          some (v + polar (ri + s * (ro - ri)) (a + t * (b - a))) := by
    intro p q t s ht hs
    rw [h8 p q _ _ s (by rw [List.getElem?_map, ht]; rfl) (by rw [List.getElem?_map, ht]; rfl) hs,
      between_polar]
  refine ⟨ts, rs, v, hts, h5, h6, h7', hn, ?_⟩
  intro hrs x hx
  obtain ⟨k, hk, rfl⟩ := List.getElem_of_mem hx
  have hk' := hk
  rw [SGrid.points, ravelF_length] at hk'
  obtain ⟨i, hi, hik⟩ := exists_ix hk'
  have i0 := hi 0
  have i1 := hi 1
  have i2 := hi 2
  rw [h7'] at i0 i1 i2
  simp only [Matrix.cons_val_zero, Matrix.cons_val_one, Matrix.cons_val] at i0 i1 i2
  have hi' : i = ![i 0, i 1, 0] := by
    funext ax; fin_cases ax
    · rfl
    · rfl
    · show i 2 = 0; omega
  have key := hn (i 0) (i 1) _ _ (List.getElem?_eq_getElem i0) (List.getElem?_eq_getElem i1)
  rw [← hi', hik, List.getElem?_eq_getElem hk] at key
  rw [Option.some.inj key, sqDist_polar]
  obtain ⟨s0, s1⟩ := hrs _ (List.getElem_mem i1)
  obtain ⟨r0, r1⟩ := hr
  refine ⟨?_, ?_, by simp [polar]⟩
  · apply pow_le_pow_left₀ r0; nlinarith
  · apply pow_le_pow_left₀ (by nlinarith); nlinarith

theorem annularSector_eq (area : Arr3 (V3 ℝ) → List ℝ) {ri ro : ℝ} (h0 : 0 ≤ ri) (h1 : ri < ro)
    (a b : ℝ) {rres tres : Resolution ℝ} {rm tm : Option String} {ts rs : List ℝ}
    (ht : resolutionToPerc tres tm = .ok ts) (hr : resolutionToPerc rres rm = .ok rs)
    {c : Option (List ℝ)} {v : V3 ℝ} (hc : IsCentre c v) :
    ∃ M : SGrid ℝ δ, annularSector area ri ro a b rres tres rm tm c = .ok M ∧
      M.pointData = [] ∧ ∃ N : Arr3 (V3 ℝ), N.d = ![ts.length, rs.length, 1] ∧
        M.cellData = flagHidden (count (cells (planeShape "xy" ts.length rs.length)))
        ((area N).map fun x => decide (x = 0)) [] := by
  obtain ⟨M, hM, hp, hcd⟩ := surface_lines (δ := δ) area
    (la := ts.map fun t => polar ri (a + t * (b - a)))
    (lb := ts.map fun t => polar ro (a + t * (b - a))) (by simp) hr
  unfold annularSector
  rw [if_neg (by simp [h0, h1])]
  refine ⟨moveGrid v M, bind_ok.2 ⟨_, generateArc_eq ht, bind_ok.2 ⟨_, generateArc_eq ht,
    bind_ok.2 ⟨_, hM, translateGrid_eq hc⟩⟩⟩, hp, M.nodes, ?_, ?_⟩
  · obtain ⟨rs', v', e1, _, e3, _⟩ := surface_moved hM (translateGrid_eq hc)
    rw [hr] at e1
    cases e1
    simp only [List.length_map] at e3
    exact e3
  · simp only [List.length_map] at hcd
    exact hcd

/-- Annular sectors are generated for all radii `0 ≤ inner < outer`. -/
theorem C63_annularSector_exists (area : Arr3 (V3 ℝ) → List ℝ) {ri ro : ℝ} (h0 : 0 ≤ ri)
    (h1 : ri < ro) (a b : ℝ) (nr nt : ℤ) {rm tm : Option String} (hrm : Supported rm)
    (htm : Supported tm) {c : Option (List ℝ)} {v : V3 ℝ} (hc : IsCentre c v) :
    ∃ M : SGrid ℝ δ, annularSector area ri ro a b (.int nr) (.int nt) rm tm c = .ok M := by
  obtain ⟨ts, hts, _⟩ := C11_integer_resolution nt tm htm
  obtain ⟨rs, hrs, _⟩ := C11_integer_resolution nr rm hrm
  obtain ⟨M, hM, _⟩ := annularSector_eq (δ := δ) area h0 h1 a b hts hrs hc
  exact ⟨M, hM⟩

/-- **C63 (Annulus).** With an integer resolution the first and the last radial line of nodes of an
annulus coincide. -/
theorem C63_annulus {area : Arr3 (V3 ℝ) → List ℝ} {ri ro : ℝ} {rres : Resolution ℝ} {n : ℤ}
    {rm tm : Option String} (hm : Supported tm) {c : Option (List ℝ)} {M : SGrid ℝ δ}
    (h : annulus area ri ro rres (.int n) rm tm c = .ok M) :
    ∀ q < M.nodes.d 1, M.points[vtkId M.nodes.d ![0, q, 0]]? =
      M.points[vtkId M.nodes.d ![(max 1 n).toNat, q, 0]]? := by
  obtain ⟨ts, rs, v, h1, h2, h3, h4, h5, _⟩ := C63_annularSector h
  obtain ⟨ts', hts', hsub, _⟩ := C11_integer_resolution n tm hm
  rw [hts'] at h1
  cases h1
  intro q hq
  have hq' : q < rs.length := by simpa [h4] using hq
  rw [h5 0 q 0 _ hsub.first (List.getElem?_eq_getElem hq'),
    h5 _ q 1 _ hsub.last (List.getElem?_eq_getElem hq')]
  congr 2
  simp only [polar]
  have e0 : Real.pi * (0 + 0 * (360 - 0)) / 180 = 0 := by ring
  have e1 : Real.pi * (0 + 1 * (360 - 0)) / 180 = 2 * Real.pi := by ring
  rw [e0, e1]
  simp

theorem generateVolumeS_nodes [Inhabited δ] {volume : Arr3 (V3 ℝ) → List ℝ} {a b M : SGrid ℝ δ}
    {res : Resolution ℝ} {m : Option String} (h : generateVolumeS volume a b res m = .ok M) :
    ∃ zs, resolutionToPerc res m = .ok zs ∧ dimOfShape a.nodes.d = 2 ∧
      M.nodes = volumeNodes zs a.nodes b.nodes := by
  unfold generateVolumeS at h
  split at h
  · cases h
  split at h
  · cases h
  rename_i hd
  split at h
  · cases h
  rename_i zs hzs
  refine ⟨zs, hzs, not_not.1 hd, ?_⟩
  unfold generateVolumeStructured at h
  split at h
  · cases h
  simp only at h
  split at h
  · cases h
  split at h
  · cases h
  cases h
  rfl

theorem modify_two (x y z d : ℝ) (l : List ℝ) :
    (x :: y :: z :: l).modify 2 (· - d) = x :: y :: (z - d) :: l := rfl

/-- **C63 (CylindricalShell).** Node (p, q, s) of a cylindrical shell is at angle fraction `t_p`,
radius fraction `s_q` and height fraction `w_s`, the centre being half way up. -/
theorem C63_shell [Inhabited δ] {area volume : Arr3 (V3 ℝ) → List ℝ} {ri ro a b height : ℝ}
    {rres tres zres : Resolution ℝ} {rm tm zm : Option String} {c : Option (List ℝ)}
    {M : SGrid ℝ δ}
    (h : cylindricalShellSector area volume ri ro a b height rres tres zres rm tm zm c = .ok M) :
    ∃ ts rs zs v, resolutionToPerc tres tm = .ok ts ∧ resolutionToPerc rres rm = .ok rs ∧
      resolutionToPerc zres zm = .ok zs ∧ IsCentre c v ∧
      M.nodes.d = ![ts.length, rs.length, zs.length] ∧
      (∀ p q k t s w, ts[p]? = some t → rs[q]? = some s → zs[k]? = some w →
        M.points[vtkId M.nodes.d ![p, q, k]]? =
          some (v + polar (ri + s * (ro - ri)) (a + t * (b - a)) +
            ![0, 0, (w - 1 / 2) * height])) := by
  unfold cylindricalShellSector at h
  simp only at h
  split at h
  · cases h
  rename_i hlen
  simp only [bind_ok] at h
  obtain ⟨A, h1, V, h2, h3⟩ := h
  obtain ⟨u, hu, rfl⟩ := translateGrid_ok h3
  -- the centre
  have hc : ∃ v : V3 ℝ, IsCentre c v ∧ u = v + ![0, 0, -(1 / 2 * height)] := by
    obtain ⟨l, hl⟩ : ∃ l, l = c.getD [0, 0, 0] := ⟨_, rfl⟩
    rw [← hl] at hu hlen
    match l, hlen with
    | x :: y :: z :: l', _ =>
      rw [modify_two] at hu
      rcases hu with ⟨hu, _⟩ | hu | ⟨hu, _⟩
      · cases hu
      · simp only [Option.some.injEq, List.cons.injEq] at hu
        obtain ⟨hx, hy, hz, rfl⟩ := hu
        refine ⟨![x, y, z], ?_, ?_⟩
        · cases c with
          | none =>
            left
            simp only [Option.getD_none, List.cons.injEq] at hl
            obtain ⟨rfl, rfl, rfl, _⟩ := hl
            exact ⟨rfl, by funext ax; fin_cases ax <;> rfl⟩
          | some l'' =>
            right; left
            simp only [Option.getD_some] at hl
            rw [← hl]; simp
        · funext ax; fin_cases ax
          · simp [hx]
          · simp [hy]
          · simp [← hz]; ring
      · simp at hu
    | [], hlen => simp at hlen
    | [_], hlen => simp at hlen
    | [_, _], hlen => simp at hlen
  obtain ⟨v, hv, rfl⟩ := hc
  obtain ⟨ts, rs, v0, h4, h5, h6, h7, h8, _⟩ := C63_annularSector h1
  have hv0 : v0 = 0 := centre_unique h6 (Or.inl ⟨rfl, rfl⟩)
  subst hv0
  obtain ⟨zs, h9, h10, h11⟩ := generateVolumeS_nodes h2
  have hax : flatAxis A.nodes.d = 2 := by
    have e2 : A.nodes.d 2 = 1 := by rw [h7]; rfl
    unfold dimOfShape at h10
    unfold flatAxis
    by_cases e0 : A.nodes.d 0 = 1
    · simp [e0, e2] at h10
      split at h10 <;> omega
    · by_cases e1 : A.nodes.d 1 = 1
      · simp [e1, e2, e0] at h10
      · simp [e0, e1]
  have hd : V.nodes.d = ![ts.length, rs.length, zs.length] := by
    rw [h11]
    simp only [volumeNodes, hax]
    rw [h7]
    funext ax; fin_cases ax <;> rfl
  refine ⟨ts, rs, zs, v, h4, h5, h9, hv, hd, ?_⟩
  intro p q k t s w ht hs hw
  have hp := (List.getElem?_eq_some_iff.1 ht).1
  have hq := (List.getElem?_eq_some_iff.1 hs).1
  have hk := (List.getElem?_eq_some_iff.1 hw).1
  have hin : InShape A.nodes.d ![p, q, 0] := by
    rw [h7]; intro ax; fin_cases ax <;> simp [hp, hq]
  have hA := h8 p q t s ht hs
  rw [SGrid.points, ravelF_get _ hin] at hA
  have hA := Option.some.inj hA
  have hinV : InShape V.nodes.d ![p, q, k] := by
    rw [hd]; intro ax; fin_cases ax <;> simp [hp, hq, hk]
  rw [moveGrid_points, List.getElem?_map]
  show Option.map _ V.points[vtkId V.nodes.d _]? = _
  rw [SGrid.points, ravelF_get _ hinV, h11]
  simp only [volumeNodes, hax, Option.map_some, Option.some.injEq]
  have hup : Function.update ![p, q, k] 2 0 = ![p, q, 0] := by
    funext ax; fin_cases ax <;> rfl
  have hget : zs.getD ((![p, q, k] : Fin 3 → ℕ) 2) 0 = w := by
    rw [List.getD_eq_getElem?_getD]
    show (zs[k]?).getD 0 = w
    rw [hw]; rfl
  rw [hup, hget]
  simp only [moveGrid]
  rw [hA, zero_add]
  funext ax
  simp only [lerp, Pi.add_apply]
  fin_cases ax
  · simp; ring
  · simp; ring
  · simp [polar]; ring

theorem edge_right (dx dy l : ℝ) :
    between l ![dx, dy, 0] ![dx, 0, 0] = ![dx, (1 - l) * dy, 0] := by
  funext ax; fin_cases ax <;> simp [between]; ring

theorem edge_upper (dx dy l : ℝ) :
    between l ![dx, dy, 0] ![0, dy, 0] = ![(1 - l) * dx, dy, 0] := by
  funext ax; fin_cases ax <;> simp [between]; ring

theorem angle_below (t : ℝ) : (45 : ℝ) + t * (0 - 45) = 45 - 45 * t := by ring

theorem angle_above (t : ℝ) : (45 : ℝ) + t * (90 - 45) = 45 + 45 * t := by ring

/-- **C63 (SectorRectangle), nodes.** The half below the diagonal goes from the arc 45°-0° to the
right edge of the rectangle, the half above it from the arc 45°-90° to the upper edge. -/
theorem C63_sectorRectangle_nodes {area : Arr3 (V3 ℝ) → List ℝ} {radius dx dy : ℝ}
    {rres tres : Resolution ℝ} {rm tm : Option String} {c : Option (List ℝ)} {A B : SGrid ℝ δ}
    (h : sectorRectangle area radius dx dy rres tres rm tm c = .ok (A, B)) :
    0 < radius ∧ radius < dx ∧ radius < dy ∧
    ∃ ls ts rs v, resolutionToPerc tres tm = .ok ls ∧ resolutionToPerc tres none = .ok ts ∧
      resolutionToPerc rres rm = .ok rs ∧ IsCentre c v ∧
      A.nodes.d = ![ts.length, rs.length, 1] ∧ B.nodes.d = ![ts.length, rs.length, 1] ∧
      ls.length = ts.length ∧
      ∀ p q l t s, ls[p]? = some l → ts[p]? = some t → rs[q]? = some s →
        A.points[vtkId A.nodes.d ![p, q, 0]]? =
          some (v + between s (polar radius (45 - 45 * t)) ![dx, (1 - l) * dy, 0]) ∧
        B.points[vtkId B.nodes.d ![p, q, 0]]? =
          some (v + between s (polar radius (45 + 45 * t)) ![(1 - l) * dx, dy, 0]) := by
  unfold sectorRectangle at h
  split at h
  · cases h
  rename_i hr
  rw [not_not, lt_min_iff] at hr
  refine ⟨hr.1, hr.2.1, hr.2.2, ?_⟩
  simp only [bind_ok] at h
  obtain ⟨lx, h1, ly, h2, l45, h3, l90, h4, My, h5, Mx, h6, A', h7, B', h8, h9⟩ := h
  simp only [Except.ok.injEq, Prod.mk.injEq] at h9
  obtain ⟨rfl, rfl⟩ := h9
  obtain ⟨ls, e1, rfl⟩ := segmentLine_ok h1
  obtain ⟨ls', e2, rfl⟩ := segmentLine_ok h2
  rw [e1] at e2; cases e2
  obtain ⟨ts, e3, rfl⟩ := generateArc_ok h3
  obtain ⟨ts', e4, rfl⟩ := generateArc_ok h4
  rw [e3] at e4; cases e4
  have hlen : ls.length = ts.length := by
    by_contra hne
    have := (C15_surface_nodes area (lineMesh (δ := δ) (ts.map fun t => polar radius (45 + t * (0 - 45))))
      (lineMesh (ls.map fun t => between t ![dx, dy, 0] ![dx, 0, 0])) "xy" rres rm).2.2.1
      (Or.inl (by simpa using fun h => hne h.symm))
    obtain ⟨e, he⟩ := this
    rw [h5] at he; cases he
  obtain ⟨rs, v, g1, g2, g3, g4⟩ := surface_moved h5 h7
  obtain ⟨rs', v', g1', g2', g3', g4'⟩ := surface_moved h6 h8
  rw [g1] at g1'; cases g1'
  cases centre_unique g2 g2'
  refine ⟨ls, ts, rs, v, e1, e3, g1, g2, by simpa using g3, by simpa using g3', hlen, ?_⟩
  intro p q l t s hl ht hs
  constructor
  · rw [g4 p q _ _ s (by rw [List.getElem?_map, ht]; rfl) (by rw [List.getElem?_map, hl]; rfl) hs]
    simp only [edge_right, angle_below]
  · rw [g4' p q _ _ s (by rw [List.getElem?_map, ht]; rfl) (by rw [List.getElem?_map, hl]; rfl) hs]
    simp only [edge_upper, angle_above]

/-- **C63 (RectangleSector), nodes.** The half below the diagonal goes from the right edge of the
rectangle to the arc 45°-0°, the half above it from the upper edge to the arc 45°-90°. -/
theorem C63_rectangleSector_nodes {area : Arr3 (V3 ℝ) → List ℝ} {dx dy radius : ℝ}
    {xres yres rres : Resolution ℝ} {xm ym rm : Option String} {c : Option (List ℝ)}
    {A B : SGrid ℝ δ} (h : rectangleSector area dx dy radius xres yres rres xm ym rm c = .ok (A, B)) :
    ∃ xs ys rs v, resolutionToPerc xres xm = .ok xs ∧ resolutionToPerc yres ym = .ok ys ∧
      resolutionToPerc rres rm = .ok rs ∧ IsCentre c v ∧
      A.nodes.d = ![ys.length, rs.length, 1] ∧ B.nodes.d = ![xs.length, rs.length, 1] ∧
      (∀ p q t s, ys[p]? = some t → rs[q]? = some s →
        A.points[vtkId A.nodes.d ![p, q, 0]]? =
          some (v + between s ![dx, (1 - t) * dy, 0] (polar radius (45 - 45 * t)))) ∧
      (∀ p q t s, xs[p]? = some t → rs[q]? = some s →
        B.points[vtkId B.nodes.d ![p, q, 0]]? =
          some (v + between s ![(1 - t) * dx, dy, 0] (polar radius (45 + 45 * t)))) := by
  unfold rectangleSector at h
  split at h
  · cases h
  simp only [bind_ok] at h
  obtain ⟨lx, h1, ly, h2, l45, h3, l90, h4, My, h5, Mx, h6, A', h7, B', h8, h9⟩ := h
  simp only [Except.ok.injEq, Prod.mk.injEq] at h9
  obtain ⟨rfl, rfl⟩ := h9
  obtain ⟨xs, e1, rfl⟩ := segmentLine_ok h1
  obtain ⟨ys, e2, rfl⟩ := segmentLine_ok h2
  obtain ⟨ys', e3, rfl⟩ := generateArc_ok h3
  obtain ⟨xs', e4, rfl⟩ := generateArc_ok h4
  rw [e1] at e4; cases e4
  rw [e2] at e3; cases e3
  obtain ⟨rs, v, g1, g2, g3, g4⟩ := surface_moved h5 h7
  obtain ⟨rs', v', g1', g2', g3', g4'⟩ := surface_moved h6 h8
  rw [g1] at g1'; cases g1'
  cases centre_unique g2 g2'
  refine ⟨xs, ys, rs, v, e1, e2, g1, g2, by simpa using g3, by simpa using g3', ?_, ?_⟩
  · intro p q t s ht hs
    rw [g4 p q _ _ s (by rw [List.getElem?_map, ht]; rfl) (by rw [List.getElem?_map, ht]; rfl) hs]
    simp only [edge_right, angle_below]
  · intro p q t s ht hs
    rw [g4' p q _ _ s (by rw [List.getElem?_map, ht]; rfl) (by rw [List.getElem?_map, ht]; rfl) hs]
    simp only [edge_upper, angle_above]

/-- Two points, one below and to the right of the diagonal from (ix, iy) to (ox, oy), the other above
and to the left, differ as soon as one of them is not on the diagonal. -/
theorem halves_apart {ix iy ox oy ax ay ax' ay' bx bY bx' bY' s s' : ℝ}
    (hx : ix ≤ ox) (hy : iy ≤ oy) (h1 : ix ≤ ax) (h2 : ay ≤ iy) (h3 : ox ≤ ax') (h4 : ay' ≤ oy)
    (h5 : bx ≤ ix) (h6 : iy ≤ bY) (h7 : bx' ≤ ox) (h8 : oy ≤ bY')
    (s0 : 0 ≤ s) (s1 : s ≤ 1) (s0' : 0 ≤ s') (s1' : s' ≤ 1)
    (hs : (ay < iy ∧ ay' < oy ∧ (ix < ox ∨ ox < ax')) ∨
      (bx < ix ∧ bx' < ox ∧ (iy < oy ∨ oy < bY')))
    (ex : (1 - s) * ax + s * ax' = (1 - s') * bx + s' * bx')
    (ey : (1 - s) * ay + s * ay' = (1 - s') * bY + s' * bY') : False := by
  have m1 := mul_le_mul_of_nonneg_left h1 (sub_nonneg.2 s1)
  have m2 := mul_le_mul_of_nonneg_left h2 (sub_nonneg.2 s1)
  have m3 := mul_le_mul_of_nonneg_left h3 s0
  have m4 := mul_le_mul_of_nonneg_left h4 s0
  have m5 := mul_le_mul_of_nonneg_left h5 (sub_nonneg.2 s1')
  have m6 := mul_le_mul_of_nonneg_left h6 (sub_nonneg.2 s1')
  have m7 := mul_le_mul_of_nonneg_left h7 s0'
  have m8 := mul_le_mul_of_nonneg_left h8 s0'
  rcases hs with ⟨k1, k2, k3⟩ | ⟨k1, k2, k3⟩
  · rcases le_or_gt s s' with hle | hgt
    · have : 0 ≤ (s' - s) * (oy - iy) := mul_nonneg (by linarith) (by linarith)
      rcases eq_or_lt_of_le s0 with h0 | h0
      · subst h0; nlinarith
      · nlinarith [mul_lt_mul_of_pos_left k2 h0]
    · have g := mul_nonneg (sub_nonneg.2 hgt.le) (sub_nonneg.2 hx)
      rcases k3 with k3 | k3
      · nlinarith [mul_pos (sub_pos.2 hgt) (sub_pos.2 k3)]
      · nlinarith [mul_lt_mul_of_pos_left k3 (lt_of_le_of_lt s0' hgt)]
  · rcases le_or_gt s' s with hle | hgt
    · have : 0 ≤ (s - s') * (ox - ix) := mul_nonneg (by linarith) (by linarith)
      rcases eq_or_lt_of_le s0' with h0 | h0
      · subst h0; nlinarith
      · nlinarith [mul_lt_mul_of_pos_left k2 h0]
    · have g := mul_nonneg (sub_nonneg.2 hgt.le) (sub_nonneg.2 hy)
      rcases k3 with k3 | k3
      · nlinarith [mul_pos (sub_pos.2 hgt) (sub_pos.2 k3)]
      · nlinarith [mul_lt_mul_of_pos_left k3 (lt_of_le_of_lt s0 hgt)]

/-- Positions of arc nodes relative to the direction of 45°. -/
theorem arc_below {t : ℝ} (t0 : 0 ≤ t) (t1 : t ≤ 1) :
    Real.sqrt 2 / 2 ≤ Real.cos (Real.pi * (45 - 45 * t) / 180) ∧
    Real.sin (Real.pi * (45 - 45 * t) / 180) ≤ Real.sqrt 2 / 2 ∧
    (0 < t → Real.sqrt 2 / 2 < Real.cos (Real.pi * (45 - 45 * t) / 180) ∧
      Real.sin (Real.pi * (45 - 45 * t) / 180) < Real.sqrt 2 / 2) := by
  have hpi := Real.pi_pos
  have e : Real.pi * (45 - 45 * t) / 180 = Real.pi / 4 * (1 - t) := by ring
  rw [e]
  have b0 : 0 ≤ Real.pi / 4 * (1 - t) := by
    apply mul_nonneg <;> linarith
  have b1 : Real.pi / 4 * (1 - t) ≤ Real.pi / 4 := by nlinarith
  have key : 0 < t → Real.sqrt 2 / 2 < Real.cos (Real.pi / 4 * (1 - t)) ∧
      Real.sin (Real.pi / 4 * (1 - t)) < Real.sqrt 2 / 2 := by
    intro ht
    have b2 : Real.pi / 4 * (1 - t) < Real.pi / 4 := by nlinarith
    rw [← Real.cos_pi_div_four]
    refine ⟨Real.cos_lt_cos_of_nonneg_of_le_pi b0 (by linarith) b2, ?_⟩
    rw [Real.cos_pi_div_four, ← Real.sin_pi_div_four]
    exact Real.sin_lt_sin_of_lt_of_le_pi_div_two (by linarith) (by linarith) b2
  refine ⟨?_, ?_, key⟩
  · rcases eq_or_lt_of_le t0 with h | h
    · subst h; simp [Real.cos_pi_div_four]
    · exact (key h).1.le
  · rcases eq_or_lt_of_le t0 with h | h
    · subst h; simp [Real.sin_pi_div_four]
    · exact (key h).2.le

theorem arc_above {t : ℝ} (t0 : 0 ≤ t) (t1 : t ≤ 1) :
    Real.cos (Real.pi * (45 + 45 * t) / 180) ≤ Real.sqrt 2 / 2 ∧
    Real.sqrt 2 / 2 ≤ Real.sin (Real.pi * (45 + 45 * t) / 180) ∧
    (0 < t → Real.cos (Real.pi * (45 + 45 * t) / 180) < Real.sqrt 2 / 2 ∧
      Real.sqrt 2 / 2 < Real.sin (Real.pi * (45 + 45 * t) / 180)) := by
  have e : Real.pi * (45 + 45 * t) / 180 = Real.pi / 2 - Real.pi * (45 - 45 * t) / 180 := by ring
  rw [e, Real.cos_pi_div_two_sub, Real.sin_pi_div_two_sub]
  obtain ⟨h1, h2, h3⟩ := arc_below t0 t1
  exact ⟨h2, h1, fun h => ⟨(h3 h).2, (h3 h).1⟩⟩

theorem subdivision_range {n : ℕ} {ts : List ℝ} (h : Subdivision n ts) {p : ℕ} {t : ℝ}
    (hp : ts[p]? = some t) : 0 ≤ t ∧ t ≤ 1 ∧ (p ≠ 0 → 0 < t) := by
  obtain ⟨hlt, rfl⟩ := List.getElem?_eq_some_iff.1 hp
  have h0 : 0 < ts.length := by omega
  have hn : n < ts.length := by rw [h.size]; omega
  have f0 : ts[0] = 0 := by have := h.first; rw [List.getElem?_eq_getElem h0] at this; simpa using this
  have f1 : ts[n] = 1 := by have := h.last; rw [List.getElem?_eq_getElem hn] at this; simpa using this
  have inc := List.pairwise_iff_getElem.1 h.increasing
  have pos : p ≠ 0 → 0 < ts[p] := by
    intro hp0
    have := inc 0 p h0 hlt (by omega)
    rwa [f0] at this
  refine ⟨?_, ?_, pos⟩
  · rcases Nat.eq_zero_or_pos p with rfl | hp0
    · exact f0.ge
    · exact (pos (by omega)).le
  · rcases Nat.lt_or_ge p n with hpn | hpn
    · have := inc p n hlt hn hpn
      rw [f1] at this; exact this.le
    · have : p = n := by have := h.size; omega
      subst this; exact f1.le

/-- **C63 (SectorRectangle).** With integer resolutions, the two halves have the nodes of the diagonal
from the arc to the corner of the rectangle in common, and no others. -/
theorem C63_sectorRectangle_conform {area : Arr3 (V3 ℝ) → List ℝ} {radius dx dy : ℝ}
    {nr nt : ℤ} {rm tm : Option String} (hrm : Supported rm) (htm : Supported tm)
    {c : Option (List ℝ)} {A B : SGrid ℝ δ}
    (h : sectorRectangle area radius dx dy (.int nr) (.int nt) rm tm c = .ok (A, B)) :
    (∃ v, IsCentre c v ∧ ∀ q < A.nodes.d 1, ∃ s,
      A.points[vtkId A.nodes.d ![0, q, 0]]? =
        some (v + between s (polar radius 45) ![dx, dy, 0]) ∧
      B.points[vtkId B.nodes.d ![0, q, 0]]? =
        some (v + between s (polar radius 45) ![dx, dy, 0])) ∧
    ∀ p q p' q', InShape A.nodes.d ![p, q, 0] → InShape B.nodes.d ![p', q', 0] →
      A.points[vtkId A.nodes.d ![p, q, 0]]? = B.points[vtkId B.nodes.d ![p', q', 0]]? →
      p = 0 ∧ p' = 0 := by
  obtain ⟨r0, rx, ry, ls, ts, rs, v, h1, h2, h3, h4, h5, h6, h7, h8⟩ := C63_sectorRectangle_nodes h
  obtain ⟨ls', g1, subL, _⟩ := C11_integer_resolution nt tm htm
  rw [g1] at h1; cases h1
  obtain ⟨ts', g2, subT, _⟩ := C11_integer_resolution nt none (Or.inl rfl)
  rw [g2] at h2; cases h2
  obtain ⟨rs', g3, subR, _⟩ := C11_integer_resolution nr rm hrm
  rw [g3] at h3; cases h3
  constructor
  · refine ⟨v, h4, ?_⟩
    intro q hq
    have hq' : q < rs.length := by simpa [h5] using hq
    refine ⟨rs[q], ?_⟩
    have := h8 0 q 0 0 _ subL.first subT.first (List.getElem?_eq_getElem hq')
    simpa using this
  · intro p q p' q' hin hin' heq
    rw [h5] at hin
    rw [h6] at hin'
    have hp : p < ts.length := by simpa using hin 0
    have hq : q < rs.length := by simpa using hin 1
    have hp' : p' < ts.length := by simpa using hin' 0
    have hq' : q' < rs.length := by simpa using hin' 1
    have lp := List.getElem?_eq_getElem (h7 ▸ hp : p < ls.length)
    have lp' := List.getElem?_eq_getElem (h7 ▸ hp' : p' < ls.length)
    have tp := List.getElem?_eq_getElem hp
    have tp' := List.getElem?_eq_getElem hp'
    have sq := List.getElem?_eq_getElem hq
    have sq' := List.getElem?_eq_getElem hq'
    rw [(h8 p q _ _ _ lp tp sq).1, (h8 p' q' _ _ _ lp' tp' sq').2] at heq
    obtain ⟨l0, l1, l2⟩ := subdivision_range subL lp
    obtain ⟨l0', l1', l2'⟩ := subdivision_range subL lp'
    obtain ⟨t0, t1, t2⟩ := subdivision_range subT tp
    obtain ⟨t0', t1', t2'⟩ := subdivision_range subT tp'
    obtain ⟨s0, s1, _⟩ := subdivision_range subR sq
    obtain ⟨s0', s1', _⟩ := subdivision_range subR sq'
    have heq := add_left_cancel (Option.some.inj heq)
    have ex := congrFun heq 0
    have ey := congrFun heq 1
    simp only [between, polar, Matrix.cons_val_zero, Matrix.cons_val_one] at ex ey
    obtain ⟨a1, a2, a3⟩ := arc_below t0 t1
    obtain ⟨b1, b2, b3⟩ := arc_above t0' t1'
    have hk : Real.sqrt 2 / 2 < 1 := by
      have : Real.sqrt 2 < 2 := by
        rw [Real.sqrt_lt' (by norm_num)]; norm_num
      linarith
    have dx0 : 0 < dx := by linarith
    have dy0 : 0 < dy := by linarith
    by_contra hne
    refine halves_apart (ix := radius * (Real.sqrt 2 / 2)) (iy := radius * (Real.sqrt 2 / 2))
      (ox := dx) (oy := dy) (by nlinarith) (by nlinarith)
      (mul_le_mul_of_nonneg_left a1 r0.le) (mul_le_mul_of_nonneg_left a2 r0.le) le_rfl
      (by nlinarith) (mul_le_mul_of_nonneg_left b1 r0.le) (mul_le_mul_of_nonneg_left b2 r0.le)
      (by nlinarith) le_rfl s0 s1 s0' s1' ?_ ex ey
    by_cases hp0 : p = 0
    · have hp0' : p' ≠ 0 := fun h => hne ⟨hp0, h⟩
      right
      exact ⟨mul_lt_mul_of_pos_left (b3 (t2' hp0')).1 r0, by nlinarith [l2' hp0'], Or.inl (by nlinarith)⟩
    · left
      exact ⟨mul_lt_mul_of_pos_left (a3 (t2 hp0)).2 r0, by nlinarith [l2 hp0], Or.inl (by nlinarith)⟩

/-- **C63 (RectangleSector), partial.** With integer resolutions the two halves have the nodes of the
diagonal in common; if the corner of the rectangle is below and to the left of the middle of the arc
(`dx, dy ≤ radius / √2`) they have no others.  Missing: other rectangles inside the arc, for which the
halves may overlap, see `C63_rectangleSector_refuted`. -/
theorem C63_rectangleSector_conform_partial {area : Arr3 (V3 ℝ) → List ℝ} {radius dx dy : ℝ}
    {nx ny nr : ℤ} {xm ym rm : Option String} (hxm : Supported xm) (hym : Supported ym)
    (hrm : Supported rm) {c : Option (List ℝ)} {A B : SGrid ℝ δ}
    (h : rectangleSector area dx dy radius (.int nx) (.int ny) (.int nr) xm ym rm c = .ok (A, B)) :
    (∃ v, IsCentre c v ∧ ∀ q < A.nodes.d 1, ∃ s,
      A.points[vtkId A.nodes.d ![0, q, 0]]? =
        some (v + between s ![dx, dy, 0] (polar radius 45)) ∧
      B.points[vtkId B.nodes.d ![0, q, 0]]? =
        some (v + between s ![dx, dy, 0] (polar radius 45))) ∧
    (0 < dx → 0 < dy → dx * Real.sqrt 2 ≤ radius → dy * Real.sqrt 2 ≤ radius →
     ∀ p q p' q', InShape A.nodes.d ![p, q, 0] → InShape B.nodes.d ![p', q', 0] →
      A.points[vtkId A.nodes.d ![p, q, 0]]? = B.points[vtkId B.nodes.d ![p', q', 0]]? →
      p = 0 ∧ p' = 0) := by
  obtain ⟨xs, ys, rs, v, h1, h2, h3, h4, h5, h6, h7, h8⟩ := C63_rectangleSector_nodes h
  obtain ⟨xs', g1, subX, _⟩ := C11_integer_resolution nx xm hxm
  rw [g1] at h1; cases h1
  obtain ⟨ys', g2, subY, _⟩ := C11_integer_resolution ny ym hym
  rw [g2] at h2; cases h2
  obtain ⟨rs', g3, subR, _⟩ := C11_integer_resolution nr rm hrm
  rw [g3] at h3; cases h3
  constructor
  · refine ⟨v, h4, ?_⟩
    intro q hq
    have hq' : q < rs.length := by simpa [h5] using hq
    refine ⟨rs[q], ?_, ?_⟩
    · have := h7 0 q 0 _ subY.first (List.getElem?_eq_getElem hq')
      simpa using this
    · have := h8 0 q 0 _ subX.first (List.getElem?_eq_getElem hq')
      simpa using this
  · intro dx0 dy0 hdx hdy p q p' q' hin hin' heq
    rw [h5] at hin
    rw [h6] at hin'
    have hp : p < ys.length := by simpa using hin 0
    have hq : q < rs.length := by simpa using hin 1
    have hp' : p' < xs.length := by simpa using hin' 0
    have hq' : q' < rs.length := by simpa using hin' 1
    have tp := List.getElem?_eq_getElem hp
    have tp' := List.getElem?_eq_getElem hp'
    have sq := List.getElem?_eq_getElem hq
    have sq' := List.getElem?_eq_getElem hq'
    rw [h7 p q _ _ tp sq, h8 p' q' _ _ tp' sq'] at heq
    obtain ⟨t0, t1, t2⟩ := subdivision_range subY tp
    obtain ⟨t0', t1', t2'⟩ := subdivision_range subX tp'
    obtain ⟨s0, s1, _⟩ := subdivision_range subR sq
    obtain ⟨s0', s1', _⟩ := subdivision_range subR sq'
    have heq := add_left_cancel (Option.some.inj heq)
    have ex := congrFun heq 0
    have ey := congrFun heq 1
    simp only [between, polar, Matrix.cons_val_zero, Matrix.cons_val_one] at ex ey
    obtain ⟨a1, a2, a3⟩ := arc_below t0 t1
    obtain ⟨b1, b2, b3⟩ := arc_above t0' t1'
    have h2 : 0 < Real.sqrt 2 := Real.sqrt_pos.2 (by norm_num)
    have h22 : Real.sqrt 2 * Real.sqrt 2 = 2 := Real.mul_self_sqrt (by norm_num)
    have r0 : 0 < radius := by nlinarith
    by_contra hne
    refine halves_apart (ix := dx) (iy := dy)
      (ox := radius * (Real.sqrt 2 / 2)) (oy := radius * (Real.sqrt 2 / 2)) (by nlinarith)
      (by nlinarith) le_rfl (by nlinarith)
      (mul_le_mul_of_nonneg_left a1 r0.le) (mul_le_mul_of_nonneg_left a2 r0.le)
      (by nlinarith) le_rfl (mul_le_mul_of_nonneg_left b1 r0.le)
      (mul_le_mul_of_nonneg_left b2 r0.le) s0 s1 s0' s1' ?_ ex ey
    by_cases hp0 : p = 0
    · have hp0' : p' ≠ 0 := fun h => hne ⟨hp0, h⟩
      right
      have := t2' hp0'
      exact ⟨by nlinarith, mul_lt_mul_of_pos_left (b3 this).1 r0,
        Or.inr (mul_lt_mul_of_pos_left (b3 this).2 r0)⟩
    · left
      have := t2 hp0
      exact ⟨by nlinarith, mul_lt_mul_of_pos_left (a3 this).2 r0,
        Or.inr (mul_lt_mul_of_pos_left (a3 this).1 r0)⟩

theorem sectorRectangle_eq (area : Arr3 (V3 ℝ) → List ℝ) {radius dx dy : ℝ} (h0 : 0 < radius)
    (hx : radius < dx) (hy : radius < dy) {rres tres : Resolution ℝ} {rm tm : Option String}
    {ls ts rs : List ℝ} (hl : resolutionToPerc tres tm = .ok ls)
    (ht : resolutionToPerc tres none = .ok ts) (hr : resolutionToPerc rres rm = .ok rs)
    (hlen : ls.length = ts.length) {c : Option (List ℝ)} {v : V3 ℝ} (hc : IsCentre c v) :
    ∃ A B : SGrid ℝ δ, sectorRectangle area radius dx dy rres tres rm tm c = .ok (A, B) := by
  obtain ⟨A, hA, _⟩ := surface_lines (δ := δ) area
    (la := ts.map fun t => polar radius (45 + t * (0 - 45)))
    (lb := ls.map fun t => between t ![dx, dy, 0] ![dx, 0, 0]) (by simp [hlen]) hr
  obtain ⟨B, hB, _⟩ := surface_lines (δ := δ) area
    (la := ts.map fun t => polar radius (45 + t * (90 - 45)))
    (lb := ls.map fun t => between t ![dx, dy, 0] ![0, dy, 0]) (by simp [hlen]) hr
  unfold sectorRectangle
  rw [if_neg (by simp [h0, hx, hy])]
  exact ⟨_, _, bind_ok.2 ⟨_, segmentLine_eq hl, bind_ok.2 ⟨_, segmentLine_eq hl,
    bind_ok.2 ⟨_, generateArc_eq ht, bind_ok.2 ⟨_, generateArc_eq ht, bind_ok.2 ⟨_, hA,
    bind_ok.2 ⟨_, hB, bind_ok.2 ⟨_, translateGrid_eq hc, bind_ok.2 ⟨_, translateGrid_eq hc, rfl⟩⟩⟩⟩⟩⟩⟩⟩⟩

theorem rectangleSector_eq (area : Arr3 (V3 ℝ) → List ℝ) {radius dx dy : ℝ}
    (h0 : ¬ (0 < radius ∧ radius < Real.sqrt (dx ^ 2 + dy ^ 2)))
    {xres yres rres : Resolution ℝ} {xm ym rm : Option String}
    {xs ys rs : List ℝ} (hx : resolutionToPerc xres xm = .ok xs)
    (hy : resolutionToPerc yres ym = .ok ys) (hr : resolutionToPerc rres rm = .ok rs)
    {c : Option (List ℝ)} {v : V3 ℝ} (hc : IsCentre c v) :
    ∃ A B : SGrid ℝ δ, rectangleSector area dx dy radius xres yres rres xm ym rm c = .ok (A, B) := by
  obtain ⟨A, hA, _⟩ := surface_lines (δ := δ) area
    (la := ys.map fun t => between t ![dx, dy, 0] ![dx, 0, 0])
    (lb := ys.map fun t => polar radius (45 + t * (0 - 45))) (by simp) hr
  obtain ⟨B, hB, _⟩ := surface_lines (δ := δ) area
    (la := xs.map fun t => between t ![dx, dy, 0] ![0, dy, 0])
    (lb := xs.map fun t => polar radius (45 + t * (90 - 45))) (by simp) hr
  unfold rectangleSector
  rw [if_neg h0]
  exact ⟨_, _, bind_ok.2 ⟨_, segmentLine_eq hx, bind_ok.2 ⟨_, segmentLine_eq hy,
    bind_ok.2 ⟨_, generateArc_eq hy, bind_ok.2 ⟨_, generateArc_eq hx, bind_ok.2 ⟨_, hA,
    bind_ok.2 ⟨_, hB, bind_ok.2 ⟨_, translateGrid_eq hc, bind_ok.2 ⟨_, translateGrid_eq hc, rfl⟩⟩⟩⟩⟩⟩⟩⟩⟩

/-- Sector rectangles are generated for every radius smaller than both sides. -/
theorem C63_sectorRectangle_exists (area : Arr3 (V3 ℝ) → List ℝ) {radius dx dy : ℝ} (h0 : 0 < radius)
    (hx : radius < dx) (hy : radius < dy) (nr nt : ℤ) {rm tm : Option String} (hrm : Supported rm)
    (htm : Supported tm) {c : Option (List ℝ)} {v : V3 ℝ} (hc : IsCentre c v) :
    ∃ A B : SGrid ℝ δ, sectorRectangle area radius dx dy (.int nr) (.int nt) rm tm c = .ok (A, B) := by
  obtain ⟨ls, h1, s1, _⟩ := C11_integer_resolution nt tm htm
  obtain ⟨ts, h2, s2, _⟩ := C11_integer_resolution nt none (Or.inl rfl)
  obtain ⟨rs, h3, _⟩ := C11_integer_resolution nr rm hrm
  exact sectorRectangle_eq area h0 hx hy h1 h2 h3 (by rw [s1.size, s2.size]) hc

/-- Rectangle sectors are generated for every rectangle inside the arc. -/
theorem C63_rectangleSector_exists (area : Arr3 (V3 ℝ) → List ℝ) {radius dx dy : ℝ}
    (h0 : Real.sqrt (dx ^ 2 + dy ^ 2) ≤ radius) (nx ny nr : ℤ) {xm ym rm : Option String}
    (hxm : Supported xm) (hym : Supported ym) (hrm : Supported rm)
    {c : Option (List ℝ)} {v : V3 ℝ} (hc : IsCentre c v) :
    ∃ A B : SGrid ℝ δ,
      rectangleSector area dx dy radius (.int nx) (.int ny) (.int nr) xm ym rm c = .ok (A, B) := by
  obtain ⟨xs, h1, _⟩ := C11_integer_resolution nx xm hxm
  obtain ⟨ys, h2, _⟩ := C11_integer_resolution ny ym hym
  obtain ⟨rs, h3, _⟩ := C11_integer_resolution nr rm hrm
  exact rectangleSector_eq area (fun h => absurd h.2 (not_lt.2 h0)) h1 h2 h3 hc

/-- The hypotheses of `C63_rectangleSector_conform_partial` hold for a half by half square in the unit
sector (the defaults of `RectangleSector`). -/
example : Real.sqrt ((1 / 2) ^ 2 + (1 / 2) ^ 2) ≤ (1 : ℝ) ∧ (1 / 2 : ℝ) * Real.sqrt 2 ≤ 1 := by
  have h : Real.sqrt 2 ≤ 2 := by
    rw [Real.sqrt_le_left (by norm_num)]; norm_num
  refine ⟨?_, by linarith⟩
  rw [Real.sqrt_le_left (by norm_num)]; norm_num

theorem npSort_three {x : ℝ} (h0 : 0 ≤ x) (h1 : x ≤ 1) (m : Option String) :
    resolutionToPerc (.array [0, x, 1]) m = .ok [0, x, 1] := by
  simp only [resolutionToPerc, npSort]
  congr 1
  apply List.Pairwise.insertionSort_eq
  simp [h0, h1]

/-- **C63 is false for RectangleSector when the rectangle reaches beyond the middle of the arc.**  A
rectangle of 1.8 by 0.6 is inside the arc of radius 2, but node (1, 1) of the lower half coincides with
node (1, 0) of the upper half (on the upper edge of the rectangle): the halves overlap. -/
theorem C63_rectangleSector_refuted (area : Arr3 (V3 ℝ) → List ℝ) :
    Real.sqrt ((9 / 5) ^ 2 + (3 / 5) ^ 2) < (2 : ℝ) ∧
    ∃ (x : ℝ) (A B : SGrid ℝ δ), 0 < x ∧ x < 1 ∧
      rectangleSector area (9 / 5) (3 / 5) 2 (.array [0, x, 1]) (.array [0, 1 / 3, 1])
        (.array [0, 1 / 3, 1]) none none none none = .ok (A, B) ∧
      (A.points[vtkId A.nodes.d ![1, 1, 0]]?).isSome ∧
      A.points[vtkId A.nodes.d ![1, 1, 0]]? = B.points[vtkId B.nodes.d ![1, 0, 0]]? := by
  have h3 : Real.sqrt 3 ^ 2 = 3 := Real.sq_sqrt (by norm_num)
  have p3 : 0 < Real.sqrt 3 := Real.sqrt_pos.2 (by norm_num)
  have b1 : Real.sqrt 3 < 9 / 5 := by
    rw [Real.sqrt_lt' (by norm_num)]; norm_num
  have hs : Real.sqrt ((9 / 5) ^ 2 + (3 / 5) ^ 2) < (2 : ℝ) := by
    rw [Real.sqrt_lt' (by norm_num)]; norm_num
  refine ⟨hs, ?_⟩
  obtain ⟨x, hx⟩ : ∃ x, x = 1 - (6 / 5 + Real.sqrt 3 / 3) / (9 / 5) := ⟨_, rfl⟩
  have x0 : 0 < x := by rw [hx]; linarith
  have x1 : x < 1 := by rw [hx]; linarith
  have r1 := npSort_three x0.le x1.le none
  have r2 := npSort_three (x := 1 / 3) (by norm_num) (by norm_num) none
  obtain ⟨A, B, hAB⟩ := rectangleSector_eq (δ := δ) area (radius := 2) (dx := 9 / 5) (dy := 3 / 5)
    (fun h => absurd h.2 (not_lt.2 hs.le)) r1 r2 r2 (Or.inl ⟨rfl, rfl⟩)
  refine ⟨x, A, B, x0, x1, hAB, ?_⟩
  obtain ⟨xs, ys, rs, v, g1, g2, g3, g4, g5, g6, g7, g8⟩ := C63_rectangleSector_nodes hAB
  rw [r1] at g1; cases g1
  rw [r2] at g2; cases g2
  rw [r2] at g3; cases g3
  rw [g7 1 1 (1 / 3) (1 / 3) rfl rfl, g8 1 0 x 0 rfl rfl]
  refine ⟨rfl, ?_⟩
  have ea : Real.pi * (45 - 45 * (1 / 3)) / 180 = Real.pi / 6 := by ring
  congr 2
  simp only [polar, ea, Real.cos_pi_div_six, Real.sin_pi_div_six]
  funext ax
  fin_cases ax
  · simp [between, hx]; ring
  · simp [between]; norm_num
  · simp [between]

/-! ## C64 -/

/-- **C64, partial.** Sector, Circle, AnnularSector, Annulus, CylindricalShell(Sector), SectorRectangle
and SectorSquare reject non-positive radii (annuli: a negative inner radius or inner >= outer).
Missing: RectangleSector and SquareSector, see `C64_rectangleSector_refuted`; these only reject
positive radii smaller than the diagonal of the rectangle. -/
theorem C64_radii_partial [Inhabited δ] (area volume : Arr3 (V3 ℝ) → List ℝ)
    (radius ri ro a b height dx dy : ℝ) (r1 r2 r3 : Resolution ℝ) (m1 m2 m3 : Option String)
    (c : Option (List ℝ)) :
    (radius ≤ 0 → sector radius a b r1 m1 c = .error .valueError ∧
      circle radius r1 m1 c = .error .valueError ∧
      sectorRectangle (δ := δ) area radius dx dy r1 r2 m1 m2 c = .error .valueError ∧
      sectorSquare (δ := δ) area radius dx r1 r2 m1 m2 c = .error .valueError) ∧
    (dx ≤ radius ∨ dy ≤ radius →
      sectorRectangle (δ := δ) area radius dx dy r1 r2 m1 m2 c = .error .valueError) ∧
    (ri < 0 ∨ ro ≤ ri →
      annularSector (δ := δ) area ri ro a b r1 r2 m1 m2 c = .error .valueError ∧
      annulus (δ := δ) area ri ro r1 r2 m1 m2 c = .error .valueError ∧
      (∃ e, cylindricalShellSector (δ := δ) area volume ri ro a b height r1 r2 r3 m1 m2 m3 c =
        .error e) ∧
      (∃ e, cylindricalShell (δ := δ) area volume ri ro height r1 r2 r3 m1 m2 m3 c = .error e)) ∧
    (0 < radius → radius ^ 2 < dx ^ 2 + dy ^ 2 →
      rectangleSector (δ := δ) area dx dy radius r1 r2 r3 m1 m2 m3 c = .error .valueError) ∧
    (0 < radius → radius ^ 2 < 2 * dx ^ 2 →
      squareSector (δ := δ) area dx radius r1 r2 m1 m2 c = .error .valueError) := by
  have hsr : ∀ radius dx dy : ℝ, ¬ (0 < radius ∧ radius < min dx dy) →
      sectorRectangle (δ := δ) area radius dx dy r1 r2 m1 m2 c = .error .valueError := by
    intro radius dx dy h
    unfold sectorRectangle; rw [if_pos h]
  have han : ∀ a b c, (ri < 0 ∨ ro ≤ ri) →
      annularSector (δ := δ) area ri ro a b r1 r2 m1 m2 c = .error .valueError := by
    intro a b c h
    unfold annularSector
    rw [if_pos]
    rintro ⟨h0, h1⟩
    rcases h with h | h <;> linarith
  have hcy : ∀ a b, (ri < 0 ∨ ro ≤ ri) →
      ∃ e, cylindricalShellSector (δ := δ) area volume ri ro a b height r1 r2 r3 m1 m2 m3 c =
        .error e := by
    intro a b h
    unfold cylindricalShellSector
    simp only [han a b none h]
    split
    · exact ⟨_, rfl⟩
    · exact ⟨.valueError, rfl⟩
  have hre : ∀ dx dy : ℝ, ∀ r1 r2 r3 m1 m2 m3, 0 < radius → radius ^ 2 < dx ^ 2 + dy ^ 2 →
      rectangleSector (δ := δ) area dx dy radius r1 r2 r3 m1 m2 m3 c = .error .valueError := by
    intro dx dy r1 r2 r3 m1 m2 m3 h0 h1
    unfold rectangleSector
    rw [if_pos ⟨h0, (Real.lt_sqrt h0.le).2 h1⟩]
  refine ⟨fun h => ⟨?_, ?_, hsr _ _ _ ?_, hsr _ _ _ ?_⟩, fun h => hsr _ _ _ ?_,
    fun h => ⟨han _ _ _ h, han _ _ _ h, hcy _ _ h, hcy _ _ h⟩, hre _ _ _ _ _ _ _ _, fun h0 h1 => ?_⟩
  · unfold sector; rw [if_pos h]
  · unfold circle sector; rw [if_pos h]
  · rintro ⟨h1, _⟩; linarith
  · rintro ⟨h1, _⟩; linarith
  · rintro ⟨_, h1⟩
    rw [lt_min_iff] at h1
    rcases h with h | h <;> linarith
  · exact hre _ _ _ _ _ _ _ _ h0 (by linarith)

/-- **C64 is false for RectangleSector and SquareSector**: a radius of -1 (or 0) is accepted. -/
theorem C64_rectangleSector_refuted (area : Arr3 (V3 ℝ) → List ℝ) {radius : ℝ} (h : radius ≤ 0)
    (dx dy : ℝ) :
    (∃ M, rectangleSector (δ := δ) area dx dy radius .none .none .none none none none none = .ok M) ∧
    (∃ M, squareSector (δ := δ) area dx radius .none .none none none none = .ok M) := by
  obtain ⟨ts, hts, _⟩ := C11_integer_resolution 1 none (Or.inl rfl)
  have hts : resolutionToPerc .none none = .ok ts := hts
  have h0 : ∀ dy, ¬ (0 < radius ∧ radius < Real.sqrt (dx ^ 2 + dy ^ 2)) := fun _ h' => by
    linarith [h'.1]
  obtain ⟨A, B, e⟩ := rectangleSector_eq (δ := δ) area (h0 dy) hts hts hts (Or.inl ⟨rfl, rfl⟩)
  obtain ⟨A', B', e'⟩ := rectangleSector_eq (δ := δ) area (h0 dx) hts hts hts (Or.inl ⟨rfl, rfl⟩)
  exact ⟨⟨_, e⟩, ⟨_, e'⟩⟩

/-! ## C83: the centre argument -/

theorem translate_move (x : Py (SGrid ℝ δ)) {c : Option (List ℝ)} {v : V3 ℝ} (hc : IsCentre c v) :
    (x >>= fun M => translateGrid M c) = (x >>= fun M => translateGrid M none).map (moveGrid v) := by
  cases x with
  | error e => rfl
  | ok M =>
    show translateGrid M c = (translateGrid M none).map (moveGrid v)
    rw [translateGrid_eq hc, translateGrid_eq (Or.inl ⟨rfl, rfl⟩)]
    simp only [Except.map, moveGrid]
    simp

theorem translate_move_pair (x y : Py (SGrid ℝ δ)) {c : Option (List ℝ)} {v : V3 ℝ}
    (hc : IsCentre c v) :
    (x >>= fun M => y >>= fun N => translateGrid M c >>= fun a => translateGrid N c >>= fun b =>
      (.ok (a, b) : Py (SGrid ℝ δ × SGrid ℝ δ))) =
    (x >>= fun M => y >>= fun N => translateGrid M none >>= fun a =>
      translateGrid N none >>= fun b => (.ok (a, b) : Py (SGrid ℝ δ × SGrid ℝ δ))).map
        (fun M => (moveGrid v M.1, moveGrid v M.2)) := by
  have hn : IsCentre none (0 : V3 ℝ) := Or.inl ⟨rfl, rfl⟩
  have hm : ∀ M : SGrid ℝ δ, moveGrid v (moveGrid 0 M) = moveGrid v M := by
    intro M; simp [moveGrid]
  cases x with
  | error e => rfl
  | ok M =>
    cases y with
    | error e => rfl
    | ok N =>
      simp only [bind, Except.bind, Except.map]
      rw [translateGrid_eq (M := M) hc, translateGrid_eq (M := N) hc, translateGrid_eq (M := M) hn,
        translateGrid_eq (M := N) hn]
      simp only [hm]

/-- **C83, partial.** Every object generated with `center` is the object generated without it, moved by
that vector (z = 0 if it has two components), errors included.  Missing: cylindrical shells, whose
centre must have three components (`C83_shell_refuted`). -/
theorem C83_centre_partial (area : Arr3 (V3 ℝ) → List ℝ) {c : Option (List ℝ)} {v : V3 ℝ}
    (hc : IsCentre c v) (radius ri ro a b dx dy : ℝ) (pts : Option (List (List ℝ)))
    (r1 r2 r3 : Resolution ℝ) (m1 m2 m3 : Option String) :
    sector radius a b r1 m1 c = (sector radius a b r1 m1 none).map
      (fun M => ⟨M.points.map (· + v), M.cells⟩) ∧
    annularSector (δ := δ) area ri ro a b r1 r2 m1 m2 c =
      (annularSector area ri ro a b r1 r2 m1 m2 none).map (moveGrid v) ∧
    quadrilateral (δ := δ) area pts r1 r2 m1 m2 c =
      (quadrilateral area pts r1 r2 m1 m2 none).map (moveGrid v) ∧
    rectangle (δ := δ) area dx dy r1 r2 m1 m2 c =
      (rectangle area dx dy r1 r2 m1 m2 none).map (moveGrid v) ∧
    sectorRectangle (δ := δ) area radius dx dy r1 r2 m1 m2 c =
      (sectorRectangle area radius dx dy r1 r2 m1 m2 none).map
        (fun M => (moveGrid v M.1, moveGrid v M.2)) ∧
    rectangleSector (δ := δ) area dx dy radius r1 r2 r3 m1 m2 m3 c =
      (rectangleSector area dx dy radius r1 r2 r3 m1 m2 m3 none).map
        (fun M => (moveGrid v M.1, moveGrid v M.2)) := by
  have hn : IsCentre none (0 : V3 ℝ) := Or.inl ⟨rfl, rfl⟩
  have hq : ∀ pts, quadrilateral (δ := δ) area pts r1 r2 m1 m2 c =
      (quadrilateral area pts r1 r2 m1 m2 none).map (moveGrid v) := by
    intro pts
    unfold quadrilateral
    split
    · rename_i p0 p1 p2 p3 _ _
      cases segmentLine p0 p1 r1 m1 with
      | error e => rfl
      | ok la =>
        cases segmentLine p3 p2 r1 m1 with
        | error e => rfl
        | ok lb => exact translate_move _ hc
    · rfl
  refine ⟨?_, ?_, hq _, hq _, ?_, ?_⟩
  · unfold sector
    split
    · rfl
    · cases generateArc radius a b r1 m1 with
      | error e => rfl
      | ok pts =>
        simp only [translationVector_ok.2 hc, translationVector_ok.2 hn, bind, Except.bind,
          Except.map]
        simp
  · unfold annularSector
    split
    · rfl
    · cases generateArc ri a b r2 m2 with
      | error e => rfl
      | ok la =>
        cases generateArc ro a b r2 m2 with
        | error e => rfl
        | ok lb => exact translate_move _ hc
  · unfold sectorRectangle
    split
    · rfl
    · cases segmentLine [dx, dy] [0, dy] r2 m2 with
      | error e => rfl
      | ok lx =>
      cases segmentLine [dx, dy] [dx, 0] r2 m2 with
      | error e => rfl
      | ok ly =>
      cases generateArc radius 45 0 r2 none with
      | error e => rfl
      | ok l45 =>
      cases generateArc radius 45 90 r2 none with
      | error e => rfl
      | ok l90 => exact translate_move_pair _ _ hc
  · unfold rectangleSector
    split
    · rfl
    · cases segmentLine [dx, dy] [0, dy] r1 m1 with
      | error e => rfl
      | ok lx =>
      cases segmentLine [dx, dy] [dx, 0] r2 m2 with
      | error e => rfl
      | ok ly =>
      cases generateArc radius 45 0 r2 m2 with
      | error e => rfl
      | ok l45 =>
      cases generateArc radius 45 90 r1 m1 with
      | error e => rfl
      | ok l90 => exact translate_move_pair _ _ hc

/-- **C83 is false for cylindrical shells with a centre of two components**, accepted by all the other
objects: `IndexError`. -/
theorem C83_shell_refuted [Inhabited δ] (area volume : Arr3 (V3 ℝ) → List ℝ)
    (ri ro a b height x y : ℝ) (r1 r2 r3 : Resolution ℝ) (m1 m2 m3 : Option String) :
    cylindricalShellSector (δ := δ) area volume ri ro a b height r1 r2 r3 m1 m2 m3 (some [x, y]) =
      .error .indexError := rfl

/-! ## C84: what the centre argument is the centre of -/

/-- **C84, partial.** Cylindrical shells are centred vertically: with an integer resolution the nodes of
the first layer are half the height below the centre and those of the last one half the height above
(sectors and annuli: see C63, all nodes at the given distance).  Missing: rectangles, see
`C84_rectangle_refuted`. -/
theorem C84_shell_partial [Inhabited δ] {area volume : Arr3 (V3 ℝ) → List ℝ} {ri ro a b height : ℝ}
    {rres tres : Resolution ℝ} {nz : ℤ} {rm tm zm : Option String} (hz : Supported zm)
    {c : Option (List ℝ)} {M : SGrid ℝ δ}
    (h : cylindricalShellSector area volume ri ro a b height rres tres (.int nz) rm tm zm c = .ok M) :
    ∃ v, IsCentre c v ∧ ∀ p q, p < M.nodes.d 0 → q < M.nodes.d 1 → ∃ x y : Fin 3 → ℝ,
      M.points[vtkId M.nodes.d ![p, q, 0]]? = some x ∧ x 2 = v 2 - height / 2 ∧
      M.points[vtkId M.nodes.d ![p, q, (max 1 nz).toNat]]? = some y ∧ y 2 = v 2 + height / 2 := by
  obtain ⟨ts, rs, zs, v, h1, h2, h3, h4, h5, h6⟩ := C63_shell h
  obtain ⟨zs', g, sub, _⟩ := C11_integer_resolution nz zm hz
  rw [g] at h3; cases h3
  refine ⟨v, h4, ?_⟩
  intro p q hp hq
  rw [h5] at hp hq
  have hp : p < ts.length := by simpa using hp
  have hq : q < rs.length := by simpa using hq
  refine ⟨_, _, h6 p q 0 _ _ 0 (List.getElem?_eq_getElem hp) (List.getElem?_eq_getElem hq) sub.first,
    ?_, h6 p q _ _ _ 1 (List.getElem?_eq_getElem hp) (List.getElem?_eq_getElem hq) sub.last, ?_⟩
  · show v 2 + 0 + (0 - 1 / 2) * height = _
    ring
  · show v 2 + 0 + (1 - 1 / 2) * height = _
    ring

/-- Nodes of a rectangle: corner (0, 0) is at the `center` argument, corner (nx, ny) at distance
(dx, dy) from it. -/
theorem C84_rectangle_nodes {area : Arr3 (V3 ℝ) → List ℝ} {dx dy : ℝ} {xres yres : Resolution ℝ}
    {xm ym : Option String} {c : Option (List ℝ)} {M : SGrid ℝ δ}
    (h : rectangle area dx dy xres yres xm ym c = .ok M) :
    ∃ xs ys v, resolutionToPerc xres xm = .ok xs ∧ resolutionToPerc yres ym = .ok ys ∧
      IsCentre c v ∧ M.nodes.d = ![xs.length, ys.length, 1] ∧
      ∀ p q s t, xs[p]? = some s → ys[q]? = some t →
        M.points[vtkId M.nodes.d ![p, q, 0]]? = some (v + ![s * dx, t * dy, 0]) := by
  unfold rectangle quadrilateral at h
  simp only [Option.getD_some, bind_ok] at h
  obtain ⟨la, h1, lb, h2, M', h3, h4⟩ := h
  obtain ⟨xs, e1, rfl⟩ := segmentLine_ok h1
  obtain ⟨xs', e2, rfl⟩ := segmentLine_ok h2
  rw [e1] at e2; cases e2
  obtain ⟨ys, v, g1, g2, g3, g4⟩ := surface_moved h3 h4
  refine ⟨xs, ys, v, e1, g1, g2, by simpa using g3, ?_⟩
  intro p q s t hs ht
  rw [g4 p q _ _ t (by rw [List.getElem?_map, hs]; rfl) (by rw [List.getElem?_map, hs]; rfl) ht]
  congr 2
  funext ax
  fin_cases ax
  · show (1 - t) * ((1 - s) * 0 + s * dx) + t * ((1 - s) * 0 + s * dx) = s * dx
    ring
  · show (1 - t) * ((1 - s) * 0 + s * 0) + t * ((1 - s) * dy + s * dy) = t * dy
    ring
  · show (1 - t) * ((1 - s) * 0 + s * 0) + t * ((1 - s) * 0 + s * 0) = 0
    ring

/-- **C84 is false for rectangles and squares**: `center` is the position of the first corner; no
rectangle with a side different from 0 has the middle of its two opposite corners there. -/
theorem C84_rectangle_refuted {area : Arr3 (V3 ℝ) → List ℝ} {dx dy : ℝ} (hd : dx ≠ 0 ∨ dy ≠ 0)
    {nx ny : ℤ} {xm ym : Option String} (hx : Supported xm) (hy : Supported ym)
    {c : Option (List ℝ)} {v : V3 ℝ} (hc : IsCentre c v) {M : SGrid ℝ δ}
    (h : rectangle area dx dy (.int nx) (.int ny) xm ym c = .ok M) :
    ∃ p q, M.points[vtkId M.nodes.d ![0, 0, 0]]? = some p ∧
      M.points[vtkId M.nodes.d ![(max 1 nx).toNat, (max 1 ny).toNat, 0]]? = some q ∧
      p = v ∧ (∃ ax, (p ax + q ax) / 2 ≠ v ax) := by
  obtain ⟨xs, ys, v', h1, h2, h3, h4, h5⟩ := C84_rectangle_nodes h
  cases centre_unique hc h3
  obtain ⟨xs', g, subX, _⟩ := C11_integer_resolution nx xm hx
  rw [g] at h1; cases h1
  obtain ⟨ys', g', subY, _⟩ := C11_integer_resolution ny ym hy
  rw [g'] at h2; cases h2
  refine ⟨_, _, h5 0 0 0 0 subX.first subY.first, h5 _ _ 1 1 subX.last subY.last, ?_, ?_⟩
  · funext ax; fin_cases ax <;> simp
  · rcases hd with hd | hd
    · refine ⟨0, ?_⟩
      show (v 0 + 0 * dx + (v 0 + 1 * dx)) / 2 ≠ v 0
      intro e
      apply hd; linarith
    · refine ⟨1, ?_⟩
      show (v 1 + 0 * dy + (v 1 + 1 * dy)) / 2 ≠ v 1
      intro e
      apply hd; linarith

/-! ## C85: theta_method of SectorRectangle -/

/-- **C85, partial.** With the constant method (or none) node p of the arc and of the edge of a
SectorRectangle are at the same fraction, that of the requested subdivision.  Missing: the methods log
and log_r, see `C85_theta_method_refuted`. -/
theorem C85_theta_method_partial {area : Arr3 (V3 ℝ) → List ℝ} {radius dx dy : ℝ}
    {rres : Resolution ℝ} {nt : ℤ} {rm tm : Option String} (hm : methodName tm = "constant")
    {c : Option (List ℝ)} {A B : SGrid ℝ δ}
    (h : sectorRectangle area radius dx dy rres (.int nt) rm tm c = .ok (A, B)) :
    ∃ rs v, resolutionToPerc rres rm = .ok rs ∧ IsCentre c v ∧
      ∀ p q s, p ≤ (max 1 nt).toNat → rs[q]? = some s →
        A.points[vtkId A.nodes.d ![p, q, 0]]? = some (v + between s
          (polar radius (45 - 45 * ((p : ℝ) / ((max 1 nt : ℤ) : ℝ))))
          ![dx, (1 - (p : ℝ) / ((max 1 nt : ℤ) : ℝ)) * dy, 0]) ∧
        B.points[vtkId B.nodes.d ![p, q, 0]]? = some (v + between s
          (polar radius (45 + 45 * ((p : ℝ) / ((max 1 nt : ℤ) : ℝ))))
          ![(1 - (p : ℝ) / ((max 1 nt : ℤ) : ℝ)) * dx, dy, 0]) := by
  obtain ⟨_, _, _, ls, ts, rs, v, h1, h2, h3, h4, _, _, _, h8⟩ := C63_sectorRectangle_nodes h
  obtain ⟨ls', g1, _, c1, _⟩ := C11_integer_resolution nt tm (Or.inl hm)
  rw [g1] at h1; cases h1
  obtain ⟨ts', g2, _, c2, _⟩ := C11_integer_resolution nt none (Or.inl rfl)
  rw [g2] at h2; cases h2
  exact ⟨rs, v, h3, h4, fun p q s hp hs => h8 p q _ _ s (c1 hm p hp) (c2 rfl p hp) hs⟩

/-- **C85 is false for the method log**: with two subdivisions the middle node of the lower arc is at
half the angle, whatever the method, while the method asks for another fraction. -/
theorem C85_theta_method_refuted {area : Arr3 (V3 ℝ) → List ℝ} {radius dx dy : ℝ}
    {nr : ℤ} {rm : Option String} (hrm : Supported rm) {A B : SGrid ℝ δ}
    (h : sectorRectangle area radius dx dy (.int nr) (.int 2) rm (some "log") none = .ok (A, B)) :
    ∃ ls l, resolutionToPerc (.int 2) (some "log") = .ok ls ∧ ls[1]? = some l ∧ l ≠ 1 / 2 ∧
      A.points[vtkId A.nodes.d ![1, 0, 0]]? = some (polar radius (45 - 45 * (1 / 2))) ∧
      polar radius (45 - 45 * (1 / 2)) ≠ polar radius (45 - 45 * l) := by
  obtain ⟨r0, _, _, ls, ts, rs, v, h1, h2, h3, h4, _, _, _, h8⟩ := C63_sectorRectangle_nodes h
  cases centre_unique h4 (Or.inl ⟨rfl, rfl⟩)
  obtain ⟨rs', g3, subR, _⟩ := C11_integer_resolution nr rm hrm
  rw [g3] at h3; cases h3
  have hsup : Supported (some "log") := Or.inr (Or.inl rfl)
  have e1 := resolutionToPerc_int hsup 2
  rw [h1] at e1
  have e1 := Except.ok.inj e1
  obtain ⟨ls', g1, subL, _⟩ := C11_integer_resolution 2 (some "log") hsup
  rw [g1] at h1; cases h1
  obtain ⟨ts', g2, _, c2, _⟩ := C11_integer_resolution 2 none (Or.inl rfl)
  rw [g2] at h2; cases h2
  have hl : ls[1]? = some (posOf "log" (1 / 2)) := by
    have e2 : ((max 1 2 : ℤ)).toNat = 2 := by decide
    have e3 : methodName (some "log") = "log" := rfl
    rw [e1, e2, e3, List.getElem?_map, List.getElem?_range (by decide)]
    norm_num
  have ht : ts[1]? = some (1 / 2) := by
    rw [c2 rfl 1 (by decide)]; norm_num
  obtain ⟨l0, l1, _⟩ := subdivision_range subL hl
  have hne : posOf "log" (1 / 2) ≠ 1 / 2 := by
    have e : posOf "log" (1 / 2) = 1 - Real.logb 10 (11 / 2) := by
      simp only [posOf]
      rw [if_neg (by decide), if_neg (by decide)]
      norm_num
    rw [e]
    intro h
    have h' : Real.logb 10 (11 / 2) = 1 / 2 := by linarith
    have h2 : Real.logb 10 ((11 / 2) ^ 2) = 1 := by
      rw [Real.logb_pow, h']; norm_num
    have h3 := (Real.logb_eq_iff_rpow_eq (by norm_num) (by norm_num) (by norm_num)).1 h2
    norm_num at h3
  refine ⟨ls, _, g1, hl, hne, ?_, ?_⟩
  · rw [(h8 1 0 _ _ 0 hl ht subR.first).1]
    congr 1
    funext ax; simp [between]
  · intro he
    have hx := congrFun he 0
    simp only [polar, Matrix.cons_val_zero] at hx
    have hx := mul_left_cancel₀ r0.ne' hx
    have hpi := Real.pi_pos
    have := Real.injOn_cos (x₁ := Real.pi * (45 - 45 * (1 / 2)) / 180)
      (x₂ := Real.pi * (45 - 45 * posOf "log" (1 / 2)) / 180)
      ⟨by positivity, by nlinarith⟩ ⟨by apply div_nonneg _ (by norm_num); apply mul_nonneg hpi.le; linarith, by nlinarith⟩ hx
    apply hne
    have : Real.pi * (posOf "log" (1 / 2) - 1 / 2) = 0 := by linarith
    rcases mul_eq_zero.1 this with h | h
    · linarith
    · linarith

/-! ## C94: special shapes -/

section special
variable {δ : Type} [OfNat δ 0] [OfNat δ 32]

/-- **C94 (Circle).** The circle is the full sector. -/
theorem C94_circle {radius : ℝ} {res : Resolution ℝ} {m : Option String} {c : Option (List ℝ)} {M : TriMesh ℝ}
    (h : circle radius res m c = .ok M) :
    ∃ ts v, resolutionToPerc res m = .ok ts ∧ IsCentre c v ∧ M.points.length = ts.length + 1 ∧
      M.points[0]? = some v ∧
      ∀ p t, ts[p]? = some t → M.points[p + 1]? = some (v + polar radius (360 * t)) := by
  obtain ⟨ts, v, h1, h2, h3, h4, h5, _⟩ := C63_sector h
  refine ⟨ts, v, h1, h2, h3, h4, fun p t ht => ?_⟩
  rw [h5 p t ht]
  congr 3
  ring

/-- **C94 (Annulus).** The annulus is the full annular sector. -/
theorem C94_annulus {area : Arr3 (V3 ℝ) → List ℝ} {ri ro : ℝ} {rres tres : Resolution ℝ} {rm tm : Option String}
    {c : Option (List ℝ)} {M : SGrid ℝ δ} (h : annulus area ri ro rres tres rm tm c = .ok M) :
    ∃ ts rs v, resolutionToPerc tres tm = .ok ts ∧ resolutionToPerc rres rm = .ok rs ∧ IsCentre c v ∧
      M.nodes.d = ![ts.length, rs.length, 1] ∧
      ∀ p q t s, ts[p]? = some t → rs[q]? = some s →
        M.points[vtkId M.nodes.d ![p, q, 0]]? = some (v + polar (ri + s * (ro - ri)) (360 * t)) := by
  obtain ⟨ts, rs, v, h1, h2, h3, h4, h5, _⟩ := C63_annularSector h
  refine ⟨ts, rs, v, h1, h2, h3, h4, fun p q t s ht hs => ?_⟩
  rw [h5 p q t s ht hs]
  congr 3
  ring

/-- **C94 (CylindricalShell).** The shell is the full shell sector. -/
theorem C94_shell [Inhabited δ] {area volume : Arr3 (V3 ℝ) → List ℝ} {ri ro height : ℝ}
    {rres tres zres : Resolution ℝ} {rm tm zm : Option String} {c : Option (List ℝ)} {M : SGrid ℝ δ}
    (h : cylindricalShell area volume ri ro height rres tres zres rm tm zm c = .ok M) :
    ∃ ts rs zs v, resolutionToPerc tres tm = .ok ts ∧ resolutionToPerc rres rm = .ok rs ∧
      resolutionToPerc zres zm = .ok zs ∧ IsCentre c v ∧
      M.nodes.d = ![ts.length, rs.length, zs.length] ∧
      (∀ p q k t s w, ts[p]? = some t → rs[q]? = some s → zs[k]? = some w →
        M.points[vtkId M.nodes.d ![p, q, k]]? =
          some (v + polar (ri + s * (ro - ri)) (360 * t) + ![0, 0, (w - 1 / 2) * height])) := by
  obtain ⟨ts, rs, zs, v, h1, h2, h3, h4, h5, h6⟩ := C63_shell h
  refine ⟨ts, rs, zs, v, h1, h2, h3, h4, h5, fun p q k t s w ht hs hw => ?_⟩
  rw [h6 p q k t s w ht hs hw]
  congr 4
  ring

/-- **C94 (Square).** Nodes of a square, with the same subdivision along both sides. -/
theorem C94_square {area : Arr3 (V3 ℝ) → List ℝ} {dx : ℝ} {res : Resolution ℝ} {m : Option String}
    {c : Option (List ℝ)} {M : SGrid ℝ δ} (h : square area dx res m c = .ok M) :
    ∃ xs v, resolutionToPerc res m = .ok xs ∧ IsCentre c v ∧ M.nodes.d = ![xs.length, xs.length, 1] ∧
      ∀ p q s t, xs[p]? = some s → xs[q]? = some t →
        M.points[vtkId M.nodes.d ![p, q, 0]]? = some (v + ![s * dx, t * dx, 0]) := by
  obtain ⟨xs, ys, v, h1, h2, h3, h4, h5⟩ := C84_rectangle_nodes h
  have : ys = xs := by rw [h1] at h2; cases h2; rfl
  subst this
  exact ⟨ys, v, h1, h3, h4, h5⟩

/-- **C94 (SquareSector).** Nodes of the two halves between a square and a sector around it. -/
theorem C94_squareSector {area : Arr3 (V3 ℝ) → List ℝ} {dx radius : ℝ} {xres rres : Resolution ℝ}
    {xm rm : Option String} {c : Option (List ℝ)} {A B : SGrid ℝ δ}
    (h : squareSector area dx radius xres rres xm rm c = .ok (A, B)) :
    ∃ xs rs v, resolutionToPerc xres xm = .ok xs ∧ resolutionToPerc rres rm = .ok rs ∧ IsCentre c v ∧
      A.nodes.d = ![xs.length, rs.length, 1] ∧ B.nodes.d = ![xs.length, rs.length, 1] ∧
      ∀ p q t s, xs[p]? = some t → rs[q]? = some s →
        A.points[vtkId A.nodes.d ![p, q, 0]]? =
          some (v + between s ![dx, (1 - t) * dx, 0] (polar radius (45 - 45 * t))) ∧
        B.points[vtkId B.nodes.d ![p, q, 0]]? =
          some (v + between s ![(1 - t) * dx, dx, 0] (polar radius (45 + 45 * t))) := by
  obtain ⟨xs, ys, rs, v, h1, h2, h3, h4, h5, h6, h7, h8⟩ := C63_rectangleSector_nodes h
  have : ys = xs := by rw [h1] at h2; cases h2; rfl
  subst this
  exact ⟨ys, rs, v, h1, h3, h4, h5, h6, fun p q t s ht hs => ⟨h7 p q t s ht hs, h8 p q t s ht hs⟩⟩

/-- **C94 (SectorSquare).** Nodes of the two halves between a sector and a square around it. -/
theorem C94_sectorSquare {area : Arr3 (V3 ℝ) → List ℝ} {radius dx : ℝ} {rres tres : Resolution ℝ}
    {rm tm : Option String} {c : Option (List ℝ)} {A B : SGrid ℝ δ}
    (h : sectorSquare area radius dx rres tres rm tm c = .ok (A, B)) :
    0 < radius ∧ radius < dx ∧
    ∃ ls ts rs v, resolutionToPerc tres tm = .ok ls ∧ resolutionToPerc tres none = .ok ts ∧
      resolutionToPerc rres rm = .ok rs ∧ IsCentre c v ∧
      A.nodes.d = ![ts.length, rs.length, 1] ∧ B.nodes.d = ![ts.length, rs.length, 1] ∧
      ∀ p q l t s, ls[p]? = some l → ts[p]? = some t → rs[q]? = some s →
        A.points[vtkId A.nodes.d ![p, q, 0]]? =
          some (v + between s (polar radius (45 - 45 * t)) ![dx, (1 - l) * dx, 0]) ∧
        B.points[vtkId B.nodes.d ![p, q, 0]]? =
          some (v + between s (polar radius (45 + 45 * t)) ![(1 - l) * dx, dx, 0]) := by
  obtain ⟨h0, h1, _, ls, ts, rs, v, h2, h3, h4, h5, h6, h7, _, h8⟩ := C63_sectorRectangle_nodes h
  exact ⟨h0, h1, ls, ts, rs, v, h2, h3, h4, h5, h6, h7, h8⟩

/-- **C63.** A cylindrical shell exists for all valid radii, integer resolutions and a centre with three
components. -/
theorem C63_shell_exists [Inhabited δ] {area : Arr3 (V3 ℝ) → List ℝ} (volume : Arr3 (V3 ℝ) → List ℝ)
    (harea : ∀ N, (area N).length = count (cells N.d)) {ri ro : ℝ} (h0 : 0 ≤ ri) (h1 : ri < ro)
    (a b height : ℝ) (nr nt nz : ℤ) {rm tm zm : Option String} (hrm : Supported rm) (htm : Supported tm)
    (hzm : Supported zm) (x y z : ℝ) :
    ∃ M : SGrid ℝ δ, cylindricalShellSector area volume ri ro a b height (.int nr) (.int nt) (.int nz) rm tm zm
      (some [x, y, z]) = .ok M := by
  obtain ⟨ts, ht, st, _⟩ := C11_integer_resolution nt tm htm
  obtain ⟨rs, hr, sr, _⟩ := C11_integer_resolution nr rm hrm
  obtain ⟨zs, hz, sz, _⟩ := C11_integer_resolution nz zm hzm
  obtain ⟨A, hA, hp, N, hN, hcd⟩ := annularSector_eq (δ := δ) area h0 h1 a b ht hr (c := none) (v := 0) (Or.inl ⟨rfl, rfl⟩)
  obtain ⟨ts', rs', v, k1, k2, _, k4, _⟩ := C63_annularSector hA
  rw [ht] at k1
  rw [hr] at k2
  cases k1
  cases k2
  have hlt := st.size
  have hlr := sr.size
  have hlz := sz.size
  have hflat : FlatAlong A.nodes.d 2 := by
    rw [k4]
    refine ⟨rfl, ?_⟩
    intro ax hax
    fin_cases ax
    · show 2 ≤ ts.length; omega
    · show 2 ≤ rs.length; omega
    · exact absurd rfl hax
  have hcells : A.cellData = [("vtkGhostType", ⟨false, List.zipWith (fun g h => if h then 32 else g)
      (List.replicate (count (cells A.nodes.d)) 0) ((area N).map fun x => decide (x = 0))⟩)] := by
    rw [hcd, planeShape_xy, ← k4]
    rfl
  have harr : Arrays (count (cells A.nodes.d)) A.cellData := by
    rw [hcells]
    refine ⟨?_, by simp⟩
    intro kv hkv
    simp only [List.mem_cons, List.not_mem_nil, or_false] at hkv
    subst hkv
    simp [harea, hN, k4]
  obtain ⟨V, hV, _⟩ := (C17_structured_volume_partial volume A (moveGrid ![0, 0, height] A) (.int nz) zm).1 2 zs rfl hflat
    (by rw [hp]; exact ⟨by simp, by simp⟩) harr hz (by omega) (Or.inl (by
      rw [hcells]; intro kv hkv
      simp only [List.mem_cons, List.not_mem_nil, or_false] at hkv
      subst hkv; rfl))
  refine ⟨moveGrid ![x, y, z - 1 / 2 * height] V, ?_⟩
  unfold cylindricalShellSector
  simp only [Option.getD_some]
  rw [if_neg (by simp)]
  refine bind_ok.2 ⟨_, hA, bind_ok.2 ⟨_, hV, ?_⟩⟩
  rw [modify_two]
  exact translateGrid_eq (Or.inr (Or.inl (by simp)))

/-- A shell of radii 1 and 2 and height 3 in 2 x 8 x 3 cells, if VTK returns one area per cell. -/
example {δ : Type} [OfNat δ 0] [OfNat δ 32] [Inhabited δ] (volume : Arr3 (V3 ℝ) → List ℝ) :
    ∃ M : SGrid ℝ δ, cylindricalShell (fun N => List.replicate (count (cells N.d)) 1) volume 1 2 3 (.int 2) (.int 8)
      (.int 3) none none none (some [1, 1, 1]) = .ok M :=
  C63_shell_exists volume (fun N => by simp) (by norm_num) (by norm_num) 0 360 3 2 8 3 (Or.inl rfl) (Or.inl rfl)
    (Or.inl rfl) 1 1 1

end special

end Gridder
