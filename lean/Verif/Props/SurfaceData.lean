import Verif.Model.Wrappers
import Verif.Props.Surface

/-!
# C113, C114: point data of surfaces, surfaces without lines
-/

namespace Gridder
open Spec

section data
variable {K : Type*} [Field K] [DecidableEq K] {δ : Type*} [OfNat δ 0] [OfNat δ 32]

/-- The surface only depends on the line through its points in the order of the line, and its data. -/
theorem surface_ordered (area : Arr3 (V3 K) → List K) (pts : List (V3 K)) (ids : List ℕ)
    (pd cd : Dict String (DArr δ)) (lineB : LineArg K δ) (plane : String) (perc : List K) :
    generateSurfaceCore area (.poly pts ids pd cd) lineB plane perc =
      generateSurfaceCore area (.poly (ids.map fun i => pts.getD i 0) (List.range ids.length) pd cd) lineB plane perc := by
  have h : (LineArg.poly (ids.map fun i => pts.getD i 0) (List.range ids.length) pd cd).points =
      (LineArg.poly pts ids pd cd).points := by
    simp only [LineArg.points]
    apply List.ext_getElem?
    intro i
    by_cases hi : i < ids.length
    · simp [List.getElem?_range hi, List.getElem?_eq_getElem hi, List.getD_eq_getElem?_getD]
    · rw [List.getElem?_eq_none (by simpa using hi), List.getElem?_eq_none (by simpa using hi)]
  simp only [generateSurfaceCore, h]

/-- The data of the points of a line, in the order of the line. -/
def Spec.alongLine (ids : List ℕ) (v : DArr δ) (p : ℕ) : Option δ := (ids[p]?).bind fun i => v.vals[i]?

/-- Where the data of a node really come from: the p-th row of the array, not the row of the p-th point of the line. -/
theorem surface_point_data (area : Arr3 (V3 K) → List K) (pts : List (V3 K)) (ids : List ℕ)
    (pd cd : Dict String (DArr δ)) (lineB : LineArg K δ) (plane : String) (perc : List K)
    (hids : ids.length = pts.length) (hsize : 2 ≤ ids.length)
    (hpd : ∀ kv ∈ pd, kv.2.vals.length = pts.length) (hcd : ∀ kv ∈ cd, kv.2.vals.length = pts.length - 1)
    (hpk : (pd.map Prod.fst).Nodup) (hck : (cd.map Prod.fst).Nodup)
    (hB : lineB.points.length = ids.length) (hplane : plane = "xy" ∨ plane = "xz" ∨ plane = "yz")
    (hperc : 2 ≤ perc.length) :
    ∃ M, generateSurfaceCore area (.poly pts ids pd cd) lineB plane perc = .ok M ∧
      ∀ k v, Dict.get? pd k = some v → ∃ w, Dict.get? M.pointData k = some w ∧
        ∀ p q, p < ids.length → q < perc.length → w.vals[vtkId M.nodes.d (planeIx plane p q)]? = v.vals[p]? := by
  rw [surface_ordered]
  have hline : CleanLine (ids.map fun i => pts.getD i 0) (List.range ids.length) pd cd :=
    ⟨by simp, by simpa using hsize, by simpa [hids] using hpd, by simpa [hids] using hcd, hpk, hck⟩
  obtain ⟨M, h1, -, h3⟩ := C16_surface_cell_data_partial area _ _ pd cd lineB plane perc hline (by simpa using hB)
    (by rcases hplane with h | h | h <;> simp [isPlane, h]) hperc (by tauto) (by tauto)
  refine ⟨M, h1, ?_⟩
  intro k v hv
  obtain ⟨w, hw, -, hw2⟩ := h3 k v hv
  exact ⟨w, hw, fun p q hp hq => hw2 p q (by simpa using hp) hq⟩

/-- **C113 (partial).** If the points of the line are stored in the order of the line, every node of the surface carries
the data of its point of the line, for the planes "xy", "xz" and "yz".
Missing: lines whose points are stored in another order, lines that do not use all points of their mesh or are closed,
and the planes "yx", "zx", "zy", for which it is false (`C113_reordered_refuted`, `C113_unused_refuted`,
`C113_transposed_refuted`). -/
theorem C113_in_order_partial (area : Arr3 (V3 K) → List K) (pts : List (V3 K)) (ids : List ℕ)
    (pd cd : Dict String (DArr δ)) (lineB : LineArg K δ) (plane : String) (perc : List K)
    (hids : ids = List.range pts.length) (hsize : 2 ≤ ids.length)
    (hpd : ∀ kv ∈ pd, kv.2.vals.length = pts.length) (hcd : ∀ kv ∈ cd, kv.2.vals.length = pts.length - 1)
    (hpk : (pd.map Prod.fst).Nodup) (hck : (cd.map Prod.fst).Nodup)
    (hB : lineB.points.length = ids.length) (hplane : plane = "xy" ∨ plane = "xz" ∨ plane = "yz")
    (hperc : 2 ≤ perc.length) :
    ∃ M, generateSurfaceCore area (.poly pts ids pd cd) lineB plane perc = .ok M ∧
      ∀ k v, Dict.get? pd k = some v → ∃ w, Dict.get? M.pointData k = some w ∧
        ∀ p q, p < ids.length → q < perc.length →
          w.vals[vtkId M.nodes.d (planeIx plane p q)]? = alongLine ids v p := by
  obtain ⟨M, h1, h2⟩ := surface_point_data area pts ids pd cd lineB plane perc (by simp [hids]) hsize hpd hcd hpk hck hB
    hplane hperc
  refine ⟨M, h1, fun k v hv => ?_⟩
  obtain ⟨w, hw, hw2⟩ := h2 k v hv
  refine ⟨w, hw, fun p q hp hq => ?_⟩
  rw [hw2 p q hp hq, alongLine, hids]
  have : p < pts.length := by simpa [hids] using hp
  simp [this]

/-- The claim C113 is false for a line whose points are stored in another order: wherever the data of the p-th point of
the line differ from the p-th row of the array, the nodes have the wrong data. -/
theorem C113_reordered_refuted (area : Arr3 (V3 K) → List K) (pts : List (V3 K)) (ids : List ℕ)
    (pd cd : Dict String (DArr δ)) (lineB : LineArg K δ) (plane : String) (perc : List K)
    (hids : ids.length = pts.length) (hsize : 2 ≤ ids.length)
    (hpd : ∀ kv ∈ pd, kv.2.vals.length = pts.length) (hcd : ∀ kv ∈ cd, kv.2.vals.length = pts.length - 1)
    (hpk : (pd.map Prod.fst).Nodup) (hck : (cd.map Prod.fst).Nodup)
    (hB : lineB.points.length = ids.length) (hplane : plane = "xy" ∨ plane = "xz" ∨ plane = "yz")
    (hperc : 2 ≤ perc.length) {k : String} {v : DArr δ} (hv : Dict.get? pd k = some v) {p : ℕ} (hp : p < ids.length)
    (hne : alongLine ids v p ≠ v.vals[p]?) :
    ∃ M w, generateSurfaceCore area (.poly pts ids pd cd) lineB plane perc = .ok M ∧ Dict.get? M.pointData k = some w ∧
      ∀ q < perc.length, w.vals[vtkId M.nodes.d (planeIx plane p q)]? ≠ alongLine ids v p := by
  obtain ⟨M, h1, h2⟩ := surface_point_data area pts ids pd cd lineB plane perc hids hsize hpd hcd hpk hck hB hplane hperc
  obtain ⟨w, hw, hw2⟩ := h2 k v hv
  exact ⟨M, w, h1, hw, fun q hq => by rw [hw2 p q hp hq]; exact hne.symm⟩

/-- The claim C113 is false for a line mesh with point data that has other points than those of the line (more than one
polyline, isolated points), and for a polygon, whose first point is both ends of the line: no surface is generated. -/
theorem C113_unused_refuted (area : Arr3 (V3 K) → List K) (pts : List (V3 K)) (ids : List ℕ)
    (pd cd : Dict String (DArr δ)) (lineB : LineArg K δ) (plane : String) (perc : List K)
    (hids : ids.length ≠ pts.length) (hne : pd ≠ []) (hpd : ∀ kv ∈ pd, kv.2.vals.length = pts.length)
    (hperc : perc ≠ []) :
    generateSurfaceCore area (.poly pts ids pd cd) lineB plane perc = .error .valueError := by
  simp only [generateSurfaceCore]
  split
  · rfl
  · have hp : 0 < perc.length := List.length_pos_iff.2 hperc
    cases hpl : parsePlane plane with
    | error e =>
      unfold parsePlane at hpl
      split_ifs at hpl
      rw [← hpl]
    | ok pl =>
      obtain ⟨kv, rest, rfl⟩ := List.exists_cons_of_ne_nil hne
      obtain ⟨k, v⟩ := kv
      have hlen := hpd (k, v) (by simp)
      simp only at hlen ⊢
      have hshape := surfaceNodes_shape (isPlane_of_parse hpl) hpl perc (LineArg.poly pts ids ((k, v) :: rest) cd).points
        lineB.points
      rw [sizeOfShape_eq, hshape, count_planeShape (isPlane_of_parse hpl)]
      have hl : (LineArg.poly pts ids ((k, v) :: rest) cd).points.length = ids.length := by simp [LineArg.points]
      have : (tileRows perc.length v).vals.length ≠ ids.length * perc.length := by
        rw [tileRows_length, hlen, Nat.mul_comm]
        intro h
        exact hids (Nat.eq_of_mul_eq_mul_right hp h).symm
      simp only [copyArrays, setArray, hl]
      rw [if_neg this]

end data

/-- The claim C113 is false for the plane "yx": a line of three points with data 10, 20, 30, two positions; the first
node of the second point carries 30. -/
theorem C113_transposed_refuted :
    ∃ (M : SGrid ℚ ℤ) (w : DArr ℤ),
      generateSurfaceCore (fun _ => [1, 1]) (.poly [![0, 0, 0], ![0, 1, 0], ![0, 2, 0]] [0, 1, 2]
        [("g", ⟨false, [10, 20, 30]⟩)] []) (.array [![1, 0, 0], ![1, 1, 0], ![1, 2, 0]]) "yx" [0, 1] = .ok M ∧
      Dict.get? M.pointData "g" = some w ∧
      alongLine [0, 1, 2] (⟨false, [10, 20, 30]⟩ : DArr ℤ) 1 = some 20 ∧
      w.vals[vtkId M.nodes.d (planeIx "yx" 1 0)]? = some 30 := by
  refine ⟨_, ⟨false, [10, 20, 30, 10, 20, 30]⟩, rfl, rfl, rfl, rfl⟩

/-- A line stored in another order: the middle point first. -/
example : ∃ (M : SGrid ℚ ℤ) (w : DArr ℤ),
    generateSurfaceCore (fun _ => [1, 1]) (.poly [![1, 0, 0], ![0, 0, 0], ![2, 0, 0]] [1, 0, 2]
      [("g", ⟨false, [20, 10, 30]⟩)] []) (.array [![0, 1, 0], ![1, 1, 0], ![2, 1, 0]]) "xy" [0, 1] = .ok M ∧
    M.nodes.ravelF.take 3 = [![0, 0, 0], ![1, 0, 0], ![2, 0, 0]] ∧
    Dict.get? M.pointData "g" = some w ∧ w.vals = [20, 10, 30, 20, 10, 30] ∧
    (List.range 3).map (alongLine [1, 0, 2] (⟨false, [20, 10, 30]⟩ : DArr ℤ)) = [some 10, some 20, some 30] := by
  refine ⟨_, ⟨false, [20, 10, 30, 20, 10, 30]⟩, rfl, ?_, rfl, rfl, rfl⟩
  decide +kernel

/-! ## C114 -/

section wrappers
variable {δ : Type*} [OfNat δ 0] [OfNat δ 32]

/-- **C114**, lines that are given are used: both (the surface is that of C15), or one of them, with the lower or the
upper side of the unit square. -/
theorem C114_given (area : Arr3 (V3 ℝ) → List ℝ) (a b : LineArg ℝ δ) (plane : String) (res : Resolution ℝ)
    (m : Option String) :
    structuredSurface area (some a) (some b) plane res m = generateSurface area a b plane res m ∧
    structuredSurface area (some a) none plane res m =
      generateSurface area a (.array [![0, 1, 0], ![1, 1, 0]]) plane res m ∧
    structuredSurface area none (some b) plane res m =
      generateSurface area (.array [![0, 0, 0], ![1, 0, 0]]) b plane res m := ⟨rfl, rfl, rfl⟩

/-- Nodes of the surface without lines. -/
theorem default_nodes (area : Arr3 (V3 ℝ) → List ℝ) {plane : String} (hp : isPlane plane) (r : ℤ) :
    ∃ (M : SGrid ℝ δ) (ts : List ℝ), structuredSurface area none none plane (.int r) none = .ok M ∧
      Subdivision (max 1 r).toNat ts ∧ M.nodes.d = planeShape plane 2 ts.length ∧
      ∀ q t, ts[q]? = some t →
        M.points[vtkId M.nodes.d (planeIx plane 0 q)]? = some ![0, t, 0] ∧
        M.points[vtkId M.nodes.d (planeIx plane 1 q)]? = some ![1, t, 0] := by
  obtain ⟨ts, h1, h2, -⟩ := C11_integer_resolution r none (Or.inl rfl)
  have h := C15_surface_nodes (δ := δ) area (.array defaultLines.1) (.array defaultLines.2) plane (.int r) none
  obtain ⟨M, hM⟩ := h.2.2.2 _ ts rfl (by simp [LineArg.points, defaultLines]) hp h1
  obtain ⟨ts', e1, e2, -, e4⟩ := h.1 M hM
  rw [h1] at e1
  obtain rfl := Except.ok.inj e1
  refine ⟨M, ts, hM, h2, by simpa [LineArg.points, defaultLines] using e2, ?_⟩
  intro q t ht
  refine ⟨?_, ?_⟩
  · rw [e4 0 q ![0, 0, 0] ![0, 1, 0] t (by simp [LineArg.points, defaultLines])
      (by simp [LineArg.points, defaultLines]) ht]
    congr 1; funext k; fin_cases k <;> simp [between]
  · rw [e4 1 q ![1, 0, 0] ![1, 1, 0] t (by simp [LineArg.points, defaultLines])
      (by simp [LineArg.points, defaultLines]) ht]
    congr 1; funext k; fin_cases k <;> simp [between]

/-- The axis across a plane. -/
def Spec.acrossAxis (plane : String) : Fin 3 :=
  if plane = "xy" ∨ plane = "yx" then 2 else if plane = "xz" ∨ plane = "zx" then 1 else 0

/-- **C114 (partial).** Without lines, `StructuredSurface` is the unit square of the plane "xy", also for "yx", subdivided
along y.  Missing: the other planes, for which it is false (`C114_plane_refuted`). -/
theorem C114_unit_square_partial (area : Arr3 (V3 ℝ) → List ℝ) {plane : String} (hp : plane = "xy" ∨ plane = "yx") (r : ℤ) :
    ∃ (M : SGrid ℝ δ) (ts : List ℝ), structuredSurface area none none plane (.int r) none = .ok M ∧
      Subdivision (max 1 r).toNat ts ∧ M.nodes.d = planeShape plane 2 ts.length ∧
      ∀ q t, ts[q]? = some t →
        M.points[vtkId M.nodes.d (planeIx plane 0 q)]? = some ![0, t, 0] ∧
        M.points[vtkId M.nodes.d (planeIx plane 1 q)]? = some ![1, t, 0] :=
  default_nodes area (by rcases hp with h | h <;> simp [isPlane, h]) r

/-- The claim C114 is false for the other planes: the grid is flat along the axis across the plane, but its nodes do not
have the same coordinate along this axis. -/
theorem C114_plane_refuted (area : Arr3 (V3 ℝ) → List ℝ) {plane : String}
    (hp : plane = "xz" ∨ plane = "zx" ∨ plane = "yz" ∨ plane = "zy") (r : ℤ) :
    ∃ (M : SGrid ℝ δ), structuredSurface area none none plane (.int r) none = .ok M ∧ M.nodes.d (acrossAxis plane) = 1 ∧
      ∃ p q, p ∈ M.points ∧ q ∈ M.points ∧ p (acrossAxis plane) ≠ q (acrossAxis plane) := by
  have hp' : isPlane plane := by unfold isPlane; tauto
  obtain ⟨M, ts, h1, h2, h3, h4⟩ := default_nodes (δ := δ) area hp' r
  refine ⟨M, h1, ?_, ?_⟩
  · rw [h3]
    rcases hp with rfl | rfl | rfl | rfl <;> simp [planeShape, acrossAxis, lineAxis, subdivisionAxis]
  · obtain ⟨a1, a2⟩ := h4 0 0 h2.first
    obtain ⟨b1, b2⟩ := h4 _ 1 h2.last
    by_cases hx : plane = "xz" ∨ plane = "zx"
    · refine ⟨_, _, List.mem_of_getElem? a1, List.mem_of_getElem? b1, ?_⟩
      rcases hx with rfl | rfl <;> simp [acrossAxis]
    · refine ⟨_, _, List.mem_of_getElem? a1, List.mem_of_getElem? a2, ?_⟩
      have : plane = "yz" ∨ plane = "zy" := by tauto
      rcases this with rfl | rfl <;> simp [acrossAxis]

/-- **C94 (Volume).** `Volume` is the volume between the two surfaces (C17). -/
theorem C94_volume [Inhabited δ] (volume : Arr3 (V3 ℝ) → List ℝ) (a b : SGrid ℝ δ) (res : Resolution ℝ)
    (m : Option String) : volumeBetween volume a b res m = generateVolumeS volume a b res m := rfl

end wrappers

end Gridder
