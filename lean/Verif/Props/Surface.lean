import Verif.Lemmas.Structured
import Verif.Props.Resolution

/-!
# C15, C16: surface between two lines
-/

namespace Gridder
open Spec

variable {K : Type _} [Field K] {δ : Type _} [OfNat δ 0] [OfNat δ 32]

theorem parsePlane_ok {s : String} (h : isPlane s) : ∃ p, parsePlane s = .ok p := by
  rcases h with rfl | rfl | rfl | rfl | rfl | rfl <;> exact ⟨_, rfl⟩

theorem surfaceNodes_shape {s : String} (hs : isPlane s) {p : Plane} (h : parsePlane s = .ok p)
    (perc : List K) (a b : List (V3 K)) :
    (surfaceNodes p perc a b).d = planeShape s a.length perc.length := by
  rcases hs with rfl | rfl | rfl | rfl | rfl | rfl <;> cases h <;> funext ax <;> fin_cases ax <;> rfl

theorem surfaceNodes_get {s : String} (hs : isPlane s) {pl : Plane} (h : parsePlane s = .ok pl)
    (perc : List K) (a b : List (V3 K)) (p q : ℕ) :
    (surfaceNodes pl perc a b).get (planeIx s p q) =
      between (perc.getD q 0) (a.getD p 0) (b.getD p 0) := by
  rw [← lerp_eq]
  rcases hs with rfl | rfl | rfl | rfl | rfl | rfl <;> cases h <;> rfl

theorem planeIx_inShape {s : String} (hs : isPlane s) {np ns p q : ℕ} (hp : p < np) (hq : q < ns) :
    InShape (planeShape s np ns) (planeIx s p q) := by
  intro ax
  unfold planeShape planeIx
  split
  · exact hp
  · split
    · exact hq
    · omega

/-- The nodes of a generated surface, in VTK order. -/
def SGrid.points (M : SGrid K δ) : List (V3 K) := M.nodes.ravelF

/-- The part of `generateSurfaceCore` that concerns nodes. -/
theorem generateSurfaceCore_nodes [DecidableEq K] {area : Arr3 (V3 K) → List K}
    {lineA lineB : LineArg K δ} {plane : String} {perc : List K} {M : SGrid K δ}
    (h : generateSurfaceCore area lineA lineB plane perc = .ok M) :
    lineA.points.length = lineB.points.length ∧
    ∃ pl, parsePlane plane = .ok pl ∧ M.nodes = surfaceNodes pl perc lineA.points lineB.points := by
  simp only [generateSurfaceCore] at h
  split at h
  · cases h
  · rename_i hl
    refine ⟨not_not.1 hl, ?_⟩
    split at h
    · cases h
    · rename_i pl hpl
      refine ⟨pl, hpl, ?_⟩
      split at h
      · cases h; rfl
      · split at h
        · cases h
        · split at h
          · cases h
          · cases h; rfl

theorem isPlane_of_parse {s : String} {p : Plane} (h : parsePlane s = .ok p) : isPlane s := by
  unfold parsePlane at h
  unfold isPlane
  split at h
  · exact .inl ‹_›
  split at h
  · exact .inr (.inl ‹_›)
  split at h
  · exact .inr (.inr (.inl ‹_›))
  split at h
  · exact .inr (.inr (.inr (.inl ‹_›)))
  split at h
  · exact .inr (.inr (.inr (.inr (.inl ‹_›))))
  split at h
  · exact .inr (.inr (.inr (.inr (.inr ‹_›))))
  · cases h

/-- Shape and nodes of a surface generated at positions `perc`. -/
theorem surface_nodes_core [DecidableEq K] {area : Arr3 (V3 K) → List K}
    {lineA lineB : LineArg K δ} {plane : String} {perc : List K} {M : SGrid K δ}
    (h : generateSurfaceCore area lineA lineB plane perc = .ok M) :
    isPlane plane ∧
    M.nodes.d = planeShape plane lineA.points.length perc.length ∧
    M.points.length = lineA.points.length * perc.length ∧
    ∀ p q a b t, lineA.points[p]? = some a → lineB.points[p]? = some b → perc[q]? = some t →
      M.points[vtkId M.nodes.d (planeIx plane p q)]? = some (between t a b) := by
  obtain ⟨hl, pl, hpl, hn⟩ := generateSurfaceCore_nodes h
  have hp := isPlane_of_parse hpl
  have hd : M.nodes.d = planeShape plane lineA.points.length perc.length := by
    rw [hn, surfaceNodes_shape hp hpl]
  refine ⟨hp, hd, ?_, ?_⟩
  · rw [SGrid.points, ravelF_length, hd]
    rcases hp with rfl | rfl | rfl | rfl | rfl | rfl <;>
      simp [count, planeShape, lineAxis, subdivisionAxis] <;> ring
  · intro p q a b t ha hb ht
    have hp' : p < lineA.points.length := (List.getElem?_eq_some_iff.1 ha).1
    have hq' : q < perc.length := (List.getElem?_eq_some_iff.1 ht).1
    rw [SGrid.points, ravelF_get]
    · rw [hn, surfaceNodes_get hp hpl]
      simp [List.getD_eq_getElem?_getD, ha, hb, ht]
    · rw [hd]; exact planeIx_inShape hp hp' hq'

/-- **C15.** A surface generated from two lines has, for each of the six plane options, the line
direction and the subdivision direction on the axes named by the plane, and its node (p, q) is the
point of fraction `t_q` between the p-th points of the two lines; hence the first row is line a and
the last row line b for an integer resolution.  Lines of different length, unknown planes and bad
resolutions are rejected. -/
theorem C15_surface_nodes (area : Arr3 (V3 ℝ) → List ℝ) (lineA lineB : LineArg ℝ δ)
    (plane : String) (res : Resolution ℝ) (m : Option String) :
    (∀ M, generateSurface area lineA lineB plane res m = .ok M →
      ∃ ts, resolutionToPerc res m = .ok ts ∧
        M.nodes.d = planeShape plane lineA.points.length ts.length ∧
        M.points.length = lineA.points.length * ts.length ∧
        (∀ p q a b t, lineA.points[p]? = some a → lineB.points[p]? = some b → ts[q]? = some t →
          M.points[vtkId M.nodes.d (planeIx plane p q)]? = some (between t a b))) ∧
    (∀ M r, res = .int r → Supported m → generateSurface area lineA lineB plane res m = .ok M →
      ∀ p a b, lineA.points[p]? = some a → lineB.points[p]? = some b →
        M.points[vtkId M.nodes.d (planeIx plane p 0)]? = some a ∧
        M.points[vtkId M.nodes.d (planeIx plane p (max 1 r).toNat)]? = some b) ∧
    (lineA.points.length ≠ lineB.points.length ∨ ¬ isPlane plane ∨
        (∃ e, resolutionToPerc res m = .error e) →
      ∃ e, generateSurface area lineA lineB plane res m = .error e) ∧
    (∀ ptsA ts, lineA = .array ptsA → lineA.points.length = lineB.points.length → isPlane plane →
      resolutionToPerc res m = .ok ts →
      ∃ M, generateSurface area lineA lineB plane res m = .ok M) := by
  have h1 : ∀ M, generateSurface area lineA lineB plane res m = .ok M →
      ∃ ts, resolutionToPerc res m = .ok ts ∧
        M.nodes.d = planeShape plane lineA.points.length ts.length ∧
        M.points.length = lineA.points.length * ts.length ∧
        (∀ p q a b t, lineA.points[p]? = some a → lineB.points[p]? = some b → ts[q]? = some t →
          M.points[vtkId M.nodes.d (planeIx plane p q)]? = some (between t a b)) := by
    intro M h
    simp only [generateSurface] at h
    split at h
    · cases h
    split at h
    · cases h
    rename_i ts hts
    obtain ⟨_, h2, h3, h4⟩ := surface_nodes_core h
    exact ⟨ts, hts, h2, h3, h4⟩
  refine ⟨h1, ?_, ?_, ?_⟩
  · intro M r hr hm hM p a b ha hb
    obtain ⟨ts, hts, _, _, hn⟩ := h1 M hM
    obtain ⟨ts', hts', hsub, _⟩ := C11_integer_resolution r m hm
    rw [hr, hts'] at hts
    cases hts
    refine ⟨?_, ?_⟩
    · rw [hn p 0 a b 0 ha hb hsub.first]
      congr 1; funext ax; simp [between]
    · rw [hn p _ a b 1 ha hb hsub.last]
      congr 1; funext ax; simp [between]
  · intro h
    cases hh : generateSurface area lineA lineB plane res m with
    | error e => exact ⟨e, rfl⟩
    | ok M =>
      exfalso
      simp only [generateSurface] at hh
      split at hh
      · cases hh
      rename_i hl
      split at hh
      · cases hh
      rename_i ts hts
      obtain ⟨h2, _⟩ := surface_nodes_core hh
      rcases h with h | h | ⟨e, he⟩
      · exact hl h
      · exact h h2
      · rw [hts] at he; cases he
  · intro ptsA ts hA hl hp hts
    subst hA
    obtain ⟨pl, hpl⟩ := parsePlane_ok hp
    simp only [generateSurface, hts]
    rw [if_neg (by simp [hl])]
    simp only [generateSurfaceCore]
    rw [if_neg (by simp [hl])]
    simp only [hpl]
    exact ⟨_, rfl⟩

/-- Concrete case: two points each, plane "zx", three positions: a 3 x 1 x 2 grid; the middle node of
the second line point is the middle of (1,0,0)-(1,2,0). -/
example : isPlane "zx" ∧ planeShape "zx" 2 3 = ![3, 1, 2] ∧
    vtkId (planeShape "zx" 2 3) (planeIx "zx" 1 1) = 4 ∧
    ((surfaceNodes .zx [0, 1/2, 1] [![0,0,0], ![1,0,0]] [![0,2,0], ![1,2,0]] :
      Arr3 (V3 ℚ)).ravelF)[4]? = some ![1, 1, 0] := by
  exact ⟨by simp [isPlane], by decide, by decide, by decide +kernel⟩

/-! ## C16 -/

/-- Number of cells and of tiles fit. -/
theorem planeShape_cells {s : String} (hs : isPlane s) {np ns : ℕ} (h1 : 2 ≤ np) (h2 : 2 ≤ ns) :
    cells (planeShape s np ns) = planeShape s (np - 1) (ns - 1) := by
  funext ax
  unfold cells planeShape
  split <;> split <;> (try split) <;> first | omega | rfl

theorem count_planeShape {s : String} (hs : isPlane s) (np ns : ℕ) :
    count (planeShape s np ns) = np * ns := by
  rcases hs with rfl | rfl | rfl | rfl | rfl | rfl <;>
    simp [count, planeShape, lineAxis, subdivisionAxis] <;> ring

/-- Where the planes `xy`, `xz`, `yz` put entry (p, q). -/
theorem vtkId_planeIx {s : String} (hs : s = "xy" ∨ s = "xz" ∨ s = "yz") (np ns p q : ℕ) :
    vtkId (planeShape s np ns) (planeIx s p q) = p + np * q := by
  rcases hs with rfl | rfl | rfl <;>
    simp [vtkId, planeShape, planeIx, lineAxis, subdivisionAxis]

/-- Where the planes `yx`, `zx`, `zy` put it. -/
theorem vtkId_planeIx' {s : String} (hs : s = "yx" ∨ s = "zx" ∨ s = "zy") (np ns p q : ℕ) :
    vtkId (planeShape s np ns) (planeIx s p q) = q + ns * p := by
  rcases hs with rfl | rfl | rfl <;>
    simp [vtkId, planeShape, planeIx, lineAxis, subdivisionAxis]

/-- **C16 (refuted).** For the plane "yx" (the one `MeshStack2D` uses for stacking axis 0) a surface
cell can carry the data of another segment: segments labelled 10 and 20, two subdivisions; the cell
of segment 0 in the second subdivision is labelled 20. -/
theorem C16_transposed_plane_refuted :
    ∃ (line : LineArg ℚ ℤ) (M : SGrid ℚ ℤ) (w : DArr ℤ),
      line = .poly [![0,0,0], ![0,1,0], ![0,2,0]] [0, 1, 2] [] [("g", ⟨false, [10, 20]⟩)] ∧
      generateSurfaceCore (fun _ => [1, 1, 1, 1]) line line "yx" [0, 1/2, 1] = .ok M ∧
      M.nodes.d = planeShape "yx" 3 3 ∧
      Dict.get? M.cellData "g" = some w ∧
      w.vals[vtkId (cells M.nodes.d) (planeIx "yx" 0 1)]? = some 20 := by
  refine ⟨_, _, ⟨false, [10, 20, 10, 20]⟩, rfl, rfl, ?_, ?_, ?_⟩
  · rw [surfaceNodes_shape (s := "yx") (by simp [isPlane]) rfl]; rfl
  · rfl
  · rfl

/-- A line mesh as the stacking classes make it: the points in order along the line, one cell per
segment, arrays with one row per point or segment, distinct array names. -/
structure Spec.CleanLine (pts : List (V3 K)) (ids : List ℕ)
    (pd cd : Dict String (DArr δ)) : Prop where
  ids_eq : ids = List.range pts.length
  size : 2 ≤ pts.length
  pdLen : ∀ kv ∈ pd, kv.2.vals.length = pts.length
  cdLen : ∀ kv ∈ cd, kv.2.vals.length = pts.length - 1
  pdKeys : (pd.map Prod.fst).Nodup
  cdKeys : (cd.map Prod.fst).Nodup

theorem Dict.get?_mem {κ ν : Type _} [DecidableEq κ] {d : Dict κ ν} {k : κ} {v : ν}
    (h : Dict.get? d k = some v) : (k, v) ∈ d := by
  induction d with
  | nil => simp [Dict.get?] at h
  | cons a d ih =>
    obtain ⟨a, b⟩ := a
    simp only [Dict.get?] at h
    split at h
    · rename_i hk; subst hk; cases h; simp
    · exact List.mem_cons_of_mem _ (ih h)

theorem Spec.CleanLine.points_eq {pts : List (V3 K)} {ids : List ℕ} {pd cd : Dict String (DArr δ)}
    (h : CleanLine pts ids pd cd) : (LineArg.poly pts ids pd cd).points = pts := by
  simp only [LineArg.points, h.ids_eq]
  apply List.ext_getElem?
  intro i
  by_cases hi : i < pts.length
  · simp [List.getElem?_range hi, List.getElem?_eq_getElem hi, List.getD_eq_getElem?_getD]
  · rw [List.getElem?_eq_none (by simpa using hi), List.getElem?_eq_none (by omega)]

/-- **C16 (partial).** For a line mesh in order, each cell of the surface carries the data of its
segment, provided the plane is "xy", "xz" or "yz" (stacking axes 1 and 2), or there is a single
subdivision, or a single segment; for the three planes each node carries the data of its line node.
Missing: planes "yx", "zx", "zy" in general, where it is false (`C16_transposed_plane_refuted`). -/
theorem C16_surface_cell_data_partial [DecidableEq K] (area : Arr3 (V3 K) → List K)
    (pts : List (V3 K)) (ids : List ℕ) (pd cd : Dict String (DArr δ)) (lineB : LineArg K δ)
    (plane : String) (perc : List K)
    (hline : CleanLine pts ids pd cd) (hB : lineB.points.length = pts.length)
    (hplane : isPlane plane) (hperc : 2 ≤ perc.length)
    (hok : plane = "xy" ∨ plane = "xz" ∨ plane = "yz" ∨ perc.length = 2 ∨ pts.length = 2)
    (hflat : plane = "xy" ∨ plane = "xz" ∨ plane = "yz" ∨ pd = []) :
    ∃ M, generateSurfaceCore area (.poly pts ids pd cd) lineB plane perc = .ok M ∧
      (∀ k v, k ≠ "vtkGhostType" → Dict.get? cd k = some v →
        ∃ w, Dict.get? M.cellData k = some w ∧ w.vector = v.vector ∧
          w.vals.length = (pts.length - 1) * (perc.length - 1) ∧
          ∀ p q, p < pts.length - 1 → q < perc.length - 1 →
            w.vals[vtkId (cells M.nodes.d) (planeIx plane p q)]? = v.vals[p]?) ∧
      (∀ k v, Dict.get? pd k = some v →
        ∃ w, Dict.get? M.pointData k = some w ∧ w.vector = v.vector ∧
          ∀ p q, p < pts.length → q < perc.length →
            w.vals[vtkId M.nodes.d (planeIx plane p q)]? = v.vals[p]?) := by
  have hpts : (LineArg.poly pts ids pd cd).points = pts := hline.points_eq
  obtain ⟨pl, hpl⟩ := parsePlane_ok hplane
  have hshape := surfaceNodes_shape hplane hpl perc pts lineB.points
  have hsize := hline.size
  have hcells : cells (planeShape plane pts.length perc.length) =
      planeShape plane (pts.length - 1) (perc.length - 1) := planeShape_cells hplane hsize hperc
  obtain ⟨pd', hpd', hpg⟩ := copyArrays_ok (pts.length * perc.length)
    (fun v => .ok (tileRows perc.length v)) (tileRows perc.length) pd [] hline.pdKeys
    (fun kv hkv => ⟨rfl, by rw [tileRows_length, hline.pdLen kv hkv, Nat.mul_comm]⟩)
  obtain ⟨cd', hcd', hcg⟩ := copyArrays_ok ((pts.length - 1) * (perc.length - 1))
    (fun v => .ok (tileRows (perc.length - 1) v)) (tileRows (perc.length - 1)) cd [] hline.cdKeys
    (fun kv hkv => ⟨rfl, by rw [tileRows_length, hline.cdLen kv hkv, Nat.mul_comm]⟩)
  have hrun : generateSurfaceCore area (.poly pts ids pd cd) lineB plane perc =
      .ok ⟨surfaceNodes pl perc pts lineB.points, pd',
        flagHidden ((pts.length - 1) * (perc.length - 1))
          ((area (surfaceNodes pl perc pts lineB.points)).map fun x => decide (x = 0)) cd'⟩ := by
    simp only [generateSurfaceCore, hpts, hpl]
    rw [if_neg (by simp [hB])]
    rw [sizeOfShape_eq, sizeOfShape_eq, cellShape_eq, hshape, hcells, count_planeShape hplane,
      count_planeShape hplane, hpd', hcd']
  refine ⟨_, hrun, ?_, ?_⟩
  · intro k v hk hv
    have hlen := hline.cdLen (k, v) (Dict.get?_mem hv)
    simp only at hlen
    refine ⟨tileRows (perc.length - 1) v, ?_, rfl, ?_, ?_⟩
    · simp only [flagHidden]
      rw [Dict.get?_set, if_neg (Ne.symm hk), hcg k, hv]
    · rw [tileRows_length, hlen, Nat.mul_comm]
    · intro p q hp hq
      simp only [hshape, hcells]
      have hcase : ∃ r, vtkId (planeShape plane (pts.length - 1) (perc.length - 1))
          (planeIx plane p q) = p + v.vals.length * r ∧ r < perc.length - 1 := by
        by_cases hs : plane = "xy" ∨ plane = "xz" ∨ plane = "yz"
        · exact ⟨q, by rw [vtkId_planeIx hs, hlen], hq⟩
        · have hs' : plane = "yx" ∨ plane = "zx" ∨ plane = "zy" := by
            rcases hplane with h | h | h | h | h | h
            · exact absurd (.inl h) hs
            · exact .inl h
            · exact absurd (.inr (.inl h)) hs
            · exact .inr (.inl h)
            · exact absurd (.inr (.inr h)) hs
            · exact .inr (.inr h)
          have h2 : perc.length = 2 ∨ pts.length = 2 := by
            rcases hok with h | h | h | h | h
            · exact absurd (.inl h) hs
            · exact absurd (.inr (.inl h)) hs
            · exact absurd (.inr (.inr h)) hs
            · exact .inl h
            · exact .inr h
          rw [vtkId_planeIx' hs']
          rcases h2 with h2 | h2
          · refine ⟨0, ?_, by omega⟩
            have : q = 0 := by omega
            subst this; simp [h2]
          · refine ⟨q, ?_, hq⟩
            have : p = 0 := by omega
            subst this; simp [hlen, h2]
      obtain ⟨r, hr, hr'⟩ := hcase
      rw [hr]
      exact flatten_replicate_get _ _ _ r p (by omega) hr' rfl
  · intro k v hv
    have hlen := hline.pdLen (k, v) (Dict.get?_mem hv)
    simp only at hlen
    have hs : plane = "xy" ∨ plane = "xz" ∨ plane = "yz" := by
      rcases hflat with h | h | h | h
      · exact .inl h
      · exact .inr (.inl h)
      · exact .inr (.inr h)
      · subst h; simp [Dict.get?] at hv
    refine ⟨tileRows perc.length v, ?_, rfl, ?_⟩
    · simp only; rw [hpg k, hv]
    · intro p q hp hq
      simp only [hshape]
      rw [vtkId_planeIx hs, ← hlen]
      exact flatten_replicate_get _ _ _ q p (by omega) hq rfl

/-- The cell of the entry (p, q) of the surface lies in the range of its arrays. -/
theorem vtkId_planeIx_lt {s : String} (hs : isPlane s) {np ns p q : ℕ} (hp : p < np) (hq : q < ns) :
    vtkId (planeShape s np ns) (planeIx s p q) < np * ns := by
  have e : vtkId (planeShape s np ns) (planeIx s p q) = p + np * q ∨
      vtkId (planeShape s np ns) (planeIx s p q) = q + ns * p := by
    rcases hs with h | h | h | h | h | h
    · exact .inl (vtkId_planeIx (.inl h) ..)
    · exact .inr (vtkId_planeIx' (.inl h) ..)
    · exact .inl (vtkId_planeIx (.inr (.inl h)) ..)
    · exact .inr (vtkId_planeIx' (.inr (.inl h)) ..)
    · exact .inl (vtkId_planeIx (.inr (.inr h)) ..)
    · exact .inr (vtkId_planeIx' (.inr (.inr h)) ..)
  rcases e with e | e <;> rw [e] <;> nlinarith

/-- **C16 (exact).** For a line mesh in order and every plane: the surface is generated, and each of its cells carries the
data of the segment whose number is the position of the cell modulo the number of segments, each node those of the line node
whose number is its position modulo the number of nodes. -/
theorem C16_surface_by_position [DecidableEq K] (area : Arr3 (V3 K) → List K)
    (pts : List (V3 K)) (ids : List ℕ) (pd cd : Dict String (DArr δ)) (lineB : LineArg K δ)
    (plane : String) (perc : List K)
    (hline : CleanLine pts ids pd cd) (hB : lineB.points.length = pts.length)
    (hplane : isPlane plane) (hperc : 2 ≤ perc.length) :
    ∃ M, generateSurfaceCore area (.poly pts ids pd cd) lineB plane perc = .ok M ∧
      M.nodes.d = planeShape plane pts.length perc.length ∧
      (∀ k v, k ≠ "vtkGhostType" → Dict.get? cd k = some v →
        ∃ w, Dict.get? M.cellData k = some w ∧ w.vector = v.vector ∧
          w.vals.length = (pts.length - 1) * (perc.length - 1) ∧
          ∀ m, m < (pts.length - 1) * (perc.length - 1) → w.vals[m]? = v.vals[m % (pts.length - 1)]?) ∧
      (∀ k v, Dict.get? pd k = some v →
        ∃ w, Dict.get? M.pointData k = some w ∧ w.vector = v.vector ∧
          w.vals.length = pts.length * perc.length ∧
          ∀ m, m < pts.length * perc.length → w.vals[m]? = v.vals[m % pts.length]?) := by
  have hpts : (LineArg.poly pts ids pd cd).points = pts := hline.points_eq
  obtain ⟨pl, hpl⟩ := parsePlane_ok hplane
  have hshape := surfaceNodes_shape hplane hpl perc pts lineB.points
  have hsize := hline.size
  have hcells : cells (planeShape plane pts.length perc.length) =
      planeShape plane (pts.length - 1) (perc.length - 1) := planeShape_cells hplane hsize hperc
  obtain ⟨pd', hpd', hpg⟩ := copyArrays_ok (pts.length * perc.length)
    (fun v => .ok (tileRows perc.length v)) (tileRows perc.length) pd [] hline.pdKeys
    (fun kv hkv => ⟨rfl, by rw [tileRows_length, hline.pdLen kv hkv, Nat.mul_comm]⟩)
  obtain ⟨cd', hcd', hcg⟩ := copyArrays_ok ((pts.length - 1) * (perc.length - 1))
    (fun v => .ok (tileRows (perc.length - 1) v)) (tileRows (perc.length - 1)) cd [] hline.cdKeys
    (fun kv hkv => ⟨rfl, by rw [tileRows_length, hline.cdLen kv hkv, Nat.mul_comm]⟩)
  have hrun : generateSurfaceCore area (.poly pts ids pd cd) lineB plane perc =
      .ok ⟨surfaceNodes pl perc pts lineB.points, pd',
        flagHidden ((pts.length - 1) * (perc.length - 1))
          ((area (surfaceNodes pl perc pts lineB.points)).map fun x => decide (x = 0)) cd'⟩ := by
    simp only [generateSurfaceCore, hpts, hpl]
    rw [if_neg (by simp [hB])]
    rw [sizeOfShape_eq, sizeOfShape_eq, cellShape_eq, hshape, hcells, count_planeShape hplane,
      count_planeShape hplane, hpd', hcd']
  have hget : ∀ (n : ℕ) (v : DArr δ) (m : ℕ), 0 < v.vals.length → m < v.vals.length * n →
      (tileRows n v).vals[m]? = v.vals[m % v.vals.length]? := by
    intro n v m h0 hm
    exact flatten_replicate_get _ _ _ (m / v.vals.length) _ (Nat.mod_lt _ h0) (Nat.div_lt_of_lt_mul hm)
      (Nat.mod_add_div _ _).symm
  refine ⟨_, hrun, hshape, ?_, ?_⟩
  · intro k v hk hv
    have hlen := hline.cdLen (k, v) (Dict.get?_mem hv)
    simp only at hlen
    refine ⟨tileRows (perc.length - 1) v, ?_, rfl, ?_, ?_⟩
    · simp only [flagHidden]
      rw [Dict.get?_set, if_neg (Ne.symm hk), hcg k, hv]
    · rw [tileRows_length, hlen, Nat.mul_comm]
    · intro m hm
      rw [← hlen] at hm ⊢
      exact hget _ v m (by omega) hm
  · intro k v hv
    have hlen := hline.pdLen (k, v) (Dict.get?_mem hv)
    simp only at hlen
    refine ⟨tileRows perc.length v, ?_, rfl, ?_, ?_⟩
    · simp only; rw [hpg k, hv]
    · rw [tileRows_length, hlen, Nat.mul_comm]
    · intro m hm
      rw [← hlen] at hm ⊢
      exact hget _ v m (by omega) hm

/-- **C16 (exact), the data of one array.** With a transposed plane ("yx", "zx", "zy"), at least two segments and two
subdivisions, an array of the line whose first two segments differ ends up wrong on the surface: the cell over the first
segment in the second subdivision carries the entry of the second segment. -/
theorem C16_transposed_general_refuted [DecidableEq K] (area : Arr3 (V3 K) → List K)
    (pts : List (V3 K)) (ids : List ℕ) (pd cd : Dict String (DArr δ)) (lineB : LineArg K δ)
    (plane : String) (perc : List K)
    (hline : CleanLine pts ids pd cd) (hB : lineB.points.length = pts.length)
    (hplane : plane = "yx" ∨ plane = "zx" ∨ plane = "zy") (hperc : 3 ≤ perc.length) (hpts : 3 ≤ pts.length)
    (k : String) (hk : k ≠ "vtkGhostType") (v : DArr δ) (hv : Dict.get? cd k = some v) (hne : v.vals[0]? ≠ v.vals[1]?) :
    ∃ M w, generateSurfaceCore area (.poly pts ids pd cd) lineB plane perc = .ok M ∧ Dict.get? M.cellData k = some w ∧
      w.vals[vtkId (cells M.nodes.d) (planeIx plane 0 1)]? = v.vals[1]? ∧
      w.vals[vtkId (cells M.nodes.d) (planeIx plane 0 1)]? ≠ v.vals[0]? := by
  have hp : isPlane plane := by
    rcases hplane with h | h | h
    · exact .inr (.inl h)
    · exact .inr (.inr (.inr (.inl h)))
    · exact .inr (.inr (.inr (.inr (.inr h))))
  obtain ⟨M, h1, h2, h3, _⟩ := C16_surface_by_position area pts ids pd cd lineB plane perc hline hB hp (by omega)
  obtain ⟨w, w1, _, _, w2⟩ := h3 k v hk hv
  have hid : vtkId (cells M.nodes.d) (planeIx plane 0 1) = 1 := by
    rw [h2, planeShape_cells hp hline.size (by omega), vtkId_planeIx' hplane]; simp
  have := w2 1 (by
    have a1 : 2 ≤ pts.length - 1 := by omega
    have a2 : 2 ≤ perc.length - 1 := by omega
    nlinarith)
  rw [Nat.mod_eq_of_lt (by omega)] at this
  refine ⟨M, w, h1, w1, by rw [hid, this], ?_⟩
  rw [hid, this]
  exact Ne.symm hne

/-- Concrete case meeting the hypotheses: three points, two labelled segments, two subdivisions. -/
example : CleanLine (K := ℚ) (δ := ℤ) [![0,0,0], ![1,0,0], ![2,0,0]] [0, 1, 2] []
    [("g", ⟨false, [10, 20]⟩)] :=
  ⟨rfl, by decide, by simp, by simp, by simp, by simp⟩

/-- The same line meets those of the general refutation: its segments have the labels 10 and 20. -/
example : Dict.get? [("g", (⟨false, [10, 20]⟩ : DArr ℤ))] "g" = some ⟨false, [10, 20]⟩ ∧
    ([10, 20] : List ℤ)[0]? ≠ ([10, 20] : List ℤ)[1]? := by decide

/-- A polyline stored as one single cell with cell data is rejected: the data has one row, the
surface more cells. -/
theorem C16_single_polyline_cell_refuted :
    generateSurfaceCore (K := ℚ) (δ := ℤ) (fun _ => [1, 1])
      (.poly [![0,0,0], ![1,0,0], ![2,0,0]] [0, 1, 2] [] [("g", ⟨false, [10]⟩)])
      (.array [![0,0,1], ![1,0,1], ![2,0,1]]) "xz" [0, 1] = .error .valueError := by
  rfl

end Gridder
