import Verif.Props.Extrude
import Verif.Model.CellTypes
import Mathlib.Tactic.FieldSimp
import Mathlib.Tactic.LinearCombination
import Mathlib.Tactic.Linarith

/-!
# C22, C23, C25: orientation, hidden cells and cell types of unstructured volumes
-/

namespace Gridder
open Spec

variable {K : Type _} [Field K] [LinearOrder K] {δ : Type _} [OfNat δ 0] [OfNat δ 32]

namespace Spec

/-- Determinant of three vectors. -/
def det (u v w : Fin 3 → K) : K :=
  u 0 * (v 1 * w 2 - v 2 * w 1) - u 1 * (v 0 * w 2 - v 2 * w 0) + u 2 * (v 0 * w 1 - v 1 * w 0)

/-- Twice the area vector of the polygon `f` (nodes at `P`), projected on `d`; positive when the
polygon runs counter-clockwise seen against `d`, so that its normal has a positive component
along `d`. -/
def areaAlong (P : ℕ → Fin 3 → K) (d : Fin 3 → K) (f : List ℕ) : K :=
  ((edges f).map fun e => det (P e.1) (P e.2) d).sum

end Spec

theorem triple_eq (u v w : V3 K) : triple u v w = det u v w := by
  simp only [triple, det]; ring

theorem areaAlong_reverse (P : ℕ → Fin 3 → K) (d : Fin 3 → K) (f : List ℕ) :
    areaAlong P d f.reverse = - areaAlong P d f := by
  unfold areaAlong
  rw [((edges_reverse f).map _).sum_eq, List.map_map, neg_eq_neg_one_mul, ← List.sum_map_mul_left]
  congr 1
  apply List.map_congr_left
  intro e _
  simp only [Function.comp, Prod.fst_swap, Prod.snd_swap, det]
  ring

theorem areaAlong_smul (P : ℕ → Fin 3 → K) (d : Fin 3 → K) (s : K) (f : List ℕ) :
    areaAlong P (fun ax => s * d ax) f = s * areaAlong P d f := by
  unfold areaAlong
  rw [← List.sum_map_mul_left]
  congr 1
  apply List.map_congr_left
  intro e _
  simp only [det]; ring

/-- Moving the nodes along `d` does not change the area seen along `d`. -/
theorem areaAlong_move (P Q : ℕ → Fin 3 → K) (d : Fin 3 → K) (s : K) (f : List ℕ)
    (h : ∀ x ∈ f, Q x = fun ax => P x ax + s * d ax) : areaAlong Q d f = areaAlong P d f := by
  unfold areaAlong
  congr 1
  apply List.map_congr_left
  intro e he
  have h1 := h e.1 (edges_mem (u := e.1) (v := e.2) he).1
  have h2 := h e.2 (edges_mem (u := e.1) (v := e.2) he).2
  rw [h1, h2]
  simp only [det]; ring

theorem areaAlong_shift (P : ℕ → Fin 3 → K) (d : Fin 3 → K) (k : ℕ) (f : List ℕ) :
    areaAlong P d (shift k f) = areaAlong (fun x => P (k + x)) d f := by
  unfold areaAlong
  simp only [shift]
  rw [edges_map, List.map_map]
  rfl

theorem between_offset (t : K) (x d : V3 K) :
    between t x (fun ax => x ax + d ax) = fun ax => x ax + t * d ax := by
  funext ax; simp only [between]; ring

/-- Reading the polyhedron of one polygon. -/
theorem extrudeCell_polygon {nPoints : ℕ} {points : List (V3 K)} {conn : List ℕ} {o : CellOut}
    (h : extrudeCell nPoints points true (extrudedType 7) conn = .ok o) :
    ∃ rev, needsReverse points conn (conn.map (· + nPoints)) = .ok rev ∧
      ∀ i cell, readCell (o.ctype == 42) (o.layer i) = some (cell, []) →
        cell = .polyhedron (prismFaces true (i * nPoints) ((i + 1) * nPoints)
          (if rev then conn.reverse else conn)) := by
  rw [show extrudedType 7 = 42 by decide] at h
  simp only [extrudeCell] at h
  rw [if_neg (by decide), if_pos (by decide)] at h
  simp only [if_true] at h
  cases hr : needsReverse points conn (conn.map (· + nPoints)) with
  | error e => rw [hr] at h; cases h
  | ok rev =>
    rw [hr] at h
    simp only at h
    cases h
    refine ⟨rev, rfl, ?_⟩
    intro i cell hcell
    have := readCell_polyhedron nPoints
      ((if rev = true then conn.reverse else conn) ::
        (if rev = true then (conn.map (· + nPoints)).reverse else conn.map (· + nPoints)).reverse ::
          sideFaces (if rev = true then conn.reverse else conn)
            (if rev = true then (conn.map (· + nPoints)).reverse else conn.map (· + nPoints))) i
    rw [show (((42 : ℤ) == 42) = true) from rfl] at hcell
    rw [this] at hcell
    simp only [Option.some.injEq, Prod.mk.injEq, and_true] at hcell
    rw [← hcell, ← prismFaces_layer]
    cases rev <;> simp [List.map_reverse]

/-- Points of the volume, when the second surface is the first one moved by `d` at the nodes of a
cell. -/
theorem layer_point {a b : UGrid K δ} {perc : List K} {M : VolumeOut K δ} {flip : Bool}
    {L : List Cell} (hE : Extrusion flip a b perc M L) (hlen : a.points.length = b.points.length)
    {x : ℕ} (hx : x < a.points.length) {d : V3 K}
    (hd : pt b.points x = fun ax => pt a.points x ax + d ax) {k : ℕ} {t : K}
    (hk : perc[k]? = some t) :
    pt M.points (k * a.points.length + x) = fun ax => pt a.points x ax + t * d ax := by
  have ha : a.points[x]? = some (pt a.points x) := by
    simp [pt, List.getD_eq_getElem?_getD, List.getElem?_eq_getElem hx]
  have hb : b.points[x]? = some (pt b.points x) := by
    simp [pt, List.getD_eq_getElem?_getD, List.getElem?_eq_getElem (hlen ▸ hx)]
  have := hE.point k x t _ _ hk ha hb
  rw [hd, between_offset] at this
  unfold pt at this ⊢
  rw [List.getD_eq_getElem?_getD (l := M.points), this]
  rfl

/-- The polyhedron of a polygon moved by one vector `d`: the areas of its base and of its top, seen along the direction
from a node of the base to its copy in the top.  They change sign with the corner at the second vertex. -/
theorem prism_areas [IsStrictOrderedRing K] (a b : UGrid K δ) (perc : List K)
    (M : VolumeOut K δ) (after : List (ℕ × List ℕ)) (hv : ValidSurface a)
    (h : generateVolumeUnstructured true a b perc = .ok (M, after))
    (k c x y z : ℕ) (rest : List ℕ) (t0 t1 tk tk' : K) (d : V3 K)
    (hc : a.cells[c]? = some (7, x :: y :: z :: rest))
    (hd : ∀ v ∈ x :: y :: z :: rest, pt b.points v = fun ax => pt a.points v ax + d ax)
    (h0 : perc[0]? = some t0) (h1 : perc[1]? = some t1) (hk : perc[k]? = some tk)
    (hk' : perc[k + 1]? = some tk') (h01 : t0 < t1) :
    ∃ L base top sides, readCells (· == 42) M.celltypes M.cells = some L ∧
      L[k * a.cells.length + c]? = some (.polyhedron (base :: top :: sides)) ∧
      base.length = rest.length + 3 ∧ top.length = rest.length + 3 ∧
      (∀ v ∈ base, v + a.points.length ∈ top ∧
        areaAlong (pt M.points) (pt M.points (v + a.points.length) - pt M.points v) base =
          (tk' - tk) * (if 0 ≤ det (pt a.points y - pt a.points x) (pt a.points z - pt a.points x) d
            then - areaAlong (pt a.points) d (x :: y :: z :: rest)
            else areaAlong (pt a.points) d (x :: y :: z :: rest)) ∧
        areaAlong (pt M.points) (pt M.points (v + a.points.length) - pt M.points v) top =
          - ((tk' - tk) * (if 0 ≤ det (pt a.points y - pt a.points x) (pt a.points z - pt a.points x) d
            then - areaAlong (pt a.points) d (x :: y :: z :: rest)
            else areaAlong (pt a.points) d (x :: y :: z :: rest)))) := by
  obtain ⟨hlen, _, _, _⟩ := generateVolumeUnstructured_inv h
  obtain ⟨hlen', _, _, outs, _, hMp, _⟩ := generateVolumeUnstructured_inv h
  obtain ⟨L, hE, hL⟩ := extrusion_of_ok_full hv h
  have hkl : k < perc.length - 1 := by
    have := (List.getElem?_eq_some_iff.1 hk').1; omega
  obtain ⟨cell, o, e1, e2, e3⟩ := hL k c 7 _ hkl hc
  obtain ⟨rev, r1, r2⟩ := extrudeCell_polygon e2
  have hcell := r2 k cell e3
  subst hcell
  set N := a.points.length with hN
  set conn := x :: y :: z :: rest with hconn
  have hids : ∀ v ∈ conn, v < N := hv.ids _ (List.mem_of_getElem? hc)
  have hP : ∀ v ∈ conn, ∀ i t, perc[i]? = some t →
      pt M.points (i * N + v) = fun ax => pt a.points v ax + t * d ax := by
    intro v hvm i t hi
    exact layer_point hE hlen (hids v hvm) (hd v hvm) hi
  -- the orientation test
  have hrev : rev = decide (0 ≤ det (pt a.points y - pt a.points x)
      (pt a.points z - pt a.points x) d) := by
    rw [← hMp] at r1
    simp only [hconn, needsReverse, List.map_cons, Except.ok.injEq] at r1
    rw [← r1]
    have px : pt M.points x = fun ax => pt a.points x ax + t0 * d ax := by
      have := hP x (by simp [hconn]) 0 t0 h0; simpa using this
    have py : pt M.points y = fun ax => pt a.points y ax + t0 * d ax := by
      have := hP y (by simp [hconn]) 0 t0 h0; simpa using this
    have pz : pt M.points z = fun ax => pt a.points z ax + t0 * d ax := by
      have := hP z (by simp [hconn]) 0 t0 h0; simpa using this
    have pw : pt M.points (x + N) = fun ax => pt a.points x ax + t1 * d ax := by
      have := hP x (by simp [hconn]) 1 t1 h1; simpa [Nat.add_comm] using this
    have e : triple (pt M.points y - pt M.points x) (pt M.points z - pt M.points x)
        (pt M.points (x + N) - pt M.points x) =
        (t1 - t0) * det (pt a.points y - pt a.points x) (pt a.points z - pt a.points x) d := by
      rw [px, py, pz, pw, triple_eq]
      simp only [det, Pi.sub_apply]; ring
    rw [e]
    apply decide_eq_decide.2
    rw [mul_nonneg_iff_of_pos_left (by linarith)]
  set f := if rev = true then conn.reverse else conn with hf
  have hfm : ∀ v, v ∈ f ↔ v ∈ conn := by
    intro v; rw [hf]; split <;> simp
  have hfl : f.length = rest.length + 3 := by
    rw [hf]; split <;> simp [hconn]
  have harea : areaAlong (pt a.points) d f =
      if 0 ≤ det (pt a.points y - pt a.points x) (pt a.points z - pt a.points x) d
        then - areaAlong (pt a.points) d conn else areaAlong (pt a.points) d conn := by
    rw [hf, hrev]
    simp only [decide_eq_true_eq]
    split
    · rw [areaAlong_reverse]
    · rfl
  refine ⟨L, _, _, _, hE.read, e1, by simp [shift, hfl], by simp [shift, hfl], ?_⟩
  intro v hvm
  simp only [shift, List.mem_map] at hvm
  obtain ⟨w, hw, rfl⟩ := hvm
  have hwc := (hfm w).1 hw
  have hdir : pt M.points (k * N + w + N) - pt M.points (k * N + w) =
      fun ax => (tk' - tk) * d ax := by
    have p1 := hP w hwc k tk hk
    have p2 := hP w hwc (k + 1) tk' hk'
    rw [show k * N + w + N = (k + 1) * N + w by ring, p1, p2]
    funext ax; simp only [Pi.sub_apply]; ring
  rw [hdir, areaAlong_smul, areaAlong_smul, areaAlong_shift, areaAlong_shift]
  have hb : areaAlong (fun v => pt M.points (k * N + v)) d f = areaAlong (pt a.points) d f :=
    areaAlong_move _ _ d tk f fun v hvf => hP v ((hfm v).1 hvf) k tk hk
  have ht : areaAlong (fun v => pt M.points ((k + 1) * N + v)) d f.reverse =
      areaAlong (pt a.points) d f.reverse :=
    areaAlong_move _ _ d tk' _ fun v hvf =>
      hP v ((hfm v).1 (List.mem_reverse.1 hvf)) (k + 1) tk' hk'
  refine ⟨?_, ?_, ?_⟩
  · simp only [if_true, shift, List.map_reverse, List.mem_reverse, List.mem_map]
    exact ⟨w, hw, by ring⟩
  · rw [hb, harea]
  · simp only [if_true]
    rw [ht, areaAlong_reverse, harea, mul_neg]

/-- **C22 (partial).** A polygon moved by one vector `d` (its nodes in any position) whose corner at
the second vertex turns the same way as the whole polygon, which is so for convex polygons
(`convex_corner`): the normal of the base of each extruded polyhedron points away from the top, and
that of the top away from the base.
Missing: polygons with a reflex second vertex or whose first three vertices are on a line, where it
is false (`C22_inward_refuted`); `C22_outward_iff` is the exact condition. -/
theorem C22_outward_normals_partial [IsStrictOrderedRing K] (a b : UGrid K δ) (perc : List K)
    (M : VolumeOut K δ) (after : List (ℕ × List ℕ)) (hv : ValidSurface a)
    (h : generateVolumeUnstructured true a b perc = .ok (M, after))
    (k c x y z : ℕ) (rest : List ℕ) (t0 t1 tk tk' : K) (d : V3 K)
    (hc : a.cells[c]? = some (7, x :: y :: z :: rest))
    (hd : ∀ v ∈ x :: y :: z :: rest, pt b.points v = fun ax => pt a.points v ax + d ax)
    (h0 : perc[0]? = some t0) (h1 : perc[1]? = some t1) (hk : perc[k]? = some tk)
    (hk' : perc[k + 1]? = some tk') (h01 : t0 < t1) (hkk : tk < tk')
    (hcorner : 0 < det (pt a.points y - pt a.points x) (pt a.points z - pt a.points x) d *
      areaAlong (pt a.points) d (x :: y :: z :: rest)) :
    ∃ L base top sides, readCells (· == 42) M.celltypes M.cells = some L ∧
      L[k * a.cells.length + c]? = some (.polyhedron (base :: top :: sides)) ∧
      base.length = rest.length + 3 ∧ top.length = rest.length + 3 ∧
      (∀ v ∈ base, v + a.points.length ∈ top ∧
        areaAlong (pt M.points) (pt M.points (v + a.points.length) - pt M.points v) base < 0 ∧
        0 < areaAlong (pt M.points) (pt M.points (v + a.points.length) - pt M.points v) top) := by
  obtain ⟨L, base, top, sides, e1, e2, e3, e4, e5⟩ :=
    prism_areas a b perc M after hv h k c x y z rest t0 t1 tk tk' d hc hd h0 h1 hk hk' h01
  refine ⟨L, base, top, sides, e1, e2, e3, e4, ?_⟩
  intro v hvm
  obtain ⟨g1, g2, g3⟩ := e5 v hvm
  have hpos : 0 < tk' - tk := by linarith
  have hneg : (if 0 ≤ det (pt a.points y - pt a.points x) (pt a.points z - pt a.points x) d
      then - areaAlong (pt a.points) d (x :: y :: z :: rest)
      else areaAlong (pt a.points) d (x :: y :: z :: rest)) < 0 := by
    split
    · rename_i hle
      rcases hle.lt_or_eq with hlt | heq
      · have := (mul_pos_iff_of_pos_left hlt).1 hcorner
        linarith
      · rw [← heq] at hcorner; simp at hcorner
    · rename_i hlt
      by_contra hcon
      have := mul_nonpos_of_nonpos_of_nonneg (not_le.1 hlt).le (not_lt.1 hcon)
      linarith
  have := mul_neg_of_pos_of_neg hpos hneg
  exact ⟨g1, by rw [g2]; exact this, by rw [g3]; linarith⟩

/-- **C22, exactly.** A polygon moved by one vector `d`, its nodes in any position: the normals of the base and of the top
of each extruded polyhedron point outwards if and only if the polygon turns counter-clockwise seen against `d` and its
corner at the second vertex does not turn clockwise, or the polygon and that corner both turn clockwise. -/
theorem C22_outward_iff [IsStrictOrderedRing K] (a b : UGrid K δ) (perc : List K)
    (M : VolumeOut K δ) (after : List (ℕ × List ℕ)) (hv : ValidSurface a)
    (h : generateVolumeUnstructured true a b perc = .ok (M, after))
    (k c x y z : ℕ) (rest : List ℕ) (t0 t1 tk tk' : K) (d : V3 K)
    (hc : a.cells[c]? = some (7, x :: y :: z :: rest))
    (hd : ∀ v ∈ x :: y :: z :: rest, pt b.points v = fun ax => pt a.points v ax + d ax)
    (h0 : perc[0]? = some t0) (h1 : perc[1]? = some t1) (hk : perc[k]? = some tk)
    (hk' : perc[k + 1]? = some tk') (h01 : t0 < t1) (hkk : tk < tk') :
    ∃ L base top sides, readCells (· == 42) M.celltypes M.cells = some L ∧
      L[k * a.cells.length + c]? = some (.polyhedron (base :: top :: sides)) ∧
      base.length = rest.length + 3 ∧ top.length = rest.length + 3 ∧
      (∀ v ∈ base, v + a.points.length ∈ top ∧
        (areaAlong (pt M.points) (pt M.points (v + a.points.length) - pt M.points v) base < 0 ↔
          (0 ≤ det (pt a.points y - pt a.points x) (pt a.points z - pt a.points x) d ∧
            0 < areaAlong (pt a.points) d (x :: y :: z :: rest)) ∨
          (det (pt a.points y - pt a.points x) (pt a.points z - pt a.points x) d < 0 ∧
            areaAlong (pt a.points) d (x :: y :: z :: rest) < 0)) ∧
        (0 < areaAlong (pt M.points) (pt M.points (v + a.points.length) - pt M.points v) top ↔
          areaAlong (pt M.points) (pt M.points (v + a.points.length) - pt M.points v) base < 0)) := by
  obtain ⟨L, base, top, sides, e1, e2, e3, e4, e5⟩ :=
    prism_areas a b perc M after hv h k c x y z rest t0 t1 tk tk' d hc hd h0 h1 hk hk' h01
  refine ⟨L, base, top, sides, e1, e2, e3, e4, ?_⟩
  intro v hvm
  obtain ⟨g1, g2, g3⟩ := e5 v hvm
  have hpos : 0 < tk' - tk := by linarith
  refine ⟨g1, ?_, ?_⟩
  · rw [g2, show ∀ u : K, (tk' - tk) * u < 0 ↔ u < 0 from fun u =>
      ⟨fun hh => by by_contra hcon; have := mul_nonneg hpos.le (not_lt.1 hcon); linarith,
        mul_neg_of_pos_of_neg hpos⟩]
    split
    · rename_i hle
      constructor
      · intro hh; exact Or.inl ⟨hle, by linarith⟩
      · rintro (⟨_, hh⟩ | ⟨hh, _⟩)
        · linarith
        · exact absurd hh (not_lt.2 hle)
    · rename_i hlt
      constructor
      · intro hh; exact Or.inr ⟨not_le.1 hlt, hh⟩
      · rintro (⟨hh, _⟩ | ⟨_, hh⟩)
        · exact absurd hh hlt
        · exact hh
  · rw [g2, g3]
    constructor <;> intro hh <;> linarith

/-- **C22 is false for every polygon whose corner at the second vertex turns the other way than the whole polygon, and
for every clockwise polygon whose first three vertices are on a line**: the normal of the base points into the cell. -/
theorem C22_inward_refuted [IsStrictOrderedRing K] (a b : UGrid K δ) (perc : List K)
    (M : VolumeOut K δ) (after : List (ℕ × List ℕ)) (hv : ValidSurface a)
    (h : generateVolumeUnstructured true a b perc = .ok (M, after))
    (k c x y z : ℕ) (rest : List ℕ) (t0 t1 tk tk' : K) (d : V3 K)
    (hc : a.cells[c]? = some (7, x :: y :: z :: rest))
    (hd : ∀ v ∈ x :: y :: z :: rest, pt b.points v = fun ax => pt a.points v ax + d ax)
    (h0 : perc[0]? = some t0) (h1 : perc[1]? = some t1) (hk : perc[k]? = some tk)
    (hk' : perc[k + 1]? = some tk') (h01 : t0 < t1) (hkk : tk < tk')
    (hcorner : det (pt a.points y - pt a.points x) (pt a.points z - pt a.points x) d *
        areaAlong (pt a.points) d (x :: y :: z :: rest) < 0 ∨
      (det (pt a.points y - pt a.points x) (pt a.points z - pt a.points x) d = 0 ∧
        areaAlong (pt a.points) d (x :: y :: z :: rest) < 0)) :
    ∃ L base top sides, readCells (· == 42) M.celltypes M.cells = some L ∧
      L[k * a.cells.length + c]? = some (.polyhedron (base :: top :: sides)) ∧
      ∀ v ∈ base, 0 < areaAlong (pt M.points) (pt M.points (v + a.points.length) - pt M.points v) base := by
  obtain ⟨L, base, top, sides, e1, e2, _, _, e5⟩ :=
    prism_areas a b perc M after hv h k c x y z rest t0 t1 tk tk' d hc hd h0 h1 hk hk' h01
  refine ⟨L, base, top, sides, e1, e2, ?_⟩
  intro v hvm
  rw [(e5 v hvm).2.1]
  apply mul_pos (by linarith)
  split
  · rename_i hle
    rcases hcorner with hh | ⟨_, hh⟩
    · by_contra hcon
      have := mul_nonneg hle (show 0 ≤ areaAlong (pt a.points) d (x :: y :: z :: rest) by linarith)
      linarith
    · linarith
  · rename_i hlt
    have hlt := not_le.1 hlt
    rcases hcorner with hh | ⟨hh, _⟩
    · by_contra hcon
      have := mul_nonneg_of_nonpos_of_nonpos hlt.le (not_lt.1 hcon)
      linarith
    · exact absurd hh hlt.ne

/-- Signed fan sums are the area. -/
theorem fan_area (P : ℕ → Fin 3 → K) (d : Fin 3 → K) (x : ℕ) (l : List ℕ) :
    areaAlong P d (x :: l) =
      ((l.zip l.tail).map fun e => det (P e.1 - P x) (P e.2 - P x) d).sum := by
  cases l with
  | nil => simp [areaAlong, edges, det]; ring
  | cons y l =>
    have h : ∀ (y : ℕ) (l : List ℕ),
        (((y :: l).zip (l ++ [x])).map fun e => det (P e.1) (P e.2) d).sum =
          ((((y :: l).zip l).map fun e => det (P e.1 - P x) (P e.2 - P x) d).sum) +
            det (P y) (P x) d := by
      intro y l
      induction l generalizing y with
      | nil => simp
      | cons z l ih =>
        simp only [List.cons_append, List.zip_cons_cons, List.map_cons, List.sum_cons]
        rw [ih z]
        simp only [det, Pi.sub_apply]
        ring
    have e : edges (x :: y :: l) = (x, y) :: (y :: l).zip (l ++ [x]) := by
      simp [edges, List.rotate]
    unfold areaAlong
    rw [e, List.map_cons, List.sum_cons, h y l, List.tail_cons]
    simp only [det]
    ring

/-- Convex polygons (every triangle of the fan from the first vertex turns the same way, the first
one strictly) meet the last hypothesis of C22. -/
theorem convex_corner [IsStrictOrderedRing K] (P : ℕ → Fin 3 → K) (d : Fin 3 → K) (x y z : ℕ)
    (rest : List ℕ) (s : K) (h0 : 0 < s * det (P y - P x) (P z - P x) d)
    (h : ∀ e ∈ (z :: rest).zip rest, 0 ≤ s * det (P e.1 - P x) (P e.2 - P x) d) :
    0 < det (P y - P x) (P z - P x) d * areaAlong P d (x :: y :: z :: rest) := by
  have h1 : 0 < s * areaAlong P d (x :: y :: z :: rest) := by
    rw [fan_area]
    simp only [List.tail_cons, List.zip_cons_cons, List.map_cons, List.sum_cons]
    rw [mul_add, ← List.sum_map_mul_left]
    have : 0 ≤ (((z :: rest).zip rest).map fun e => s * det (P e.1 - P x) (P e.2 - P x) d).sum := by
      apply List.sum_nonneg
      intro v hv
      obtain ⟨e, he, rfl⟩ := List.mem_map.1 hv
      exact h e he
    linarith
  have h2 := mul_pos h0 h1
  have hs : s ≠ 0 := by rintro rfl; simp at h0
  have h3 : 0 < s ^ 2 * (det (P y - P x) (P z - P x) d * areaAlong P d (x :: y :: z :: rest)) := by
    rw [show s ^ 2 * (det (P y - P x) (P z - P x) d * areaAlong P d (x :: y :: z :: rest)) =
      s * det (P y - P x) (P z - P x) d * (s * areaAlong P d (x :: y :: z :: rest)) by ring]
    exact h2
  exact (mul_pos_iff_of_pos_left (by positivity)).1 h3

/-- Concrete case of C22: the pentagon of `sampleSurface`, extruded upwards by 1; the corner and the
polygon turn the same way. -/
example : (∀ v ∈ [1, 4, 5, 6, 2], pt (sampleSurface 1).points v =
      fun ax => pt (sampleSurface 0).points v ax + ![0, 0, 1] ax) ∧
    0 < det (pt (sampleSurface 0).points 4 - pt (sampleSurface 0).points 1)
      (pt (sampleSurface 0).points 5 - pt (sampleSurface 0).points 1) ![0, 0, 1] *
      areaAlong (pt (sampleSurface 0).points) ![0, 0, 1] [1, 4, 5, 6, 2] := by
  constructor
  · decide +kernel
  · decide +kernel

/-- A surface made of one polygon. -/
def onePolygon (pts : List (V3 ℚ)) : UGrid ℚ ℤ := ⟨pts, [(7, List.range pts.length)], [], []⟩

/-- **C22 (refuted for polygons with a reflex second vertex).** The quadrilateral (0,0), (2,1), (4,0),
(2,4) is simple and counter-clockwise; extruded upwards, its base is not reversed, so the base of
the polyhedron has its normal pointing up, into the cell. -/
theorem C22_reflex_refuted :
    let a := onePolygon [![0, 0, 0], ![2, 1, 0], ![4, 0, 0], ![2, 4, 0]]
    let b := onePolygon [![0, 0, 1], ![2, 1, 1], ![4, 0, 1], ![2, 4, 1]]
    ((generateVolumeUnstructured true a b [0, 1]).toOption.map fun r =>
      (readCells (· == 42) r.1.celltypes r.1.cells).map fun L => L.head?) =
        some (some (some (.polyhedron [[0, 1, 2, 3], [7, 6, 5, 4], [4, 5, 1, 0], [5, 6, 2, 1],
          [6, 7, 3, 2], [7, 4, 0, 3]]))) ∧
    0 < areaAlong (pt (layerPoints [0, 1] a.points b.points)) ![0, 0, 1] [0, 1, 2, 3] := by
  constructor <;> decide +kernel

/-- **C22 (refuted when the first three vertices are on a line).** The polygon (0,0), (1,0), (2,0),
(1,-1), clockwise seen from above, is reversed, so the base points up, into the cell. -/
theorem C22_collinear_refuted :
    let a := onePolygon [![0, 0, 0], ![1, 0, 0], ![2, 0, 0], ![1, -1, 0]]
    let b := onePolygon [![0, 0, 1], ![1, 0, 1], ![2, 0, 1], ![1, -1, 1]]
    ((generateVolumeUnstructured true a b [0, 1]).toOption.map fun r =>
      (readCells (· == 42) r.1.celltypes r.1.cells).map fun L => L.head?) =
        some (some (some (.polyhedron [[3, 2, 1, 0], [4, 5, 6, 7], [7, 6, 2, 3], [6, 5, 1, 2],
          [5, 4, 0, 1], [4, 7, 3, 0]]))) ∧
    0 < areaAlong (pt (layerPoints [0, 1] a.points b.points)) ![0, 0, 1] [3, 2, 1, 0] := by
  constructor <;> decide +kernel

/-! ### C23: hidden cells -/

/-- An array of the copy comes from the array of the same name. -/
theorem copyArrays_get {δ : Type _} (n : ℕ) (f : DArr δ → Py (DArr δ)) (k : String) :
    ∀ (src acc out : Dict String (DArr δ)), UniqueKeys src → copyArrays n f src acc = .ok out →
      (Dict.get? src k = none → Dict.get? out k = Dict.get? acc k) ∧
      (∀ v, Dict.get? src k = some v → ∃ w, f v = .ok w ∧ w.vals.length = n ∧
        Dict.get? out k = some w) := by
  intro src
  induction src with
  | nil => intro acc out _ h; simp only [copyArrays] at h; cases h; simp [Dict.get?]
  | cons a src ih =>
    obtain ⟨a, v⟩ := a
    intro acc out hu h
    have hu' : a ∉ src.map Prod.fst ∧ UniqueKeys src := by
      simpa [UniqueKeys, List.nodup_cons] using hu
    simp only [copyArrays] at h
    cases hf : f v with
    | error e => rw [hf] at h; cases h
    | ok w =>
      rw [hf] at h
      simp only [setArray] at h
      by_cases hw : w.vals.length = n
      · simp only [hw, if_true] at h
        obtain ⟨i1, i2⟩ := ih _ _ hu'.2 h
        simp only [Dict.get?]
        by_cases hk : a = k
        · subst hk
          simp only [if_true]
          refine ⟨by simp, ?_⟩
          rintro v' hv'
          cases hv'
          exact ⟨w, hf, hw, by rw [i1 (Dict.get?_eq_none.2 hu'.1), Dict.get?_set, if_pos rfl]⟩
        · simp only [hk, if_false]
          refine ⟨fun hn => by rw [i1 hn, Dict.get?_set, if_neg hk], i2⟩
      · simp only [hw, if_false] at h
        cases h

/-- The ghost array written by the code. -/
theorem flagHidden_get {δ : Type _} [OfNat δ 0] [OfNat δ 32] (n : ℕ) (inactive : List Bool)
    (cd : Dict String (DArr δ)) :
    ∃ w, Dict.get? (flagHidden n inactive cd) "vtkGhostType" = some w ∧
      ∀ (j : ℕ) (g : δ) (b : Bool), inactive[j]? = some b →
        ((Dict.get? cd "vtkGhostType" = none ∧ j < n ∧ g = 0) ∨
          ∃ v, Dict.get? cd "vtkGhostType" = some v ∧ v.vals[j]? = some g) →
        w.vals[j]? = some (if b then 32 else g) := by
  refine ⟨_, by simp only [flagHidden]; rw [Dict.get?_set, if_pos rfl], ?_⟩
  intro j g b hb hg
  simp only [List.getElem?_zipWith]
  rcases hg with ⟨h1, h2, rfl⟩ | ⟨v, h1, h2⟩
  · rw [h1]
    simp only [List.getElem?_replicate, h2, if_true, hb]
  · rw [h1]
    simp only [h2, hb]

/-- **C23, unstructured (partial).** A copy of a base cell is hidden exactly when each of its nodes
in the first sublayer is within numpy's tolerance of the one above it; otherwise it keeps the ghost
value of the base cell (0 if there is none).
Missing: hidden exactly for cells of zero thickness.  The tolerance is relative to the coordinates and
only the first sublayer is examined (`C23_magnitude_refuted`, `C23_sublayer_refuted`). -/
theorem C23_unstructured_partial (invert : Bool) (a b : UGrid K δ) (perc : List K)
    (M : VolumeOut K δ) (after : List (ℕ × List ℕ)) (hv : ValidSurface a)
    (h : generateVolumeUnstructured invert a b perc = .ok (M, after)) :
    ∃ w, Dict.get? M.cellData "vtkGhostType" = some w ∧
      ∀ (k c t : ℕ) (conn : List ℕ) (g : δ), k < perc.length - 1 →
        a.cells[c]? = some (t, conn) →
        ((Dict.get? a.cellData "vtkGhostType" = none ∧ g = 0) ∨
          ∃ v, Dict.get? a.cellData "vtkGhostType" = some v ∧ v.vals[c]? = some g) →
        ((∀ x ∈ conn, ∀ p q, M.points[x]? = some p → M.points[a.points.length + x]? = some q →
            Close p q) → w.vals[k * a.cells.length + c]? = some 32) ∧
        (¬ (∀ x ∈ conn, ∀ p q, M.points[x]? = some p → M.points[a.points.length + x]? = some q →
            Close p q) → w.vals[k * a.cells.length + c]? = some g) := by
  obtain ⟨hlen, htypes, hperc, outs, houts, hp, hc, ht, _, hpd, cd, hcd, hM⟩ :=
    generateVolumeUnstructured_inv h
  obtain ⟨hol, hog⟩ := extrudeCells_spec houts
  have htl : M.celltypes.length = (perc.length - 1) * a.cells.length := by
    rw [ht]; simp [List.length_flatten, hol]
  obtain ⟨w, w1, w2⟩ := flagHidden_get M.celltypes.length
    (List.replicate (perc.length - 1) (outs.map (·.collapsed))).flatten cd
  rw [← hM] at w1
  refine ⟨w, w1, ?_⟩
  intro k c t conn g hk hcell hg
  have hcl := (List.getElem?_eq_some_iff.1 hcell).1
  obtain ⟨o, ho, he⟩ := hog c t conn hcell
  have hids := hv.ids _ (List.mem_of_getElem? hcell)
  simp only at hids
  have hidx : k * a.cells.length + c = c + (outs.map (·.collapsed)).length * k := by
    simp [hol]; ring
  have hbit : (List.replicate (perc.length - 1) (outs.map (·.collapsed))).flatten[
      k * a.cells.length + c]? = some o.collapsed := by
    rw [flatten_replicate_get (perc.length - 1) _ _ k c (by simpa [hol] using hcl) hk
      (by simp [hol]; ring), List.getElem?_map, ho]
    rfl
  have hlt : k * a.cells.length + c < M.celltypes.length := by
    rw [htl]
    calc k * a.cells.length + c < k * a.cells.length + a.cells.length := by omega
      _ = (k + 1) * a.cells.length := by ring
      _ ≤ (perc.length - 1) * a.cells.length := Nat.mul_le_mul_right _ hk
  have hval : w.vals[k * a.cells.length + c]? = some (if o.collapsed then 32 else g) := by
    apply w2 _ _ _ hbit
    obtain ⟨c1, c2⟩ := copyArrays_get _ _ "vtkGhostType" _ _ _ hv.cellData.2 hcd
    rcases hg with ⟨g1, rfl⟩ | ⟨v, g1, g2⟩
    · exact .inl ⟨by rw [c1 g1]; rfl, hlt, rfl⟩
    · right
      obtain ⟨v', f1, _, f3⟩ := c2 v g1
      simp only [Except.ok.injEq] at f1
      subst f1
      refine ⟨_, f3, ?_⟩
      have hl := hv.cellData.1 _ (Dict.get?_mem g1)
      simp only at hl
      rw [← hl, tileRows_get _ v hk (by rw [hl]; exact hcl), g2]
  have hcol : o.collapsed = true ↔ ∀ x ∈ conn, ∀ p q, M.points[x]? = some p →
      M.points[a.points.length + x]? = some q → Close p q := by
    have hpl : M.points.length = perc.length * a.points.length := by
      rw [hp]; exact layerPoints_length _ _ _ hlen
    have key : ∀ f : List ℕ, (∀ x, x ∈ f ↔ x ∈ conn) →
        (isCollapsed (layerPoints perc a.points b.points) f (f.map (· + a.points.length)) = true ↔
          ∀ x ∈ conn, ∀ p q, M.points[x]? = some p → M.points[a.points.length + x]? = some q →
            Close p q) := by
      intro f hf
      have hzip : f.zip (f.map (· + a.points.length)) =
          f.map fun x => (x, x + a.points.length) := by
        clear hf
        induction f with
        | nil => rfl
        | cons x f ih => simpa using ih
      simp only [isCollapsed, hzip, List.all_map, List.all_eq_true, Function.comp, closeV3_iff]
      rw [← hp]
      constructor
      · intro H x hx p q h1 h2
        have := H x ((hf x).2 hx)
        simp only [pt, List.getD_eq_getElem?_getD] at this
        rw [h1, Nat.add_comm, h2] at this
        exact this
      · intro H x hx
        have hxc := (hf x).1 hx
        have hxl := hids x hxc
        have l1 : x < M.points.length := by rw [hpl]; nlinarith
        have l2 : a.points.length + x < M.points.length := by rw [hpl]; nlinarith
        have := H x hxc _ _ (List.getElem?_eq_getElem l1) (List.getElem?_eq_getElem l2)
        simp only [pt, List.getD_eq_getElem?_getD, List.getElem?_eq_getElem l1,
          Nat.add_comm x, List.getElem?_eq_getElem l2]
        exact this
    have htt := htypes _ (List.mem_of_getElem? hcell)
    simp only [extrudeCell] at he
    split at he
    · rename_i h11
      have ht8 : t = 8 := by
        rcases extrudedType_ne htt with h | h | h | h
        · simp only at h; subst h; exact absurd h11 (by decide)
        · simp only at h; subst h; exact absurd h11 (by decide)
        · exact h
        · simp only at h; subst h; exact absurd h11 (by decide)
      have h4 := hv.pixel _ (List.mem_of_getElem? hcell) ht8
      simp only at h4
      match conn, h4, he with
      | [x0, x1, x2, x3], _, he =>
        simp only [Except.ok.injEq] at he
        subst he
        exact key _ (by intro x; simp; tauto)
    · split at he
      · split at he
        · split at he
          · cases he
          · cases he; exact key conn fun _ => Iff.rfl
        · cases he; exact key conn fun _ => Iff.rfl
      · cases he; exact key conn fun _ => Iff.rfl
  constructor
  · intro hclose
    rw [hval, hcol.2 hclose]; rfl
  · intro hclose
    have : o.collapsed = false := by
      rw [← Bool.not_eq_true]; exact fun h => hclose (hcol.1 h)
    rw [hval, this]; rfl

/-- Cells whose nodes coincide in the two surfaces are hidden in every sublayer. -/
theorem C23_coincident_hidden [IsStrictOrderedRing K] (invert : Bool) (a b : UGrid K δ)
    (perc : List K) (M : VolumeOut K δ) (after : List (ℕ × List ℕ)) (hv : ValidSurface a)
    (h : generateVolumeUnstructured invert a b perc = .ok (M, after)) (c t : ℕ) (conn : List ℕ)
    (hc : a.cells[c]? = some (t, conn)) (hsame : ∀ x ∈ conn, a.points[x]? = b.points[x]?) :
    ∃ w, Dict.get? M.cellData "vtkGhostType" = some w ∧
      ∀ k, k < perc.length - 1 → w.vals[k * a.cells.length + c]? = some 32 := by
  obtain ⟨w, w1, w2⟩ := C23_unstructured_partial invert a b perc M after hv h
  obtain ⟨L, hE⟩ := extrusion_of_ok hv h
  obtain ⟨hlen, _, hperc, _⟩ := generateVolumeUnstructured_inv h
  refine ⟨w, w1, fun k hk => ?_⟩
  have hclose : ∀ x ∈ conn, ∀ p q, M.points[x]? = some p →
      M.points[a.points.length + x]? = some q → Close p q := by
    intro x hx p q h1 h2
    have hxl := hv.ids _ (List.mem_of_getElem? hc) x hx
    have ha := List.getElem?_eq_getElem hxl
    have hb := (hsame x hx).symm.trans ha
    have p0 := hE.point 0 x _ _ _ (List.getElem?_eq_getElem (by omega)) ha hb
    have p1 := hE.point 1 x _ _ _ (List.getElem?_eq_getElem (by omega)) ha hb
    rw [zero_mul, zero_add, h1] at p0
    rw [one_mul, h2] at p1
    cases p0; cases p1
    intro ax
    simp only [between]
    rw [show ∀ s t y : K, (1 - s) * y + s * y - ((1 - t) * y + t * y) = 0 by intros; ring, abs_zero]
    positivity
  cases hg : Dict.get? a.cellData "vtkGhostType" with
  | none => exact (w2 k c t conn 0 hk hc (.inl ⟨hg, rfl⟩)).1 hclose
  | some v =>
    have hl := hv.cellData.1 _ (Dict.get?_mem hg)
    have hcl := (List.getElem?_eq_some_iff.1 hc).1
    simp only at hl
    exact (w2 k c t conn _ hk hc
      (.inr ⟨v, hg, List.getElem?_eq_getElem (by rw [hl]; exact hcl)⟩)).1 hclose

/-- **C23, structured volumes.** A cell is hidden exactly when VTK's volume of it is zero; the other
cells keep the ghost value repeated from the base surface (0 if it has none). -/
theorem C23_structured_hidden [Inhabited δ] (volume : Arr3 (V3 K) → List K) (a b : SGrid K δ)
    (perc : List K) (M : SGrid K δ) (axis : Fin 3) (hflat : FlatAlong a.nodes.d axis)
    (hcd : Arrays (count (cells a.nodes.d)) a.cellData) (hperc : 2 ≤ perc.length)
    (h : generateVolumeStructured volume a b perc = .ok M) :
    ∃ w, Dict.get? M.cellData "vtkGhostType" = some w ∧
      ∀ i s x g, InShape (cells a.nodes.d) i → s < perc.length - 1 →
        (volume M.nodes)[vtkId (cells M.nodes.d) (Function.update i axis s)]? = some x →
        ((Dict.get? a.cellData "vtkGhostType" = none ∧ g = 0) ∨
          ∃ v, Dict.get? a.cellData "vtkGhostType" = some v ∧
            v.vals[vtkId (cells a.nodes.d) i]? = some g) →
        w.vals[vtkId (cells M.nodes.d) (Function.update i axis s)]? =
          some (if x = 0 then 32 else g) := by
  obtain ⟨hax, hdim⟩ := flatAxis_eq hflat
  simp only [generateVolumeStructured] at h
  split at h
  · cases h
  split at h
  · cases h
  split at h
  · cases h
  split at h
  · cases h
  rename_i cd hcopy
  cases h
  obtain ⟨w, w1, w2⟩ := flagHidden_get (sizeOfShape (cellShape (volumeNodes perc a.nodes b.nodes).d))
    ((volume (volumeNodes perc a.nodes b.nodes)).map fun x => decide (x = 0)) cd
  refine ⟨w, w1, ?_⟩
  intro i s x g hi hs hx hg
  simp only at hx ⊢
  have hnd : (volumeNodes perc a.nodes b.nodes).d =
      Function.update a.nodes.d axis perc.length := by simp [volumeNodes, hax]
  have hcells : cells (volumeNodes perc a.nodes b.nodes).d =
      Function.update (cells a.nodes.d) axis (perc.length - 1) := by
    rw [hnd, cells_update hflat hperc]
  have := w2 (vtkId (cells (volumeNodes perc a.nodes b.nodes).d) (Function.update i axis s)) g
    (decide (x = 0)) (by rw [List.getElem?_map, hx]; rfl) ?_
  · rw [this]; simp
  obtain ⟨c1, c2⟩ := copyArrays_get _ _ "vtkGhostType" _ _ _ hcd.2 hcopy
  rcases hg with ⟨g1, rfl⟩ | ⟨v, g1, g2⟩
  · refine .inl ⟨by rw [c1 g1]; rfl, ?_, rfl⟩
    rw [sizeOfShape_eq, cellShape_eq]
    apply vtkId_lt
    rw [hcells]
    exact inShape_update hi hs
  · right
    obtain ⟨v', f1, _, f3⟩ := c2 v g1
    refine ⟨v', f3, ?_⟩
    rw [cellShape_eq, hax] at f1
    have hf := cells_flat hflat
    have hl := hcd.1 _ (Dict.get?_mem g1)
    by_cases hsq : v.vector = true ∧ count (cells a.nodes.d) * (perc.length - 1) = 1
    · exfalso
      simp only at hl
      simp only [repeatStructured, reshapeF] at f1
      rw [if_pos (by rw [sizeOfShape_eq]; exact hl)] at f1
      simp only at f1
      rw [if_pos] at f1
      · cases f1
      · refine ⟨?_, hsq.1⟩
        rw [ravelF_length]
        simp only [Arr3.repeatAxis, hf, one_mul]
        rw [count_update hf]; exact hsq.2
    · obtain ⟨w', r1, _, _, r4⟩ := repeatStructured_ok hf v hl (perc.length - 1) hsq
      rw [r1] at f1; cases f1
      rw [hcells, r4 i s hi hs, g2]

/-- **C23, structured surfaces.** A cell of the surface between two lines is hidden exactly when
VTK's area of it is zero, when the first line has no ghost array. -/
theorem C23_surface_hidden (area : Arr3 (V3 K) → List K) (lineA lineB : LineArg K δ) (plane : String)
    (perc : List K) (M : SGrid K δ)
    (hg : ∀ pts ids pd cd, lineA = .poly pts ids pd cd → UniqueKeys cd ∧
      Dict.get? cd "vtkGhostType" = none)
    (h : generateSurfaceCore area lineA lineB plane perc = .ok M) :
    ∃ w, Dict.get? M.cellData "vtkGhostType" = some w ∧
      ∀ j x, j < count (cells M.nodes.d) → (area M.nodes)[j]? = some x →
        w.vals[j]? = some (if x = 0 then 32 else 0) := by
  simp only [generateSurfaceCore] at h
  split at h
  · cases h
  split at h
  · cases h
  rename_i pl _
  have fin : ∀ cd : Dict String (DArr δ), Dict.get? cd "vtkGhostType" = none →
      ∃ w, Dict.get? (flagHidden (sizeOfShape (cellShape (surfaceNodes pl perc lineA.points
          lineB.points).d)) ((area (surfaceNodes pl perc lineA.points lineB.points)).map
            fun x => decide (x = 0)) cd) "vtkGhostType" = some w ∧
        ∀ j x, j < count (cells (surfaceNodes pl perc lineA.points lineB.points).d) →
          (area (surfaceNodes pl perc lineA.points lineB.points))[j]? = some x →
          w.vals[j]? = some (if x = 0 then 32 else 0) := by
    intro cd hcd
    obtain ⟨w, w1, w2⟩ := flagHidden_get (sizeOfShape (cellShape (surfaceNodes pl perc lineA.points
          lineB.points).d)) ((area (surfaceNodes pl perc lineA.points lineB.points)).map
            fun x => decide (x = 0)) cd
    refine ⟨w, w1, fun j x hj hx => ?_⟩
    rw [w2 j 0 (decide (x = 0)) (by rw [List.getElem?_map, hx]; rfl)
      (.inl ⟨hcd, by rw [sizeOfShape_eq, cellShape_eq]; exact hj, rfl⟩)]
    simp
  split at h
  · cases h; exact fin [] rfl
  · rename_i pts ids pd cd
    obtain ⟨g1, g2⟩ := hg _ _ _ _ rfl
    split at h
    · cases h
    split at h
    · cases h
    rename_i cd' hcopy
    cases h
    apply fin
    rw [(copyArrays_get _ _ "vtkGhostType" _ _ _ g1 hcopy).1 g2]; rfl

/-- Concrete case: a wedge between coincident lines at one end and a full cell next to it. -/
example : ((generateSurfaceCore (K := ℚ) (δ := ℤ) (fun _ => [0, 1])
    (.array [![0,0,0], ![1,0,0], ![2,0,0]]) (.array [![0,0,0], ![1,0,0], ![2,0,1]]) "xz"
    [0, 1]).toOption.map fun M => Dict.get? M.cellData "vtkGhostType") =
    some (some ⟨false, [32, 0]⟩) := by decide +kernel

/-- A triangle at height `z`. -/
def triangleAt (z : ℚ) : UGrid ℚ ℤ :=
  ⟨[![0, 0, z], ![1, 0, z], ![0, 1, z]], [(5, [0, 1, 2])], [], []⟩

/-- Concrete case: coincident triangles give a hidden cell, a gap of 5 a visible one. -/
example : ((generateVolumeUnstructured true (triangleAt 7) (triangleAt 7) [0, 1]).toOption.map
      fun r => Dict.get? r.1.cellData "vtkGhostType") = some (some ⟨false, [32]⟩) ∧
    ((generateVolumeUnstructured true (triangleAt 7) (triangleAt 12) [0, 1]).toOption.map
      fun r => Dict.get? r.1.cellData "vtkGhostType") = some (some ⟨false, [0]⟩) := by
  constructor <;> decide +kernel

/-- **C23 (refuted).** A layer of thickness 5 at elevation 1 000 000 is hidden. -/
theorem C23_magnitude_refuted :
    ((generateVolumeUnstructured true (triangleAt 1000000) (triangleAt 1000005) [0, 1]).toOption.map
      fun r => Dict.get? r.1.cellData "vtkGhostType") = some (some ⟨false, [32]⟩) := by
  decide +kernel

/-- **C23 (refuted).** With the positions 0, 0, 1 only the first sublayer is flat, but both cells are
hidden; with 0, 1, 1 only the second one is flat and neither is. -/
theorem C23_sublayer_refuted :
    ((generateVolumeUnstructured true (triangleAt 0) (triangleAt 5) [0, 0, 1]).toOption.map
      fun r => (Dict.get? r.1.cellData "vtkGhostType", (r.1.points[5]?).map (· 2),
        (r.1.points[8]?).map (· 2))) =
      some (some ⟨false, [32, 32]⟩, some 0, some 5) ∧
    ((generateVolumeUnstructured true (triangleAt 0) (triangleAt 5) [0, 1, 1]).toOption.map
      fun r => (Dict.get? r.1.cellData "vtkGhostType", (r.1.points[5]?).map (· 2),
        (r.1.points[8]?).map (· 2))) =
      some (some ⟨false, [0, 0]⟩, some 5, some 5) := by
  constructor <;> decide +kernel

/-! ### C25: cell types -/

/-- **C25.** Every base cell type either has an extruded type, of one dimension more, or makes the
call raise `ValueError`; in particular vertices, lines, strips and quadratic cells are never
dropped or turned into something else. -/
theorem C25_cell_types (invert : Bool) (a b : UGrid ℝ δ) (res : Resolution ℝ)
    (m : Option String) :
    (∀ (M : VolumeOut ℝ δ) after, ValidSurface a →
      generateVolumeU invert a b res m = .ok (M, after) → ∃ ts, resolutionToPerc res m = .ok ts ∧
      ∀ (k c t : ℕ) (conn : List ℕ), k < ts.length - 1 → a.cells[c]? = some (t, conn) →
        ∃ t' : ℕ, M.celltypes[k * a.cells.length + c]? = some (t' : ℤ) ∧
          cellDim t = .ok 2 ∧ cellDim t' = .ok 3 ∧
          ((t = 5 ∧ t' = 13) ∨ (t = 7 ∧ t' = 42) ∨ (t = 8 ∧ t' = 12) ∨ (t = 9 ∧ t' = 12))) ∧
    ((∃ tc ∈ a.cells, tc.1 ≠ 5 ∧ tc.1 ≠ 7 ∧ tc.1 ≠ 8 ∧ tc.1 ≠ 9) →
      generateVolumeU invert a b res m = .error .valueError) := by
  constructor
  · intro M after hv h
    simp only [generateVolumeU] at h
    split at h
    · cases h
    split at h
    · cases h
    split at h
    · cases h
    · cases h
    split at h
    · cases h
    rename_i ts hts
    refine ⟨ts, hts, ?_⟩
    intro k c t conn hk hc
    obtain ⟨L, hE⟩ := extrusion_of_ok hv h
    obtain ⟨cell, ct, _, h2, h3, _⟩ := hE.cell k c t conn hk hc
    rcases h3 with ⟨⟨rfl, rfl⟩ | ⟨rfl, rfl⟩, _⟩ | ⟨rfl, rfl, _⟩ | ⟨rfl, rfl, _⟩
    · exact ⟨13, h2, rfl, rfl, by simp⟩
    · exact ⟨12, h2, rfl, rfl, by simp⟩
    · exact ⟨12, h2, rfl, rfl, by simp⟩
    · exact ⟨42, h2, rfl, rfl, by simp⟩
  · rintro ⟨tc, htc, h1⟩
    simp only [generateVolumeU]
    split
    · rfl
    rw [if_pos]
    intro hall
    have := (List.all_eq_true.1 hall) tc htc
    have := extrudedType_ne (t := tc.1) (by simpa using this)
    tauto

/-- Concrete case: a line segment among the cells is rejected. -/
example : generateVolumeU (δ := ℤ) true ⟨[![0,0,0], ![1,0,0], ![0,1,0]], [(5, [0, 1, 2]), (3, [0, 1])],
    [], []⟩ ⟨[![0,0,1], ![1,0,1], ![0,1,1]], [(5, [0, 1, 2]), (3, [0, 1])], [], []⟩ (.int 1) none =
    .error .valueError :=
  (C25_cell_types true _ _ _ none).2 ⟨(3, [0, 1]), by simp, by decide⟩

end Gridder
