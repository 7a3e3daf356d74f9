import Verif.Model.Outline
import Verif.Props.Polygon
import Verif.Props.Lines

/-!
# Polygon of datasets (C145)
-/

namespace Gridder
open Spec

section
variable {K D : Type} [Field K] [LinearOrder K]

/-- A line mesh goes through `pts` with its first line, which returns to the first point or not. -/
structure Spec.StartsWith (m : LineMesh (Fin 3 → K) D) (pts : List (Fin 3 → K)) : Prop where
  whole : WellFormed m
  some_point : pts ≠ []
  open_end : pts.head? ≠ pts.getLast?
  line : ∃ ids, m.lines.head? = some ids ∧ (along m.points ids = pts.map some ∨ along m.points ids = (pts ++ pts.head?.toList).map some)

/-- The outline of what is given as shell or hole: the points of an array, those of the only line of a line mesh, or of the only boundary of
a mesh. -/
def Spec.HasOutline (arg : OutlineArg K D) (pts : List (Fin 3 → K)) : Prop :=
  match arg with
  | .array ring => Encloses ring pts
  | .lines m => StartsWith m pts ∧ m.lines.length = 1
  | .mesh edges => ∃ e, edges = some [e] ∧ StartsWith e pts ∧ e.lines.length = 1

omit [Field K] in
theorem gather_starts {m : LineMesh (V3 K) D} {pts : List (V3 K)} (h : StartsWith m pts) : ∃ ids rest l, m.lines = ids :: rest ∧
    gather m.points ids = .ok l ∧ closeRing l = .ok (pts ++ pts.head?.toList) := by
  obtain ⟨ids, hi, hl⟩ := h.line
  obtain ⟨rest, hr⟩ : ∃ rest, m.lines = ids :: rest := by
    cases hm : m.lines with
    | nil => rw [hm] at hi; simp at hi
    | cons a r => rw [hm] at hi; simp at hi; exact ⟨r, by rw [hi]⟩
  rcases hl with hl | hl
  · exact ⟨ids, rest, pts, hr, gather_ok_iff.2 hl.symm, closeRing_open h.some_point h.open_end⟩
  · exact ⟨ids, rest, pts ++ pts.head?.toList, hr, gather_ok_iff.2 hl.symm, closeRing_closed h.some_point⟩

/-- A line mesh gives the points of its first line. -/
theorem outline_lines {m : LineMesh (V3 K) D} {pts : List (V3 K)} (h : StartsWith m pts) :
    outlinePoints (.lines m) = .ok (pts ++ pts.head?.toList) := by
  obtain ⟨ids, rest, l, h1, h2, h3⟩ := gather_starts h
  obtain ⟨out, o1, o2, o3⟩ := C39_split_lines m h.whole false
  obtain ⟨e, e1, e2, e3, e4, _⟩ := o3 0 ids (by rw [h1]; rfl)
  obtain ⟨es, he⟩ : ∃ es, out = e :: es := by
    cases ho : out with
    | nil => rw [ho] at e1; simp at e1
    | cons a r => rw [ho] at e1; simp at e1; exact ⟨r, by rw [e1]⟩
  obtain ⟨js, hjs⟩ : ∃ js, e.lines = [js] := by
    cases hl : e.lines with
    | nil => rw [hl] at e4; simp at e4
    | cons a r =>
      rw [hl] at e4
      simp at e4
      exact ⟨a, by rw [e4]⟩
  rw [hjs] at e3
  simp only [List.map_cons, List.map_nil, Bool.false_eq_true, if_false, List.cons.injEq, and_true] at e3
  have hg : gather e.points js = .ok l := by
    rw [gather_ok_iff, e3]
    exact gather_ok_iff.1 h2
  simp only [outlinePoints, o1, he, firstEdge, hjs, hg, h3]

/-- Any other dataset gives the points of the first of its boundaries. -/
theorem outline_mesh {e : LineMesh (V3 K) D} {es : List (LineMesh (V3 K) D)} {pts : List (V3 K)} (h : StartsWith e pts) :
    outlinePoints (.mesh (some (e :: es))) = .ok (pts ++ pts.head?.toList) := by
  obtain ⟨ids, rest, l, h1, h2, h3⟩ := gather_starts h
  simp only [outlinePoints, firstEdge, h1, h2, h3]

theorem outline_points {arg : OutlineArg K D} {pts : List (V3 K)} (h : HasOutline arg pts) :
    outlinePoints arg = .ok (pts ++ pts.head?.toList) ∧ pts ≠ [] ∧ pts.head? ≠ pts.getLast? := by
  cases arg with
  | array ring => exact ⟨toPoints_encloses h, h.1, h.2.1⟩
  | lines m => exact ⟨outline_lines h.1, h.1.some_point, h.1.open_end⟩
  | mesh edges =>
    obtain ⟨e, rfl, h, _⟩ := h
    exact ⟨outline_mesh h, h.some_point, h.open_end⟩

theorem mapM_outlines : ∀ {holes : List (OutlineArg K D)} {hp : List (List (V3 K))}, List.Forall₂ HasOutline holes hp →
    holes.mapM outlinePoints = .ok (hp.map fun pts => pts ++ pts.head?.toList) ∧
      List.Forall₂ Encloses ((hp.map fun pts => pts ++ pts.head?.toList).map Ring.three) hp
  | [], _, h => by cases h; exact ⟨rfl, .nil⟩
  | r :: rs, _, h => by
    cases h with
    | cons h1 h2 =>
      obtain ⟨a, b, c⟩ := outline_points h1
      obtain ⟨i1, i2⟩ := mapM_outlines h2
      refine ⟨?_, .cons ⟨b, c, Or.inr rfl⟩ i2⟩
      rw [List.mapM_cons, a, i1]
      rfl

variable (g : Gmsh K) (nrm : V3 K → K)

/-- **C145.** Whatever they are given as, the same outlines give the same result and make the same calls of Gmsh as arrays of their points.
Missing: line meshes with several lines and meshes with several boundaries, of which only the first is used (`C145_first`), so that lines given
segment by segment and meshes with holes give something else (`C145_segments_refuted`, `C145_hole_refuted`). -/
theorem C145_same_outline_partial {shell : OutlineArg K D} {pts : List (V3 K)} (hs : HasOutline shell pts) {holes : List (OutlineArg K D)}
    {hp : List (List (V3 K))} (hh : List.Forall₂ HasOutline holes hp) {ring : Ring K} (hr : Encloses ring pts) {rings : List (Ring K)}
    (hrs : List.Forall₂ Encloses rings hp) (celltype : Option String) (cellsize : Option K) (algorithm : K) (optimization : Option String)
    (engine : String) :
    polygonOf g nrm shell holes celltype cellsize algorithm optimization engine =
      polygon g nrm ring rings celltype cellsize algorithm optimization engine := by
  obtain ⟨a, b, c⟩ := outline_points hs
  obtain ⟨i1, i2⟩ := mapM_outlines hh
  rw [← C68_same_ring g nrm (shell := .three (pts ++ pts.head?.toList)) ⟨b, c, Or.inr rfl⟩ hr i2 hrs]
  funext tr
  simp only [polygonOf, a, i1]
  rfl

/-- **C145.** Only the first line of a line mesh and the first boundary of any other mesh are used. -/
theorem C145_first {m e : LineMesh (V3 K) D} {es : List (LineMesh (V3 K) D)} {pts : List (V3 K)} {celltype : Option String}
    (hc : celltype = none ∨ celltype = some "" ∨ celltype = some "polygon") (cellsize : Option K) (algorithm : K) (optimization : Option String)
    (engine : String) (tr : List (GmshCall K)) :
    (StartsWith m pts → polygonOf g nrm (.lines m) [] celltype cellsize algorithm optimization engine tr =
      (.ok ⟨pts, [(7, List.range pts.length)]⟩, tr)) ∧
    (StartsWith e pts → polygonOf g nrm (.mesh (some (e :: es))) [] celltype cellsize algorithm optimization engine tr =
      (.ok ⟨pts, [(7, List.range pts.length)]⟩, tr)) := by
  have key : ∀ {arg : OutlineArg K D}, outlinePoints arg = .ok (pts ++ pts.head?.toList) → pts ≠ [] → pts.head? ≠ pts.getLast? →
      polygonOf g nrm arg [] celltype cellsize algorithm optimization engine tr = (.ok ⟨pts, [(7, List.range pts.length)]⟩, tr) := by
    intro arg h1 h2 h3
    rw [← C68_polygon g nrm (shell := .three (pts ++ pts.head?.toList)) ⟨h2, h3, Or.inr rfl⟩ hc cellsize algorithm optimization engine tr]
    simp only [polygonOf, h1]
    rfl
  exact ⟨fun h => key (outline_lines h) h.some_point h.open_end, fun h => key (outline_mesh h) h.some_point h.open_end⟩

/-- **C145 refuted for lines given segment by segment.** Whatever the other segments, the polygon has the two nodes of the first one. -/
theorem C145_segments_refuted {m : LineMesh (V3 K) D} (hm : WellFormed m) {ids : List ℕ} (hl : m.lines = consecutive ids) {i j : ℕ}
    {a b : V3 K} (h0 : ids[0]? = some i) (h1 : ids[1]? = some j) (ha : m.points[i]? = some a) (hb : m.points[j]? = some b) (hab : a ≠ b)
    (cellsize : Option K) (algorithm : K) (optimization : Option String) (engine : String) (tr : List (GmshCall K)) :
    polygonOf g nrm (.lines m) [] none cellsize algorithm optimization engine tr = (.ok ⟨[a, b], [(7, [0, 1])]⟩, tr) := by
  refine (C145_first g nrm (e := m) (es := []) (Or.inl rfl) cellsize algorithm optimization engine tr).1 ⟨hm, by simp, by simpa using hab, [i, j], ?_,
    Or.inl ?_⟩
  · rw [hl]
    match ids, h0, h1 with
    | x :: y :: r, h0, h1 =>
      simp at h0 h1
      simp [consecutive, h0, h1]
  · simp [along, ha, hb]

/-- **C145 refuted for meshes with holes or several parts.** The other boundaries make no difference: a hole is filled in, and other parts are
lost. -/
theorem C145_hole_refuted {e : LineMesh (V3 K) D} {pts : List (V3 K)} (he : StartsWith e pts) (es : List (LineMesh (V3 K) D))
    (celltype : Option String) (cellsize : Option K) (algorithm : K) (optimization : Option String) (engine : String) :
    polygonOf g nrm (.mesh (some (e :: es))) [] celltype cellsize algorithm optimization engine =
      polygon g nrm (.three pts) [] celltype cellsize algorithm optimization engine := by
  rw [C68_same_ring g nrm (shell := .three pts) (shell' := .three (pts ++ pts.head?.toList)) ⟨he.some_point, he.open_end, Or.inl rfl⟩
    ⟨he.some_point, he.open_end, Or.inr rfl⟩ .nil .nil]
  funext tr
  simp only [polygonOf, outline_mesh he]
  rfl

/-- **C145.** A dataset without boundary is refused, without calling Gmsh. -/
theorem C145_none (holes : List (OutlineArg K D)) (celltype : Option String) (cellsize : Option K) (algorithm : K) (optimization : Option String)
    (engine : String) (tr : List (GmshCall K)) :
    polygonOf g nrm (.mesh none) holes celltype cellsize algorithm optimization engine tr = (.error .valueError, tr) ∧
      polygonOf g nrm (.mesh (some [])) holes celltype cellsize algorithm optimization engine tr = (.error .valueError, tr) := ⟨rfl, rfl⟩

end

/-- The square with corners (0, 0) and (2, 2), as one closed line over four points. -/
def squareLine : LineMesh (V3 ℚ) ℤ := ⟨[![0, 0, 0], ![2, 0, 0], ![2, 2, 0], ![0, 2, 0]], [[0, 1, 2, 3, 0]], [], []⟩

theorem squareLine_starts : StartsWith squareLine [![0, 0, 0], ![2, 0, 0], ![2, 2, 0], ![0, 2, 0]] := by
  refine ⟨⟨?_, by simp [squareLine], by simp [squareLine]⟩, by simp, ?_, [0, 1, 2, 3, 0], rfl, Or.inr rfl⟩
  · simp [squareLine]
  · simp only [List.head?_cons, ne_eq]
    intro h
    have := congrFun (Option.some.inj h) 1
    simp at this

/-- Concrete case of C145: the square as a closed line, and as the outline of a mesh. -/
example : HasOutline (.lines squareLine) [![0, 0, 0], ![2, 0, 0], ![2, 2, 0], ![0, 2, 0]] ∧
    HasOutline (.mesh (some [squareLine])) [![0, 0, 0], ![2, 0, 0], ![2, 2, 0], ![0, 2, 0]] :=
  ⟨⟨squareLine_starts, rfl⟩, squareLine, rfl, squareLine_starts, rfl⟩

/-- Concrete case of the refutation: the square given by its four sides gives a polygon of two nodes. -/
example (g : Gmsh ℚ) (nrm : V3 ℚ → ℚ) : polygonOf (D := ℤ) g nrm
    (.lines ⟨[![0, 0, 0], ![2, 0, 0], ![2, 2, 0], ![0, 2, 0]], [[0, 1], [1, 2], [2, 3], [3, 0]], [], []⟩) [] none none 6 none "gmsh" [] =
      (.ok ⟨[![0, 0, 0], ![2, 0, 0]], [(7, [0, 1])]⟩, []) := by
  refine C145_segments_refuted g nrm ⟨by simp, by simp, by simp⟩ (ids := [0, 1, 2, 3, 0]) rfl rfl rfl rfl rfl ?_ _ _ _ _ _
  intro h
  have := congrFun h 0
  simp at this

end Gridder
