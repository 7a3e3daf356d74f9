import Verif.Props.CellOps
import Verif.Lemmas.Cells
import Mathlib.Data.String.Basic
import Mathlib.LinearAlgebra.Matrix.Determinant.Basic
import Mathlib.Tactic.LinearCombination

/-! # C55, C74, C75: cell centres -/

namespace Gridder

namespace Spec
variable {K : Type*} [Field K]

/-- Signed volume of the tetrahedron over a triangle seen from `o`. -/
def signedVolume (o : Fin 3 → K) (t : (Fin 3 → K) × (Fin 3 → K) × (Fin 3 → K)) : K :=
  Matrix.det (Matrix.of ![t.1 - o, t.2.1 - o, t.2.2 - o]) / 6

/-- `c` is the centre of mass of the tetrahedra joining `o` to the triangles, counted with their signed
volume. -/
def Centroid (o : Fin 3 → K) (ts : List ((Fin 3 → K) × (Fin 3 → K) × (Fin 3 → K))) (c : Fin 3 → K) :
    Prop :=
  (ts.map (signedVolume o)).sum ≠ 0 ∧ ∀ ax, (ts.map (signedVolume o)).sum * c ax =
    (ts.map fun t => signedVolume o t * ((o ax + t.1 ax + t.2.1 ax + t.2.2 ax) / 4)).sum

/-- The triangles of a polygon cut from its first node. -/
def fanOf (f : List ℕ) : List (ℕ × ℕ × ℕ) :=
  (List.range (f.length - 2)).map fun j => (f.getD 0 0, f.getD (j + 1) 0, f.getD (j + 2) 0)

end Spec

open Spec

section
variable {K : Type*} [Field K] [LinearOrder K]

/-- Points of the nodes of a cell. -/
def CentreMesh.nodes (m : CentreMesh K) (i : ℕ) : List (V3 K) := (m.conn.getD i []).map (pt m.points)

/-- Faces of a polyhedron, by nodes. -/
def CentreMesh.facesOf (m : CentreMesh K) (i : ℕ) : List (List ℕ) :=
  (m.locations.getD i []).map fun l => m.faces.getD l []

/-- Triangles of the faces of a polyhedron. -/
def CentreMesh.triangles (m : CentreMesh K) (i : ℕ) : List (V3 K × V3 K × V3 K) :=
  ((m.facesOf i).flatMap fanOf).map fun t => (pt m.points t.1, pt m.points t.2.1, pt m.points t.2.2)

/-- What each method is documented to return. -/
def Spec.HasCentre (method : String) (m : CentreMesh K) (i : ℕ) (c : V3 K) : Prop :=
  (method = "box" → BoxCentre (m.nodes i) c) ∧
  (method = "geometric" → ∀ ax, (m.nodes i).length * c ax = ((m.nodes i).map fun p => p ax).sum) ∧
  (method = "tetra" → Centroid ((m.nodes i).getD 0 0) (m.triangles i) c)

/-- Node and face numbers in range; polyhedra have nodes. -/
structure Spec.ValidCentre (m : CentreMesh K) : Prop where
  types : m.conn.length = m.types.length
  nodes : ∀ l ∈ m.conn, ∀ i ∈ l, i < m.points.length
  faces : ∀ l ∈ m.faces, ∀ i ∈ l, i < m.points.length
  locations : ∀ l ∈ m.locations, ∀ i ∈ l, i < m.faces.length
  polyhedra : ∀ i, m.types[i]? = some 42 → m.conn.getD i [] ≠ []

theorem gather_pt (xs : List (V3 K)) {ids : List ℕ} (h : ∀ i ∈ ids, i < xs.length) :
    gather xs ids = .ok (ids.map (pt xs)) := by
  rw [gather_ok_iff]
  unfold along
  rw [List.map_map]
  apply List.map_congr_left
  intro i hi
  simp [pt, List.getD_eq_getElem?_getD, h i hi]

theorem getD_mem_all {α : Type*} {l : List (List α)} {p : α → Prop} (h : ∀ x ∈ l, ∀ a ∈ x, p a) (i : ℕ) :
    ∀ a ∈ l.getD i [], p a := by
  intro a ha
  rw [List.getD_eq_getElem?_getD] at ha
  cases hi : l[i]? with
  | none => rw [hi] at ha; simp at ha
  | some x => rw [hi] at ha; exact h x (List.mem_of_getElem? hi) a ha

theorem signedVolume_eq (o : V3 K) (t : V3 K × V3 K × V3 K) : tetraVolume o t = signedVolume o t := by
  unfold tetraVolume signedVolume triple
  rw [Matrix.det_fin_three]
  simp
  ring

theorem fan_eq (f : List ℕ) : fan f = fanOf f := by
  cases f with
  | nil => rfl
  | cons a rest =>
    unfold fan fanOf
    apply List.ext_getElem?
    intro j
    simp only [List.getElem?_map, List.length_cons]
    rcases Nat.lt_or_ge j (rest.length + 1 - 2) with hj | hj
    · rw [List.getElem?_range hj]
      have h1 : j < rest.length := by omega
      have h2 : j + 1 < rest.length := by omega
      simp [List.zip, List.getElem?_zipWith, h1, h2]
    · rw [List.getElem?_eq_none (by simpa using hj), List.getElem?_eq_none]
      · rfl
      · simp
        omega

theorem trianglePoints_eq (points : List (V3 K)) {t : ℕ × ℕ × ℕ} (h1 : t.1 < points.length)
    (h2 : t.2.1 < points.length) (h3 : t.2.2 < points.length) :
    trianglePoints points t = .ok (pt points t.1, pt points t.2.1, pt points t.2.2) := by
  have h : ∀ i, i < points.length → entry points i = .ok (pt points i) := by
    intro i hi
    rw [entry_ok_iff]
    simp [pt, List.getD_eq_getElem?_getD, hi]
  unfold trianglePoints
  rw [h _ h1, h _ h2, h _ h3]

theorem mem_fanOf {f : List ℕ} {t : ℕ × ℕ × ℕ} (h : t ∈ fanOf f) : t.1 ∈ f ∧ t.2.1 ∈ f ∧ t.2.2 ∈ f := by
  obtain ⟨j, hj, rfl⟩ := List.mem_map.1 h
  simp only [List.mem_range] at hj
  have : ∀ i, i < f.length → f.getD i 0 ∈ f := by
    intro i hi
    simp [List.getD_eq_getElem?_getD, hi]
  exact ⟨this _ (by omega), this _ (by omega), this _ (by omega)⟩

theorem tetraCentroid_ok {a : V3 K} {ts : List (V3 K × V3 K × V3 K)} {c : V3 K} :
    tetraCentroid a ts = .ok c ↔ Centroid a ts c := by
  unfold tetraCentroid Centroid
  have hv : ts.map (tetraVolume a) = ts.map (signedVolume a) :=
    List.map_congr_left fun t _ => signedVolume_eq a t
  simp only [hv]
  by_cases h : (ts.map (signedVolume a)).sum = 0
  · simp [h]
  · rw [if_neg h]
    have hm : ∀ ax, (ts.map fun t => (t.1 ax + t.2.1 ax + t.2.2 ax + a ax) / 4 * tetraVolume a t) =
        ts.map fun t => signedVolume a t * ((a ax + t.1 ax + t.2.1 ax + t.2.2 ax) / 4) := by
      intro ax
      apply List.map_congr_left
      intro t _
      rw [signedVolume_eq]
      ring
    simp only [hm]
    constructor
    · intro he
      cases he
      refine ⟨h, fun ax => ?_⟩
      field_simp
    · rintro ⟨-, hc⟩
      congr 1
      funext ax
      rw [← hc]
      field_simp

/-- The three formulas, on valid meshes. -/
theorem tetraOf_ok {m : CentreMesh K} (hm : ValidCentre m) {i : ℕ} {c : V3 K} (h : tetraOf m i = .ok c) :
    Centroid ((m.nodes i).getD 0 0) (m.triangles i) c := by
  have hloc := getD_mem_all hm.locations i
  have hf : mapPy (entry m.faces) (m.locations.getD i []) = .ok (m.facesOf i) := by
    rw [mapPy_ok_iff]
    unfold CentreMesh.facesOf
    rw [List.forall₂_map_right_iff, List.forall₂_same]
    intro l hl
    rw [entry_ok_iff]
    simp [List.getD_eq_getElem?_getD, hloc l hl]
  unfold tetraOf at h
  simp only [hf] at h
  split at h
  · cases h
  rename_i a ha
  split at h
  · cases h
  rename_i apex hapex
  split at h
  · cases h
  have hfan : (m.facesOf i).flatMap fan = (m.facesOf i).flatMap fanOf := by
    congr 1
    funext f
    exact fan_eq f
  have hts : mapPy (trianglePoints m.points) ((m.facesOf i).flatMap fan) = .ok (m.triangles i) := by
    rw [mapPy_ok_iff, hfan]
    unfold CentreMesh.triangles
    rw [List.forall₂_map_right_iff, List.forall₂_same]
    intro t ht
    obtain ⟨f, hf, ht⟩ := List.mem_flatMap.1 ht
    obtain ⟨l, hl, rfl⟩ := List.mem_map.1 hf
    obtain ⟨h1, h2, h3⟩ := mem_fanOf ht
    have := getD_mem_all hm.faces l
    exact trianglePoints_eq _ (this _ h1) (this _ h2) (this _ h3)
  rw [hts] at h
  simp only at h
  have hap : (m.nodes i).getD 0 0 = apex := by
    unfold CentreMesh.nodes
    rw [List.head?_eq_getElem?] at ha
    rw [List.getD_eq_getElem?_getD, List.getElem?_map, ha]
    rw [entry_ok_iff] at hapex
    simp [pt, List.getD_eq_getElem?_getD, hapex]
  rw [hap]
  exact tetraCentroid_ok.1 h

theorem boxOf_ok {m : CentreMesh K} (hm : ValidCentre m) {i : ℕ} {c : V3 K} (h : boxOf m i = .ok c) :
    BoxCentre (m.nodes i) c := by
  unfold boxOf at h
  rw [gather_pt _ (getD_mem_all hm.nodes i)] at h
  simp only at h
  split at h
  · cases h
  · rename_i hne
    cases h
    exact boxCenter_spec _ (by simpa [CentreMesh.nodes, List.isEmpty_iff] using hne)

theorem geometricOf_ok [IsStrictOrderedRing K] {m : CentreMesh K} (hm : ValidCentre m) {i : ℕ} {c : V3 K}
    (hne : m.conn.getD i [] ≠ []) (h : geometricOf m i = .ok c) (ax : Fin 3) :
    (m.nodes i).length * c ax = ((m.nodes i).map fun p => p ax).sum := by
  unfold geometricOf at h
  rw [gather_pt _ (getD_mem_all hm.nodes i)] at h
  cases h
  have : ((m.nodes i).length : K) ≠ 0 := by
    rw [Nat.cast_ne_zero]
    simpa [CentreMesh.nodes] using hne
  unfold meanOf
  change ((m.nodes i).length : K) * (((m.nodes i).map fun p => p ax).sum / (m.nodes i).length) = _
  field_simp

theorem setPolyhedra_ok (f : ℕ → Py (V3 K)) : ∀ (ts : List ℕ) (i : ℕ) (cs out : List (Option (V3 K))),
    ts.length = cs.length → setPolyhedra f i ts cs = .ok out →
    out.length = ts.length ∧ ∀ (j t : ℕ), ts[j]? = some t →
      (t ≠ 42 → out[j]? = cs[j]?) ∧ (t = 42 → ∃ c, f (i + j) = .ok c ∧ out[j]? = some (some c)) := by
  intro ts
  induction ts with
  | nil =>
    intro i cs out _ h
    cases h
    simp
  | cons t ts ih =>
    intro i cs out hl h
    cases cs with
    | nil => simp at hl
    | cons c cs =>
      simp only [setPolyhedra] at h
      split at h
      · cases h
      rename_i c' hc'
      split at h
      · cases h
      rename_i cs' hcs'
      cases h
      obtain ⟨h1, h2⟩ := ih (i + 1) cs cs' (by simpa using hl) hcs'
      refine ⟨by simp [h1], ?_⟩
      intro j t' ht'
      cases j with
      | zero =>
        simp only [List.getElem?_cons_zero, Option.some.injEq] at ht'
        subst ht'
        constructor
        · intro h42
          rw [if_neg h42] at hc'
          cases hc'
          rfl
        · intro h42
          rw [if_pos h42] at hc'
          obtain ⟨a, ha, rfl⟩ := map_ok_iff.1 hc'
          exact ⟨a, ha, rfl⟩
      | succ j =>
        simp only [List.getElem?_cons_succ] at ht' ⊢
        have := h2 j t' ht'
        rw [show i + 1 + j = i + (j + 1) by omega] at this
        exact this

theorem fillCenters_ok : ∀ (ts : List ℕ) (all : List (Option (V3 K))), all.length = ts.length →
    (∀ (j t : ℕ), ts[j]? = some t → (all[j]? = some none ↔ t = 0)) →
    fillCenters ts (all.filterMap id) = .ok all := by
  intro ts
  induction ts with
  | nil =>
    intro all hl _
    have : all = [] := by simpa using hl
    subst this
    rfl
  | cons t ts ih =>
    intro all hl h
    cases all with
    | nil => simp at hl
    | cons a all =>
      have h0 := h 0 t rfl
      have := ih all (by simpa using hl) (fun j t' ht' => h (j + 1) t' (by simpa using ht'))
      simp only [List.getElem?_cons_zero, Option.some.injEq] at h0
      cases a with
      | none =>
        have ht := h0.1 rfl
        subst ht
        change fillCenters (0 :: ts) (all.filterMap id) = _
        unfold fillCenters
        rw [if_pos rfl, this]
      | some p =>
        have ht : t ≠ 0 := by
          intro e
          cases h0.2 e
        change fillCenters (t :: ts) (p :: all.filterMap id) = _
        simp only [fillCenters, this, if_neg ht]

/-! ## C74 -/

/-- The formula used by VTK 9.d.rest for polyhedra: bounding box before 9.5.0, mean of the nodes in 9.5.0,
tetrahedra after. -/
def Spec.native (d : ℕ) (rest : String) : String :=
  if d < 5 then "box" else if d = 5 ∧ rest = "0" then "geometric" else "tetra"

/-- Release numbers compare as strings as long as they have a single digit. -/
theorem version_compare {d : ℕ} (hd : d < 10) {rest : String}
    (hr : rest = "0" ∨ ∃ c cs, rest.toList = c :: cs ∧ '0' < c) :
    ("9." ++ toString d ++ "." ++ rest < "9.5.0" ↔ native d rest = "box") ∧
    ("9." ++ toString d ++ "." ++ rest = "9.5.0" ↔ native d rest = "geometric") ∧
    ("9.5.0" < "9." ++ toString d ++ "." ++ rest ↔ native d rest = "tetra") := by
  have hlt : ∀ s : String, s < "9.5.0" ↔ s.toList < ['9', '.', '5', '.', '0'] := by
    intro s; rw [String.lt_iff_toList_lt]; rfl
  have hgt : ∀ s : String, "9.5.0" < s ↔ ['9', '.', '5', '.', '0'] < s.toList := by
    intro s; rw [String.lt_iff_toList_lt]; rfl
  have heq : ∀ s : String, s = "9.5.0" ↔ s.toList = ['9', '.', '5', '.', '0'] := by
    intro s
    rw [← String.toList_inj]
    rfl
  have hl : ("9." ++ toString d ++ "." ++ rest).toList =
      '9' :: '.' :: Char.ofNat (48 + d) :: '.' :: rest.toList := by
    rw [String.toList_append, String.toList_append, String.toList_append]
    interval_cases d <;> rfl
  rw [hlt, hgt, heq, hl]
  have c0 : ¬ ('9' < '9') := by decide
  have c1 : ¬ ('.' < '.') := by decide
  rcases Nat.lt_trichotomy d 5 with h | h | h
  · have n1 : native d rest = "box" := by simp [native, h]
    rw [n1]
    simp only [List.cons_lt_cons_iff, c0, c1, List.cons.injEq]
    interval_cases d <;> simp
  · subst h
    rcases hr with rfl | ⟨c, cs, hc, hlt⟩
    · have n1 : native 5 "0" = "geometric" := by decide
      rw [n1]
      simp only [List.cons_lt_cons_iff, c0, c1, List.cons.injEq]
      simp
    · have hne : rest ≠ "0" := by
        rintro rfl
        have : c = '0' := by
          have := congrArg List.head? hc
          simpa using this.symm
        rw [this] at hlt
        exact absurd hlt (by decide)
      have n1 : native 5 rest = "tetra" := by simp [native, hne]
      rw [n1, hc]
      have h2 : ¬ c < '0' := not_lt.2 hlt.le
      have h3 : ¬ c = '0' := ne_of_gt hlt
      simp only [List.cons_lt_cons_iff, c0, c1, List.cons.injEq]
      simp [h2, h3, hlt]
  · have n1 : native d rest = "tetra" := by
      unfold native
      rw [if_neg (by omega), if_neg (by omega)]
    rw [n1]
    simp only [List.cons_lt_cons_iff, c0, c1, List.cons.injEq]
    interval_cases d <;> simp

/-- **C74**, for VTK 9.0 to 9.9: when `get_cell_centers` returns, the centre of every polyhedron is the
one of the method asked for, given that VTK's own centre is that of its version; other cells keep VTK's
centre and empty cells have none. -/
theorem C74_method_honoured_partial [IsStrictOrderedRing K] (m : CentreMesh K) (hm : ValidCentre m)
    {d : ℕ} (hd : d < 10) {rest : String} (hr : rest = "0" ∨ ∃ c cs, rest.toList = c :: cs ∧ '0' < c)
    (all : List (Option (V3 K))) (hl : all.length = m.types.length)
    (hall : ∀ (j t : ℕ), m.types[j]? = some t → (all[j]? = some none ↔ t = 0))
    (hnative : ∀ (j : ℕ) (c : V3 K), m.types[j]? = some 42 → all[j]? = some (some c) →
      HasCentre (native d rest) m j c)
    (method : String) (out : List (Option (V3 K)))
    (h : computeCenters ("9." ++ toString d ++ "." ++ rest) (some method) m (.ok (all.filterMap id)) =
      .ok out) :
    out.length = m.types.length ∧ ∀ (j t : ℕ), m.types[j]? = some t →
      (t ≠ 42 → out[j]? = all[j]?) ∧
      (t = 42 → ∃ c, out[j]? = some (some c) ∧ HasCentre method m j c) := by
  obtain ⟨v1, v2, v3⟩ := version_compare hd hr
  unfold computeCenters at h
  simp only [fillCenters_ok _ _ hl hall, Option.some.injEq] at h
  have nb : "box" ≠ "geometric" := by decide
  have nt : "box" ≠ "tetra" := by decide
  have ng : "geometric" ≠ "tetra" := by decide
  split at h
  · rename_i hc
    obtain ⟨hc, -⟩ := hc
    subst hc
    obtain ⟨h1, h2⟩ := setPolyhedra_ok _ _ _ _ _ hl.symm h
    refine ⟨h1, fun j t ht => ⟨(h2 j t ht).1, fun h42 => ?_⟩⟩
    obtain ⟨c, hc, ho⟩ := (h2 j t ht).2 h42
    rw [Nat.zero_add] at hc
    refine ⟨c, ho, fun _ => boxOf_ok hm hc, fun e => absurd e nb, fun e => absurd e nt⟩
  · rename_i hbox
    split at h
    · rename_i hc
      obtain ⟨hc, -⟩ := hc
      subst hc
      obtain ⟨h1, h2⟩ := setPolyhedra_ok _ _ _ _ _ hl.symm h
      refine ⟨h1, fun j t ht => ⟨(h2 j t ht).1, fun h42 => ?_⟩⟩
      obtain ⟨c, hc, ho⟩ := (h2 j t ht).2 h42
      rw [Nat.zero_add] at hc
      subst h42
      refine ⟨c, ho, fun e => absurd e.symm nb, fun _ ax => geometricOf_ok hm (hm.polyhedra j ht) hc ax,
        fun e => absurd e ng⟩
    · rename_i hgeo
      split at h
      · rename_i hc
        obtain ⟨hc, -⟩ := hc
        subst hc
        obtain ⟨h1, h2⟩ := setPolyhedra_ok _ _ _ _ _ hl.symm h
        refine ⟨h1, fun j t ht => ⟨(h2 j t ht).1, fun h42 => ?_⟩⟩
        obtain ⟨c, hc, ho⟩ := (h2 j t ht).2 h42
        rw [Nat.zero_add] at hc
        exact ⟨c, ho, fun e => absurd e.symm nt, fun e => absurd e.symm ng, fun _ => tetraOf_ok hm hc⟩
      · rename_i htet
        cases h
        refine ⟨hl, fun j t ht => ⟨fun _ => rfl, fun h42 => ?_⟩⟩
        subst h42
        have hj : j < all.length := by rw [hl]; exact (List.getElem?_eq_some_iff.1 ht).1
        have hne : all[j]? ≠ some none := by
          intro e
          have := (hall j 42 ht).1 e
          omega
        rw [List.getElem?_eq_getElem hj] at hne ⊢
        cases hc : all[j] with
        | none => rw [hc] at hne; exact absurd rfl hne
        | some c =>
          have hn := hnative j c ht (by rw [List.getElem?_eq_getElem hj, hc])
          refine ⟨c, rfl, ?_, ?_, ?_⟩
          · intro e
            have : native d rest = "box" := by
              rw [← v1]; by_contra hlt; exact hbox ⟨e, hlt⟩
            exact hn.1 this
          · intro e
            have : native d rest = "geometric" := by
              rw [← v2]; by_contra hlt; exact hgeo ⟨e, hlt⟩
            exact hn.2.1 this
          · intro e
            have : native d rest = "tetra" := by
              rw [← v3]; by_contra hlt; exact htet ⟨e, hlt⟩
            exact hn.2.2 this

/-- A pyramid on the unit square. -/
def pyramidMesh : CentreMesh ℚ where
  points := [![0, 0, 0], ![1, 0, 0], ![1, 1, 0], ![0, 1, 0], ![0, 0, 1]]
  types := [0, 42]
  conn := [[], [0, 1, 2, 3, 4]]
  faces := [[0, 3, 2, 1], [0, 1, 4], [1, 2, 4], [2, 3, 4], [3, 0, 4]]
  locations := [[], [0, 1, 2, 3, 4]]

def showCentres (r : Py (List (Option (V3 ℚ)))) : Option (List (Option (List ℚ))) :=
  r.toOption.map fun l => l.map fun c => c.map fun p => [p 0, p 1, p 2]

example : showCentres (computeCenters "9.4.2" (some "tetra") pyramidMesh
    (.ok [![1 / 2, 1 / 2, 1 / 2]])) = some [none, some [3 / 8, 3 / 8, 1 / 4]] := by decide +kernel

example : showCentres (computeCenters "9.6.0" (some "box") pyramidMesh
    (.ok [![3 / 8, 3 / 8, 1 / 4]])) = some [none, some [1 / 2, 1 / 2, 1 / 2]] := by decide +kernel

example : ClosedOriented (pyramidMesh.facesOf 1) := by
  have h : ∀ e ∈ (pyramidMesh.facesOf 1).flatMap edges,
      ((pyramidMesh.facesOf 1).flatMap edges).count e = 1 ∧
      ((pyramidMesh.facesOf 1).flatMap edges).count (e.2, e.1) = 1 ∧
      ∀ f ∈ pyramidMesh.facesOf 1, e ∈ edges f → (e.2, e.1) ∉ edges f := by decide +kernel
  exact fun u v huv => h (u, v) huv

example : ValidCentre pyramidMesh := by
  refine ⟨by decide, by decide, by decide, by decide, ?_⟩
  intro i hi
  have : i < 2 := (List.getElem?_eq_some_iff.1 hi).1
  interval_cases i
  · simp [pyramidMesh] at hi
  · decide

/-- **C74** is false for VTK 9.10, whose number is smaller than "9.5.0" as a string: VTK returns the
centroid and so does `get_cell_centers` when asked for the box centre. -/
theorem C74_version_refuted :
    showCentres (computeCenters "9.10.0" (some "box") pyramidMesh (.ok [![3 / 8, 3 / 8, 1 / 4]])) =
      some [none, some [3 / 8, 3 / 8, 1 / 4]] ∧
    ¬ HasCentre "box" pyramidMesh 1 ![3 / 8, 3 / 8, 1 / 4] := by
  refine ⟨by decide +kernel, ?_⟩
  intro h
  have h1 := h.1 rfl
  have h2 := boxCenter_spec (pyramidMesh.nodes 1) (by decide)
  have h3 := congrFun (Spec.BoxCentre.unique h1 h2) 0
  revert h3
  decide +kernel

/-! ## C55 -/

/-- **C55**, when `get_cell_centers` returns. -/
theorem C55_restored_partial {D : Type*} (version : String) (method : Option String) (m : CentreMesh K)
    (vtk : CellData D → Py (List (V3 K))) (cd : CellData D) (hnd : cd.keys.Nodup)
    (c : List (Option (V3 K))) (h : (getCellCenters version method m vtk cd).1 = .ok c) :
    (∀ k, (getCellCenters version method m vtk cd).2.get? k = cd.get? k) ∧
    (getCellCenters version method m vtk cd).2.keys.Perm cd.keys := by
  unfold getCellCenters at h ⊢
  cases hg : cd.get? ghostKey with
  | none => exact ⟨fun _ => rfl, List.Perm.refl _⟩
  | some ghost =>
    rw [hg] at h
    simp only at h ⊢
    split at h
    · cases h
    · exact restored hnd hg

theorem setPolyhedra_exists (f : ℕ → Py (V3 K)) : ∀ (ts : List ℕ) (i : ℕ) (cs : List (Option (V3 K))),
    (∀ j, ts[j]? = some 42 → ∃ c, f (i + j) = .ok c) → ∃ out, setPolyhedra f i ts cs = .ok out := by
  intro ts
  induction ts with
  | nil => intro i cs _; exact ⟨[], by simp [setPolyhedra]⟩
  | cons t ts ih =>
    intro i cs h
    cases cs with
    | nil => exact ⟨[], by simp [setPolyhedra]⟩
    | cons c cs =>
      obtain ⟨out, ho⟩ := ih (i + 1) cs fun j hj => by
        have := h (j + 1) (by simpa using hj)
        rw [show i + 1 + j = i + (j + 1) by omega]
        exact this
      simp only [setPolyhedra, ho]
      by_cases ht : t = 42
      · obtain ⟨a, ha⟩ := h 0 (by simp [ht])
        rw [if_pos ht]
        simp only [Nat.add_zero] at ha
        rw [ha]
        exact ⟨_, rfl⟩
      · rw [if_neg ht]
        exact ⟨_, rfl⟩

/-- On valid meshes the only failures are VTK's own and polyhedra without volume with 'tetra'. -/
theorem C55_no_failure (version : String) (method : Option String) (m : CentreMesh K)
    (hm : ValidCentre m) (all : List (Option (V3 K))) (hl : all.length = m.types.length)
    (hall : ∀ (j t : ℕ), m.types[j]? = some t → (all[j]? = some none ↔ t = 0))
    (htet : method = some "tetra" → ∀ j, m.types[j]? = some 42 → ∃ c, tetraOf m j = .ok c) :
    ∃ out, computeCenters version method m (.ok (all.filterMap id)) = .ok out := by
  unfold computeCenters
  simp only [fillCenters_ok _ _ hl hall]
  split
  · apply setPolyhedra_exists
    intro j hj
    rw [Nat.zero_add]
    unfold boxOf
    rw [gather_pt _ (getD_mem_all hm.nodes j)]
    simp only
    rw [if_neg]
    · exact ⟨_, rfl⟩
    · simpa [List.isEmpty_iff] using hm.polyhedra j hj
  · split
    · apply setPolyhedra_exists
      intro j hj
      rw [Nat.zero_add]
      unfold geometricOf
      rw [gather_pt _ (getD_mem_all hm.nodes j)]
      exact ⟨_, rfl⟩
    · split
      · rename_i h
        apply setPolyhedra_exists
        intro j hj
        rw [Nat.zero_add]
        exact htet h.1 j hj
      · exact ⟨_, rfl⟩

/-- A flat polyhedron. -/
def flatMesh : CentreMesh ℚ where
  points := [![0, 0, 0], ![1, 0, 0], ![1, 1, 0], ![0, 1, 0]]
  types := [42]
  conn := [[0, 1, 2, 3]]
  faces := [[0, 2, 1], [0, 1, 3], [1, 2, 3], [2, 0, 3]]
  locations := [[0, 1, 2, 3]]

/-- **C55** is false when the computation fails: the ghost array is lost. -/
theorem C55_lost_refuted :
    (getCellCenters "9.3.1" (some "tetra") flatMesh (fun _ => .ok [![1 / 2, 1 / 2, 0]])
      [("a", [5]), (ghostKey, [0])]).2 = [("a", [5])] ∧
    (getCellCenters "9.3.1" (some "tetra") flatMesh (fun _ => .ok [![1 / 2, 1 / 2, 0]])
      [("a", [5]), (ghostKey, [0])]).1.toOption.isNone = true := by
  decide +kernel

example : (getCellCenters "9.3.1" (some "tetra") pyramidMesh (fun _ => .ok [![1 / 2, 1 / 2, 1 / 2]])
    [(ghostKey, [0, 0]), ("a", [5, 6])]).2 = [("a", [5, 6]), (ghostKey, [0, 0])] := by
  decide +kernel

/-! ## C75 -/

theorem sum_map_neg_list {α : Type*} (l : List α) (g : α → K) :
    (l.map fun a => - g a).sum = - (l.map g).sum := by
  induction l with
  | nil => simp
  | cons a l ih => simp [ih]; ring

theorem sum_map_add_list {α : Type*} (l : List α) (g h : α → K) :
    (l.map fun a => g a + h a).sum = (l.map g).sum + (l.map h).sum := by
  induction l with
  | nil => simp
  | cons a l ih => simp only [List.map_cons, List.sum_cons, ih]; ring

theorem sum_map_mul_list {α : Type*} (l : List α) (k : K) (g : α → K) :
    (l.map fun a => k * g a).sum = k * (l.map g).sum := by
  induction l with
  | nil => simp
  | cons a l ih => simp only [List.map_cons, List.sum_cons, ih]; ring

variable [IsStrictOrderedRing K]

theorem eq_zero_of_eq_neg {x : K} (h : x = - x) : x = 0 := by linarith

/-- Over a closed surface, what changes sign with the direction of the edge sums to zero. -/
theorem closed_sum {faces : List (List ℕ)} (hc : ClosedOriented faces) (g : ℕ → ℕ → K)
    (hg : ∀ u v, g u v = - g v u) : ((faces.flatMap edges).map fun e => g e.1 e.2).sum = 0 := by
  have hperm : (faces.flatMap edges).Perm ((faces.flatMap edges).map Prod.swap) := by
    rw [List.perm_iff_count]
    rintro ⟨u, v⟩
    rw [count_map_swap]
    by_cases h : (u, v) ∈ faces.flatMap edges
    · rw [(hc u v h).1, (hc u v h).2.1]
    · by_cases h' : (v, u) ∈ faces.flatMap edges
      · rw [(hc v u h').1, (hc v u h').2.1]
      · rw [List.count_eq_zero.2 h, List.count_eq_zero.2 h']
  apply eq_zero_of_eq_neg
  have h1 := (hperm.map fun e => g e.1 e.2).sum_eq
  rw [List.map_map] at h1
  have h2 : (fun e : ℕ × ℕ => g e.1 e.2) ∘ Prod.swap = fun e => - g e.1 e.2 := by
    funext e
    exact hg _ _
  rw [h2, sum_map_neg_list] at h1
  exact h1

/-- The diagonals of a fan cancel. -/
theorem fan_sum (g : ℕ → ℕ → K) (hg : ∀ u v, g u v = - g v u) (f : List ℕ) :
    ((fan f).map fun t => g t.1 t.2.1 + g t.2.1 t.2.2 + g t.2.2 t.1).sum =
      ((edges f).map fun e => g e.1 e.2).sum := by
  cases f with
  | nil => simp [fan, edges]
  | cons a rest =>
    have key : ∀ rest : List ℕ,
        ((rest.zip rest.tail).map fun vw => g a vw.1 + g vw.1 vw.2 + g vw.2 a).sum =
          (((a :: rest).zip (rest ++ [a])).map fun e => g e.1 e.2).sum := by
      intro rest
      induction rest with
      | nil =>
        have : g a a = 0 := eq_zero_of_eq_neg (hg a a)
        simp [this]
      | cons b rest ih =>
        cases rest with
        | nil =>
          simp only [List.tail_cons, List.zip_nil_right, List.map_nil, List.sum_nil, List.cons_append,
            List.nil_append, List.zip_cons_cons, List.map_cons, List.sum_cons]
          rw [hg a b]
          simp
        | cons c r =>
          simp only [List.tail_cons, List.zip_cons_cons, List.map_cons, List.sum_cons,
            List.cons_append] at ih ⊢
          rw [ih, hg c a]
          ring
    unfold fan edges
    rw [List.map_map, List.rotate_cons_succ, List.rotate_zero]
    exact key rest

theorem closed_fan_sum {faces : List (List ℕ)} (hc : ClosedOriented faces) (g : ℕ → ℕ → K)
    (hg : ∀ u v, g u v = - g v u) :
    ((faces.flatMap fanOf).map fun t => g t.1 t.2.1 + g t.2.1 t.2.2 + g t.2.2 t.1).sum = 0 := by
  rw [← closed_sum hc g hg]
  clear hc
  induction faces with
  | nil => rfl
  | cons f faces ih =>
    simp only [List.flatMap_cons, List.map_append, List.sum_append, ih]
    rw [← fan_eq, fan_sum g hg]

/-- Determinant of three vectors. -/
def Spec.det3 (x y z : Fin 3 → K) : K := Matrix.det (Matrix.of ![x, y, z])

theorem det3_eq (x y z : V3 K) : det3 x y z =
    x 0 * (y 1 * z 2 - y 2 * z 1) - x 1 * (y 0 * z 2 - y 2 * z 0) + x 2 * (y 0 * z 1 - y 1 * z 0) := by
  unfold det3
  rw [Matrix.det_fin_three]
  simp
  ring

theorem signedVolume_split (o : V3 K) (t : V3 K × V3 K × V3 K) :
    signedVolume o t = signedVolume 0 t -
      (det3 o t.1 t.2.1 + det3 o t.2.1 t.2.2 + det3 o t.2.2 t.1) / 6 := by
  unfold signedVolume
  rw [← det3, ← det3]
  simp only [det3_eq, Pi.sub_apply, Pi.zero_apply]
  ring

theorem moment_split (o : V3 K) (t : V3 K × V3 K × V3 K) (ax : Fin 3) :
    signedVolume o t * ((o ax + t.1 ax + t.2.1 ax + t.2.2 ax) / 4) =
    signedVolume 0 t * (((0 : V3 K) ax + t.1 ax + t.2.1 ax + t.2.2 ax) / 4) -
      ((o ax + t.1 ax + t.2.1 ax) * det3 o t.1 t.2.1 + (o ax + t.2.1 ax + t.2.2 ax) * det3 o t.2.1 t.2.2 +
        (o ax + t.2.2 ax + t.1 ax) * det3 o t.2.2 t.1) / 24 := by
  unfold signedVolume
  rw [← det3, ← det3]
  simp only [det3_eq, Pi.sub_apply, Pi.zero_apply]
  fin_cases ax <;> simp <;> ring

theorem det3_swap (o x y : V3 K) : det3 o x y = - det3 o y x := by
  simp only [det3_eq]
  ring

/-- Seen from any point, the signed volumes and moments of the tetrahedra over a closed surface add up to
the same. -/
theorem closed_volume {faces : List (List ℕ)} (hc : ClosedOriented faces) (p : ℕ → V3 K) (o : V3 K) :
    (((faces.flatMap fanOf).map fun t => (p t.1, p t.2.1, p t.2.2)).map (signedVolume o)).sum =
    (((faces.flatMap fanOf).map fun t => (p t.1, p t.2.1, p t.2.2)).map (signedVolume 0)).sum := by
  have h := closed_fan_sum hc (fun u v => - det3 o (p u) (p v) / 6)
    (fun u v => by rw [det3_swap o (p u)]; ring)
  rw [List.map_map, List.map_map, ← sub_eq_zero, ← h, ← sub_eq_zero]
  generalize faces.flatMap fanOf = l
  induction l with
  | nil => simp
  | cons t l ih =>
    simp only [List.map_cons, List.sum_cons, Function.comp] at ih ⊢
    rw [signedVolume_split o]
    simp only
    linear_combination ih

theorem closed_moment {faces : List (List ℕ)} (hc : ClosedOriented faces) (p : ℕ → V3 K) (o : V3 K)
    (ax : Fin 3) :
    (((faces.flatMap fanOf).map fun t => (p t.1, p t.2.1, p t.2.2)).map fun t =>
      signedVolume o t * ((o ax + t.1 ax + t.2.1 ax + t.2.2 ax) / 4)).sum =
    (((faces.flatMap fanOf).map fun t => (p t.1, p t.2.1, p t.2.2)).map fun t =>
      signedVolume 0 t * (((0 : V3 K) ax + t.1 ax + t.2.1 ax + t.2.2 ax) / 4)).sum := by
  have h := closed_fan_sum hc (fun u v => - (o ax + p u ax + p v ax) * det3 o (p u) (p v) / 24)
    (fun u v => by rw [det3_swap o (p u)]; ring)
  rw [List.map_map, List.map_map, ← sub_eq_zero, ← h, ← sub_eq_zero]
  generalize faces.flatMap fanOf = l
  induction l with
  | nil => simp
  | cons t l ih =>
    simp only [List.map_cons, List.sum_cons, Function.comp] at ih ⊢
    rw [moment_split o]
    simp only [Pi.zero_apply] at ih ⊢
    linear_combination ih

/-- **C75**: the 'tetra' centre of a closed, consistently oriented polyhedron is its centroid, whichever
point the tetrahedra are drawn from. -/
theorem C75_centroid {m : CentreMesh K} (hm : ValidCentre m) {i : ℕ} (hc : ClosedOriented (m.facesOf i))
    {c : V3 K} (h : tetraOf m i = .ok c) (o : V3 K) : Centroid o (m.triangles i) c := by
  obtain ⟨h1, h2⟩ := tetraOf_ok hm h
  unfold CentreMesh.triangles at h1 h2 ⊢
  rw [closed_volume hc (pt m.points)] at h1
  refine ⟨by rw [closed_volume hc (pt m.points)]; exact h1, ?_⟩
  intro ax
  have := h2 ax
  rw [closed_volume hc (pt m.points), closed_moment hc (pt m.points)] at this ⊢
  exact this

/-- So it does not depend on the order in which the nodes of the cell are listed. -/
theorem C75_any_first_node {m m' : CentreMesh K} (hm : ValidCentre m) (hm' : ValidCentre m')
    (hp : m'.points = m.points) (hf : m'.faces = m.faces) (hl : m'.locations = m.locations)
    {i : ℕ} (hc : ClosedOriented (m.facesOf i)) {c c' : V3 K} (h : tetraOf m i = .ok c)
    (h' : tetraOf m' i = .ok c') : c = c' := by
  obtain ⟨h1, h2⟩ := C75_centroid hm hc h 0
  have hff : m'.facesOf i = m.facesOf i := by unfold CentreMesh.facesOf; rw [hf, hl]
  have ht : m'.triangles i = m.triangles i := by unfold CentreMesh.triangles; rw [hff, hp]
  obtain ⟨h1', h2'⟩ := C75_centroid hm' (by rw [hff]; exact hc) h' 0
  rw [ht] at h2'
  funext ax
  exact mul_left_cancel₀ h1 ((h2 ax).trans (h2' ax).symm)

/-- Moving the polyhedron moves its centre. -/
theorem C75_translation {m : CentreMesh K} (hm : ValidCentre m) (v : V3 K) {i : ℕ} {c c' : V3 K}
    (h : tetraOf m i = .ok c)
    (h' : tetraOf { m with points := m.points.map (· + v) } i = .ok c') : c' = c + v := by
  have hm' : ValidCentre { m with points := m.points.map (· + v) } :=
    ⟨hm.types, by simpa using hm.nodes, by simpa using hm.faces, hm.locations, hm.polyhedra⟩
  obtain ⟨h1, h2⟩ := tetraOf_ok hm h
  obtain ⟨h1', h2'⟩ := tetraOf_ok hm' h'
  have hpt : ∀ i, i < m.points.length → pt (m.points.map (· + v)) i = pt m.points i + v := by
    intro i hi
    simp [pt, List.getD_eq_getElem?_getD, hi]
  have ht : CentreMesh.triangles { m with points := m.points.map (· + v) } i =
      (m.triangles i).map fun t => (t.1 + v, t.2.1 + v, t.2.2 + v) := by
    unfold CentreMesh.triangles
    rw [List.map_map]
    apply List.map_congr_left
    intro t ht
    obtain ⟨f, hf, ht⟩ := List.mem_flatMap.1 ht
    obtain ⟨l, hl, rfl⟩ := List.mem_map.1 hf
    obtain ⟨a1, a2, a3⟩ := mem_fanOf ht
    have := getD_mem_all hm.faces l
    simp only [Function.comp]
    rw [hpt _ (this _ a1), hpt _ (this _ a2), hpt _ (this _ a3)]
  have hne : m.conn.getD i [] ≠ [] := by
    intro e
    unfold tetraOf at h
    rw [e] at h
    simp only [List.head?_nil] at h
    split at h <;> cases h
  have ho : (CentreMesh.nodes { m with points := m.points.map (· + v) } i).getD 0 0 =
      (m.nodes i).getD 0 0 + v := by
    unfold CentreMesh.nodes
    obtain ⟨a, r, har⟩ := List.exists_cons_of_ne_nil hne
    have := getD_mem_all hm.nodes i
    rw [har] at this
    simp only [har, List.map_cons, List.getD_cons_zero]
    exact hpt a (this a (by simp))
  rw [ht, ho] at h1' h2'
  set o := (m.nodes i).getD 0 0
  have hv : ∀ t : V3 K × V3 K × V3 K,
      signedVolume (o + v) (t.1 + v, t.2.1 + v, t.2.2 + v) = signedVolume o t := by
    intro t
    unfold signedVolume
    simp
  have hvs : (((m.triangles i).map fun t => (t.1 + v, t.2.1 + v, t.2.2 + v)).map
      (signedVolume (o + v))).sum = ((m.triangles i).map (signedVolume o)).sum := by
    rw [List.map_map]
    congr 1
    apply List.map_congr_left
    intro t _
    exact hv t
  funext ax
  apply mul_left_cancel₀ h1
  have e1 := h2 ax
  have e2 := h2' ax
  rw [hvs, List.map_map] at e2
  rw [e2, show (c + v) ax = c ax + v ax from rfl, mul_add, e1]
  clear e1 e2 h1 h1' h2 h2' hvs ht
  generalize m.triangles i = l
  induction l with
  | nil => simp
  | cons t l ih =>
    simp only [List.map_cons, List.sum_cons, Function.comp, Pi.add_apply] at ih ⊢
    rw [hv]
    linear_combination ih

end

end Gridder
