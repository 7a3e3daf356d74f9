import Verif.Model.VoronoiMesh
import Verif.Props.Voronoi
import Verif.Props.Average
import Verif.Props.Fuse
import Verif.Props.Remap
import Verif.Props.StackMesh
import Verif.Props.Offset

/-!
# C105: the mesh generated by `VoronoiMesh2D`
-/

namespace Gridder
open Spec

namespace Spec

/-- The name given with an item: an empty name, and a name with a tilde (the complement of all cells), count as none. -/
def givenName : GroupArg → Option String
  | .str s => if s = "" ∨ negated s then none else some s
  | _ => none

/-- The group of the point of cell `i`: the one given with the item, else the label of the cell unless ignored, else
the default. -/
def siteName (ignore : List String) (dflt : String) (labels : LMesh) (group : GroupArg) (i : ℕ) : String :=
  ((givenName group).or (baseLabel (fun k => decide (k ∉ ignore)) labels.cellGroup labels.table i)).getD dflt

/-- The group argument of `VoronoiMesh2D.add`: a name or nothing. -/
def PlainGroup (g : GroupArg) : Prop := g = .none ∨ ∃ s, g = .str s

/-- An item whose cells carry the names of their groups. -/
def namedItem {P : Type*} (ignore : List String) (dflt : String) (s : VSource P) : VItem P String :=
  ⟨s.centers, s.inside, (List.range s.centers.length).map (siteName ignore dflt s.labels s.group), s.covers, s.priority⟩

/-- The points of the background mesh with the names of their groups: cell centres, or points. -/
def namedBackground {P : Type*} (ignore : List String) (dflt : String) (cell : Bool) (bg : VBackground P) :
    List (P × String) :=
  if cell then bg.centers.zip ((List.range bg.centers.length).map (siteName ignore dflt bg.labels .none))
  else bg.nodes.map fun p => (p, dflt)

/-- The points of the diagram with the names of their groups; see C59 for which are active. -/
def namedPoints {P : Type*} (ignore : List String) (dflt : String) (cell : Bool) (bg : VBackground P)
    (sources : List (VSource P)) : List (VPoint P String) :=
  voronoiPoints (namedBackground ignore dflt cell bg) (sources.map (namedItem ignore dflt))

/-- A label array of the right size. -/
def Labelled {P : Type*} (centers : List P) (m : LMesh) : Prop :=
  m.nCells = centers.length ∧ ∀ d, m.cellGroup = some d → d.length = centers.length

end Spec

section names
variable {P : Type*}

/-- The same point, with the name of its group instead of the number. -/
def CodedAs (table : Dict String Int) (v : VPoint P Int) (w : VPoint P String) : Prop :=
  w.point = v.point ∧ w.priority = v.priority ∧ w.active = v.active ∧ (w.group, v.group) ∈ table

theorem CodedAs.mono {t t' : Dict String Int} (h : t <+: t') {v : VPoint P Int} {w : VPoint P String}
    (hc : CodedAs t v w) : CodedAs t' v w := ⟨hc.1, hc.2.1, hc.2.2.1, h.subset hc.2.2.2⟩

theorem named_cells {ignore : List String} {dflt : String} {mesh : LMesh} {table : Dict String Int} {group : GroupArg}
    (hdata : ∀ d, mesh.cellGroup = some d → d.length = mesh.nCells) (hp : PlainGroup group) (hd : DenseTable table) :
    ∃ arr table', initGroupArray ignore dflt mesh table group none = .ok (arr, table') ∧ arr.length = mesh.nCells ∧
      DenseTable table' ∧ table <+: table' ∧
      ∀ i, i < mesh.nCells → CellNamed table' arr i (siteName ignore dflt mesh group i) := by
  have hacc : Acceptable mesh.nCells group := by
    rcases hp with rfl | ⟨s, rfl⟩
    · intro kv hkv; simp [entries] at hkv
    · intro kv hkv
      simp only [entries] at hkv
      split at hkv
      · simp at hkv
      · rw [List.mem_singleton] at hkv
        subst hkv
        simp [Fits]
  obtain ⟨⟨arr, table'⟩, h⟩ := initGroupArray_total (ignore := ignore) (dflt := dflt) hdata hacc table
  obtain ⟨h1, h2, h3, -, -⟩ := C02_every_cell_has_a_group hdata hd h
  refine ⟨arr, table', h, h1, h2, h3, ?_⟩
  obtain ⟨sels, hf, hn⟩ := C03_group_precedence hdata hd h
  intro i hi
  have := hn i hi
  have hsel : lastSelecting sels i = givenName group := by
    rcases hp with rfl | ⟨s, rfl⟩
    · simp only [entries] at hf
      cases hf
      rfl
    · simp only [entries] at hf
      by_cases hs : s = ""
      · rw [if_pos hs] at hf
        cases hf
        simp [lastSelecting, givenName, hs]
      · rw [if_neg hs] at hf
        obtain ⟨e, rest, ⟨he1, he2⟩, hrest, rfl⟩ := List.forall₂_cons_left_iff.1 hf
        cases hrest
        have he := he2 rfl rfl (fun _ => none) i hi
        have hrep : (List.replicate mesh.nCells true)[i]? = some true := by simp [hi]
        simp only [entrySelects, selects, hrep] at he
        by_cases hneg : negated s
        · simp [lastSelecting, givenName, hneg, he]
        · simp [lastSelecting, givenName, hneg, he, hs, he1, bare]
  rw [hsel] at this
  exact this

theorem kept_lt (s : VSource P) : ∀ i ∈ s.kept, i < s.centers.length := by
  intro i hi
  unfold VSource.kept at hi
  split at hi
  · exact List.mem_range.1 (List.mem_filter.1 hi).1
  · exact List.mem_range.1 hi

theorem kept_get {α : Type*} (xs : List α) (ids : List ℕ) (h : ∀ i ∈ ids, i < xs.length) (j : ℕ) :
    (ids.filterMap (xs[·]?))[j]? = (ids[j]?).bind (xs[·]?) := by
  have := congrArg (fun l => l[j]?) (filterMap_getElem xs ids h)
  simp only [along, List.getElem?_map] at this
  cases hj : ids[j]? with
  | none =>
    rw [hj] at this
    cases hg : (ids.filterMap (xs[·]?))[j]? with
    | none => rfl
    | some x => rw [hg] at this; simp at this
  | some i =>
    rw [hj] at this
    cases hg : (ids.filterMap (xs[·]?))[j]? with
    | none => rw [hg] at this; simp at this
    | some x =>
      rw [hg] at this
      simp only [Option.map_some, Option.some.injEq] at this
      simpa using this

theorem siteName_sub {ignore : List String} {dflt : String} {m : LMesh} {group : GroupArg} {ids : List ℕ}
    (h : ∀ d, m.cellGroup = some d → ∀ i ∈ ids, i < d.length) {j i : ℕ} (hj : ids[j]? = some i) :
    siteName ignore dflt (subLabels m ids) group j = siteName ignore dflt m group i := by
  unfold siteName subLabels
  congr 2
  cases hc : m.cellGroup with
  | none => rfl
  | some d =>
    cases ht : m.table with
    | none => rfl
    | some t =>
      simp only [Option.map_some, baseLabel, baseName]
      rw [kept_get _ _ (h d hc), hj]
      rfl

/-- The points an item adds when all its cells are used. -/
theorem newPoints_all (it : VItem P Int) (n : ℕ) (h1 : it.centers.length = n) (h2 : it.groups.length = n)
    (h3 : it.inside = List.replicate n true) :
    it.newPoints = List.zipWith (fun p g => ⟨p, g, some it.priority.natAbs, true⟩) it.centers it.groups := by
  have hk : it.kept = List.range n := by
    unfold VItem.kept
    rw [h1, h3]
    split
    · rw [List.filter_eq_self]
      intro i hi
      simp [List.mem_range.1 hi]
    · rfl
  unfold VItem.newPoints
  rw [hk]
  have := range_filter_filterMap (it.centers.zip it.groups) (fun _ => true) 0
  simp only [List.filter_true, List.length_zip, h1, h2, min_self, List.zipIdx_map_fst] at this
  rw [← List.map_uncurry_zip_eq_zipWith, this, List.map_filterMap]
  apply List.filterMap_congr
  intro i hi
  have hi := List.mem_range.1 hi
  rw [List.getElem?_eq_getElem (by omega : i < it.centers.length), List.getElem?_eq_getElem (by omega : i < it.groups.length),
    List.getElem?_eq_getElem (by rw [List.length_zip]; omega), List.getElem_zip]
  rfl

theorem newPoints_coded {ignore : List String} {dflt : String} (s : VSource P) {table : Dict String Int} {arr : List Int}
    (hl : arr.length = s.kept.length)
    (hn : ∀ j i, s.kept[j]? = some i → CellNamed table arr j (siteName ignore dflt s.labels s.group i)) :
    List.Forall₂ (CodedAs table) (s.item arr).newPoints (namedItem ignore dflt s).newPoints := by
  have hlen : (s.kept.filterMap (s.centers[·]?)).length = s.kept.length := by
    have := congrArg List.length (filterMap_getElem s.centers s.kept (kept_lt s))
    simpa [along] using this
  rw [newPoints_all (s.item arr) s.kept.length hlen hl rfl]
  have hk : (namedItem ignore dflt s).kept = s.kept := rfl
  unfold VItem.newPoints
  rw [hk]
  have key : ∀ (f : ℕ → Option (VPoint P String)) (ids : List ℕ) (arr : List Int), arr.length = ids.length →
      (∀ i ∈ ids, i < s.centers.length) →
      (∀ i (hi : i < s.centers.length), f i =
        some ⟨s.centers[i], siteName ignore dflt s.labels s.group i, some s.priority.natAbs, true⟩) →
      (∀ j i, ids[j]? = some i → CellNamed table arr j (siteName ignore dflt s.labels s.group i)) →
      List.Forall₂ (CodedAs table)
        (List.zipWith (fun p g => (⟨p, g, some s.priority.natAbs, true⟩ : VPoint P Int)) (ids.filterMap (s.centers[·]?)) arr)
        (ids.filterMap f) := by
    intro f ids
    induction ids with
    | nil => intro arr _ _ _ _; exact .nil
    | cons i ids ih =>
      intro arr ha hlt hf hnm
      cases arr with
      | nil => simp at ha
      | cons a arr =>
        have hi := hlt i (by simp)
        rw [List.filterMap_cons_some (List.getElem?_eq_getElem hi), List.filterMap_cons_some (hf i hi),
          List.zipWith_cons_cons]
        refine .cons ⟨rfl, rfl, rfl, ?_⟩ (ih arr (by simpa using ha) (fun k hk => hlt k (by simp [hk])) hf ?_)
        · obtain ⟨c, hc1, hc2⟩ := hnm 0 i rfl
          simp only [List.getElem?_cons_zero, Option.some.injEq] at hc1
          subst hc1
          exact hc2
        · intro j k hjk
          obtain ⟨c, hc1, hc2⟩ := hnm (j + 1) k (by simpa using hjk)
          exact ⟨c, by simpa using hc1, hc2⟩
  refine key _ s.kept arr hl (kept_lt s) ?_ hn
  intro i hi
  have e1 : ((List.range s.centers.length).map (siteName ignore dflt s.labels s.group))[i]? =
      some (siteName ignore dflt s.labels s.group i) := by
    rw [List.getElem?_map, List.getElem?_range hi]; rfl
  simp only [namedItem]
  rw [List.getElem?_eq_getElem hi, e1]

theorem step_coded {table : Dict String Int} {s : VSource P} {ignore : List String} {dflt : String} {arr : List Int}
    {pts : List (VPoint P Int)} {npts : List (VPoint P String)} (h : List.Forall₂ (CodedAs table) pts npts)
    (hnew : List.Forall₂ (CodedAs table) (s.item arr).newPoints (namedItem ignore dflt s).newPoints) :
    List.Forall₂ (CodedAs table) (voronoiStep pts (s.item arr)) (voronoiStep npts (namedItem ignore dflt s)) := by
  unfold voronoiStep
  refine List.rel_append ?_ hnew
  rw [List.forall₂_map_left_iff, List.forall₂_map_right_iff]
  refine h.imp ?_
  intro v w hvw
  obtain ⟨h1, h2, h3, h4⟩ := hvw
  unfold VItem.disable
  have hc : (s.item arr).covers (s.item arr).kept v.point =
      (namedItem ignore dflt s).covers (namedItem ignore dflt s).kept w.point := by
    rw [h1]; rfl
  have ho : (s.item arr).outranks v.priority = (namedItem ignore dflt s).outranks w.priority := by
    rw [h2]; rfl
  rw [hc, ho]
  split
  · exact ⟨h1, h2, rfl, h4⟩
  · exact ⟨h1, h2, h3, h4⟩

/-- The loop over the items gives the named points. -/
theorem sourceLoop_coded (ignore : List String) (dflt : String) : ∀ (sources : List (VSource P))
    (pts : List (VPoint P Int)) (npts : List (VPoint P String)) (table : Dict String Int),
    (∀ s ∈ sources, Labelled s.centers s.labels ∧ PlainGroup s.group) → DenseTable table →
    List.Forall₂ (CodedAs table) pts npts →
    ∃ pts' table', sourceLoop ignore dflt sources (pts, table) = .ok (pts', table') ∧ DenseTable table' ∧
      List.Forall₂ (CodedAs table') pts' ((sources.map (namedItem ignore dflt)).foldl voronoiStep npts)
  | [], pts, npts, table, _, hd, h => ⟨pts, table, rfl, hd, h⟩
  | s :: rest, pts, npts, table, hs, hd, h => by
    obtain ⟨⟨-, hlab⟩, hpg⟩ := hs s (by simp)
    have hcg : ∀ d, s.labels.cellGroup = some d → ∀ i ∈ s.kept, i < d.length := by
      intro d hd i hi
      rw [hlab d hd]
      exact kept_lt s i hi
    have hdata : ∀ d, (subLabels s.labels s.kept).cellGroup = some d → d.length = (subLabels s.labels s.kept).nCells := by
      intro d hdd
      simp only [subLabels, Option.map_eq_some_iff] at hdd
      obtain ⟨d0, hd0, rfl⟩ := hdd
      have := congrArg List.length (filterMap_getElem d0 s.kept (hcg d0 hd0))
      simpa [along, subLabels] using this
    obtain ⟨arr, table', h1, h2, h3, h4, h5⟩ := named_cells (ignore := ignore) (dflt := dflt) hdata hpg hd
    have hstep := step_coded (ignore := ignore) (dflt := dflt) (s := s) (arr := arr)
      (h.imp fun _ _ hc => CodedAs.mono h4 hc)
      (newPoints_coded s h2 (by
        intro j i hji
        rw [← siteName_sub hcg hji]
        exact h5 j (List.getElem?_eq_some_iff.1 hji).1))
    obtain ⟨pts', t', k1, k2, k3⟩ := sourceLoop_coded ignore dflt rest _ _ table'
      (fun s' hs' => hs s' (by simp [hs'])) h3 hstep
    refine ⟨pts', t', ?_, k2, ?_⟩
    · simp only [sourceLoop, h1, k1]
    · rw [List.map_cons, List.foldl_cons]
      exact k3

theorem sortSources_map (ignore : List String) (dflt : String) (sources : List (VSource P)) :
    (sortSources sources).map (namedItem ignore dflt) = sortItems (sources.map (namedItem ignore dflt)) := by
  unfold sortSources sortItems
  exact List.map_insertionSort _ _ _ _ fun _ _ _ _ => Iff.rfl

theorem background_coded (ignore : List String) (dflt : String) (cell : Bool) (bg : VBackground P)
    (hbg : Labelled bg.centers bg.labels) :
    ∃ pts table, backgroundPoints ignore dflt cell bg = .ok (pts, table) ∧ DenseTable table ∧
      List.Forall₂ (CodedAs table) pts ((namedBackground ignore dflt cell bg).map fun b => ⟨b.1, b.2, none, true⟩) := by
  have key : ∀ (ps : List P) (arr : List Int) (table : Dict String Int) (names : List String),
      arr.length = ps.length → names.length = ps.length →
      (∀ i, i < ps.length → ∃ n, names[i]? = some n ∧ CellNamed table arr i n) →
      List.Forall₂ (CodedAs table) ((ps.zip arr).map fun b => (⟨b.1, b.2, none, true⟩ : VPoint P Int))
        ((ps.zip names).map fun b => (⟨b.1, b.2, none, true⟩ : VPoint P String)) := by
    intro ps arr table names h1 h2 h3
    rw [List.forall₂_iff_get]
    refine ⟨by simp [h1, h2], ?_⟩
    intro i hi hi'
    simp only [List.length_map, List.length_zip, h1, min_self] at hi
    obtain ⟨n, hn, c, hc, hm⟩ := h3 i hi
    obtain ⟨hi1, rfl⟩ := List.getElem?_eq_some_iff.1 hn
    obtain ⟨hi2, rfl⟩ := List.getElem?_eq_some_iff.1 hc
    simp only [List.get_eq_getElem, List.getElem_map, List.getElem_zip]
    exact ⟨rfl, rfl, rfl, hm⟩
  cases cell with
  | true =>
    obtain ⟨arr, table', h1, h2, h3, -, h5⟩ := named_cells (ignore := ignore) (dflt := dflt) (mesh := bg.labels)
      (table := []) (group := .none) (by rw [hbg.1]; exact hbg.2) (Or.inl rfl) DenseTable.nil
    refine ⟨_, table', by simp only [backgroundPoints, h1, if_true]; rfl, h3, ?_⟩
    unfold namedBackground
    rw [if_pos rfl]
    apply key _ _ _ _ (by rw [h2, hbg.1]) (by simp)
    intro i hi
    exact ⟨_, by simp [hi], h5 i (by rw [hbg.1]; exact hi)⟩
  | false =>
    obtain ⟨h1, h2, -, h4⟩ := C02_size_only (dflt := dflt) (n := bg.nodes.length) (dg := none) DenseTable.nil
    refine ⟨_, _, rfl, h2, ?_⟩
    have : namedBackground ignore dflt false bg = bg.nodes.zip (List.replicate bg.nodes.length dflt) := by
      unfold namedBackground
      rw [if_neg (by simp)]
      apply List.ext_getElem
      · simp
      · intro i h1 h2
        simp
    rw [this]
    apply key _ _ _ _ h1 (by simp)
    intro i hi
    exact ⟨dflt, by simp [hi], h4 i hi⟩

/-- The points and the table after the loop. -/
theorem generators_coded (ignore : List String) (dflt : String) (cell : Bool) (bg : VBackground P)
    (sources : List (VSource P)) (hbg : Labelled bg.centers bg.labels)
    (hs : ∀ s ∈ sources, Labelled s.centers s.labels ∧ PlainGroup s.group) :
    ∃ pts table, generatorPoints ignore dflt cell bg sources = .ok (pts, table) ∧ DenseTable table ∧
      List.Forall₂ (CodedAs table) pts (namedPoints ignore dflt cell bg sources) := by
  obtain ⟨pts, table, h1, h2, h3⟩ := background_coded ignore dflt cell bg hbg
  have hperm : (sortSources sources).Perm sources := List.perm_insertionSort _ _
  obtain ⟨pts', table', k1, k2, k3⟩ := sourceLoop_coded ignore dflt (sortSources sources) pts _ table
    (fun s hs' => hs s (hperm.mem_iff.1 hs')) h2 h3
  refine ⟨pts', table', by simp only [generatorPoints, h1, k1], k2, ?_⟩
  rw [sortSources_map] at k3
  exact k3

end names

namespace Spec
variable {K : Type*} [Field K] [LinearOrder K]

/-- What is used of Qhull: a region for each point; a ridge has at least one vertex; the vertices of regions exist; the
region of a point has a vertex. -/
structure GoodQhull (q : Qhull K) (n : ℕ) : Prop where
  size : q.pointRegion.length = n
  ridges : ∀ r ∈ q.ridgeVertices, ¬ (r.1 < 0 ∧ r.2 < 0)
  vertices : ∀ region ∈ q.regions, ∀ v ∈ region, -1 ≤ v ∧ v < (q.vertices.length : ℤ)
  nonempty : ∀ r ∈ q.pointRegion, ∃ v ∈ q.regions.getD r [], 0 ≤ v

/-- Cleaning moves the corners of cells at most to related points. -/
def KeepsCorners (R : V3 K → V3 K → Prop) (clean : List (V3 K) → List (List ℕ) → List (V3 K) × (ℕ → ℕ)) : Prop :=
  ∀ pts cells, ∀ cell ∈ cells, ∀ i ∈ cell, ∀ p, pts[i]? = some p →
    ∃ q, (clean pts cells).1[(clean pts cells).2 i]? = some q ∧ R p q

/-- `polygon` is region `i` of the diagram of the points, as closed by C80, without averaging. -/
def RawRegion (kit : VoronoiKit K) (radius : K) (points : List (K × K)) (i : ℕ) (polygon : List (K × K)) : Prop :=
  ∃ raw, (closeRegions kit.nrm kit.angle radius (kit.qhull points)).2[i]? = some raw ∧
    along (closeRegions kit.nrm kit.angle radius (kit.qhull points)).1 raw = polygon.map some

/-- The vertices of the diagram and the clusters of close vertices, see C44 and C45. -/
def averaged (kit : VoronoiKit K) (radius : K) (points : List (K × K)) : List ℕ × List (V3 K) :=
  averageMap ((closeRegions kit.nrm kit.angle radius (kit.qhull points)).1.map (insertAxis 2))
    (kit.pairs ((closeRegions kit.nrm kit.angle radius (kit.qhull points)).1.map (insertAxis 2)))

/-- `nodes` is region `i` once each vertex is replaced by its cluster and repeated ones are removed. -/
def ShortRegion (kit : VoronoiKit K) (radius : K) (points : List (K × K)) (i : ℕ) (nodes : List ℕ) : Prop :=
  ∃ raw f, (closeRegions kit.nrm kit.angle radius (kit.qhull points)).2[i]? = some raw ∧
    f.map some = along (averaged kit radius points).1 raw ∧ Shortens f nodes

/-- `polygon` is region `i` with close vertices replaced by their means. -/
def AveragedRegion (kit : VoronoiKit K) (radius : K) (points : List (K × K)) (i : ℕ) (polygon : List (K × K)) : Prop :=
  ∃ nodes, ShortRegion kit radius points i nodes ∧ 3 ≤ nodes.length ∧ NoRepeat nodes ∧
    along ((averaged kit radius points).2.map (dropAxis 2)) nodes = polygon.map some

/-- The region of point `i` with the given value of `min_length > 0`. -/
def RegionOf (kit : VoronoiKit K) (radius : K) (average : Bool) (points : List (K × K)) (i : ℕ)
    (polygon : List (K × K)) : Prop :=
  if average then AveragedRegion kit radius points i polygon else RawRegion kit radius points i polygon

end Spec

section mesh
variable {K : Type*} [Field K] [LinearOrder K]

theorem closeRegions_nodes (nrm : K × K → K) (angle : K × K → K × K → K) (radius : K) {q : Qhull K} {n : ℕ}
    (hq : GoodQhull q n) :
    (closeRegions nrm angle radius q).2.length = n ∧
    ∀ reg ∈ (closeRegions nrm angle radius q).2, reg ≠ [] ∧
      ∀ v ∈ reg, v < (closeRegions nrm angle radius q).1.length := by
  obtain ⟨h1, h2, h3⟩ := C80_regions nrm angle radius q hq.ridges (fun r hr v hv => (hq.vertices r hr v hv).2)
  refine ⟨h1.trans hq.size, ?_⟩
  intro reg hreg
  obtain ⟨p, hp⟩ := List.mem_iff_getElem?.1 hreg
  have hlt : p < q.pointRegion.length := by rw [← h1]; exact (List.getElem?_eq_some_iff.1 hp).1
  obtain ⟨reg', hr1, hr2, hr3⟩ := h3 p _ (List.getElem?_eq_getElem hlt)
  rw [hp] at hr1
  obtain rfl := Option.some.inj hr1
  obtain ⟨v0, hv0, hv0p⟩ := hq.nonempty _ (List.getElem_mem hlt)
  set r := q.pointRegion[p] with hr
  have hmem : q.regions.getD r [] ∈ q.regions := by
    rw [List.getD_eq_getElem?_getD] at hv0 ⊢
    cases hc : q.regions[r]? with
    | none => rw [hc] at hv0; simp at hv0
    | some l => exact List.mem_of_getElem? (by rw [hc]; rfl)
  have hval := hq.vertices _ hmem
  have hbound : ∀ v ∈ q.regions.getD r [], 0 ≤ v → v.toNat < (closeRegions nrm angle radius q).1.length := by
    intro v hv hv0
    have := (hval v hv).2
    have := h2.length_le
    omega
  by_cases hinf : -1 ∈ q.regions.getD r []
  · obtain ⟨base, hb, hperm, -, hnew⟩ := hr3 hinf
    constructor
    · rintro rfl
      have : v0.toNat ∈ ([] : List ℕ) := by
        rw [hperm.mem_iff, List.mem_append]
        left
        exact List.mem_map_of_mem (List.mem_filter.2 ⟨hv0, by simpa using hv0p⟩)
      simp at this
    · intro v hv
      rw [hperm.mem_iff, List.mem_append] at hv
      rcases hv with hv | hv
      · obtain ⟨w, hw, rfl⟩ := List.mem_map.1 hv
        rw [List.mem_filter] at hw
        exact hbound w hw.1 (by simpa using hw.2)
      · obtain ⟨j, hj⟩ := List.mem_iff_getElem?.1 hv
        have := congrArg (fun l => l[j]?) hnew
        simp only [List.getElem?_map, hj, Option.map_some] at this
        have hj2 : j < (openRidges q p).length := by
          have := (List.getElem?_eq_some_iff.1 hj).1
          simpa using this
        rw [List.getElem?_eq_getElem hj2] at this
        simp only [Option.map_some, Option.some.injEq] at this
        exact (List.getElem?_eq_some_iff.1 this).1
  · rw [hr2 hinf]
    constructor
    · intro h
      rw [List.map_eq_nil_iff] at h
      rw [h] at hv0
      simp at hv0
    · intro v hv
      obtain ⟨w, hw, rfl⟩ := List.mem_map.1 hv
      have : w ≠ -1 := fun e => hinf (e ▸ hw)
      exact hbound w hw (by have := (hval w hw).1; omega)

theorem along_some {α : Type*} (xs : List α) (ids : List ℕ) (h : ∀ i ∈ ids, i < xs.length) :
    ∃ ys : List α, along xs ids = ys.map some :=
  ⟨ids.filterMap (xs[·]?), (filterMap_getElem xs ids h).symm⟩

/-- **C105**, regions: the diagram has one region per point; with averaging, those with at least three vertices left. -/
theorem C105_regions (kit : VoronoiKit K) (radius : K) (average : Bool) (points : List (K × K))
    (hne : points ≠ []) (hq : GoodQhull (kit.qhull points) points.length)
    (hpairs : ∀ pts, ∀ p ∈ kit.pairs pts, p.1 ≠ p.2 ∧ p.1 < pts.length ∧ p.2 < pts.length)
    (hclean : KeepsCorners (· = ·) kit.polyClean) :
    ∃ vertices regions ids, tessellate kit radius average points = .ok (vertices, regions, ids) ∧
      (ids.getD (List.range points.length)).Pairwise (· < ·) ∧
      (∀ i ∈ ids.getD (List.range points.length), i < points.length) ∧
      (average = false → ids = none) ∧
      regions.length = (ids.getD (List.range points.length)).length ∧
      (∀ (k i : ℕ), (ids.getD (List.range points.length))[k]? = some i → ∃ region polygon, regions[k]? = some region ∧
        along vertices region = polygon.map some ∧ RegionOf kit radius average points i polygon) ∧
      (∀ i, i < points.length → i ∉ ids.getD (List.range points.length) → average = true ∧
        ∃ nodes, ShortRegion kit radius points i nodes ∧ nodes.length < 3) := by
  obtain ⟨c1, c2⟩ := closeRegions_nodes kit.nrm kit.angle radius hq
  set t := closeRegions kit.nrm kit.angle radius (kit.qhull points) with ht
  cases average with
  | false =>
    refine ⟨t.1, t.2, none, by simp [tessellate, ← ht], ?_, by simp, by simp, by simp [c1], ?_, ?_⟩
    · simpa using List.pairwise_lt_range
    · intro k i hk
      simp only [Option.getD_none] at hk
      obtain ⟨hk1, hk2⟩ := List.getElem?_eq_some_iff.1 hk
      rw [List.getElem_range] at hk2
      subst hk2
      rw [List.length_range, ← c1] at hk1
      obtain ⟨ys, hys⟩ := along_some t.1 t.2[k] (c2 _ (List.getElem_mem hk1)).2
      exact ⟨t.2[k], ys, List.getElem?_eq_getElem hk1, hys,
        ⟨t.2[k], List.getElem?_eq_getElem hk1, hys⟩⟩
    · intro i hi hni
      simp only [Option.getD_none, List.mem_range] at hni
      exact absurd hi hni
  | true =>
    set pts := t.1.map (insertAxis 2) with hpts
    obtain ⟨m1, m2, m3⟩ := averageMap_spec pts (kit.pairs pts) (hpairs pts)
    have hfne : t.2 ≠ [] := by
      intro h
      rw [h] at c1
      exact hne (List.length_eq_zero_iff.1 c1.symm)
    obtain ⟨⟨faces, ids⟩, hf⟩ := C46_total (averageMap pts (kit.pairs pts)).1 t.2
      (fun h => (c2 _ h).1 rfl) (fun f hf i hi => by
        rw [m1, hpts, List.length_map]; exact (c2 f hf).2 i hi)
    have havg : averagePoints pts t.2 0 (kit.pairs pts) = .ok ((averageMap pts (kit.pairs pts)).2, faces, some ids) := by
      unfold averagePoints
      simp [hfne, hf, Except.map]
    obtain ⟨f1, f2, f3, f4⟩ := C46_faces _ _ _ _ hf
    have hidlt : ∀ i ∈ ids, i < t.2.length := by
      intro i hi
      obtain ⟨k, hk⟩ := List.mem_iff_getElem?.1 hi
      have hk' : k < faces.length := by rw [← f1]; exact (List.getElem?_eq_some_iff.1 hk).1
      obtain ⟨-, -, face, -, hface, -⟩ := f3 k i _ hk (List.getElem?_eq_getElem hk')
      exact (List.getElem?_eq_some_iff.1 hface).1
    have hnode : ∀ i < pts.length, ∀ a, (averageMap pts (kit.pairs pts)).1[i]? = some a →
        a < (averageMap pts (kit.pairs pts)).2.length := by
      intro i hi a ha
      rw [m2]
      rcases m3 i hi with ⟨grp, -, b, l, -, -, hb, h1, -⟩ | ⟨-, h1, -⟩
      · rw [ha] at h1; cases h1; exact hb
      · rw [ha] at h1; cases h1; exact hi
    have hav : averaged kit radius points = averageMap pts (kit.pairs pts) := rfl
    refine ⟨(kit.polyClean (averageMap pts (kit.pairs pts)).2 faces).1.map (dropAxis 2),
      faces.map fun f => f.map (kit.polyClean (averageMap pts (kit.pairs pts)).2 faces).2, some ids,
      by simp only [tessellate, ← ht, ← hpts, havg, if_true], f2,
      fun i hi => by rw [← c1]; exact hidlt i hi, by simp, by simp [f1], ?_, ?_⟩
    · intro k i hk
      simp only [Option.getD_some] at hk
      have hk' : k < faces.length := by rw [← f1]; exact (List.getElem?_eq_some_iff.1 hk).1
      obtain ⟨g1, g2, face, f, hface, hfa, hsh⟩ := f3 k i _ hk (List.getElem?_eq_getElem hk')
      have hlt : ∀ a ∈ faces[k], a < (averageMap pts (kit.pairs pts)).2.length := by
        intro a ha
        have : some a ∈ along (averageMap pts (kit.pairs pts)).1 face := by
          rw [← hfa]; exact List.mem_map_of_mem (shortens_mem hsh a ha)
        unfold along at this
        obtain ⟨j, hj, hja⟩ := List.mem_map.1 this
        exact hnode j (by rw [hpts, List.length_map]; exact (c2 face (List.mem_of_getElem? hface)).2 j hj) a hja
      obtain ⟨ys, hys⟩ := along_some ((averageMap pts (kit.pairs pts)).2.map (dropAxis 2)) faces[k]
        (by simpa using hlt)
      refine ⟨_, ys, by rw [List.getElem?_map, List.getElem?_eq_getElem hk']; rfl, ?_, ?_⟩
      · rw [← hys]
        unfold along
        rw [List.map_map]
        apply List.map_congr_left
        intro a ha
        obtain ⟨q, hq1, hq2⟩ := hclean (averageMap pts (kit.pairs pts)).2 faces faces[k] (List.getElem_mem hk') a ha _
          (List.getElem?_eq_getElem (hlt a ha))
        subst hq2
        simp only [Function.comp, List.getElem?_map, hq1, List.getElem?_eq_getElem (hlt a ha)]
      · rw [RegionOf, if_pos rfl]
        exact ⟨faces[k], ⟨face, f, hface, by rw [hav]; exact hfa, hsh⟩, g1, g2, by rw [hav]; exact hys⟩
    · intro i hi hni
      rw [← c1] at hi
      obtain ⟨f, g, h1, h2, h3⟩ := f4 i _ (List.getElem?_eq_getElem hi) hni
      exact ⟨rfl, g, ⟨_, f, List.getElem?_eq_getElem hi, by rw [hav]; exact h1, h2⟩, h3⟩

theorem numberCells_length {α : Type*} : ∀ (n : ℕ) (polys : List (List α)), (numberCells n polys).length = polys.length
  | _, [] => rfl
  | n, c :: cs => by rw [numberCells, List.length_cons, numberCells_length, List.length_cons]

theorem numberCells_along {α : Type*} : ∀ (polys : List (List α)) (pre : List α) (k : ℕ) (c : List α),
    polys[k]? = some c → ∃ cell, (numberCells pre.length polys)[k]? = some cell ∧ cell.length = c.length ∧
      along (pre ++ polys.flatten) cell = c.map some
  | [], _, k, c, h => by simp at h
  | p :: ps, pre, 0, c, h => by
    simp only [List.getElem?_cons_zero, Option.some.injEq] at h
    subst h
    refine ⟨_, rfl, by simp, ?_⟩
    unfold along
    rw [List.map_map]
    apply List.ext_getElem
    · simp
    · intro i h1 h2
      simp only [List.length_map, List.length_range] at h1
      simp only [List.getElem_map, List.getElem_range, Function.comp, List.flatten_cons]
      rw [List.getElem?_append_right (by omega), List.getElem?_append_left (by omega)]
      simp
  | p :: ps, pre, k + 1, c, h => by
    obtain ⟨cell, h1, h2, h3⟩ := numberCells_along ps (pre ++ p) k c (by simpa using h)
    rw [List.length_append] at h1
    refine ⟨cell, by simpa [numberCells] using h1, h2, ?_⟩
    rw [List.flatten_cons, ← List.append_assoc]
    exact h3

theorem filter_coded {P : Type*} {table : Dict String Int} {pts : List (VPoint P Int)} {npts : List (VPoint P String)}
    (h : List.Forall₂ (CodedAs table) pts npts) :
    List.Forall₂ (CodedAs table) (pts.filter (·.active)) (npts.filter (·.active)) := by
  induction h with
  | nil => exact .nil
  | cons h1 h2 ih =>
    rw [List.filter_cons, List.filter_cons, h1.2.2.1]
    split
    · exact .cons h1 ih
    · exact ih

theorem along_all {α : Type*} (l : List α) : l.map some = along l (List.range l.length) := by
  unfold along
  apply List.ext_getElem
  · simp
  · intro i h1 h2
    simp at h1
    simp [h1]

theorem get_of_map_some {α : Type*} {l : List α} {k : ℕ} {x : α} (h : Option.map some l[k]? = some (some x)) :
    l[k]? = some x := by
  cases hl : l[k]? with
  | none => rw [hl] at h; cases h
  | some y => rw [hl] at h; simpa using h

theorem voronoiData_get {P G : Type*} (pts : List (VPoint P G)) (ids : Option (List ℕ)) {n : ℕ}
    (hn : (pts.filter (·.active)).length = n)
    (hs : (ids.getD (List.range n)).Pairwise (· < ·)) (hlt : ∀ i ∈ ids.getD (List.range n), i < n) :
    (voronoiData pts ids).1.map some = along ((pts.filter (·.active)).map (·.group)) (ids.getD (List.range n)) ∧
    (voronoiData pts ids).2.map some = along ((pts.filter (·.active)).map (·.point)) (ids.getD (List.range n)) := by
  subst hn
  cases ids with
  | some ids => exact C60_aligned pts ids hs hlt
  | none =>
    rw [C60_no_average]
    constructor
    · have := along_all ((pts.filter (·.active)).map (·.group))
      simpa using this
    · have := along_all ((pts.filter (·.active)).map (·.point))
      simpa using this

namespace Spec

/-- Cell `k` of the mesh: its group is called `name`, its type is that of its corners, which are related to `ring`. -/
structure IsCell (R : V3 K → V3 K → Prop) (m : VMesh K) (k : ℕ) (name : String) (site : V3 K) (ring : List (V3 K)) :
    Prop where
  named : CellNamed m.table m.groups k name
  sited : m.sites[k]? = some site
  typed : m.types[k]? = some (if ring.length = 3 then 5 else if ring.length = 4 then 9 else 7)
  corners : ∃ cell corners, m.cells[k]? = some cell ∧ along m.points cell = corners.map some ∧
    List.Forall₂ R ring corners

/-- The corners of the cell of a region: the coordinates that shapely gives for its part inside the boundary, without
the last one, in the order or in reverse (see C50). -/
def CellRing (kit : VoronoiKit K) (axis : Fin 3) (boundary : List (List (K × K))) (polygon : List (K × K))
    (ring : List (V3 K)) : Prop :=
  ring = ((kit.clip boundary polygon).flatten.dropLast).map (insertAxis axis) ∨
    ring = ((kit.clip boundary polygon).flatten.dropLast).reverse.map (insertAxis axis)

end Spec

/-- The mesh before fusing and cleaning. -/
theorem diagram_ok (kit : VoronoiKit K) (o : VOptions K) (radius : K) (boundary : List (List (K × K)))
    (others : List (List (List (K × K)))) {pts : List (VPoint (V3 K) Int)} {npts : List (VPoint (V3 K) String)}
    {table : Dict String Int} (hd : DenseTable table) (hc : List.Forall₂ (CodedAs table) pts npts)
    (hne : npts.filter (·.active) ≠ [])
    (hq : GoodQhull (kit.qhull ((npts.filter (·.active)).map fun v => dropAxis o.axis v.point))
      (npts.filter (·.active)).length)
    (hpairs : ∀ pts, ∀ p ∈ kit.pairs pts, p.1 ≠ p.2 ∧ p.1 < pts.length ∧ p.2 < pts.length)
    (hclean : KeepsCorners (· = ·) kit.polyClean)
    (hvalid : ∀ i polygon, RegionOf kit radius o.average ((npts.filter (·.active)).map fun v => dropAxis o.axis v.point)
      i polygon → kit.valid polygon = true ∧ 2 ≤ (kit.clip boundary polygon).flatten.length) :
    ∃ ids : List ℕ, ids.Pairwise (· < ·) ∧ (∀ i ∈ ids, i < (npts.filter (·.active)).length) ∧
      (o.average = false → ids = List.range (npts.filter (·.active)).length) ∧
      (∀ i, i < (npts.filter (·.active)).length → i ∉ ids → ∃ nodes, ShortRegion kit radius
        ((npts.filter (·.active)).map fun v => dropAxis o.axis v.point) i nodes ∧ nodes.length < 3) ∧
      (ids = [] → diagram kit o radius (some (boundary :: others)) pts table = .error .valueError) ∧
      (ids ≠ [] → ∃ m, diagram kit o radius (some (boundary :: others)) pts table = .ok m ∧ m.table = table ∧
        m.cells.length = ids.length ∧ m.types.length = ids.length ∧ m.groups.length = ids.length ∧
        m.sites.length = ids.length ∧
        ∀ k i : ℕ, ids[k]? = some i → ∃ g polygon ring, (npts.filter (·.active))[i]? = some g ∧
          RegionOf kit radius o.average ((npts.filter (·.active)).map fun v => dropAxis o.axis v.point) i polygon ∧
          CellRing kit o.axis boundary polygon ring ∧
          IsCell (· = ·) m k g.group (insertAxis o.axis (dropAxis o.axis g.point)) ring) := by
  have hcf := filter_coded hc
  have hlen := hcf.length_eq
  have hpeq : (pts.filter (·.active)).map (fun v => dropAxis o.axis v.point) =
      (npts.filter (·.active)).map fun v => dropAxis o.axis v.point := by
    rw [← List.forall₂_eq_eq_eq, List.forall₂_map_left_iff, List.forall₂_map_right_iff]
    exact hcf.imp fun v w h => by rw [h.1]
  set used := npts.filter (·.active) with hused
  set points := used.map (fun v => dropAxis o.axis v.point) with hpoints
  have hplen : points.length = used.length := by rw [hpoints, List.length_map]
  obtain ⟨vertices, regions, ids, ht, t1, t2, t3, t4, t5, t6⟩ := C105_regions kit radius o.average points
    (by rw [hpoints]; simpa using hne) (by rw [hplen]; exact hq) hpairs hclean
  rw [hplen] at t1 t2 t4 t5 t6
  obtain ⟨d1, d2⟩ := voronoiData_get pts ids hlen t1 t2
  set idl := ids.getD (List.range used.length) with hidl
  refine ⟨idl, t1, t2, fun h => by rw [hidl, t3 h]; rfl, fun i hi hni => (t6 i hi hni).2, ?_⟩
  -- the cells
  have hcell : ∀ (k i : ℕ), idl[k]? = some i → ∃ region polygon c, regions[k]? = some region ∧
      RegionOf kit radius o.average points i polygon ∧ clipCell kit o.ccw boundary vertices region = .ok c ∧
      c = orientCell o.ccw (kit.clip boundary polygon).flatten.dropLast ∧ c ≠ [] := by
    intro k i hk
    obtain ⟨region, polygon, r1, r2, r3⟩ := t5 k i hk
    obtain ⟨v1, v2⟩ := hvalid i polygon r3
    refine ⟨region, polygon, _, r1, r3, ?_, rfl, ?_⟩
    · unfold clipCell
      rw [gather_ok_iff.2 r2.symm]
      simp [v1]
    · have : (kit.clip boundary polygon).flatten.dropLast ≠ [] := by
        intro h
        have := congrArg List.length h
        rw [List.length_dropLast, List.length_nil] at this
        omega
      rcases C50_vertices o.ccw (kit.clip boundary polygon).flatten.dropLast with h | h <;> rw [h]
      · exact this
      · simpa using this
  have hpolys : ∃ polys, mapPy (clipCell kit o.ccw boundary vertices) regions = .ok polys := by
    apply mapPy_exists
    intro region hr
    obtain ⟨k, hk⟩ := List.mem_iff_getElem?.1 hr
    have hkl : k < idl.length := by rw [← t4]; exact (List.getElem?_eq_some_iff.1 hk).1
    obtain ⟨region', polygon, c, e1, -, e3, -⟩ := hcell k _ (List.getElem?_eq_getElem hkl)
    rw [hk] at e1
    cases e1
    exact ⟨c, e3⟩
  obtain ⟨polys, hpolys⟩ := hpolys
  have hf2 := mapPy_ok_iff.1 hpolys
  have hpl : polys.length = idl.length := by rw [← hf2.length_eq, t4]
  have hpoly : ∀ (k i : ℕ), idl[k]? = some i → ∃ polygon c, polys[k]? = some c ∧
      RegionOf kit radius o.average points i polygon ∧
      c = orientCell o.ccw (kit.clip boundary polygon).flatten.dropLast ∧ c ≠ [] := by
    intro k i hk
    obtain ⟨region, polygon, c, e1, e2, e3, e4⟩ := hcell k i hk
    obtain ⟨hk1, hk2⟩ := List.getElem?_eq_some_iff.1 e1
    have hk3 : k < polys.length := by rw [← hf2.length_eq]; exact hk1
    have := (List.forall₂_iff_get.1 hf2).2 k hk1 hk3
    simp only [List.get_eq_getElem] at this
    rw [hk2, e3] at this
    refine ⟨polygon, c, ?_, e2, e4⟩
    rw [List.getElem?_eq_getElem hk3]
    exact congrArg some (Except.ok.inj this).symm
  have hdl1 : (voronoiData pts ids).1.length = polys.length := by
    have := congrArg List.length d1
    simpa [along, hpl] using this
  have hdl2 : (voronoiData pts ids).2.length = polys.length := by
    have := congrArg List.length d2
    simpa [along, hpl] using this
  have hdiag : diagram kit o radius (some (boundary :: others)) pts table =
      polygonMesh kit o.axis o.ccw boundary vertices regions (voronoiData pts ids) table := by
    simp only [diagram, hpeq, ht, firstOutline]
  constructor
  · intro hnil
    have : polys = [] := by rw [hnil] at hpl; exact List.length_eq_zero_iff.1 hpl
    rw [hdiag]
    simp only [polygonMesh, hpolys, this, cellPoints, List.flatten_nil, if_true]
  · intro hnn
    have hflat : polys.flatten ≠ [] := by
      intro h
      have h0 : 0 < idl.length := List.length_pos_of_ne_nil hnn
      obtain ⟨polygon, c, e1, -, -, e4⟩ := hpoly 0 _ (List.getElem?_eq_getElem h0)
      exact e4 (List.flatten_eq_nil_iff.1 h c (List.mem_of_getElem? e1))
    refine ⟨⟨polys.flatten.map (insertAxis o.axis), polys.map fun c => faceType c.length, numberCells 0 polys,
      (voronoiData pts ids).1, (voronoiData pts ids).2.map fun p => insertAxis o.axis (dropAxis o.axis p), table⟩,
      ?_, rfl, ?_, ?_, ?_, ?_, ?_⟩
    · rw [hdiag]
      simp only [polygonMesh, hpolys, cellPoints, if_neg hflat, hdl1, hdl2]
      simp
    · simp [numberCells_length, hpl]
    · simp [hpl]
    · simp [hdl1, hpl]
    · simp [hdl2, hpl]
    · intro k i hk
      obtain ⟨polygon, c, e1, e2, e3, e4⟩ := hpoly k i hk
      have hi := t2 i (List.mem_of_getElem? hk)
      have hi' : i < (pts.filter (·.active)).length := by rw [hlen]; exact hi
      have hco := (List.forall₂_iff_get.1 hcf).2 i hi' hi
      simp only [List.get_eq_getElem] at hco
      obtain ⟨o1, o2, o3, o4⟩ := hco
      have g1 := congrArg (fun l => l[k]?) d1
      simp only [along, List.getElem?_map, hk, Option.map_some, List.getElem?_eq_getElem hi'] at g1
      have g2 := congrArg (fun l => l[k]?) d2
      simp only [along, List.getElem?_map, hk, Option.map_some, List.getElem?_eq_getElem hi'] at g2
      have g1 := get_of_map_some g1
      have g2 := get_of_map_some g2
      refine ⟨used[i], polygon, c.map (insertAxis o.axis), List.getElem?_eq_getElem hi, e2, ?_, ?_⟩
      · rcases C50_vertices o.ccw (kit.clip boundary polygon).flatten.dropLast with h | h
        · left; rw [e3, h]
        · right; rw [e3, h]
      · refine ⟨⟨_, g1, o4⟩, ?_, ?_, ?_⟩
        · rw [List.getElem?_map, g2, o1]; rfl
        · rw [List.getElem?_map, e1, List.length_map]
          rfl
        · obtain ⟨cell, c1, c2, c3⟩ := numberCells_along polys [] k c e1
          refine ⟨cell, c.map (insertAxis o.axis), c1, ?_, by rw [List.forall₂_eq_eq_eq]⟩
          rw [List.nil_append] at c3
          have := congrArg (List.map (Option.map (insertAxis o.axis))) c3
          simp only [along, List.map_map] at this ⊢
          rw [show (some ∘ insertAxis o.axis) = (Option.map (insertAxis (K := K) o.axis)) ∘ some from rfl, ← this]
          apply List.map_congr_left
          intro j _
          simp only [Function.comp, List.getElem?_map]

/-- Cleaning keeps what the cells are. -/
theorem cleanVMesh_ok (kit : VoronoiKit K) (R : V3 K → V3 K → Prop) (hclean : KeepsCorners R kit.clean) (m : VMesh K)
    (hd : DenseTable m.table) (hcov : ∀ c ∈ m.groups, ∃ s, (s, c) ∈ m.table) :
    ∃ m', cleanVMesh kit m = .ok m' ∧ DenseTable m'.table ∧ m'.cells.length = m.cells.length ∧ m'.types = m.types ∧
      m'.groups.length = m.groups.length ∧ m'.sites = m.sites ∧
      (∀ s, s ∈ m'.table.map Prod.fst → ∃ k, CellNamed m.table m.groups k s) ∧
      ∀ (S : V3 K → V3 K → Prop) k name site ring, IsCell S m k name site ring →
        IsCell (Relation.Comp S R) m' k name site ring := by
  obtain ⟨data', table', h1, h2, h3, h4, -⟩ := C08_clean hd hcov
  refine ⟨⟨(kit.clean m.points m.cells).1, m.types, m.cells.map fun cell => cell.map (kit.clean m.points m.cells).2,
    data', m.sites, table'⟩, by simp only [cleanVMesh, h1], h2, by simp, rfl, h3.1.symm, rfl, ?_, ?_⟩
  · intro s hs
    simp only at hs
    rw [h4] at hs
    obtain ⟨kv, hkv, rfl⟩ := List.mem_map.1 hs
    rw [List.mem_filter] at hkv
    obtain ⟨k, hk⟩ := List.mem_iff_getElem?.1 (of_decide_eq_true hkv.2)
    exact ⟨k, kv.2, hk, hkv.1⟩
  · intro S k name site ring hm
    obtain ⟨a1, a2, a3, cell, corners, a4, a5, a6⟩ := hm
    refine ⟨(h3.2 k name).1 a1, a2, a3, cell.map (kit.clean m.points m.cells).2, ?_⟩
    have key : ∀ (cell : List ℕ) (ring corners : List (V3 K)), (∀ i ∈ cell, ∀ p, m.points[i]? = some p →
        ∃ q, (kit.clean m.points m.cells).1[(kit.clean m.points m.cells).2 i]? = some q ∧ R p q) →
        along m.points cell = corners.map some → List.Forall₂ S ring corners →
        ∃ corners', along (kit.clean m.points m.cells).1 (cell.map (kit.clean m.points m.cells).2) =
          corners'.map some ∧ List.Forall₂ (Relation.Comp S R) ring corners' := by
      intro cell
      induction cell with
      | nil =>
        intro ring corners _ h hf
        simp only [along, List.map_nil] at h
        have : corners = [] := by
          have := congrArg List.length h
          simpa using this.symm
        subst this
        cases hf
        exact ⟨[], rfl, .nil⟩
      | cons i cell ih =>
        intro ring corners hc h hf
        cases corners with
        | nil => simp [along] at h
        | cons p corners =>
          simp only [along, List.map_cons, List.cons.injEq] at h
          cases hf with
          | cons hf1 hf2 =>
            obtain ⟨q, q1, q2⟩ := hc i (by simp) p h.1
            obtain ⟨corners', e1, e2⟩ := ih _ corners (fun j hj => hc j (by simp [hj])) h.2 hf2
            refine ⟨q :: corners', ?_, .cons ⟨p, hf1, q2⟩ e2⟩
            simp only [along, List.map_cons, q1] at e1 ⊢
            rw [e1]
    obtain ⟨corners', e1, e2⟩ := key cell ring corners (hclean m.points m.cells cell (List.mem_of_getElem? a4)) a5 a6
    exact ⟨corners', by simp [a4], e1, e2⟩

/-- **C105**: the generated mesh has one cell per active point (see C59), in order, those whose region was reduced to
fewer than three vertices by averaging being left out.  Its group is that of the point, by name; "X", "Y", "Z" are the
coordinates of the point in the plane; its corners are the coordinates that shapely gives for the part of the region
inside the first boundary polygon, up to the tolerance of the final clean-up.  Unused groups are dropped. -/
theorem C105_mesh (kit : VoronoiKit K) (o : VOptions K) (bg : VBackground (V3 K)) (sources : List (VSource (V3 K)))
    (boundary : List (List (K × K))) (others : List (List (List (K × K)))) (R : V3 K → V3 K → Prop)
    (hbg : Labelled bg.centers bg.labels) (hs : ∀ s ∈ sources, Labelled s.centers s.labels ∧ PlainGroup s.group)
    (hpairs : ∀ pts, ∀ p ∈ kit.pairs pts, p.1 ≠ p.2 ∧ p.1 < pts.length ∧ p.2 < pts.length)
    (hpoly : KeepsCorners (· = ·) kit.polyClean) (hclean : KeepsCorners R kit.clean) :
    let used := (namedPoints o.ignore o.dflt o.cell bg sources).filter (·.active)
    let points := used.map fun v => dropAxis o.axis v.point
    let radius := voronoiRadius o.infinity bg.nodes
    used ≠ [] → GoodQhull (kit.qhull points) used.length →
    (∀ i polygon, RegionOf kit radius o.average points i polygon →
      kit.valid polygon = true ∧ 2 ≤ (kit.clip boundary polygon).flatten.length) →
    ∃ ids : List ℕ, ids.Pairwise (· < ·) ∧ (∀ i ∈ ids, i < used.length) ∧
      (o.average = false → ids = List.range used.length) ∧
      (∀ i, i < used.length → i ∉ ids → ∃ nodes, ShortRegion kit radius points i nodes ∧ nodes.length < 3) ∧
      (ids = [] → voronoiMesh kit o bg (some (boundary :: others)) sources [] = .error .valueError) ∧
      (ids ≠ [] → ∃ m, voronoiMesh kit o bg (some (boundary :: others)) sources [] = .ok m ∧ DenseTable m.table ∧
        m.cells.length = ids.length ∧ m.types.length = ids.length ∧ m.groups.length = ids.length ∧
        m.sites.length = ids.length ∧
        (∀ s, s ∈ m.table.map Prod.fst → ∃ i g, i ∈ ids ∧ used[i]? = some g ∧ g.group = s) ∧
        ∀ k i : ℕ, ids[k]? = some i → ∃ g polygon ring, used[i]? = some g ∧
          RegionOf kit radius o.average points i polygon ∧ CellRing kit o.axis boundary polygon ring ∧
          IsCell R m k g.group (insertAxis o.axis (dropAxis o.axis g.point)) ring) := by
  intro used points radius hne hq hvalid
  obtain ⟨pts, table, g1, g2, g3⟩ := generators_coded o.ignore o.dflt o.cell bg sources hbg hs
  obtain ⟨ids, i1, i2, i3, i4, i5, i6⟩ := diagram_ok kit o radius boundary others g2 g3 hne hq hpairs hpoly hvalid
  refine ⟨ids, i1, i2, i3, i4, ?_, ?_⟩
  · intro h
    simp only [voronoiMesh, g1]
    rw [show voronoiRadius o.infinity bg.nodes = radius from rfl, i5 h]
  · intro h
    obtain ⟨m, m1, m2, m3, m4, m5, m6, m7⟩ := i6 h
    subst m2
    have hname : ∀ k, k < m.groups.length → ∃ i g, ids[k]? = some i ∧ used[i]? = some g ∧
        CellNamed m.table m.groups k g.group := by
      intro k hk
      rw [m5] at hk
      obtain ⟨g, polygon, ring, a1, _, _, a4⟩ := m7 k _ (List.getElem?_eq_getElem hk)
      exact ⟨_, g, List.getElem?_eq_getElem hk, a1, a4.1⟩
    obtain ⟨m', c1, c2, c3, c4, c5, c6, c7, c8⟩ := cleanVMesh_ok kit R hclean m g2 (by
      intro c hc
      obtain ⟨k, hk⟩ := List.mem_iff_getElem?.1 hc
      obtain ⟨i, g, -, -, c', b1, b2⟩ := hname k (List.getElem?_eq_some_iff.1 hk).1
      rw [hk] at b1
      cases b1
      exact ⟨_, b2⟩)
    refine ⟨m', ?_, c2, by rw [c3, m3], by rw [c4, m4], by rw [c5, m5], by rw [c6, m6], ?_, ?_⟩
    · simp only [voronoiMesh, g1]
      rw [show voronoiRadius o.infinity bg.nodes = radius from rfl, m1]
      simp only [fuseMesh, if_true, c1]
    · intro s hs
      obtain ⟨k, c, hk1, hk2⟩ := c7 s hs
      obtain ⟨i, g, b1, b2, c', b3, b4⟩ := hname k (List.getElem?_eq_some_iff.1 hk1).1
      rw [hk1] at b3
      cases b3
      refine ⟨i, g, List.mem_of_getElem? b1, b2, ?_⟩
      exact g2.inj.name_unique b4 hk2
    · intro k i hk
      obtain ⟨g, polygon, ring, a1, a2, a3, a4⟩ := m7 k i hk
      refine ⟨g, polygon, ring, a1, a2, a3, ?_⟩
      have := c8 _ k _ _ _ a4
      obtain ⟨b1, b2, b3, cell, corners, b4, b5, b6⟩ := this
      exact ⟨b1, b2, b3, cell, corners, b4, b5, b6.imp fun p q h => by
        obtain ⟨x, hx, hy⟩ := h
        rw [hx]; exact hy⟩

namespace Spec

/-- The cells of a mesh whose centre satisfies a predicate of `fuse`, in order. -/
def chosenCells (kit : VoronoiKit K) (m : VMesh K) (f : V3 K → Bool) : List ℕ :=
  (List.range m.cells.length).filter fun k => f (kit.centre ((m.cells.getD k []).filterMap (m.points[·]?)))

/-- The corners of the given cells of a mesh. -/
def subCorners (m : VMesh K) (ids : List ℕ) : List (List (V3 K)) :=
  ids.map fun k => (m.cells.getD k []).filterMap (m.points[·]?)

end Spec

theorem isCell_moved {kit : VoronoiKit K} {R S : V3 K → V3 K → Prop} {points : List (V3 K)} {cells : List (List ℕ)}
    (hclean : KeepsCorners R kit.clean) {cell : List ℕ} (hcell : cell ∈ cells) {ring corners : List (V3 K)}
    (h : along points cell = corners.map some) (hf : List.Forall₂ S ring corners) :
    ∃ corners', along (kit.clean points cells).1 (cell.map (kit.clean points cells).2) = corners'.map some ∧
      List.Forall₂ (Relation.Comp S R) ring corners' := by
  have hc := hclean points cells cell hcell
  clear hcell
  induction cell generalizing ring corners with
  | nil =>
    simp only [along, List.map_nil] at h
    have : corners = [] := by
      have := congrArg List.length h
      simpa using this.symm
    subst this
    cases hf
    exact ⟨[], rfl, .nil⟩
  | cons i cell ih =>
    cases corners with
    | nil => simp [along] at h
    | cons p corners =>
      simp only [along, List.map_cons, List.cons.injEq] at h
      cases hf with
      | cons hf1 hf2 =>
        obtain ⟨q, q1, q2⟩ := hc i (by simp) p h.1
        obtain ⟨corners', e1, e2⟩ := ih h.2 hf2 (fun j hj => hc j (by simp [hj]))
        refine ⟨q :: corners', ?_, .cons ⟨p, hf1, q2⟩ e2⟩
        simp only [along, List.map_cons, q1] at e1 ⊢
        rw [e1]

theorem chosen_eq (kit : VoronoiKit K) (m : VMesh K) (f : V3 K → Bool) :
    ((List.range ((cornersOf m.points m.cells).map kit.centre).length).filter fun i =>
      ((((cornersOf m.points m.cells).map kit.centre)[i]?).map f).getD false) = chosenCells kit m f := by
  unfold chosenCells
  simp only [cornersOf, List.length_map]
  apply List.filter_congr
  intro k hk
  have hk := List.mem_range.1 hk
  simp [List.getElem?_eq_getElem hk]

theorem sub_eq (m : VMesh K) (ids : List ℕ) (h : ∀ i ∈ ids, i < m.cells.length) :
    ids.filterMap ((cornersOf m.points m.cells)[·]?) = subCorners m ids := by
  unfold subCorners
  rw [← List.filterMap_eq_map]
  apply List.filterMap_congr
  intro i hi
  simp [cornersOf, List.getElem?_eq_getElem (h i hi)]

/-- **C105**, fused cells: cells in no group stay; the first cell of a group of connected cells becomes their outline,
with its own group and "X", "Y", "Z", the other cells of the group are removed. -/
theorem C105_fuse (kit : VoronoiKit K) (R : V3 K → V3 K → Prop) (hclean : KeepsCorners R kit.clean) (m : VMesh K)
    (h1 : m.types.length = m.cells.length) (h2 : m.groups.length = m.cells.length)
    (h3 : m.sites.length = m.cells.length) (fuse : List (V3 K → Bool)) (outline : (V3 K → Bool) → List (V3 K))
    (hne : fuse ≠ []) (hsome : ∀ f ∈ fuse, chosenCells kit m f ≠ [])
    (hdisj : (fuse.map (chosenCells kit m)).flatten.Nodup)
    (hdim : ∀ f ∈ fuse, kit.dim (subCorners m (chosenCells kit m f)) = 2)
    (hout : ∀ f ∈ fuse, kit.outline (subCorners m (chosenCells kit m f)) = some [outline f] ∧
      ∀ p ∈ outline f, p ∈ m.points) :
    ∃ (ids : List ℕ) (m' : VMesh K), fuseMesh kit fuse m = .ok m' ∧ m'.table = m.table ∧ ids.Pairwise (· < ·) ∧
      (∀ i, i ∈ ids ↔ i < m.cells.length ∧ ∀ f ∈ fuse, i ∉ (chosenCells kit m f).tail) ∧
      m'.cells.length = ids.length ∧ m'.types.length = ids.length ∧ m'.groups.length = ids.length ∧
      m'.sites.length = ids.length ∧
      ∀ j i : ℕ, ids[j]? = some i → m'.groups[j]? = m.groups[i]? ∧
        ∀ (S : V3 K → V3 K → Prop) name site ring, IsCell S m i name site ring →
          ((∀ f ∈ fuse, i ∉ chosenCells kit m f) → IsCell (Relation.Comp S R) m' j name site ring) ∧
          ∀ f ∈ fuse, (chosenCells kit m f).head? = some i →
            ∃ cell corners, m'.types[j]? = some 7 ∧ m'.cells[j]? = some cell ∧ along m'.points cell = corners.map some ∧
              List.Forall₂ R (outline f) corners ∧ CellNamed m'.table m'.groups j name ∧ m'.sites[j]? = some site := by
  have hlt : ∀ f, ∀ i ∈ chosenCells kit m f, i < m.cells.length := by
    intro f i hi
    exact List.mem_range.1 (List.mem_filter.1 hi).1
  set ringOf : List ℕ → List (V3 K) := fun g =>
    match kit.outline (g.filterMap ((cornersOf m.points m.cells)[·]?)) with
    | some (r :: _) => r
    | _ => [] with hringOf
  have hrf : ∀ f ∈ fuse, ringOf (chosenCells kit m f) = outline f := by
    intro f hf
    simp only [hringOf, sub_eq m _ (hlt f), (hout f hf).1]
  obtain ⟨ids, c, t, data, a1, a2, a3, a4, a5, a6, -, a8⟩ := C71_fuse_cells m.points m.cells m.types
    [("CellGroup", m.groups.zip m.sites)]
    (fun ind => kit.dim (ind.filterMap ((cornersOf m.points m.cells)[·]?)))
    (fun ind => kit.outline (ind.filterMap ((cornersOf m.points m.cells)[·]?)))
    (fuse.map (chosenCells kit m)) ringOf h1 (by simp [Dict.keys])
    (by
      intro k v hk
      simp only [Dict.get?] at hk
      split at hk
      · obtain rfl := Option.some.inj hk
        rw [List.length_zip, h2, h3, min_self]
      · simp [Dict.get?] at hk) (by simpa using hne)
    (by intro g hg; obtain ⟨f, hf, rfl⟩ := List.mem_map.1 hg; exact hsome f hf) hdisj
    (by
      intro i hi
      obtain ⟨g, hg, hi⟩ := List.mem_flatten.1 hi
      obtain ⟨f, -, rfl⟩ := List.mem_map.1 hg
      exact hlt f i hi)
    (by intro g hg; obtain ⟨f, hf, rfl⟩ := List.mem_map.1 hg; simp only [sub_eq m _ (hlt f)]; exact hdim f hf)
    (by
      intro g hg
      obtain ⟨f, hf, rfl⟩ := List.mem_map.1 hg
      rw [hrf f hf]
      simp only [sub_eq m _ (hlt f)]
      exact (hout f hf).1)
    (by
      intro g hg
      obtain ⟨f, hf, rfl⟩ := List.mem_map.1 hg
      rw [hrf f hf]
      exact (hout f hf).2)
  obtain ⟨rows, r1, r2⟩ := a8 "CellGroup" (m.groups.zip m.sites) (by simp [Dict.get?])
  have hidl : ∀ i ∈ ids, i < m.cells.length := fun i hi => ((a3 i).1 hi).1
  have hrl : rows.length = ids.length := by simpa [along] using congrArg List.length r2
  have hrow : ∀ j i : ℕ, ids[j]? = some i → ∃ g s, rows[j]? = some (g, s) ∧ m.groups[i]? = some g ∧ m.sites[i]? = some s := by
    intro j i hj
    have hi := hidl i (List.mem_of_getElem? hj)
    have := congrArg (fun l => l[j]?) r2
    simp only [along, List.getElem?_map, hj, Option.map_some] at this
    have hj' : j < rows.length := by rw [hrl]; exact (List.getElem?_eq_some_iff.1 hj).1
    rw [List.getElem?_eq_getElem hj', List.getElem?_eq_getElem (by rw [List.length_zip]; omega), List.getElem_zip] at this
    simp only [Option.map_some, Option.some.injEq] at this
    exact ⟨m.groups[i], m.sites[i], by rw [List.getElem?_eq_getElem hj', this], List.getElem?_eq_getElem _,
      List.getElem?_eq_getElem _⟩
  refine ⟨ids, ⟨(kit.clean m.points c).1, t, c.map fun cell => cell.map (kit.clean m.points c).2, rows.map Prod.fst,
    rows.map Prod.snd, m.table⟩, ?_, rfl, a2, ?_, by simp [a4], a5, by simp [hrl], by simp [hrl], ?_⟩
  · unfold fuseMesh
    rw [if_neg hne]
    simp only [chosen_eq, a1, r1, Option.getD_some]
  · intro i
    rw [a3]
    simp
  · intro j i hj
    obtain ⟨g, s, q1, q2, q3⟩ := hrow j i hj
    refine ⟨by simp [q1, q2], ?_⟩
    intro S name site ring hcell
    obtain ⟨b1, b2, b3, cell, corners, b4, b5, b6⟩ := hcell
    have hname : CellNamed m.table (rows.map Prod.fst) j name := by
      obtain ⟨c', e1, e2⟩ := b1
      refine ⟨c', ?_, e2⟩
      rw [q2] at e1
      obtain rfl := Option.some.inj e1
      simp [q1]
    have hsite : (rows.map Prod.snd)[j]? = some site := by
      rw [q3] at b2
      obtain rfl := Option.some.inj b2
      simp [q1]
    constructor
    · intro hno
      have hni : i ∉ (fuse.map (chosenCells kit m)).flatten := by
        intro h
        obtain ⟨g, hg, hi⟩ := List.mem_flatten.1 h
        obtain ⟨f, hf, rfl⟩ := List.mem_map.1 hg
        exact hno f hf hi
      obtain ⟨e1, e2⟩ := (a6 j i hj).1 hni
      rw [b4] at e1
      obtain ⟨corners', k1, k2⟩ := isCell_moved (kit := kit) hclean (List.mem_of_getElem? e1) b5 b6
      exact ⟨hname, hsite, e2.trans b3, _, corners', by simp [e1], k1, k2⟩
    · intro f hf hh
      obtain ⟨e1, n, e2, e3⟩ := (a6 j i hj).2 _ (List.mem_map_of_mem hf) hh
      rw [hrf f hf] at e3
      have hrefl : List.Forall₂ (· = ·) (outline f) (outline f) := List.forall₂_eq_eq_eq ▸ rfl
      obtain ⟨corners', k1, k2⟩ := isCell_moved (kit := kit) hclean (List.mem_of_getElem? e2) e3 hrefl
      refine ⟨_, corners', e1, by simp [e2], k1, ?_, hname, hsite⟩
      exact k2.imp fun p q h => by
        obtain ⟨x, hx, hy⟩ := h
        rw [hx]; exact hy

end mesh

end Gridder
