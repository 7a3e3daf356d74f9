import Verif.Model.VoronoiInputs
import Verif.Props.VoronoiBoundary
import Verif.Props.VoronoiItems

/-!
# C110-C112: the background mesh, the items and their owner
-/

namespace Gridder
open Spec

section projection
variable {K : Type*} [Field K] [LinearOrder K]

/-- Two datasets that differ at most by the coordinates of their points along the axis. -/
def Spec.SameSeenAlong (axis : Fin 3) (m m' : VDataset K) : Prop :=
  m.kind = m'.kind ∧ m.cells = m'.cells ∧ m.labels = m'.labels ∧
    m.points.map (dropAxis axis) = m'.points.map (dropAxis axis)

/-- The points are at 0 along the axis, or they can be moved there. -/
def Spec.Movable (axis : Fin 3) (m : VDataset K) : Prop :=
  m.kind = .structured ∨ m.kind = .unstructured ∨ m.kind = .poly ∨ ∀ p ∈ m.points, p axis = 0

omit [LinearOrder K] in
theorem update_of_dropAxis {axis : Fin 3} {p q : V3 K} (h : dropAxis axis p = dropAxis axis q) :
    Function.update p axis 0 = Function.update q axis 0 := by
  funext k
  unfold dropAxis at h
  fin_cases axis <;> fin_cases k <;> simp_all

omit [LinearOrder K] in
theorem project_points {axis : Fin 3} {m : VDataset K} (h : Movable axis m) :
    m.project axis = { m with points := m.points.map fun p => Function.update p axis 0 } := by
  unfold VDataset.project
  rcases h with h | h | h | h
  · rw [h]; rfl
  · rw [h]; rfl
  · rw [h]; rfl
  · split
    · have : m.points.map (fun p => Function.update p axis 0) = m.points := by
        rw [List.map_congr_left (g := id), List.map_id]
        intro p hp
        rw [id, ← h p hp, Function.update_eq_self]
      rw [this]
    · rfl

omit [LinearOrder K] in
theorem project_eq {axis : Fin 3} {m m' : VDataset K} (hm : Movable axis m) (hm' : Movable axis m')
    (h : SameSeenAlong axis m m') : m.project axis = m'.project axis := by
  obtain ⟨h1, h2, h3, h4⟩ := h
  rw [project_points hm, project_points hm', h1, h2, h3]
  congr 1
  rw [← List.forall₂_eq_eq_eq, List.forall₂_map_left_iff, List.forall₂_map_right_iff] at h4
  rw [← List.forall₂_eq_eq_eq, List.forall₂_map_left_iff, List.forall₂_map_right_iff]
  exact h4.imp fun p q h => update_of_dropAxis h

/-- **C110 (partial).** Neither the position of the background mesh along the discarded axis nor that of the items
matters, if their points can be moved (structured and unstructured grids, polydata) or are at 0 already.
Missing: image data and rectilinear grids elsewhere, for which it is false (`C110_implicit_refuted`). -/
theorem C110_position_partial (kit : VoronoiKit K) (o : VOptions K) (contains : VDataset K → V3 K → Bool)
    (outlines : VDataset K → Option (List (List (List (K × K))))) {mesh mesh' : VDataset K}
    {items items' : List (VAdded K)} (fuse : List (V3 K → Bool))
    (h : SameSeenAlong o.axis mesh mesh') (hm : Movable o.axis mesh) (hm' : Movable o.axis mesh')
    (hi : List.Forall₂ (fun a b => SameSeenAlong o.axis a.mesh b.mesh ∧ Movable o.axis a.mesh ∧ Movable o.axis b.mesh ∧
      a.group = b.group ∧ a.priority = b.priority) items items') :
    voronoiFrom kit o contains outlines mesh items fuse = voronoiFrom kit o contains outlines mesh' items' fuse := by
  unfold voronoiFrom
  rw [project_eq hm hm' h]
  simp only
  congr 1
  rw [← List.forall₂_eq_eq_eq, List.forall₂_map_left_iff, List.forall₂_map_right_iff]
  refine hi.imp ?_
  rintro a b ⟨h1, h2, h3, h4, h5⟩
  rw [project_eq h2 h3 h1, h4, h5]

omit [LinearOrder K] in
/-- Every item, once projected, is at 0. -/
theorem project_zero {axis : Fin 3} {m : VDataset K} (h : Movable axis m) :
    ∀ p ∈ (m.project axis).points, p axis = 0 := by
  rw [project_points h]
  intro p hp
  obtain ⟨q, -, rfl⟩ := List.mem_map.1 hp
  simp

/-- A search that only finds points between the lowest and the highest points of the mesh. -/
def Spec.FindsWithin (axis : Fin 3) (contains : VDataset K → V3 K → Bool) : Prop :=
  ∀ m p, contains m p = true → (∃ q ∈ m.points, q axis ≤ p axis) ∧ ∃ q ∈ m.points, p axis ≤ q axis

/-- Centres of cells in a plane across the axis are in that plane. -/
def Spec.CentresInPlane (axis : Fin 3) (centre : List (V3 K) → V3 K) : Prop :=
  ∀ c pts, pts ≠ [] → (∀ p ∈ pts, p axis = c) → centre pts axis = c

/-- Every cell has a node, and the nodes of all cells are points. -/
def Spec.CellsInRange (m : VDataset K) : Prop := ∀ c ∈ m.cells, c ≠ [] ∧ ∀ i ∈ c, i < m.points.length

omit [LinearOrder K] in
theorem centers_plane {axis : Fin 3} {centre : List (V3 K) → V3 K} (hc : CentresInPlane axis centre) {m : VDataset K}
    (hm : CellsInRange m) {c : K} (h : ∀ p ∈ m.points, p axis = c) : ∀ p ∈ m.centers centre, p axis = c := by
  intro p hp
  unfold VDataset.centers cornersOf at hp
  rw [List.map_map] at hp
  obtain ⟨cell, hcell, rfl⟩ := List.mem_map.1 hp
  obtain ⟨h1, h2⟩ := hm cell hcell
  refine hc c _ ?_ ?_
  · obtain ⟨i, rest, rfl⟩ := List.exists_cons_of_ne_nil h1
    have hi := h2 i (by simp)
    simp [List.getElem?_eq_getElem hi]
  · intro q hq
    obtain ⟨i, -, hi⟩ := List.mem_filterMap.1 hq
    exact h q (List.mem_of_getElem? hi)

theorem not_found {axis : Fin 3} {contains : VDataset K → V3 K → Bool} (hf : FindsWithin axis contains)
    {m : VDataset K} {c d : K} (hm : ∀ q ∈ m.points, q axis = c) {p : V3 K} (hp : p axis = d) (hcd : c ≠ d) :
    contains m p = false := by
  rw [← Bool.not_eq_true]
  intro h
  obtain ⟨⟨q, hq, h1⟩, ⟨r, hr, h2⟩⟩ := hf m p h
  rw [hm q hq, hp] at h1
  rw [hm r hr, hp] at h2
  exact hcd (le_antisymm h1 h2)

omit [Field K] [LinearOrder K] in
theorem sourceLoop_take {P : Type*} {ignore : List String} {dflt : String} (n : ℕ) :
    ∀ (sources : List (VSource P)) (st r : List (VPoint P Int) × Dict String Int), n ≤ st.1.length →
    (∀ s ∈ sources, ∀ v ∈ st.1.take n, s.covers s.kept v.point = false) →
    sourceLoop ignore dflt sources st = .ok r → r.1.take n = st.1.take n ∧ n ≤ r.1.length := by
  intro sources
  induction sources with
  | nil =>
    intro st r hn _ h
    obtain rfl := Except.ok.inj h
    exact ⟨rfl, hn⟩
  | cons s rest ih =>
    intro st r hn hc h
    rw [sourceLoop] at h
    split at h
    · cases h
    · rename_i arr groups hg
      have e : (voronoiStep st.1 (s.item arr)).take n = st.1.take n := by
        unfold voronoiStep
        rw [List.take_append_of_le_length (by simpa using hn), ← List.map_take,
          List.map_congr_left (g := id), List.map_id]
        intro v hv
        have := hc s (by simp) v hv
        simp [VItem.disable, VSource.item, this]
      obtain ⟨h1, h2⟩ := ih _ r (by simp [voronoiStep]; omega) (by
        intro s' hs' v hv
        simp only [e] at hv
        exact hc s' (by simp [hs']) v hv) h
      exact ⟨by rw [h1, e], h2⟩

/-- The claim C110 is false for image data and rectilinear grids that are not at 0 along the axis: none of the points
of the items is dropped, wherever they are, and no point of the background mesh is replaced by an item, whatever the
priorities. -/
theorem C110_implicit_refuted (kit : VoronoiKit K) (o : VOptions K) (contains : VDataset K → V3 K → Bool)
    (mesh : VDataset K) (items : List (VAdded K)) (hk : mesh.kind = .image ∨ mesh.kind = .rectilinear) {c : K}
    (hc : c ≠ 0) (hmesh : ∀ p ∈ mesh.points, p o.axis = c) (hcells : CellsInRange mesh)
    (hitems : ∀ a ∈ items, Movable o.axis a.mesh ∧ CellsInRange a.mesh)
    (hf : FindsWithin o.axis contains) (hcentre : CentresInPlane o.axis kit.centre) :
    let bg := mesh.project o.axis
    let sources := items.map fun a => ({ a with mesh := a.mesh.project o.axis } : VAdded K).source kit.centre contains bg
    (∀ s ∈ sources, s.kept = List.range s.centers.length) ∧
    ∀ pts table start table', backgroundPoints o.ignore o.dflt o.cell (bg.background kit.centre) = .ok (start, table') →
      generatorPoints o.ignore o.dflt o.cell (bg.background kit.centre) sources = .ok (pts, table) →
      pts.take start.length = start ∧ ∀ v ∈ start, v.active = true := by
  intro bg sources
  have hbg : bg = mesh := by
    unfold bg VDataset.project
    rcases hk with h | h <;> rw [h] <;> rfl
  have hinside : ∀ a ∈ items, ∀ p ∈ (a.mesh.project o.axis).centers kit.centre, contains bg p = false := by
    intro a ha p hp
    obtain ⟨h1, h2⟩ := hitems a ha
    rw [hbg]
    refine not_found hf hmesh (centers_plane hcentre ?_ (project_zero h1) p hp) hc
    rw [project_points h1]
    intro cell hcell
    simpa using h2 cell hcell
  have hany : ∀ a ∈ items, (((a.mesh.project o.axis).centers kit.centre).map (contains bg)).any id = false := by
    intro a ha
    rw [List.any_map, List.any_eq_false]
    intro p hp
    simp [hinside a ha p hp]
  refine ⟨?_, ?_⟩
  · intro s hs
    obtain ⟨a, ha, rfl⟩ := List.mem_map.1 hs
    unfold VSource.kept VAdded.source
    simp only
    rw [hany a ha]
    rfl
  · intro pts table start table' hstart h
    have hpt : ∀ v ∈ start, v.point o.axis = c ∧ v.active = true := by
      have hcent : ∀ p ∈ bg.centers kit.centre, p o.axis = c := by
        rw [hbg]
        exact centers_plane hcentre hcells hmesh
      unfold backgroundPoints at hstart
      split at hstart
      · split at hstart
        · cases hstart
        · rw [Except.ok.injEq, Prod.mk.injEq] at hstart
          obtain ⟨rfl, -⟩ := hstart
          intro v hv
          obtain ⟨b, hb, rfl⟩ := List.mem_map.1 hv
          exact ⟨hcent _ (List.of_mem_zip hb).1, rfl⟩
      · rw [Except.ok.injEq, Prod.mk.injEq] at hstart
        obtain ⟨rfl, -⟩ := hstart
        intro v hv
        obtain ⟨b, hb, rfl⟩ := List.mem_map.1 hv
        refine ⟨hmesh _ ?_, rfl⟩
        rw [← hbg]
        exact (List.of_mem_zip hb).1
    refine ⟨?_, fun v hv => (hpt v hv).2⟩
    unfold generatorPoints at h
    rw [hstart] at h
    have := (sourceLoop_take start.length _ _ _ (le_refl _) ?_ h).1
    · simpa using this
    · intro s hs v hv
      have hs : s ∈ sources := (List.perm_insertionSort _ _).mem_iff.1 hs
      obtain ⟨a, ha, rfl⟩ := List.mem_map.1 hs
      have hv := hpt v (by simpa using hv)
      unfold VAdded.source
      simp only
      rw [hany a ha]
      simp only [Bool.false_eq_true, if_false]
      split
      · rfl
      · exact not_found hf (project_zero (hitems a ha).1) hv.1 (Ne.symm hc)

end projection

/-! ### A concrete case -/

/-- A point is in a cell if it is in its bounding box. -/
def inBoxes (m : VDataset ℚ) (p : V3 ℚ) : Bool :=
  (cornersOf m.points m.cells).any fun cs => (List.finRange 3).all fun k =>
    (cs.any fun q => decide (q k ≤ p k)) && cs.any fun q => decide (p k ≤ q k)

theorem inBoxes_within (axis : Fin 3) : FindsWithin axis inBoxes := by
  intro m p h
  unfold inBoxes at h
  obtain ⟨cs, hcs, h⟩ := List.any_eq_true.1 h
  have h := List.all_eq_true.1 h axis (List.mem_finRange axis)
  rw [Bool.and_eq_true] at h
  obtain ⟨h1, h2⟩ := h
  obtain ⟨q, hq, h1⟩ := List.any_eq_true.1 h1
  obtain ⟨r, hr, h2⟩ := List.any_eq_true.1 h2
  have hsub : ∀ q ∈ cs, q ∈ m.points := by
    intro q hq
    obtain ⟨c, -, rfl⟩ := List.mem_map.1 hcs
    obtain ⟨i, -, hi⟩ := List.mem_filterMap.1 hq
    exact List.mem_of_getElem? hi
  exact ⟨⟨q, hsub q hq, of_decide_eq_true h1⟩, ⟨r, hsub r hr, of_decide_eq_true h2⟩⟩

theorem centre_inPlane (axis : Fin 3) : CentresInPlane axis crossKit.centre := by
  intro c pts hne h
  have hsum : (pts.map fun p => p axis).sum = pts.length * c := by
    rw [List.map_congr_left h]
    simp
  have hl : (pts.length : ℚ) ≠ 0 := by
    have := List.length_pos_iff.2 hne
    positivity
  change (pts.map fun p => p axis).sum / pts.length = c
  rw [hsum]
  field_simp

/-- Two by two cells of side 1 at height `z`. -/
def tiles (kind : GridKind) (z : ℚ) : VDataset ℚ :=
  ⟨kind, [0, 1, 2].flatMap fun y => [![0, y, z], ![1, y, z], ![2, y, z]],
    [[0, 1, 4, 3], [1, 2, 5, 4], [3, 4, 7, 6], [4, 5, 8, 7]], ⟨4, none, none⟩⟩

/-- Two cells, the first one within the tiles, the second one far away. -/
def farItem (z : ℚ) : VAdded ℚ :=
  ⟨⟨.unstructured, [![1, 1, z], ![2, 1, z], ![2, 2, z], ![1, 2, z], ![7, 7, z], ![8, 7, z], ![8, 8, z], ![7, 8, z]],
    [[0, 1, 2, 3], [4, 5, 6, 7]], ⟨2, none, none⟩⟩, .str "well", 1⟩

/-- The points of the diagram. -/
def sitesOf (mesh : VDataset ℚ) (item : VAdded ℚ) : Option (List (ℚ × ℚ)) :=
  let o := plainOptions false
  let bg := mesh.project o.axis
  let sources := [({ item with mesh := item.mesh.project o.axis } : VAdded ℚ).source crossKit.centre inBoxes bg]
  match generatorPoints o.ignore o.dflt o.cell (bg.background crossKit.centre) sources with
  | .error _ => none
  | .ok (pts, _) => some ((pts.filter (·.active)).map fun v => dropAxis 2 v.point)

/-- Structured grids give the same points at any height, image data only at 0: at height 5 the point of the item far
away is used, and the upper right tile is not replaced (the same point is there twice). -/
example :
    sitesOf (tiles .structured 0) (farItem 3) = some [(1/2, 1/2), (3/2, 1/2), (1/2, 3/2), (3/2, 3/2)] ∧
    sitesOf (tiles .structured 5) (farItem 4) = some [(1/2, 1/2), (3/2, 1/2), (1/2, 3/2), (3/2, 3/2)] ∧
    sitesOf (tiles .image 0) (farItem 4) = some [(1/2, 1/2), (3/2, 1/2), (1/2, 3/2), (3/2, 3/2)] ∧
    sitesOf (tiles .image 5) (farItem 4) =
      some [(1/2, 1/2), (3/2, 1/2), (1/2, 3/2), (3/2, 3/2), (3/2, 3/2), (15/2, 15/2)] := by
  decide +kernel

/-- The hypotheses of C110 hold for these meshes. -/
example : SameSeenAlong 2 (tiles .structured 0) (tiles .structured 5) ∧ Movable 2 (tiles .structured 5) ∧
    Movable 2 (tiles .image 0) ∧ (∀ p ∈ (tiles .image 5).points, p 2 = 5) ∧ CellsInRange (tiles .image 5) ∧
    Movable 2 (farItem 4).mesh ∧ CellsInRange (farItem 4).mesh := by
  refine ⟨⟨rfl, rfl, rfl, by decide +kernel⟩, Or.inl rfl, Or.inr (Or.inr (Or.inr (by decide +kernel))),
    by decide +kernel, by unfold CellsInRange; decide +kernel, Or.inr (Or.inl rfl),
    by unfold CellsInRange; decide +kernel⟩

/-! ## C111 -/

section arguments
variable {K : Type*} [Field K] [LinearOrder K]

omit [LinearOrder K] in
theorem coords_after {axis : Fin 3} {b : Bool} {pts : PointArray K} {after : VoronoiArg K} {mesh : VDataset K}
    (h : addToVoronoi axis (.coords b pts) = .ok (mesh, after)) :
    after = .coords b (if b && passesThrough pts then zeroColumn axis pts else pts) := by
  rw [addToVoronoi] at h
  split at h
  · cases h
  · rw [Except.ok.injEq, Prod.mk.injEq] at h
    exact h.2.symm

/-- **C111 (partial).** `add` leaves a dataset as it was; also lists, arrays of other types, and arrays with two
components per point; also arrays whose coordinates along the axis are 0.
Missing: the other arrays of floats, which are modified (`C111_array_refuted`). -/
theorem C111_unchanged_partial (axis : Fin 3) (arg after : VoronoiArg K) (mesh : VDataset K)
    (h : addToVoronoi axis arg = .ok (mesh, after))
    (hsafe : (∃ m, arg = .dataset m) ∨ (∃ pts, arg = .coords false pts) ∨ (∃ b v, arg = .coords b (.d1 v) ∧ v.length = 2) ∨
      (∃ b rows, arg = .coords b (.d2 2 rows)) ∨
      (∃ b rows, arg = .coords b (.d2 3 rows) ∧ ∀ r ∈ rows, r[axis.val]? = some 0) ∨
      ∃ b v, arg = .coords b (.d1 v) ∧ v[axis.val]? = some 0) : after = arg := by
  have zero : ∀ r : List K, r[axis.val]? = some 0 → zeroEntry axis r = r := by
    intro r hr
    unfold zeroEntry
    obtain ⟨h1, h2⟩ := List.getElem?_eq_some_iff.1 hr
    conv_lhs => rw [← h2]
    exact List.set_getElem_self h1
  rcases hsafe with ⟨m, rfl⟩ | ⟨pts, rfl⟩ | ⟨b, v, rfl, hv⟩ | ⟨b, rows, rfl⟩ | ⟨b, rows, rfl, hr⟩ | ⟨b, v, rfl, hv⟩
  · rw [addToVoronoi, Except.ok.injEq, Prod.mk.injEq] at h
    exact h.2.symm
  all_goals rw [coords_after h]
  · simp
  · simp [passesThrough, hv]
  · simp [passesThrough]
  · split
    · rw [zeroColumn, List.map_congr_left (g := id) (fun r h => zero r (hr r h)), List.map_id]
    · rfl
  · split
    · rw [zeroColumn, zero v hv]
    · rfl

/-- The claim C111 is false for arrays of floats with three components per point: `add` sets their coordinates along the
axis to 0. -/
theorem C111_array_refuted (axis : Fin 3) (rows : List (List K)) (hrows : ∀ r ∈ rows, r.length = 3)
    (h : ∃ r ∈ rows, r[axis.val]? ≠ some 0) :
    ∃ mesh rows', addToVoronoi axis (.coords true (.d2 3 rows)) = .ok (mesh, .coords true (.d2 3 rows')) ∧
      (∀ r ∈ rows', r[axis.val]? = some 0) ∧ rows' ≠ rows := by
  refine ⟨_, _, rfl, ?_, ?_⟩
  · intro r hr
    obtain ⟨r0, h0, rfl⟩ := List.mem_map.1 hr
    have := hrows r0 h0
    have hax := axis.isLt
    simp [zeroEntry, List.getElem?_set_self (show axis.val < r0.length by omega)]
  · intro he
    obtain ⟨r, hr, hne⟩ := h
    rw [← he] at hr
    obtain ⟨r0, h0, rfl⟩ := List.mem_map.1 hr
    apply hne
    have := hrows r0 h0
    have hax := axis.isLt
    simp [zeroEntry, List.getElem?_set_self (show axis.val < r0.length by omega)]

/-- **C111**, the item: its points are those of the argument, at 0 along the axis; rows of two components are put in the
plane, rows of three lose the component along the axis. -/
theorem C111_points (axis : Fin 3) (b : Bool) :
    (∀ rows : List (K × K), ∃ mesh after, addToVoronoi axis (.coords b (.d2 2 (rows.map fun r => [r.1, r.2]))) =
      .ok (mesh, after) ∧ mesh.points = rows.map (insertAxis axis)) ∧
    (∀ rows : List (V3 K), ∃ mesh after, addToVoronoi axis (.coords b (.d2 3 (rows.map fun p => [p 0, p 1, p 2]))) =
      .ok (mesh, after) ∧ mesh.points = rows.map fun p => insertAxis axis (dropAxis axis p)) ∧
    ∀ m : VDataset K, Movable axis m → ∃ mesh after, addToVoronoi axis (.dataset m) = .ok (mesh, after) ∧
      mesh.points = m.points.map fun p => insertAxis axis (dropAxis axis p) := by
  have key : ∀ p : V3 K, Function.update p axis 0 = insertAxis axis (dropAxis axis p) := by
    intro p
    unfold insertAxis dropAxis
    funext k
    fin_cases axis <;> fin_cases k <;> simp
  refine ⟨fun rows => ⟨_, _, rfl, ?_⟩, fun rows => ⟨_, _, rfl, ?_⟩, fun m hm => ⟨_, _, rfl, ?_⟩⟩
  · simp only [VDataset.project, GridKind.implicit, arrayPoints, if_true, List.map_map, Bool.false_eq_true, if_false]
    apply List.map_congr_left
    intro r _
    funext k
    unfold insertAxis insertZero
    fin_cases axis <;> fin_cases k <;> simp [List.insertIdx]
  · simp only [VDataset.project, GridKind.implicit, arrayPoints, List.map_map, Bool.false_eq_true, if_false,
      show ¬ (3 : ℕ) = 2 by decide]
    apply List.map_congr_left
    intro p _
    simp only [Function.comp]
    rw [← key]
    congr 1
    funext k
    fin_cases k <;> rfl
  · rw [project_points hm]
    exact List.map_congr_left fun p _ => key p

/-- A well at height 5: its coordinates become 0. -/
example : ∃ mesh : VDataset ℚ, addToVoronoi 2 (.coords true (.d2 3 [[1, 2, 5], [3, 4, 5]])) =
    .ok (mesh, .coords true (.d2 3 [[1, 2, 0], [3, 4, 0]])) := ⟨_, rfl⟩

example : ∃ mesh : VDataset ℚ, addToVoronoi 2 (.coords false (.d2 3 [[1, 2, 5], [3, 4, 5]])) =
    .ok (mesh, .coords false (.d2 3 [[1, 2, 5], [3, 4, 5]])) := ⟨_, rfl⟩

end arguments

/-! ## C112 -/

section polylines
variable {δ : Type _} [OfNat δ 0] [OfNat δ 32]

theorem addPolyline_padding (area : Arr3 (V3 ℝ) → List ℝ) (axis : Fin 3) (points : List (ℝ × ℝ)) (width : ℝ) (cell : Bool)
    (padding : Option ℝ) (start stop : ℕ) (res : Resolution ℝ) :
    addPolyline (δ := δ) area axis points width cell (if cell then some (padding.getD (1 / 2 * width)) else padding)
      start stop res = addPolyline area axis points width cell padding start stop res := by
  cases cell with
  | false => rfl
  | true =>
    have : stations points width true (some (padding.getD (1 / 2 * width))) = stations points width true padding := by
      unfold stations
      simp
    simp only [addPolyline, bandStations, if_true, this]

theorem bandLoop_padding (area : Arr3 (V3 ℝ) → List ℝ) (axis : Fin 3) (width : ℝ) (cell : Bool) (start stop : ℕ)
    (res : Resolution ℝ) (priority : Option ℤ) (group : Option String) (padding : Option ℝ) (lines : List (List (V3 ℝ))) :
    bandLoop (δ := δ) area axis width cell start stop res priority group
      (if cell then some (padding.getD (1 / 2 * width)) else padding) lines =
    bandLoop area axis width cell start stop res priority group padding lines := by
  induction lines with
  | nil => rfl
  | cons l rest ih =>
    rw [bandLoop, bandLoop, addPolyline_padding]
    have : (if cell then some ((if cell then some (padding.getD (1 / 2 * width)) else padding).getD (1 / 2 * width))
        else if cell then some (padding.getD (1 / 2 * width)) else padding) =
        if cell then some (padding.getD (1 / 2 * width)) else padding := by
      cases cell <;> simp
    rw [this]

/-- **C112.** One polyline gives two items: the band without its constraint cells, with the given group and priority (0
if none), and the constraint cells, without group, of priority 0; see C72, C91 and C92 for the band. -/
theorem C112_one (area : Arr3 (V3 ℝ) → List ℝ) (axis : Fin 3) (line : List (V3 ℝ)) (width : ℝ) (cell : Bool)
    (padding : Option ℝ) (start stop : ℕ) (res : Resolution ℝ) (priority : Option ℤ) (group : Option String)
    (items : List (BandItem δ)) :
    addPolylines area axis [line] width cell padding start stop res priority group = .ok items ↔
      ∃ band kept constraint, addPolyline area axis (line.map (dropAxis axis)) width cell padding start stop res =
        .ok (band, kept, constraint) ∧
      items = [⟨band, kept, group, priority.getD 0⟩, ⟨band, constraint, none, 0⟩] := by
  unfold addPolylines
  simp only [bandLoop]
  cases h : addPolyline (δ := δ) area axis (line.map (dropAxis axis)) width cell padding start stop res with
  | error e => simp
  | ok r =>
    obtain ⟨band, kept, constraint⟩ := r
    simp [eq_comm]

/-- **C112.** Polylines added together give the items of the polylines added one after the other: the default padding is
the same for all of them. -/
theorem C112_several (area : Arr3 (V3 ℝ) → List ℝ) (axis : Fin 3) (lines lines' : List (List (V3 ℝ))) (width : ℝ)
    (cell : Bool) (padding : Option ℝ) (start stop : ℕ) (res : Resolution ℝ) (priority : Option ℤ)
    (group : Option String) (items : List (BandItem δ)) :
    addPolylines area axis (lines ++ lines') width cell padding start stop res priority group = .ok items ↔
      ∃ a b, addPolylines area axis lines width cell padding start stop res priority group = .ok a ∧
        addPolylines area axis lines' width cell padding start stop res priority group = .ok b ∧ items = a ++ b := by
  unfold addPolylines
  induction lines generalizing items with
  | nil => simp [bandLoop]
  | cons l rest ih =>
    rw [List.cons_append, bandLoop, bandLoop]
    cases h : addPolyline (δ := δ) area axis (l.map (dropAxis axis)) width cell padding start stop res with
    | error e => simp
    | ok r =>
      obtain ⟨band, kept, constraint⟩ := r
      simp only
      rw [bandLoop_padding, bandLoop_padding]
      cases h1 : bandLoop (δ := δ) area axis width cell start stop res priority group padding (rest ++ lines') with
      | error e =>
        constructor
        · intro h; cases h
        · rintro ⟨a, b, ha, hb, -⟩
          cases h2 : bandLoop (δ := δ) area axis width cell start stop res priority group padding rest with
          | error e => rw [h2] at ha; cases ha
          | ok a' =>
            have := (ih (a' ++ b)).2 ⟨a', b, h2, hb, rfl⟩
            rw [h1] at this
            cases this
      | ok items' =>
        obtain ⟨a', b', ha', hb', e⟩ := (ih items').1 h1
        rw [ha']
        simp only [Except.ok.injEq]
        constructor
        · rintro rfl
          exact ⟨_, b', rfl, hb', by rw [e]; rfl⟩
        · rintro ⟨a, b, rfl, hb, rfl⟩
          rw [hb'] at hb
          obtain rfl := Except.ok.inj hb
          rw [e]
          rfl

/-- Two polylines, one of them with a bend, give four items. -/
example (area : Arr3 (V3 ℝ) → List ℝ) : ∃ items : List (BandItem δ),
    addPolylines area 2 [[![0, 0, 3], ![1, 0, 3]], [![5, 5, 0], ![6, 5, 0], ![6, 6, 1]]] 2 true none 1 1 (.int 1) none
      (some "fault") = .ok items ∧ items.map (·.group) = [some "fault", none, some "fault", none] := by
  obtain ⟨M, i, h⟩ := C91_exists (δ := δ) area 2 (points := [![(0 : ℝ), 0, 3], ![1, 0, 3]].map (dropAxis 2)) (by simp) 2
    true none 1 1 1
  obtain ⟨M', i', h'⟩ := C91_exists (δ := δ) area 2 (points := [![(5 : ℝ), 5, 0], ![6, 5, 0], ![6, 6, 1]].map (dropAxis 2))
    (by simp) 2 true none 1 1 1
  have e := (C112_one area 2 _ 2 true none 1 1 (.int 1) none (some "fault") _).2 ⟨M, i.1, i.2, h, rfl⟩
  have e' := (C112_one area 2 _ 2 true none 1 1 (.int 1) none (some "fault") _).2 ⟨M', i'.1, i'.2, h', rfl⟩
  exact ⟨_, (C112_several area 2 [_] [_] 2 true none 1 1 (.int 1) none (some "fault") _).2 ⟨_, _, e, e', rfl⟩, rfl⟩

end polylines

/-- **C02**, the default group: the name that was given, or "default" if it is missing or empty; so it is never empty. -/
theorem C02_default_name {ι : Type*} (name : Option String) (ignore : Option (List String)) (items : Option (List ι)) :
    (newMeshBase name ignore items).1 ≠ "" ∧
    (∀ s, s ≠ "" → (newMeshBase (some s) ignore items).1 = s) ∧
    ((name = none ∨ name = some "") → (newMeshBase name ignore items).1 = "default") := by
  refine ⟨?_, ?_, ?_⟩
  · unfold newMeshBase
    cases name with
    | none => simp
    | some s => by_cases h : s = "" <;> simp [Option.filter, h]
  · intro s hs
    simp [newMeshBase, Option.filter, hs]
  · rintro (rfl | rfl) <;> simp [newMeshBase, Option.filter]

end Gridder
