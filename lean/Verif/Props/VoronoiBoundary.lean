import Verif.Props.VoronoiMesh
import Verif.Props.Rings

/-!
# C106-C109: Voronoi cells and the boundary of the background mesh
-/

namespace Gridder
open Spec

theorem dropAxis_insertAxis {K : Type*} [Field K] (axis : Fin 3) (p : K × K) : dropAxis axis (insertAxis axis p) = p := by
  unfold dropAxis insertAxis
  fin_cases axis <;> simp

section rings
variable {K : Type*} [Field K] [LinearOrder K]

omit [LinearOrder K] in
/-- **C106**: if the part of the region inside the boundary is one ring, the corners of the cell are the points of that
ring, each once, in the same cyclic order or in reverse. -/
theorem C106_one_ring_partial (kit : VoronoiKit K) (axis : Fin 3) (boundary : List (List (K × K)))
    (polygon r : List (K × K)) (a : K × K) (hclip : kit.clip boundary polygon = [a :: r ++ [a]])
    (hr : (a :: r).Nodup) (ring : List (V3 K)) (h : CellRing kit axis boundary polygon ring) :
    ring.Nodup ∧ (ring = (a :: r).map (insertAxis axis) ∨ ring = (a :: r).reverse.map (insertAxis axis)) := by
  have he : (kit.clip boundary polygon).flatten.dropLast = a :: r := by
    rw [hclip, List.flatten_singleton, List.dropLast_concat]
  have hinj : Function.Injective (insertAxis (K := K) axis) := by
    intro p q h
    have := congrArg (dropAxis axis) h
    rwa [dropAxis_insertAxis, dropAxis_insertAxis] at this
  unfold CellRing at h
  rw [he] at h
  refine ⟨?_, h⟩
  rcases h with rfl | rfl
  · exact hr.map hinj
  · exact (List.nodup_reverse.2 hr).map hinj

/-- The claim C106 is false if the part of the region inside the boundary has several rings (the region contains a
hole, or the boundary cuts it in several pieces): the cell goes through all of them one after the other, twice through
the first point of the first ring. -/
theorem C106_rings_refuted (kit : VoronoiKit K) (axis : Fin 3) (boundary : List (List (K × K)))
    (polygon r r' : List (K × K)) (a : K × K) (rest : List (List (K × K)))
    (hclip : kit.clip boundary polygon = (a :: r ++ [a]) :: r' :: rest) (hr' : r' ≠ []) (ring : List (V3 K))
    (h : CellRing kit axis boundary polygon ring) : 2 ≤ ring.count (insertAxis axis a) ∧ ¬ ring.Nodup := by
  classical
  have hpre : (a :: r ++ [a]) <+: (kit.clip boundary polygon).flatten.dropLast := by
    rw [hclip, List.flatten_cons, List.dropLast_append_of_ne_nil (by simp [hr'])]
    exact List.prefix_append _ _
  have hc : 2 ≤ ((kit.clip boundary polygon).flatten.dropLast.map (insertAxis axis)).count (insertAxis axis a) := by
    refine le_trans ?_ ((hpre.sublist.map (insertAxis axis)).count_le _)
    simp
  have hcount : 2 ≤ ring.count (insertAxis axis a) := by
    unfold CellRing at h
    rcases h with rfl | rfl
    · exact hc
    · rwa [List.map_reverse, List.count_reverse]
  refine ⟨hcount, fun hn => ?_⟩
  have := List.nodup_iff_count_le_one.1 hn (insertAxis axis a)
  omega

end rings

section outlines
variable {K : Type*} [Field K] [LinearOrder K]

omit [LinearOrder K] in
/-- **C107**, what does hold: every corner of every cell is, up to the final clean-up, a point that shapely gives for
the intersection of a region with the first outline. -/
theorem C107_first_partial (kit : VoronoiKit K) (axis : Fin 3) (boundary : List (List (K × K)))
    (Within : List (List (K × K)) → K × K → Prop)
    (hclip : ∀ polygon, ∀ r ∈ kit.clip boundary polygon, ∀ p ∈ r, Within boundary p) (polygon : List (K × K))
    (ring : List (V3 K)) (h : CellRing kit axis boundary polygon ring) :
    ∀ p ∈ ring, Within boundary (dropAxis axis p) := by
  have key : ∀ p ∈ (kit.clip boundary polygon).flatten.dropLast, Within boundary p := by
    intro p hp
    obtain ⟨r, hr, hp⟩ := List.mem_flatten.1 ((List.dropLast_sublist _).subset hp)
    exact hclip polygon r hr p hp
  intro p hp
  unfold CellRing at h
  rcases h with rfl | rfl <;> obtain ⟨q, hq, rfl⟩ := List.mem_map.1 hp <;> rw [dropAxis_insertAxis]
  · exact key q hq
  · exact key q (List.mem_reverse.1 hq)

/-- The claim C107 is false: whatever the other outlines of the background mesh are, the generated mesh is the same. -/
theorem C107_other_parts_refuted (kit : VoronoiKit K) (o : VOptions K) (bg : VBackground (V3 K))
    (boundary : List (List (K × K))) (others others' : List (List (List (K × K)))) (sources : List (VSource (V3 K)))
    (fuse : List (V3 K → Bool)) :
    voronoiMesh kit o bg (some (boundary :: others)) sources fuse =
      voronoiMesh kit o bg (some (boundary :: others')) sources fuse := rfl

end outlines

section holes
variable {K : Type*} [Field K] [LinearOrder K] [IsStrictOrderedRing K]

omit [LinearOrder K] [IsStrictOrderedRing K] in
theorem sum_differences (c : K) (f : V3 K → K) (l l' : List (V3 K)) (h : l.length = l'.length) :
    (List.zipWith (fun p q => c * (f q - f p)) l l').sum = c * ((l'.map f).sum - (l.map f).sum) := by
  induction l generalizing l' with
  | nil =>
    cases l' with
    | nil => simp
    | cons _ _ => simp at h
  | cons p l ih =>
    cases l' with
    | nil => simp at h
    | cons q l' =>
      simp only [List.zipWith_cons_cons, List.sum_cons, List.map_cons]
      rw [ih l' (by simpa using h)]
      ring

/-- In a vertical plane, areas are zero for shapely. -/
theorem shapelyArea_vertical (n : K × K) (hn : n ≠ 0) (d : K) (ring : List (V3 K))
    (h : ∀ p ∈ ring, n.1 * p 0 + n.2 * p 1 = d) : shapelyArea ring = 0 := by
  have hN : n.1 * n.1 + n.2 * n.2 ≠ 0 := by
    intro h0
    apply hn
    have h1 : n.1 * n.1 = 0 := le_antisymm (by nlinarith [mul_self_nonneg n.2]) (mul_self_nonneg _)
    have h2 : n.2 * n.2 = 0 := by rw [h1, zero_add] at h0; exact h0
    exact Prod.ext (mul_self_eq_zero.1 h1) (mul_self_eq_zero.1 h2)
  have key : List.zipWith (fun p q : V3 K => p 0 * q 1 - q 0 * p 1) ring (ring.rotate 1) =
      List.zipWith (fun p q : V3 K => d / (n.1 * n.1 + n.2 * n.2) *
        ((n.1 * q 1 - n.2 * q 0) - (n.1 * p 1 - n.2 * p 0))) ring (ring.rotate 1) := by
    apply List.ext_getElem (by simp)
    intro i h1 h2
    simp only [List.getElem_zipWith]
    have hp := h _ (List.getElem_mem (l := ring) (n := i) (by simp at h1; omega))
    have hq := h _ (List.mem_rotate.1 (List.getElem_mem (l := ring.rotate 1) (n := i) (by simp at h1; simp; omega)))
    generalize ring[i]'(by simp at h1; omega) = p at hp ⊢
    generalize (ring.rotate 1)[i]'(by simp at h1; simp; omega) = q at hq ⊢
    rw [div_mul_eq_mul_div, eq_div_iff hN]
    linear_combination (n.1 * q 1 - n.2 * q 0) * hp - (n.1 * p 1 - n.2 * p 0) * hq
  unfold shapelyArea
  rw [key, sum_differences _ (fun q : V3 K => n.1 * q 1 - n.2 * q 0) _ _ (by simp),
    ((ring.rotate_perm 1).map _).sum_eq, sub_self, mul_zero, abs_zero, zero_div]

/-- The claim C108 is false: in a vertical plane (such as those of the axes 0 and 1), no ring is found to be a hole of
another one, whatever they are: each is returned as a polygon without holes. -/
theorem C108_vertical_refuted (contains : List (V3 K) → List (V3 K) → Bool) (rings : List (List (V3 K))) (n : K × K)
    (hn : n ≠ 0) (d : K) (h : ∀ r ∈ rings, ∀ p ∈ r, n.1 * p 0 + n.2 * p 1 = d) :
    boundaryGroups contains rings = (List.range rings.length).map fun i => [i] := by
  have hw : (fun i j => decide (shapelyArea (rings.getD j []) < shapelyArea (rings.getD i [])) &&
      contains (rings.getD i []) (rings.getD j [])) = fun _ _ => false := by
    funext i j
    have : ∀ k, shapelyArea (rings.getD k []) = 0 := by
      intro k
      rw [List.getD_eq_getElem?_getD]
      cases hk : rings[k]? with
      | none => simp [shapelyArea]
      | some r => exact shapelyArea_vertical n hn d r (h r (List.mem_of_getElem? hk))
    rw [this, this]
    simp
  unfold boundaryGroups
  rw [hw, ringGroups_eq]
  have hno : findHoles (fun _ _ => false) rings.length = [] := by
    unfold findHoles
    generalize orderedPairs rings.length = ps
    induction ps with
    | nil => rfl
    | cons p ps ih =>
      rw [List.foldl_cons]
      simpa [holeStep, Dict.get?] using ih
  rw [hno]
  simp [Dict.get?]

omit [IsStrictOrderedRing K] in
/-- **C108** in the plane of axis 2, `contains` being the inclusion of the surfaces bounded by the rings: if no ring is
inside a hole (see C51) and no two rings cross, then each ring comes with the rings inside it that bound a smaller
area. -/
theorem C108_horizontal_partial (contains : List (V3 K) → List (V3 K) → Bool) (rings : List (List (V3 K)))
    (Inside : ℕ → ℕ → Prop)
    (hin : ∀ i j r r', rings[i]? = some r → rings[j]? = some r' → (Inside i j ↔
      |(List.zipWith (fun p q => cross2 (dropAxis 2 p) (dropAxis 2 q)) r' (r'.rotate 1)).sum| / 2 <
        |(List.zipWith (fun p q => cross2 (dropAxis 2 p) (dropAxis 2 q)) r (r.rotate 1)).sum| / 2 ∧
      contains r r' = true))
    (hislands : ∀ i j k, i < rings.length → j < rings.length → k < rings.length → ¬ (Inside i j ∧ Inside j k))
    (hcross : ∀ i i' j, i < rings.length → i' < rings.length → j < rings.length → Inside i j → Inside i' j →
      i = i' ∨ Inside i i' ∨ Inside i' i) :
    (∀ g ∈ boundaryGroups contains rings, ∃ i js, g = i :: js ∧ i < rings.length ∧
      (∀ k < rings.length, ¬ Inside k i) ∧ ∀ j, j ∈ js ↔ j < rings.length ∧ Inside i j) ∧
    ∀ i < rings.length, (∀ k < rings.length, ¬ Inside k i) → ∃ js, i :: js ∈ boundaryGroups contains rings := by
  have harea : ∀ r : List (V3 K), shapelyArea r =
      |(List.zipWith (fun p q => cross2 (dropAxis 2 p) (dropAxis 2 q)) r (r.rotate 1)).sum| / 2 := by
    intro r
    unfold shapelyArea cross2 dropAxis
    simp
  have hw : ∀ i j, i < rings.length → j < rings.length →
      ((decide (shapelyArea (rings.getD j []) < shapelyArea (rings.getD i [])) &&
        contains (rings.getD i []) (rings.getD j [])) = true ↔ Inside i j) := by
    intro i j hi hj
    rw [hin i j _ _ (List.getElem?_eq_getElem hi) (List.getElem?_eq_getElem hj), Bool.and_eq_true,
      decide_eq_true_eq, harea, harea, List.getD_eq_getElem _ _ hi, List.getD_eq_getElem _ _ hj]
  obtain ⟨h1, h2⟩ := C51_shells_partial (fun i j =>
      decide (shapelyArea (rings.getD j []) < shapelyArea (rings.getD i [])) &&
        contains (rings.getD i []) (rings.getD j [])) rings.length
    (by
      intro i j k hi hj hk
      rw [hw i j hi hj, hw j k hj hk]
      exact hislands i j k hi hj hk)
    (by
      intro i i' j hi hi' hj h h'
      rw [hw i j hi hj] at h
      rw [hw i' j hi' hj] at h'
      rw [hw i i' hi hi', hw i' i hi' hi]
      exact hcross i i' j hi hi' hj h h')
  have hfalse : ∀ i, i < rings.length → ((∀ k < rings.length,
      (decide (shapelyArea (rings.getD i []) < shapelyArea (rings.getD k [])) &&
        contains (rings.getD k []) (rings.getD i [])) = false) ↔ ∀ k < rings.length, ¬ Inside k i) := by
    intro i hi
    constructor
    · intro h k hk
      rw [← hw k i hk hi, h k hk]
      simp
    · intro h k hk
      rw [← Bool.not_eq_true, hw k i hk hi]
      exact h k hk
  constructor
  · intro g hg
    obtain ⟨i, js, e1, e2, e3, e4⟩ := h1 g hg
    refine ⟨i, js, e1, e2, (hfalse i e2).1 e3, ?_⟩
    intro j
    rw [e4]
    constructor
    · rintro ⟨a, b⟩; exact ⟨a, (hw i j e2 a).1 b⟩
    · rintro ⟨a, b⟩; exact ⟨a, (hw i j e2 a).2 b⟩
  · intro i hi hk
    exact h2 i hi ((hfalse i hi).2 hk)

end holes

/-- A square with a square hole, the hole first: its rings are grouped in the plane z = 0, not in the plane x = 0. -/
example :
    let square : ℚ → List (ℚ × ℚ) := fun a => [(-a, -a), (a, -a), (a, a), (-a, a)]
    let rings : Fin 3 → List (List (V3 ℚ)) := fun axis => [1, 2].map fun a => (square a).map (insertAxis axis)
    let contains : List (V3 ℚ) → List (V3 ℚ) → Bool := fun r r' => r'.all fun p => r.any fun q =>
      decide (|p 0| ≤ |q 0|) && decide (|p 1| ≤ |q 1|) && decide (|p 2| ≤ |q 2|)
    boundaryGroups contains (rings 2) = [[1, 0]] ∧ boundaryGroups contains (rings 0) = [[0], [1]] ∧
    ∀ r ∈ rings 0, ∀ p ∈ r, ((1, 0) : ℚ × ℚ).1 * p 0 + ((1, 0) : ℚ × ℚ).2 * p 1 = 0 := by
  decide +kernel

/-! ## Errors -/

section errors
variable {K : Type*} [Field K] [LinearOrder K]

theorem mapPy_error {α β : Type*} {f : α → Py β} {e : Err} {l : List α}
    (h : ∀ a ∈ l, f a = .error e ∨ ∃ b, f a = .ok b) (hex : ∃ a ∈ l, f a = .error e) : mapPy f l = .error e := by
  induction l with
  | nil => simp at hex
  | cons a l ih =>
    rw [mapPy]
    rcases h a (by simp) with ha | ⟨b, hb⟩
    · rw [ha]
    · rw [hb]
      obtain ⟨a', ha', he⟩ := hex
      rcases List.mem_cons.1 ha' with rfl | ha'
      · rw [hb] at he; cases he
      · rw [ih (fun x hx => h x (by simp [hx])) ⟨a', ha', he⟩]

/-- **C105**, errors: without averaging, an invalid region raises `ValueError`, and so does a background mesh without
boundary. -/
theorem C105_invalid (kit : VoronoiKit K) (o : VOptions K) (bg : VBackground (V3 K)) (sources : List (VSource (V3 K)))
    (outlines : Option (List (List (List (K × K))))) (fuse : List (V3 K → Bool))
    (hbg : Labelled bg.centers bg.labels) (hs : ∀ s ∈ sources, Labelled s.centers s.labels ∧ PlainGroup s.group)
    (havg : o.average = false) :
    let used := (namedPoints o.ignore o.dflt o.cell bg sources).filter (·.active)
    let points := used.map fun v => dropAxis o.axis v.point
    let radius := voronoiRadius o.infinity bg.nodes
    GoodQhull (kit.qhull points) used.length →
    (outlines = none ∨ outlines = some [] ∨
      ∃ i polygon, RawRegion kit radius points i polygon ∧ kit.valid polygon = false) →
    voronoiMesh kit o bg outlines sources fuse = .error .valueError := by
  intro used points radius hq hbad
  obtain ⟨pts, table, g1, g2, g3⟩ := generators_coded o.ignore o.dflt o.cell bg sources hbg hs
  have hcf := filter_coded g3
  have hpeq : (pts.filter (·.active)).map (fun v => dropAxis o.axis v.point) = points := by
    rw [← List.forall₂_eq_eq_eq, List.forall₂_map_left_iff, List.forall₂_map_right_iff]
    exact hcf.imp fun v w h => by rw [h.1]
  simp only [voronoiMesh, g1]
  have hd : diagram kit o radius outlines pts table = .error .valueError := by
    unfold diagram
    rw [hpeq, havg]
    simp only [tessellate, Bool.false_eq_true, if_false]
    rcases hbad with rfl | rfl | ⟨i, polygon, ⟨raw, h1, h2⟩, h3⟩
    · rfl
    · rfl
    · match outlines with
      | none => rfl
      | some [] => rfl
      | some (b :: bs) =>
        simp only [firstOutline, polygonMesh]
        rw [mapPy_error (e := .valueError)]
        · intro reg hreg
          obtain ⟨-, c2⟩ := closeRegions_nodes kit.nrm kit.angle radius hq
          obtain ⟨poly, hp⟩ := gather_exists (xs := (closeRegions kit.nrm kit.angle radius (kit.qhull points)).1)
            (c2 reg hreg).2
          unfold clipCell
          simp only [hp]
          split
          · exact Or.inr ⟨_, rfl⟩
          · exact Or.inl rfl
        · refine ⟨raw, List.mem_of_getElem? h1, ?_⟩
          unfold clipCell
          rw [gather_ok_iff.2 h2.symm]
          simp [h3]
  rw [show voronoiRadius o.infinity bg.nodes = radius from rfl, hd]

end errors

/-! ## The distance of the vertices at infinity -/

section infinity
variable {K : Type*} [Field K] [LinearOrder K] [IsStrictOrderedRing K]

/-- **C109**: the vertex added for the infinite ridge between `p` and `q`, whose finite end is `v`, is beyond all the
points if `radius` is at least the distance by which `v` is on the inner side of the line through `p` and `q`; it is
on the inner side of that line if `radius` is smaller. -/
theorem C109_beyond_partial (nrm : K × K → K) (hn : ∀ v, 0 ≤ nrm v ∧ nrm v * nrm v = v.1 * v.1 + v.2 * v.2)
    (points : List (K × K)) (p q v : K × K) (radius : K) (hpq : p ≠ q)
    (hside : (∀ x ∈ points, 0 ≤ cross2 (q - p) (x - p)) ∨ ∀ x ∈ points, cross2 (q - p) (x - p) ≤ 0)
    (hoff : ∃ x ∈ points, cross2 (q - p) (x - p) ≠ 0) :
    let d := ridgeDirection nrm (mean2 points) p q
    let far := v + radius • d
    let depth := d.1 * (p.1 - v.1) + d.2 * (p.2 - v.2)
    (depth ≤ radius → ∀ x ∈ points, d.1 * x.1 + d.2 * x.2 ≤ d.1 * far.1 + d.2 * far.2) ∧
    (radius < depth → d.1 * far.1 + d.2 * far.2 < d.1 * p.1 + d.2 * p.2) := by
  intro d far depth
  obtain ⟨h1, -, h3⟩ := C80_outward nrm hn points p q hpq hside hoff
  have e : d.1 * far.1 + d.2 * far.2 = d.1 * v.1 + d.2 * v.2 + radius := by
    have hd : d.1 * d.1 + d.2 * d.2 = 1 := h1
    simp only [far, Prod.fst_add, Prod.snd_add, Prod.smul_fst, Prod.smul_snd, smul_eq_mul]
    linear_combination radius * hd
  constructor
  · intro h x hx
    have h3 := h3 x hx
    have : d.1 * (x.1 - p.1) + d.2 * (x.2 - p.2) ≤ 0 := h3
    simp only [depth] at h
    rw [e]
    linarith
  · intro h
    simp only [depth] at h
    rw [e]
    linarith

/-- Three cells in a row, the middle one a little higher: the diagram of their centres. -/
def flatArc : Qhull K where
  points := [(0, 0), (1, 1/10000), (2, 0)]
  vertices := [(1, -(99999999/20000))]
  ridgePoints := [(0, 1), (1, 2), (0, 2)]
  ridgeVertices := [(-1, 0), (-1, 0), (-1, 0)]
  pointRegion := [0, 1, 2]
  regions := [[-1, 0], [-1, 0], [-1, 0]]

/-- The nodes of these cells, below and above. -/
def flatArcNodes : List (V3 K) :=
  [-1/4, 1/4].flatMap fun h => [![-1/2, h - 1/10000, 0], ![1/2, h + 1/10000, 0], ![3/2, h + 1/10000, 0],
    ![5/2, h - 1/10000, 0]]

omit [Field K] [IsStrictOrderedRing K] in
theorem foldl_max_eq (l : List K) (a m : K) (hm : m = a ∨ m ∈ l) (ha : a ≤ m) (hl : ∀ x ∈ l, x ≤ m) :
    l.foldl max a = m := by
  induction l generalizing a with
  | nil => simpa using hm.symm.imp_right Eq.symm
  | cons x l ih =>
    rw [List.foldl_cons]
    refine ih _ ?_ (max_le ha (hl x (by simp))) fun y hy => hl y (by simp [hy])
    rcases hm with rfl | hm
    · exact Or.inl (max_eq_left (hl x (by simp))).symm
    · rcases List.mem_cons.1 hm with rfl | hm
      · exact Or.inl (max_eq_right ha).symm
      · exact Or.inr hm

omit [Field K] [IsStrictOrderedRing K] in
theorem foldl_min_eq (l : List K) (a m : K) (hm : m = a ∨ m ∈ l) (ha : m ≤ a) (hl : ∀ x ∈ l, m ≤ x) :
    l.foldl min a = m :=
  foldl_max_eq (K := Kᵒᵈ) l a m hm ha hl

omit [IsStrictOrderedRing K] in
/-- **C109**, the distance: the argument `infinity` unless it is missing or zero, else 1000 times the largest difference
between two of all the coordinates of the nodes. -/
theorem C109_distance (nodes : List (V3 K)) :
    (∀ r : K, r ≠ 0 → voronoiRadius (some r) nodes = r) ∧ voronoiRadius (some 0) nodes = voronoiRadius none nodes ∧
    ∀ lo hi : K, (∃ p ∈ nodes, ∃ k, p k = lo) → (∃ p ∈ nodes, ∃ k, p k = hi) → (∀ p ∈ nodes, ∀ k, lo ≤ p k ∧ p k ≤ hi) →
      voronoiRadius none nodes = 1000 * (hi - lo) := by
  refine ⟨fun r hr => by simp [voronoiRadius, hr], by simp [voronoiRadius], ?_⟩
  intro lo hi hlo hhi hb
  have hmem : ∀ x : K, x ∈ (nodes.flatMap fun p => [p 0, p 1, p 2]) ↔ ∃ p ∈ nodes, ∃ k, p k = x := by
    intro x
    simp only [List.mem_flatMap, List.mem_cons, List.not_mem_nil, or_false]
    constructor
    · rintro ⟨p, hp, h | h | h⟩
      · exact ⟨p, hp, 0, h.symm⟩
      · exact ⟨p, hp, 1, h.symm⟩
      · exact ⟨p, hp, 2, h.symm⟩
    · rintro ⟨p, hp, k, hk⟩
      refine ⟨p, hp, ?_⟩
      fin_cases k
      · exact Or.inl hk.symm
      · exact Or.inr (Or.inl hk.symm)
      · exact Or.inr (Or.inr hk.symm)
  have hall : ∀ x ∈ (nodes.flatMap fun p => [p 0, p 1, p 2]), lo ≤ x ∧ x ≤ hi := by
    intro x hx
    obtain ⟨p, hp, k, rfl⟩ := (hmem x).1 hx
    exact hb p hp k
  have hhead : (nodes.flatMap fun p => [p 0, p 1, p 2]).headD 0 ∈ (nodes.flatMap fun p => [p 0, p 1, p 2]) := by
    have := (hmem lo).2 hlo
    cases h : (nodes.flatMap fun p => [p 0, p 1, p 2]) with
    | nil => rw [h] at this; simp at this
    | cons a l => simp
  unfold voronoiRadius
  simp only
  rw [foldl_max_eq _ _ hi (Or.inr ((hmem hi).2 hhi)) (hall _ hhead).2 fun x hx => (hall x hx).2,
    foldl_min_eq _ _ lo (Or.inr ((hmem lo).2 hlo)) (hall _ hhead).1 fun x hx => (hall x hx).1]
  ring

theorem flatArc_radius : voronoiRadius none (flatArcNodes (K := K)) = 3000 := by
  unfold voronoiRadius
  have hl : ∀ x ∈ (flatArcNodes (K := K)).flatMap fun p => [p 0, p 1, p 2], x ≤ 5/2 ∧ -1/2 ≤ x := by
    intro x hx
    simp [flatArcNodes] at hx
    rcases hx with h | h | h | h | h | h | h | h | h | h | h | h | h | h | h | h | h | h | h | h | h | h | h | h <;>
      subst h <;> constructor <;> norm_num
  simp only
  rw [foldl_max_eq _ _ (5/2) (Or.inr (by simp [flatArcNodes])) (by simp [flatArcNodes]; norm_num) fun x hx => (hl x hx).1,
    foldl_min_eq _ _ (-1/2) (Or.inr (by simp [flatArcNodes])) (by simp [flatArcNodes]) fun x hx => (hl x hx).2]
  norm_num

/-- The claim C109 is false: the distance used by default is too small for points close to a line.  The vertex of
`flatArc` is at the same distance from the three points; with the default distance, all vertices of the region of the
middle point, in whatever order, are more than 1000 below the mesh. -/
theorem C109_default_refuted (nrm : K × K → K) (hn : ∀ v, 0 ≤ nrm v ∧ nrm v * nrm v = v.1 * v.1 + v.2 * v.2)
    (angle : K × K → K × K → K) :
    let t := closeRegions nrm angle (voronoiRadius none flatArcNodes) (flatArc (K := K))
    (∀ v ∈ (flatArc (K := K)).vertices, ∀ p ∈ (flatArc (K := K)).points,
      (p.1 - v.1) ^ 2 + (p.2 - v.2) ^ 2 = (100000001/20000) ^ 2) ∧
    ∃ reg, t.2[1]? = some reg ∧ reg.length = 3 ∧ ∀ v ∈ reg, ∃ p : K × K, t.1[v]? = some p ∧ p.2 < -1000 := by
  intro t
  constructor
  · intro v hv p hp
    simp only [flatArc, List.mem_cons, List.not_mem_nil, or_false] at hv hp
    subst hv
    rcases hp with rfl | rfl | rfl <;> norm_num
  obtain ⟨-, h2, h3⟩ := C80_regions nrm angle (voronoiRadius none flatArcNodes) (flatArc (K := K))
    (by simp [flatArc]) (by simp [flatArc])
  obtain ⟨reg, r1, -, r2⟩ := h3 1 1 rfl
  obtain ⟨base, _, b2, _, b4⟩ := r2 (by simp [flatArc])
  have hopen : openRidges (flatArc (K := K)) 1 = [(0, 0), (2, 0)] := by
    simp [openRidges, Qhull.ridges, flatArc]
  have hfin : (((flatArc (K := K)).regions.getD 1 []).filter (0 ≤ ·)).map Int.toNat = [0] := by
    simp [flatArc]
  rw [hopen] at b2 b4
  rw [hfin] at b2
  refine ⟨reg, r1, by rw [b2.length_eq]; rfl, ?_⟩
  have hv0 : t.1[0]? = some ((1 : K), -(99999999/20000 : K)) := by
    obtain ⟨e, he⟩ := h2
    show (closeRegions nrm angle (voronoiRadius none flatArcNodes) (flatArc (K := K))).1[0]? = _
    rw [← he]
    rfl
  have hdir : ∀ o : ℕ, o = 0 ∨ o = 2 →
      (ridgeDirection nrm (mean2 (flatArc (K := K)).points) (1, 1/10000) (pyIndex (flatArc (K := K)).points o)).2 ≤ 1 := by
    intro o ho
    have key : ∀ q : K × K, q ≠ (1, 1/10000) → (q = (0, 0) ∨ q = (2, 0)) →
        (ridgeDirection nrm (mean2 (flatArc (K := K)).points) (1, 1/10000) q).2 ≤ 1 := by
      intro q hq hq'
      obtain ⟨e1, -, -⟩ := C80_outward nrm hn (flatArc (K := K)).points (1, 1/10000) q hq.symm (by
          rcases hq' with rfl | rfl
          · left
            norm_num [flatArc, cross2]
          · right
            norm_num [flatArc, cross2])
        (by
          rcases hq' with rfl | rfl
          · exact ⟨(2, 0), by simp [flatArc], by norm_num [cross2]⟩
          · exact ⟨(0, 0), by simp [flatArc], by norm_num [cross2]⟩)
      generalize ridgeDirection nrm (mean2 (flatArc (K := K)).points) (1, 1/10000) q = d at e1
      nlinarith [mul_self_nonneg d.1, mul_self_nonneg (d.2 - 1)]
    rcases ho with rfl | rfl
    · exact key _ (by simp [pyIndex, flatArc]) (by simp [pyIndex, flatArc])
    · exact key _ (by simp [pyIndex, flatArc]) (by simp [pyIndex, flatArc])
  have hfar : ∀ o : ℕ, o = 0 ∨ o = 2 → (farVertex nrm (voronoiRadius none flatArcNodes) (flatArc (K := K)) 1 (o, 0)).2 <
      -1000 := by
    intro o ho
    have := hdir o ho
    unfold farVertex
    rw [flatArc_radius]
    have hp : pyIndex (flatArc (K := K)).points ((1 : ℕ) : ℤ) = (1, 1/10000) := by simp [pyIndex, flatArc]
    have hv : pyIndex (flatArc (K := K)).vertices (0 : ℤ) = (1, -(99999999/20000)) := by simp [pyIndex, flatArc]
    simp only [hp, hv, Prod.snd_add, Prod.smul_snd, smul_eq_mul]
    linarith
  have hfl : ∀ (l : List ℕ), l.map (fun v => t.1[v]?) = [(0, 0), (2, 0)].map (fun e : ℕ × ℤ =>
      some (farVertex nrm (voronoiRadius none flatArcNodes) (flatArc (K := K)) 1 e)) →
      ∀ v ∈ l, ∃ p : K × K, t.1[v]? = some p ∧ p.2 < -1000 := by
    intro l hl v hv
    have : t.1[v]? ∈ l.map (fun v => t.1[v]?) := List.mem_map_of_mem hv
    rw [hl] at this
    simp only [List.map_cons, List.map_nil, List.mem_cons, List.not_mem_nil, or_false] at this
    rcases this with h | h
    · exact ⟨_, h, hfar 0 (Or.inl rfl)⟩
    · exact ⟨_, h, hfar 2 (Or.inr rfl)⟩
  intro v hv
  rw [b2.mem_iff, List.mem_append] at hv
  rcases hv with hv | hv
  · rw [List.mem_singleton] at hv
    subst hv
    exact ⟨_, hv0, by norm_num⟩
  · exact hfl _ b4 v hv

end infinity

/-- The Euclidean norm; a triangle whose circumcentre (0, -3/4) is 3/4 inside the edge from (-1, 0) to (1, 0), outwards
being upwards. -/
example : (∃ nrm : ℝ × ℝ → ℝ, ∀ v, 0 ≤ nrm v ∧ nrm v * nrm v = v.1 * v.1 + v.2 * v.2) ∧
    (∀ x ∈ [((-1 : ℚ), (0 : ℚ)), (1, 0), (0, -2)], cross2 ((1, 0) - (-1, 0)) (x - (-1, 0)) ≤ 0) ∧
    let d := ridgeDirection (fun v : ℚ × ℚ => |v.1| + |v.2|) (mean2 [(-1, 0), (1, 0), (0, -2)]) (-1, 0) (1, 0)
    d = (0, 1) ∧ d.1 * (-1 - 0) + d.2 * (0 - -3/4) = 3/4 := by
  refine ⟨⟨fun v => √(v.1 * v.1 + v.2 * v.2), fun v => ⟨Real.sqrt_nonneg _, Real.mul_self_sqrt ?_⟩⟩, by decide +kernel,
    by decide +kernel⟩
  nlinarith [mul_self_nonneg v.1, mul_self_nonneg v.2]

/-! ## Concrete meshes -/

/-- The part of a convex polygon where `f`, an affine function, is not negative. -/
def cutHalf (f : ℚ × ℚ → ℚ) (ring : List (ℚ × ℚ)) : List (ℚ × ℚ) :=
  (List.zipWith (fun p q => (if 0 ≤ f p then [p] else []) ++
    (if f p * f q < 0 then [(p.1 + f p / (f p - f q) * (q.1 - p.1), p.2 + f p / (f p - f q) * (q.2 - p.2))] else []))
    ring (ring.rotate 1)).flatten

/-- The intersection of a convex polygon and a rectangle, as a closed ring. -/
def cutBox (boundary : List (List (ℚ × ℚ))) (polygon : List (ℚ × ℚ)) : List (List (ℚ × ℚ)) :=
  let r := boundary.headD []
  let x := r.map Prod.fst
  let y := r.map Prod.snd
  let c := cutHalf (fun p => p.1 - x.foldl min (x.headD 0)) <| cutHalf (fun p => x.foldl max (x.headD 0) - p.1) <|
    cutHalf (fun p => p.2 - y.foldl min (y.headD 0)) <| cutHalf (fun p => y.foldl max (y.headD 0) - p.2) polygon
  if c = [] then [] else [c ++ [c.headD 0]]

/-- A function that grows with the angle about a point. -/
def diamond (c p : ℚ × ℚ) : ℚ :=
  let x := p.1 - c.1
  let y := p.2 - c.2
  let t := y / (|x| + |y|)
  if 0 ≤ x then t else if 0 ≤ y then 2 - t else -2 - t

/-- Four points at the corners of a rectangle: the diagram has one vertex and four infinite ridges, parallel to the axes
(so that any norm does). -/
def crossKit : VoronoiKit ℚ where
  qhull := fun points => ⟨points, [mean2 points], [(0, 1), (2, 3), (0, 2), (1, 3)], List.replicate 4 (-1, 0),
    [0, 1, 2, 3], List.replicate 4 [-1, 0]⟩
  nrm := fun v => |v.1| + |v.2|
  angle := diamond
  pairs := fun _ => []
  polyClean := fun pts _ => (pts, id)
  valid := fun p => decide (3 ≤ p.length)
  clip := cutBox
  centre := fun c => fun k => (c.map fun p => p k).sum / c.length
  dim := fun _ => 2
  outline := fun cs => some [cs.flatten]
  clean := fun pts _ => (pts, id)

/-- Four square cells of side 1, with centres at `x0` and `x1`. -/
def fourCells (x0 x1 : ℚ) : VBackground (V3 ℚ) where
  centers := [![x0, 1/2, 0], ![x1, 1/2, 0], ![x0, 3/2, 0], ![x1, 3/2, 0]]
  nodes := [x0 - 1/2, x0 + 1/2, x1 - 1/2, x1 + 1/2].flatMap fun x => [![x, 0, 0], ![x, 1, 0], ![x, 2, 0]]
  labels := ⟨4, some [0, 0, 1, 1], some [("sand", 0), ("clay", 1)]⟩

/-- Two cells, one of them in the background mesh, where it replaces the point in the upper right corner. -/
def wellItem : VSource (V3 ℚ) :=
  ⟨[![3/2, 3/2, 0], ![7, 7, 0]], ⟨2, none, none⟩, [true, false],
    fun ids p => decide (0 ∈ ids) && decide (1 < p 0) && decide (1 < p 1), .str "well", 1⟩

def plainOptions (average : Bool) : VOptions ℚ := ⟨2, true, "none", [], none, average, true⟩

def meshData (r : Py (VMesh ℚ)) : Option (List (List (ℚ × ℚ)) × List ℤ × List (ℚ × ℚ) × List (String × ℤ)) :=
  match r with
  | .error _ => none
  | .ok m => some (m.cells.map fun c => (c.filterMap (m.points[·]?)).map (dropAxis 2), m.groups,
    m.sites.map (dropAxis 2), m.table)

def squareOutline : List (List (ℚ × ℚ)) := [[(0, 0), (2, 0), (2, 2), (0, 2)]]

example :
    let m := meshData (voronoiMesh crossKit (plainOptions true) (fourCells (1/2) (3/2)) (some [squareOutline])
      [wellItem] [])
    m.map (·.1) = some [[(1, 0), (1, 1), (0, 1), (0, 0)], [(2, 1), (1, 1), (1, 0), (2, 0)],
      [(0, 1), (1, 1), (1, 2), (0, 2)], [(1, 1), (2, 1), (2, 2), (1, 2)]] ∧
    m.map (·.2.1) = some [0, 0, 1, 2] ∧
    m.map (·.2.2.1) = some [(1/2, 1/2), (3/2, 1/2), (1/2, 3/2), (3/2, 3/2)] ∧
    m.map (·.2.2.2) = some [("sand", 0), ("clay", 1), ("well", 2)] := by
  decide +kernel

/-- Cells below y = 1 fused. -/
example : (meshData (voronoiMesh { crossKit with outline := fun _ => some [[![0, 0, 0], ![2, 0, 0], ![2, 1, 0],
        ![1, 1, 0], ![0, 1, 0]]] } (plainOptions false) (fourCells (1/2) (3/2)) (some [squareOutline]) []
        [fun p => decide (p 1 < 1)])).map (fun d => (d.1, d.2.1, d.2.2.1)) =
    some ([[(0, 0), (2, 0), (2, 1), (1, 1), (0, 1)], [(0, 1), (1, 1), (1, 2), (0, 2)], [(1, 1), (2, 1), (2, 2), (1, 2)]],
      [0, 1, 1], [(1/2, 1/2), (1/2, 3/2), (3/2, 3/2)]) := by
  decide +kernel

/-- A background mesh in two parts, 0 ≤ x ≤ 1 and 3 ≤ x ≤ 4: the cells of the points of the second part have no
corners. -/
theorem C107_two_parts_refuted :
    (meshData (voronoiMesh crossKit (plainOptions true) (fourCells (1/2) (7/2))
      (some [[[(0, 0), (1, 0), (1, 2), (0, 2)]], [[(3, 0), (4, 0), (4, 2), (3, 2)]]]) [] [])).map
        (fun d => (d.1, d.2.2.1)) =
    some ([[(1, 1), (0, 1), (0, 0), (1, 0)], [], [(0, 1), (1, 1), (1, 2), (0, 2)], []],
      [(1/2, 1/2), (7/2, 1/2), (1/2, 3/2), (7/2, 3/2)]) := by
  decide +kernel

example : crossKit.clip squareOutline [(1, -1999), (1, 1), (-1999, 1)] = [(1, 0) :: [(1, 1), (0, 1), (0, 0)] ++ [(1, 0)]] ∧
    ((1, 0) :: [(1, 1), (0, 1), (0, 0)] : List (ℚ × ℚ)).Nodup := by
  decide +kernel

/-- A region with a hole: the cell goes twice through (0, 0). -/
example :
    let kit := { crossKit with clip := fun _ _ =>
      [[(0, 0), (3, 0), (3, 3), (0, 3), (0, 0)], [(1, 1), (1, 2), (2, 2), (2, 1), (1, 1)]] }
    (meshData (voronoiMesh kit (plainOptions true) (fourCells (1/2) (3/2)) (some [squareOutline]) [] [])).map
        (fun d => d.1.head?) =
      some (some [(0, 0), (3, 0), (3, 3), (0, 3), (0, 0), (1, 1), (1, 2), (2, 2), (2, 1)]) := by
  decide +kernel

/-- The hypotheses of C105 hold for the first mesh. -/
example :
    let o := plainOptions false
    let bg := fourCells (1/2) (3/2)
    let item := wellItem
    let used := (namedPoints o.ignore o.dflt o.cell bg [item]).filter (·.active)
    let points := used.map fun v => dropAxis o.axis v.point
    let radius := voronoiRadius o.infinity bg.nodes
    Labelled bg.centers bg.labels ∧ Labelled item.centers item.labels ∧ PlainGroup item.group ∧
    (∀ pts, ∀ p ∈ crossKit.pairs pts, p.1 ≠ p.2 ∧ p.1 < pts.length ∧ p.2 < pts.length) ∧
    KeepsCorners (· = ·) crossKit.polyClean ∧ KeepsCorners (· = ·) crossKit.clean ∧
    used.map (·.group) = ["sand", "sand", "clay", "well"] ∧ GoodQhull (crossKit.qhull points) used.length ∧
    ∀ i polygon, RegionOf crossKit radius o.average points i polygon →
      crossKit.valid polygon = true ∧ 2 ≤ (crossKit.clip squareOutline polygon).flatten.length := by
  intro o bg item used points radius
  have hpts : points = [(1/2, 1/2), (3/2, 1/2), (1/2, 3/2), (3/2, 3/2)] := by decide +kernel
  have hreg : (closeRegions crossKit.nrm crossKit.angle radius (crossKit.qhull points)) =
      ([(1, 1), (1, -1999), (-1999, 1), (1, -1999), (2001, 1), (1, 2001), (-1999, 1), (1, 2001), (2001, 1)],
        [[1, 0, 2], [3, 4, 0], [6, 0, 5], [0, 8, 7]]) := by
    rw [hpts]
    decide +kernel
  refine ⟨⟨rfl, ?_⟩, ⟨rfl, ?_⟩, Or.inr ⟨_, rfl⟩, by simp [crossKit], ?_, ?_, by decide +kernel, ?_, ?_⟩
  · intro d hd
    obtain rfl := Option.some.inj hd
    rfl
  · intro d hd
    cases hd
  · intro pts cells cell _ i _ p hp
    exact ⟨p, hp, rfl⟩
  · intro pts cells cell _ i _ p hp
    exact ⟨p, hp, rfl⟩
  · rw [hpts]
    constructor <;> decide +kernel
  · rintro i polygon ⟨raw, h1, h2⟩
    rw [hreg] at h1 h2
    have hmem := List.mem_of_getElem? h1
    have hp : polygon = raw.filterMap fun v : ℕ => ([(1, 1), (1, -1999), (-1999, 1), (1, -1999), (2001, 1), (1, 2001),
        (-1999, 1), (1, 2001), (2001, 1)] : List (ℚ × ℚ))[v]? := by
      have := congrArg (List.filterMap id) h2
      rw [along, List.filterMap_map, List.filterMap_map] at this
      rw [← List.filterMap_some (l := polygon)]
      exact this.symm
    subst hp
    simp only [List.mem_cons, List.not_mem_nil, or_false] at hmem
    rcases hmem with rfl | rfl | rfl | rfl <;> decide +kernel

end Gridder
