import Verif.Model.Well3d
import Verif.Props.Well
import Verif.Props.StackU
import Verif.Props.CellOps

/-!
# C130: the well of the examples in 3D
-/

namespace Gridder
open Spec

/-! ## The claim -/

/-- A mesh extruded upwards in `n1` equal layers along `v1` and `n2` equal layers along `v2`, without the cells of the
upper layers that are dropped.  Cell `pos L c` of the extruded mesh is the prism of layer `L` over cell `c`, its nodes are
`node L j` and `node (L + 1) j`. -/
structure Spec.ColumnOver (R : (Fin 3 → ℝ) → (Fin 3 → ℝ) → Prop) (points : List (Fin 3 → ℝ)) (cells : List (ℕ × List ℕ))
    (v1 v2 : Fin 3 → ℝ) (n1 n2 : ℕ) (dropped : ℕ → Prop) (label : ℕ → String) (C : Column) (pos node : ℕ → ℕ → ℕ) : Prop where
  kept : ∀ i, i ∈ C.kept ↔ ∃ L c, L < n1 + n2 ∧ c < cells.length ∧ pos L c = i ∧ (L < n1 ∨ ¬ dropped c)
  order : C.kept.Pairwise (· < ·)
  size : C.groups.length = C.kept.length
  table : InjTable C.table
  inj : ∀ L L' c c', L < n1 + n2 → L' < n1 + n2 → c < cells.length → c' < cells.length → pos L c = pos L' c' →
    L = L' ∧ c = c'
  cell : ∀ L c t conn, L < n1 + n2 → cells[c]? = some (t, conn) → ∃ t' cell, PrismOver true points.length L t conn t' cell ∧
    C.mesh.cells[pos L c]? = some (t', cell.renamed fun id => node (id / points.length) (id % points.length))
  nodes : ∀ (j : ℕ) x, NodeOf cells j → points[j]? = some x →
    (∀ L ≤ n1, ∃ p, C.mesh.points[node L j]? = some p ∧ R p (x + ((L : ℝ) / n1) • v1)) ∧
    ∀ s ≤ n2, ∃ p, C.mesh.points[node (n1 + s) j]? = some p ∧ R p (x + v1 + ((s : ℝ) / n2) • v2)
  groups : ∀ (i L c : ℕ), C.kept[i]? = some (pos L c) → L < n1 + n2 → c < cells.length →
    CellNamed C.table C.groups i (label c)

/-! ## The groups -/

theorem droppedCodes_ok {table : Dict String Int} : ∀ {names : List String},
    (∀ s ∈ names, ∃ v, (s, v) ∈ table) → (table.map Prod.fst).Nodup →
    ∃ vs, droppedCodes table names = .ok vs ∧ ∀ v, v ∈ vs ↔ ∃ s ∈ names, (s, v) ∈ table
  | [], _, _ => ⟨[], rfl, by simp⟩
  | s :: rest, h, hn => by
    obtain ⟨v, hv⟩ := h s (by simp)
    obtain ⟨vs, h1, h2⟩ := droppedCodes_ok (fun s' hs' => h s' (List.mem_cons_of_mem _ hs')) hn
    have hg : Dict.get? table s = some v := Dict.mem_get? hn hv
    refine ⟨v :: vs, by simp only [droppedCodes, hg, h1], fun x => ?_⟩
    rw [List.mem_cons, h2]
    constructor
    · rintro (rfl | ⟨s', hs', hx⟩)
      · exact ⟨s, by simp, hv⟩
      · exact ⟨s', List.mem_cons_of_mem _ hs', hx⟩
    · rintro ⟨s', hs', hx⟩
      rcases List.mem_cons.1 hs' with rfl | hs'
      · left
        have := Dict.mem_get? hn hx
        rw [hg] at this
        exact (Option.some.inj this).symm
      · exact Or.inr ⟨s', hs', hx⟩

/-- The function `inactive`. -/
theorem inactiveMask_ok {names : List String} {mesh : Surf ℝ UTopo} {codes : List Int} {table : Dict String Int}
    (hc : groupCodes mesh.topo.cellData = some codes) (ht : mesh.topo.table = some table) (hinj : InjTable table)
    {label : ℕ → String} (hlab : ∀ c < codes.length, CellNamed table codes c (label c))
    (hn : ∀ s ∈ names, ∃ v, (s, v) ∈ table) :
    ∃ mask, inactiveMask names mesh = .ok mask ∧ mask.length = codes.length ∧
      ∀ c < codes.length, (mask[c]? = some true ↔ label c ∈ names) := by
  obtain ⟨vs, h1, h2⟩ := droppedCodes_ok hn hinj.1
  refine ⟨codes.map fun x => decide (x ∈ vs), by simp only [inactiveMask, ht, hc, h1], by simp, ?_⟩
  intro c hcl
  obtain ⟨x, hx, hm⟩ := hlab c hcl
  rw [List.getElem?_map, hx]
  simp only [Option.map_some, Option.some.injEq, decide_eq_true_eq]
  rw [h2]
  constructor
  · rintro ⟨s, hs, hsv⟩
    have : label c = s := by
      have := List.inj_on_of_nodup_map hinj.2 hm hsv rfl
      exact congrArg Prod.fst this
    rw [this]; exact hs
  · intro h
    exact ⟨_, h, hm⟩

theorem intTs (r : ℤ) : ∃ ts : List ℝ, resolutionToPerc (.int r) none = .ok ts ∧ fromZeroToOne ts ∧
    ts.length = (max 1 r).toNat + 1 ∧ ∀ i ≤ (max 1 r).toNat, ts[i]? = some ((i : ℝ) / ((max 1 r).toNat : ℝ)) := by
  obtain ⟨p, h1, h2, h3, _⟩ := C11_integer_resolution r none (.inl rfl)
  refine ⟨p, h1, ⟨?_, h2.first, ?_⟩, h2.size, ?_⟩
  · rw [h2.size]; omega
  · rw [h2.size]; exact h2.last
  · intro i hi
    rw [h3 rfl i hi]
    congr 2
    rw [← Int.cast_natCast]; congr 1; omega

/-! ## The extraction -/

theorem takeOut_ok {name : String} {M : UMesh ℝ} {table : Dict String Int} {code : ℤ} {g : DArr ℤ}
    (h1 : Dict.get? table name = some code) (h2 : Dict.get? M.cellData "CellGroup" = some g) :
    ∃ groups, takeOut name M table = .ok ⟨M, table, (List.range g.vals.length).filter fun i => g.vals.getD i code != code,
        groups⟩ ∧
      groups.map some = along g.vals ((List.range g.vals.length).filter fun i => g.vals.getD i code != code) := by
  obtain ⟨ids, data, e1, e2, _, e4⟩ := extract_mask (g.vals.map fun x => x != code) [("CellGroup", g.vals)]
    (by simp [Dict.keys]) (by
      intro k v hk
      by_cases hkk : k = "CellGroup"
      · subst hkk
        cases hk
        simp
      · have : Dict.get? ([("CellGroup", g.vals)] : Dict String (List ℤ)) k = none := by
          simp [Dict.get?, Ne.symm hkk]
        rw [this] at hk; cases hk)
  obtain ⟨w, w1, w2⟩ := e4 "CellGroup" g.vals rfl
  have hids : ids = (List.range g.vals.length).filter fun i => g.vals.getD i code != code := by
    rw [e2, List.length_map]
    refine List.filter_congr fun i hi => ?_
    have hi' : i < g.vals.length := by simpa using hi
    simp [List.getD_eq_getElem?_getD, List.getElem?_eq_getElem hi']
  rw [hids] at e1 w2
  exact ⟨w, by simp only [takeOut, h1, h2, e1, w1], w2⟩

/-! ## The column -/

theorem column_label {n : ℕ} {codes : List Int} {table : Dict String Int} (hinj : InjTable table) {label : ℕ → String}
    (hlab : ∀ c < n, CellNamed table codes c (label c)) {name : ℕ → String}
    (h : Labels [] "default" n (some codes) (some table) .none name) : ∀ c < n, name c = label c := by
  obtain ⟨sels, h1, h2⟩ := h
  simp only [entries] at h1
  cases h1
  intro c hc
  rw [h2 c hc]
  have : baseLabel (fun k => decide (k ∉ ([] : List String))) (some codes) (some table) c = some (label c) := by
    simp only [baseLabel, List.not_mem_nil, not_false_eq_true, decide_true]
    exact (baseName_eq_some hinj).2 (hlab c hc)
  rw [this]; rfl

theorem column_label_mask {n : ℕ} {codes : List Int} {table : Dict String Int} (hinj : InjTable table) {label : ℕ → String}
    (hlab : ∀ c < n, CellNamed table codes c (label c)) {s : String} (hs : negated s = false) {mask : List Bool}
    {name : ℕ → String} (h : Labels [] "default" n (some codes) (some table) (.dict [(s, .callMask mask)]) name) :
    ∀ c < n, name c = if mask[c]? = some true then s else label c := by
  obtain ⟨sels, h1, h2⟩ := h
  simp only [entries] at h1
  obtain ⟨e, l, ⟨he1, he2⟩, hl, rfl⟩ := List.forall₂_cons_left_iff.1 h1
  cases hl
  intro c hc
  have hsel := he2 rfl rfl (fun _ => none) c hc
  simp only [entrySelects, selects, hs, Bool.bne_false] at hsel
  have hb : e.1 = s := by rw [he1]; simp [bare, hs]
  rw [h2 c hc]
  have : baseLabel (fun k => decide (k ∉ ([] : List String))) (some codes) (some table) c = some (label c) := by
    simp only [baseLabel, List.not_mem_nil, not_false_eq_true, decide_true]
    exact (baseName_eq_some hinj).2 (hlab c hc)
  rw [this]
  by_cases hm : mask[c]? = some true
  · rw [if_pos hm]
    have : e.2 c = true := by rw [hsel, hm]; rfl
    simp [lastSelecting, this, hb]
  · rw [if_neg hm]
    have : e.2 c = false := by rw [hsel]; simpa using hm
    simp [lastSelecting, this]

/-- A mesh with groups: every cell has a name in the table. -/
structure Spec.Grouped (mesh : Surf ℝ UTopo) (codes : List Int) (table : List (String × Int)) (label : ℕ → String) : Prop where
  code : groupCodes mesh.topo.cellData = some codes
  size : codes.length = mesh.topo.cells.length
  tab : mesh.topo.table = some table
  inj : InjTable table
  named : ∀ c < codes.length, CellNamed table codes c (label c)

/-- The extruded mesh before the extraction. -/
theorem column_extruded {R : V3 ℝ → V3 ℝ → Prop} {vtk : VtkOracle ℝ} (ho : AppendsAll vtk.order) (hc : Cleans R vtk.clean)
    (rot : V3 ℝ → ℝ → V3 ℝ → V3 ℝ → V3 ℝ) {w : ColumnNumbers} {x1 y1 z1 x2 y2 z2 : ℝ} (hb : w.below = [x1, y1, z1])
    (ha : w.above = [x2, y2, z2]) (hneg : negated w.name = false) {mesh : Surf ℝ UTopo} (hmesh : StackSurf mesh)
    {codes : List Int} {table : Dict String Int} {label : ℕ → String} (hg : Grouped mesh codes table label)
    {mask : List Bool} (hm : mask.length = codes.length) :
    ∃ ex M T, (Extr.new (putAt w.depth mesh) none none).run rot (columnArgs w mask) = .ok ex ∧
      extrudeU vtk [] "default" ex = .ok (M, T) ∧ ∃ ts1 ts2 pos node name1 name2,
        resolutionToPerc (.int w.layersBelow) none = .ok ts1 ∧ resolutionToPerc (.int w.layersAbove) none = .ok ts2 ∧
        (∀ c < codes.length, name1 c = label c) ∧
        (∀ c < codes.length, name2 c = if mask[c]? = some true then w.name else label c) ∧
        LayeredU R true "ExtrudeItem" mesh.points.length mesh.topo.cells mesh.topo.cellData
          [(putAt w.depth mesh).points, (putAt w.depth mesh).points.map (fun p ax => p ax + ![x1, y1, z1] ax),
            ((putAt w.depth mesh).points.map (fun p ax => p ax + ![x1, y1, z1] ax)).map
              (fun p ax => p ax + ![x2, y2, z2] ax)] [ts1, ts2] [name1, name2] M T pos node := by
  have hput : StackSurf (putAt w.depth mesh) :=
    ⟨hmesh.some, by simpa [putAt] using hmesh.ids, hmesh.types, hmesh.polygons, by simpa [putAt] using hmesh.pd, hmesh.cd⟩
  obtain ⟨ex, hex, hpts⟩ : ∃ ex, (Extr.new (putAt w.depth mesh) none none).run rot (columnArgs w mask) = .ok ex ∧
      ex.items.map (fun it => it.1.points) =
        [(putAt w.depth mesh).points, (putAt w.depth mesh).points.map (fun p ax => p ax + ![x1, y1, z1] ax),
            ((putAt w.depth mesh).points.map (fun p ax => p ax + ![x1, y1, z1] ax)).map
              (fun p ax => p ax + ![x2, y2, z2] ax)] := by
    simp only [columnArgs, hb, ha]
    exact ⟨_, rfl, rfl⟩
  obtain ⟨g1, g2⟩ := C98_unstructured_partial ho hc rot [] "default" (putAt w.depth mesh) hput none none (columnArgs w mask)
    (by simp [columnArgs])
    (by
      intro x hx
      simp only [columnArgs, List.mem_cons, List.not_mem_nil, or_false] at hx
      rcases hx with rfl | rfl
      · obtain ⟨ts, t1, t2, _⟩ := intTs w.layersBelow
        exact ⟨ts, t1, t2⟩
      · obtain ⟨ts, t1, t2, _⟩ := intTs w.layersAbove
        exact ⟨ts, t1, t2⟩) ex hex
  obtain ⟨⟨M, T⟩, hMT⟩ := g1 (by
    intro x hx
    simp only [columnArgs, List.mem_cons, List.not_mem_nil, or_false] at hx
    rcases hx with rfl | rfl
    · intro kv hkv
      simp [entries] at hkv
    · intro kv hkv
      simp only [entries, List.mem_cons, List.not_mem_nil, or_false] at hkv
      subst hkv
      show mask.length = mesh.topo.cells.length
      rw [hm, hg.size])
  obtain ⟨subs, names, pos, node, h1, h2, h3, h4⟩ := g2 M T hMT
  rw [hpts] at h4
  obtain ⟨ts1, name1, a1, a2, a3, a4⟩ := h3 0 ((.int w.layersBelow, none), .none) rfl
  obtain ⟨ts2, name2, b1, b2, b3, b4⟩ := h3 1 ((.int w.layersAbove, none), .dict [(w.name, .callMask mask)]) rfl
  have hsubs : subs = [ts1, ts2] := by
    simp only [columnArgs, List.map_cons, List.map_nil, List.length_cons, List.length_nil] at h1
    match subs, h1, a2, b2 with
    | [_, _], _, a2, b2 => simp at a2 b2; rw [a2, b2]
  have hnames : names = [name1, name2] := by
    simp only [columnArgs, List.map_cons, List.map_nil, List.length_cons, List.length_nil] at h2
    match names, h2, a3, b3 with
    | [_, _], _, a3, b3 => simp at a3 b3; rw [a3, b3]
  subst hsubs
  subst hnames
  have e1 : groupCodes (putAt w.depth mesh).topo.cellData = some codes := hg.code
  have e2 : (putAt w.depth mesh).topo.table = some table := hg.tab
  have e3 : (putAt w.depth mesh).topo.cells.length = codes.length := hg.size.symm
  have e4 : (putAt w.depth mesh).points.length = mesh.points.length := by simp [putAt]
  rw [e1, e2, e3] at a4 b4
  rw [e4] at h4
  exact ⟨ex, M, T, hex, hMT, ts1, ts2, pos, node, name1, name2, a1, b1, column_label hg.inj hg.named a4,
    column_label_mask hg.inj hg.named hneg b4, h4⟩

/-! ## Counting -/

/-- The cells of a column with the names of their groups are those of the layers, each once. -/
theorem column_perm {R : V3 ℝ → V3 ℝ → Prop} {points : List (V3 ℝ)} {cells : List (ℕ × List ℕ)} {v1 v2 : V3 ℝ} {n1 n2 : ℕ}
    {dropped : ℕ → Prop} [DecidablePred dropped] {label : ℕ → String} {C : Column} {pos node : ℕ → ℕ → ℕ}
    (h : ColumnOver R points cells v1 v2 n1 n2 dropped label C pos node) :
    (C.kept.zip (C.groups.map (nameOf C.table))).Perm ((List.range (n1 + n2)).flatMap fun L =>
      ((List.range cells.length).filter fun c => decide (L < n1 ∨ ¬ dropped c)).map fun c => (pos L c, some (label c))) := by
  have hnd : C.kept.Nodup := h.order.imp (fun h => Nat.ne_of_lt h)
  refine (List.perm_ext_iff_of_nodup ?_ ?_).2 ?_
  · refine List.Nodup.of_map Prod.fst ?_
    rw [List.map_fst_zip (by simp [h.size])]
    exact hnd
  · rw [List.nodup_flatMap]
    refine ⟨?_, ?_⟩
    · intro L hL
      refine List.Nodup.map_on ?_ (List.nodup_range.filter _)
      intro a ha b hb hab
      simp only [List.mem_filter, List.mem_range] at ha hb hL
      exact (h.inj L L a b hL hL ha.1 hb.1 (congrArg Prod.fst hab)).2
    · refine List.nodup_range.pairwise_of_forall_ne ?_
      intro L hL L' hL' hne x hx hx'
      simp only [List.mem_range] at hL hL'
      obtain ⟨a, ha, rfl⟩ := List.mem_map.1 hx
      obtain ⟨b, hb, hab⟩ := List.mem_map.1 hx'
      simp only [List.mem_filter, List.mem_range] at ha hb
      exact hne (h.inj L L' a b hL hL' ha.1 hb.1 (congrArg Prod.fst hab).symm).1
  · rintro ⟨i, o⟩
    simp only [List.mem_flatMap, List.mem_map, List.mem_filter, List.mem_range, decide_eq_true_eq, Prod.mk.injEq]
    rw [List.mem_iff_getElem?]
    constructor
    · rintro ⟨k, hk⟩
      rw [List.getElem?_zip_eq_some] at hk
      obtain ⟨k1, k2⟩ := hk
      obtain ⟨L, c, hL, hc, rfl, hd⟩ := (h.kept i).1 (List.mem_of_getElem? k1)
      obtain ⟨x, x1, x2⟩ := h.groups k L c k1 hL hc
      rw [List.getElem?_map, x1] at k2
      simp only [Option.map_some, Option.some.injEq] at k2
      refine ⟨L, hL, c, ⟨hc, hd⟩, rfl, ?_⟩
      rw [← k2]
      exact ((nameOf_inj h.table).2 x2).symm
    · rintro ⟨L, hL, c, ⟨hc, hd⟩, rfl, rfl⟩
      obtain ⟨k, hk⟩ := List.mem_iff_getElem?.1 ((h.kept _).2 ⟨L, c, hL, hc, rfl, hd⟩)
      refine ⟨k, ?_⟩
      rw [List.getElem?_zip_eq_some]
      obtain ⟨x, x1, x2⟩ := h.groups k L c hk hL hc
      refine ⟨hk, ?_⟩
      rw [List.getElem?_map, x1]
      simp only [Option.map_some, Option.some.injEq]
      exact (nameOf_inj h.table).2 x2

theorem sum_layers (n1 n2 : ℕ) (f : ℕ → ℕ) (a b : ℕ) (h1 : ∀ L < n1, f L = a) (h2 : ∀ L, n1 ≤ L → f L = b) :
    ((List.range (n1 + n2)).map f).sum = n1 * a + n2 * b := by
  rw [List.range_add, List.map_append, List.sum_append, List.map_map]
  congr 1
  · rw [List.map_congr_left (g := fun _ => a) (fun L hL => h1 L (List.mem_range.1 hL))]
    simp
  · rw [List.map_congr_left (f := f ∘ fun x => n1 + x) (g := fun _ => b) (fun L _ => h2 _ (Nat.le_add_right n1 L))]
    simp

/-- Cells of the column, and under each name. -/
theorem column_counts {R : V3 ℝ → V3 ℝ → Prop} {points : List (V3 ℝ)} {cells : List (ℕ × List ℕ)} {v1 v2 : V3 ℝ}
    {n1 n2 : ℕ} {names : List String} {label : ℕ → String} {C : Column} {pos node : ℕ → ℕ → ℕ}
    (h : ColumnOver R points cells v1 v2 n1 n2 (fun c => label c ∈ names) label C pos node) :
    C.kept.length = n1 * cells.length + n2 * ((List.range cells.length).filter fun c => decide (label c ∉ names)).length ∧
    ∀ s, (C.groups.map (nameOf C.table)).count (some s) =
      (n1 + if s ∈ names then 0 else n2) * ((List.range cells.length).map label).count s := by
  have hp := column_perm h
  constructor
  · have := hp.length_eq
    rw [List.length_zip, List.length_map, h.size, Nat.min_self, List.length_flatMap] at this
    rw [this]
    refine sum_layers n1 n2 _ _ _ ?_ ?_
    · intro L hL
      simp [hL]
    · intro L hL
      simp [Nat.not_lt.2 hL]
  · intro s
    have := (hp.map Prod.snd).count_eq (some s)
    rw [List.map_snd_zip (by simp [h.size])] at this
    rw [this, List.map_flatMap, List.count_flatMap, sum_layers n1 n2 _ (((List.range cells.length).map label).count s)
      (if s ∈ names then 0 else ((List.range cells.length).map label).count s)]
    · split <;> ring
    · intro L hL
      simp only [hL, true_or, decide_true, List.filter_true, List.map_map, Function.comp_def]
      rw [List.count, List.count, List.countP_map, List.countP_map]
      refine List.countP_congr fun c _ => ?_
      simp
    · intro L hL
      simp only [Nat.not_lt.2 hL, false_or, List.map_map, Function.comp_def]
      rw [List.count, List.count, List.countP_map, List.countP_map, List.countP_filter]
      split
      · rename_i hs
        rw [List.countP_eq_zero]
        intro c _
        simp only [Function.comp_apply, beq_iff_eq, Option.some.injEq, Bool.and_eq_true, decide_eq_true_eq, not_and, not_not]
        rintro rfl
        exact hs
      · rename_i hs
        refine List.countP_congr fun c _ => ?_
        simp only [Function.comp_apply, beq_iff_eq, Option.some.injEq, Bool.and_eq_true, decide_eq_true_eq]
        constructor
        · exact fun h => h.1
        · rintro rfl
          exact ⟨rfl, hs⟩

/-! ## The theorems -/

theorem between_shift (t : ℝ) (x v : V3 ℝ) : between t x (fun ax => x ax + v ax) = x + t • v := by
  funext ax
  simp only [between, Pi.add_apply, Pi.smul_apply, smul_eq_mul]
  ring

/-- **C130 (column).** A mesh whose cells are named, put at a depth, extruded in two parts, the cells of some groups taken
out of the second: the call of `load_well_3d` succeeds and the result is the column over the mesh, whatever the numbers of
layers, the vectors, the groups dropped and the order VTK puts the cells in.  Needs that some cell is dropped. -/
theorem C130_column {R : V3 ℝ → V3 ℝ → Prop} {vtk : VtkOracle ℝ} (ho : AppendsAll vtk.order) (hc : Cleans R vtk.clean)
    (rot : V3 ℝ → ℝ → V3 ℝ → V3 ℝ → V3 ℝ) {w : ColumnNumbers} {x1 y1 z1 x2 y2 z2 : ℝ} (hb : w.below = [x1, y1, z1])
    (ha : w.above = [x2, y2, z2]) (hneg : negated w.name = false) {mesh : Surf ℝ UTopo} (hmesh : StackSurf mesh)
    {codes : List Int} {table : Dict String Int} {label : ℕ → String} (hg : Grouped mesh codes table label)
    (hdrop : ∀ s ∈ w.dropped, ∃ v, (s, v) ∈ table) (hnew : ∀ c < codes.length, label c ≠ w.name)
    (hsome : ∃ c < codes.length, label c ∈ w.dropped) :
    ∃ C pos node, wellColumn vtk rot w mesh = .ok C ∧
      ColumnOver R (mesh.points.map fun p => ![p 0, p 1, w.depth]) mesh.topo.cells ![x1, y1, z1] ![x2, y2, z2]
        (max 1 w.layersBelow).toNat (max 1 w.layersAbove).toNat (fun c => label c ∈ w.dropped) label C pos node := by
  obtain ⟨mask, m1, m2, m3⟩ := inactiveMask_ok (names := w.dropped) hg.code hg.tab hg.inj hg.named hdrop
  obtain ⟨ex, M, T, e1, e2, ts1, ts2, pos, node, name1, name2, r1, r2, l1, l2, hL⟩ :=
    column_extruded ho hc rot hb ha hneg hmesh hg m2
  obtain ⟨ts1', q1, _, q3, q4⟩ := intTs w.layersBelow
  obtain rfl : ts1' = ts1 := Except.ok.inj (q1.symm.trans r1)
  obtain ⟨ts2', u1, _, u3, u4⟩ := intTs w.layersAbove
  obtain rfl : ts2' = ts2 := Except.ok.inj (u1.symm.trans r2)
  set n1 := (max 1 w.layersBelow).toNat with hn1
  set n2 := (max 1 w.layersAbove).toNat with hn2
  have hn1' : 0 < n1 := by omega
  have hn2' : 0 < n2 := by omega
  obtain ⟨layers, columns, items, groups, d1, d2, d3, d4, d5, d6, d7⟩ := hL.data
  have hsum : ([ts1', ts2'].map fun ts => ts.length - 1).sum = n1 + n2 := by simp [q3, u3]
  have hlayer : ∀ L c, L < n1 + n2 → c < mesh.topo.cells.length → CellNamed T groups.vals (pos L c)
      (if n1 ≤ L ∧ label c ∈ w.dropped then w.name else label c) := by
    intro L c hL' hcc
    have hcc' : c < codes.length := by rw [hg.size]; exact hcc
    by_cases hl : L < n1
    · have := (d7 0 ts1' name1 rfl rfl c L hcc (by rw [q3]; omega)).2.2.2
      simp only [layersIn, List.take_zero, List.map_nil, List.sum_nil, Nat.zero_add] at this
      rw [if_neg (by omega), ← l1 c hcc']
      exact this
    · have := (d7 1 ts2' name2 rfl rfl c (L - n1) hcc (by rw [u3]; omega)).2.2.2
      simp only [layersIn, List.take_succ_cons, List.take_zero, List.map_cons, List.map_nil, List.sum_cons, List.sum_nil, q3,
        Nat.add_sub_cancel, Nat.add_zero] at this
      rw [show n1 + (L - n1) = L by omega, l2 c hcc'] at this
      by_cases hd : label c ∈ w.dropped
      · rw [if_pos ⟨by omega, hd⟩]
        rwa [if_pos ((m3 c hcc').2 hd)] at this
      · rw [if_neg (fun h => hd h.2)]
        rwa [if_neg (fun h => hd ((m3 c hcc').1 h))] at this
  have hT : InjTable T := hL.dense.inj
  obtain ⟨c0, hc0, hd0⟩ := hsome
  obtain ⟨code, g1, g2⟩ := hlayer n1 c0 (by omega) (by rw [← hg.size]; exact hc0)
  rw [if_pos ⟨le_refl _, hd0⟩] at g2
  have hget : Dict.get? T w.name = some code := Dict.mem_get? hT.1 g2
  obtain ⟨gs, o1, o2⟩ := takeOut_ok hget d4
  refine ⟨⟨M, T, _, gs⟩, pos, node, by simp only [wellColumn, m1, e1, e2]; exact o1, ?_⟩
  have hcode : ∀ L c, L < n1 + n2 → c < mesh.topo.cells.length →
      ((groups.vals.getD (pos L c) code != code) = true ↔ (L < n1 ∨ ¬ label c ∈ w.dropped)) := by
    intro L c hL' hcc
    obtain ⟨x, xx1, xx2⟩ := hlayer L c hL' hcc
    rw [List.getD_eq_getElem?_getD, xx1, Option.getD_some]
    simp only [bne_iff_ne, ne_eq]
    have hx : x = code ↔ (if n1 ≤ L ∧ label c ∈ w.dropped then w.name else label c) = w.name := by
      constructor
      · rintro rfl
        exact congrArg Prod.fst (List.inj_on_of_nodup_map hT.2 xx2 g2 rfl)
      · intro h
        rw [h] at xx2
        exact congrArg Prod.snd (List.inj_on_of_nodup_map hT.1 xx2 g2 rfl)
    rw [hx]
    have := hnew c (by rw [hg.size]; exact hcc)
    split
    · rename_i h
      simp only [not_true_eq_false, false_iff, not_or, not_not, not_lt]
      exact h
    · rename_i h
      simp only [this, not_false_eq_true, true_iff]
      by_contra hcon
      simp only [not_or, not_not, not_lt] at hcon
      exact h hcon
  refine ⟨?_, ?_, ?_, hT, ?_, ?_, ?_, ?_⟩
  · intro i
    rw [List.mem_filter, List.mem_range]
    constructor
    · rintro ⟨h1, h2⟩
      obtain ⟨L, c, k1, k2, rfl⟩ := hL.cover i (by rw [← d5]; exact h1)
      rw [hsum] at k1
      exact ⟨L, c, k1, k2, rfl, (hcode L c k1 k2).1 h2⟩
    · rintro ⟨L, c, k1, k2, rfl, k3⟩
      obtain ⟨x, xx1, _⟩ := hlayer L c k1 k2
      exact ⟨(List.getElem?_eq_some_iff.1 xx1).1, (hcode L c k1 k2).2 k3⟩
  · exact List.pairwise_lt_range.filter _
  · have := congrArg List.length o2
    simpa [along] using this
  · intro L L' c c' h1 h2 h3 h4 h5
    exact hL.inj L L' c c' (by rw [hsum]; exact h1) (by rw [hsum]; exact h2) h3 h4 h5
  · intro L c t conn h1 h2
    rw [List.length_map]
    exact hL.cell L c t conn (by rw [hsum]; exact h1) h2
  · intro j x hj hx
    have hx' : (putAt w.depth mesh).points[j]? = some x := by
      rw [List.getElem?_map, Option.map_eq_some_iff] at hx
      obtain ⟨p, p1, p2⟩ := hx
      simp only [putAt]
      rw [List.getElem?_map, p1, Option.map_some, ← p2]
      congr 1
      funext ax
      fin_cases ax <;> rfl
    constructor
    · intro L hL'
      obtain ⟨p, p1, p2⟩ := hL.nodes 0 _ _ ts1' rfl rfl rfl j L _ x (fun ax => x ax + ![x1, y1, z1] ax) hj (q4 L hL') hx'
        (by rw [List.getElem?_map, hx']; rfl)
      simp only [layersIn, List.take_zero, List.map_nil, List.sum_nil, Nat.zero_add] at p1
      rw [between_shift] at p2
      exact ⟨p, p1, p2⟩
    · intro s hs
      obtain ⟨p, p1, p2⟩ := hL.nodes 1 _ _ ts2' rfl rfl rfl j s _ (fun ax => x ax + ![x1, y1, z1] ax)
        (fun ax => (x ax + ![x1, y1, z1] ax) + ![x2, y2, z2] ax) hj (u4 s hs)
        (by rw [List.getElem?_map, hx']; rfl) (by rw [List.getElem?_map, List.getElem?_map, hx']; rfl)
      simp only [layersIn, List.take_succ_cons, List.take_zero, List.map_cons, List.map_nil, List.sum_cons, List.sum_nil, q3,
        Nat.add_sub_cancel, Nat.add_zero] at p1
      rw [between_shift] at p2
      exact ⟨p, p1, p2⟩
  · intro i L c hi h1 h2
    obtain ⟨x, xx1, xx2⟩ := hlayer L c h1 h2
    have hk := (List.mem_filter.1 (List.mem_of_getElem? hi)).2
    rw [hcode L c h1 h2] at hk
    rw [if_neg (by rintro ⟨a, b⟩; rcases hk with hk | hk; · omega
                   · exact hk b)] at xx2
    refine ⟨x, ?_, xx2⟩
    have := congrArg (fun l => l[i]?) o2
    simp only [along, List.getElem?_map, hi, Option.map_some, xx1] at this
    cases hgi : gs[i]? with
    | none => rw [hgi] at this; cases this
    | some y => rw [hgi] at this; simpa using this

/-- **C130 (nothing to drop).** When no cell is in the groups to drop, the example's way to take them out raises: no cell
has the new group, and the table of the extruded mesh lists only groups in use. -/
theorem C130_nothing_dropped {R : V3 ℝ → V3 ℝ → Prop} {vtk : VtkOracle ℝ} (ho : AppendsAll vtk.order)
    (hc : Cleans R vtk.clean) (rot : V3 ℝ → ℝ → V3 ℝ → V3 ℝ → V3 ℝ) {w : ColumnNumbers} {x1 y1 z1 x2 y2 z2 : ℝ}
    (hb : w.below = [x1, y1, z1]) (ha : w.above = [x2, y2, z2]) (hneg : negated w.name = false) {mesh : Surf ℝ UTopo}
    (hmesh : StackSurf mesh) {codes : List Int} {table : Dict String Int} {label : ℕ → String}
    (hg : Grouped mesh codes table label) (hnew : ∀ c < codes.length, label c ≠ w.name)
    (hnone : ∀ c < codes.length, label c ∉ w.dropped) : wellColumn vtk rot w mesh = .error .keyError := by
  by_cases hdrop : ∀ s ∈ w.dropped, ∃ v, (s, v) ∈ table
  swap
  · have : ∀ names : List String, (¬ ∀ s ∈ names, ∃ v, (s, v) ∈ table) → droppedCodes table names = .error .keyError := by
      intro names
      induction names with
      | nil => intro h; exact absurd (by simp) h
      | cons s rest ih =>
        intro h
        simp only [droppedCodes]
        cases hs : Dict.get? table s with
        | none => rfl
        | some v =>
          have : droppedCodes table rest = .error .keyError := by
            apply ih
            intro hr
            apply h
            intro s' hs'
            rcases List.mem_cons.1 hs' with rfl | hs'
            · exact ⟨v, Dict.get?_mem hs⟩
            · exact hr s' hs'
          simp only [this]
    simp only [wellColumn, inactiveMask, hg.tab, hg.code, this _ hdrop]
  obtain ⟨mask, m1, m2, m3⟩ := inactiveMask_ok (names := w.dropped) hg.code hg.tab hg.inj hg.named hdrop
  obtain ⟨ex, M, T, e1, e2, ts1, ts2, pos, node, name1, name2, r1, r2, l1, l2, hL⟩ :=
    column_extruded ho hc rot hb ha hneg hmesh hg m2
  obtain ⟨layers, columns, items, groups, d1, d2, d3, d4, d5, d6, d7⟩ := hL.data
  have hT : InjTable T := hL.dense.inj
  have hno : Dict.get? T w.name = none := by
    cases hget : Dict.get? T w.name with
    | none => rfl
    | some v =>
      exfalso
      have hm := Dict.get?_mem hget
      obtain ⟨i, hi⟩ := List.mem_iff_getElem?.1 (d6 _ hm)
      obtain ⟨L, c, k1, k2, rfl⟩ := hL.cover i (by rw [← d5]; exact (List.getElem?_eq_some_iff.1 hi).1)
      have hcc : c < codes.length := by rw [hg.size]; exact k2
      have key : ∃ name, (name : ℕ → String) c = label c ∧ CellNamed T groups.vals (pos L c) (name c) := by
        simp only [List.map_cons, List.map_nil, List.sum_cons, List.sum_nil, Nat.add_zero] at k1
        by_cases hl : L < ts1.length - 1
        · have := (d7 0 ts1 name1 rfl rfl c L k2 hl).2.2.2
          simp only [layersIn, List.take_zero, List.map_nil, List.sum_nil, Nat.zero_add] at this
          exact ⟨name1, l1 c hcc, this⟩
        · have := (d7 1 ts2 name2 rfl rfl c (L - (ts1.length - 1)) k2 (by omega)).2.2.2
          simp only [layersIn, List.take_succ_cons, List.take_zero, List.map_cons, List.map_nil, List.sum_cons, List.sum_nil,
            Nat.add_zero] at this
          rw [show ts1.length - 1 + (L - (ts1.length - 1)) = L by omega] at this
          refine ⟨name2, ?_, this⟩
          rw [l2 c hcc, if_neg (fun h => hnone c hcc ((m3 c hcc).1 h))]
      obtain ⟨name, n1, x, n2, n3⟩ := key
      rw [hi] at n2
      cases n2
      have := congrArg Prod.fst (List.inj_on_of_nodup_map hT.2 n3 hm rfl)
      exact hnew c hcc (by rw [← n1]; exact this)
  simp only [wellColumn, m1, e1, e2, takeOut, hno]

theorem count_four {α : Type _} [BEq α] [LawfulBEq α] {a b c d : α} (hab : a ≠ b) (hac : a ≠ c) (had : a ≠ d) (hbc : b ≠ c)
    (hbd : b ≠ d) (hcd : c ≠ d) : ∀ l : List α, l.count a + l.count b + l.count c + l.count d +
      l.countP (fun x => !(x == a) && (!(x == b) && (!(x == c) && !(x == d)))) = l.length
  | [] => rfl
  | x :: l => by
    have ih := count_four hab hac had hbc hbd hcd l
    simp only [List.count_cons, List.countP_cons, List.length_cons, beq_iff_eq]
    by_cases h1 : x = a
    · subst h1; simp [hab, hac, had]; omega
    by_cases h2 : x = b
    · subst h2; simp [h1, hbc, hbd]; omega
    by_cases h3 : x = c
    · subst h3; simp [h1, h2, hcd]; omega
    by_cases h4 : x = d
    · subst h4; simp [h1, h2, h3]; omega
    · simp [h1, h2, h3, h4]; omega

/-- **C130 (load_well_3d).** On any mesh of the 704 cells of `load_well_2d` with their groups, `load_well_3d` succeeds: ten
layers of the whole mesh from depth 30 up to 0, and three layers of the core and casing from there up to 3; 7328 cells, of
which 832 in Core, 416 in Casing, 1280 in Cement and 4800 in Matrix. -/
theorem C130_load_well_3d {R : V3 ℝ → V3 ℝ → Prop} {vtk : VtkOracle ℝ} (ho : AppendsAll vtk.order)
    (hc : Cleans R vtk.clean) (rot : V3 ℝ → ℝ → V3 ℝ → V3 ℝ → V3 ℝ) {δ : Type _} [OfNat δ 0] [OfNat δ 32] (area : Arr3 (V3 ℝ) → List ℝ)
    {append : List (List (V3 ℝ) × Int) → List (List (V3 ℝ) × Int) → List (List (V3 ℝ) × Int)}
    (happ : ∀ a b, (append a b).Perm (a ++ b)) :
    ∃ out table, loadWell2d δ area append = .ok (out, table) ∧
      ∀ mesh : Surf ℝ UTopo, StackSurf mesh → groupCodes mesh.topo.cellData = some (out.map Prod.snd) →
        mesh.topo.cells.length = out.length → mesh.topo.table = some table →
        ∃ C pos node label, wellColumn vtk rot columnNumbers mesh = .ok C ∧
          (∀ c < out.length, CellNamed table (out.map Prod.snd) c (label c)) ∧
          ColumnOver R (mesh.points.map fun p => ![p 0, p 1, -30]) mesh.topo.cells ![0, 0, 30] ![0, 0, 3] 10 3
            (fun c => label c = "Cement" ∨ label c = "Matrix") label C pos node ∧
          C.kept.length = 7328 ∧
          (C.groups.map (nameOf C.table)).count (some "Core") = 832 ∧
          (C.groups.map (nameOf C.table)).count (some "Casing") = 416 ∧
          (C.groups.map (nameOf C.table)).count (some "Cement") = 1280 ∧
          (C.groups.map (nameOf C.table)).count (some "Matrix") = 4800 := by
  obtain ⟨_, out, table, h1, h2, h3, h4, c1, c2, c3, c4⟩ := C127_load_well (δ := δ) area happ
  refine ⟨out, table, h1, fun mesh hmesh hcodes hcells htab => ?_⟩
  have hfour := count_four (a := some "Core") (b := some "Casing") (c := some "Cement") (d := some "Matrix") (by decide)
    (by decide) (by decide) (by decide) (by decide) (by decide) (out.map fun gc => nameOf table gc.2)
  rw [c1, c2, c3, c4, List.length_map, h4] at hfour
  have hzero := List.countP_eq_zero.1 (Nat.add_eq_left.1 hfour)
  have hname : ∀ gc ∈ out, ∃ s, nameOf table gc.2 = some s ∧ s ∈ ["Core", "Casing", "Cement", "Matrix"] := by
    intro gc hgc
    have := hzero _ (List.mem_map_of_mem (f := fun gc : List (V3 ℝ) × Int => nameOf table gc.2) hgc)
    simp only [Bool.and_eq_true, Bool.not_eq_true', beq_eq_false_iff_ne] at this
    by_cases a1 : nameOf table gc.2 = some "Core"
    · exact ⟨_, a1, by simp⟩
    by_cases a2 : nameOf table gc.2 = some "Casing"
    · exact ⟨_, a2, by simp⟩
    by_cases a3 : nameOf table gc.2 = some "Cement"
    · exact ⟨_, a3, by simp⟩
    by_cases a4 : nameOf table gc.2 = some "Matrix"
    · exact ⟨_, a4, by simp⟩
    · exact absurd ⟨a1, a2, a3, a4⟩ this
  set label : ℕ → String := fun c => ((out[c]?).bind fun gc => nameOf table gc.2).getD "" with hlabel
  have hlab : ∀ c < out.length, ∃ gc, out[c]? = some gc ∧ nameOf table gc.2 = some (label c) ∧
      label c ∈ ["Core", "Casing", "Cement", "Matrix"] := by
    intro c hcl
    obtain ⟨gc, hgc⟩ : ∃ gc, out[c]? = some gc := ⟨_, List.getElem?_eq_getElem hcl⟩
    obtain ⟨s, s1, s2⟩ := hname gc (List.mem_of_getElem? hgc)
    have : label c = s := by simp [hlabel, hgc, s1]
    exact ⟨gc, hgc, by rw [this]; exact s1, by rw [this]; exact s2⟩
  have hnamed : ∀ c < out.length, CellNamed table (out.map Prod.snd) c (label c) := by
    intro c hcl
    obtain ⟨gc, g1, g2, _⟩ := hlab c hcl
    exact ⟨gc.2, by rw [List.getElem?_map, g1]; rfl, (nameOf_inj h2.inj).1 g2⟩
  have hcount : ∀ s, ((List.range out.length).map label).count s = (out.map fun gc => nameOf table gc.2).count (some s) := by
    intro s
    have : (out.map fun gc => nameOf table gc.2) = ((List.range out.length).map label).map some := by
      refine List.ext_getElem? fun i => ?_
      rw [List.getElem?_map, List.getElem?_map, List.getElem?_map]
      by_cases hi : i < out.length
      · obtain ⟨gc, g1, g2, _⟩ := hlab i hi
        rw [g1, List.getElem?_range hi]
        simp [g2]
      · rw [List.getElem?_eq_none (by omega), List.getElem?_eq_none (by simp; omega)]
        rfl
    rw [this, List.count_map_of_injective _ _ (Option.some_injective _)]
  have hg : Grouped mesh (out.map Prod.snd) table label :=
    ⟨hcodes, by rw [List.length_map, hcells], htab, h2.inj, by rw [List.length_map]; exact hnamed⟩
  have hin : ∀ s ∈ ["Core", "Casing", "Cement", "Matrix"], ∃ v, (s, v) ∈ table := by
    intro s hs
    obtain ⟨⟨s', v⟩, hv, rfl⟩ := List.mem_map.1 (h3.mem_iff.2 hs)
    exact ⟨v, hv⟩
  obtain ⟨C, pos, node, k1, k2⟩ := C130_column ho hc rot (w := columnNumbers) rfl rfl (by decide) hmesh hg
    (by
      intro s hs
      simp only [columnNumbers, List.mem_cons, List.not_mem_nil, or_false] at hs
      rcases hs with rfl | rfl <;> exact hin _ (by simp))
    (by
      intro c hcl
      rw [List.length_map] at hcl
      obtain ⟨_, _, _, g3⟩ := hlab c hcl
      simp only [List.mem_cons, List.not_mem_nil, or_false] at g3
      simp only [columnNumbers]
      rcases g3 with g | g | g | g <;> rw [g] <;> decide)
    (by
      have : 0 < ((List.range out.length).map label).count "Matrix" := by rw [hcount, c4]; omega
      obtain ⟨c, hcl, hcm⟩ := List.mem_map.1 (List.count_pos_iff.1 this)
      exact ⟨c, by simpa using hcl, by rw [hcm]; simp [columnNumbers]⟩)
  have k3 := column_counts k2
  have e1 : (max 1 columnNumbers.layersBelow).toNat = 10 := rfl
  have e2 : (max 1 columnNumbers.layersAbove).toNat = 3 := rfl
  rw [e1, e2] at k2 k3
  have e3 : (fun c => label c ∈ columnNumbers.dropped) = fun c => label c = "Cement" ∨ label c = "Matrix" := by
    funext c
    simp [columnNumbers]
  rw [e3] at k2
  obtain ⟨k3, k4⟩ := k3
  rw [hcells] at k3 k4
  have d1 := k4 "Core"
  have d2 := k4 "Casing"
  have d3 := k4 "Cement"
  have d4 := k4 "Matrix"
  rw [hcount] at d1 d2 d3 d4
  rw [c1] at d1
  rw [c2] at d2
  rw [c3] at d3
  rw [c4] at d4
  simp only [columnNumbers, List.mem_cons, List.not_mem_nil, or_false] at d1 d2 d3 d4
  refine ⟨C, pos, node, label, k1, hnamed, k2, ?_, by simpa using d1, by simpa using d2, by simpa using d3, by simpa using d4⟩
  have hact : ((List.range out.length).filter fun c => decide (label c ∉ columnNumbers.dropped)).length = 96 := by
    have : ((List.range out.length).filter fun c => decide (label c ∉ columnNumbers.dropped)).length =
        ((List.range out.length).map label).count "Core" + ((List.range out.length).map label).count "Casing" := by
      rw [← List.countP_eq_length_filter, List.count, List.count, List.countP_map, List.countP_map]
      have : ∀ l : List ℕ, (∀ c ∈ l, label c ∈ ["Core", "Casing", "Cement", "Matrix"]) →
          l.countP (fun c => decide (label c ∉ columnNumbers.dropped)) =
            l.countP ((fun x => x == "Core") ∘ label) + l.countP ((fun x => x == "Casing") ∘ label) := by
        intro l
        induction l with
        | nil => intro _; rfl
        | cons c l ih =>
          intro hl
          rw [List.countP_cons, List.countP_cons, List.countP_cons, ih (fun c hc => hl c (List.mem_cons_of_mem _ hc))]
          have := hl c (by simp)
          simp only [List.mem_cons, List.not_mem_nil, or_false] at this
          have hdr : columnNumbers.dropped = ["Cement", "Matrix"] := rfl
          simp only [Function.comp_apply]
          rcases this with g | g | g | g <;> simp [g, hdr] <;> omega
      refine this _ ?_
      intro c hcl
      exact (hlab c (List.mem_range.1 hcl)).choose_spec.2.2
    rw [this, hcount, hcount, c1, c2]
  rw [k3, hact, h4]

/-- The groups of the kite. -/
theorem kiteXY_grouped : Grouped kiteXY [0, 1] [("A", 0), ("B", 1)] (fun c => if c = 0 then "A" else "B") := by
  refine ⟨rfl, rfl, rfl, ⟨by decide, by decide⟩, ?_⟩
  intro c hc
  have : c = 0 ∨ c = 1 := by simp at hc; omega
  rcases this with rfl | rfl
  · exact ⟨0, rfl, by simp⟩
  · exact ⟨1, rfl, by simp⟩

/-- The column over the kite whose group `B` stops halfway. -/
noncomputable def kiteColumn (dropped : List String) : ColumnNumbers := ⟨-1, [0, 0, 1], 2, [1, 0, 2], 3, dropped, "Inactive"⟩

/-- Concrete case of C130: 2 layers of both cells, 3 of the triangle. -/
example (rot : V3 ℝ → ℝ → V3 ℝ → V3 ℝ → V3 ℝ) :
    ∃ C, wellColumn exactVtk rot (kiteColumn ["B"]) kiteXY = .ok C ∧ C.kept.length = 7 := by
  obtain ⟨C, pos, node, h1, h2⟩ := C130_column exactVtk_ok.1 exactVtk_ok.2 rot (w := kiteColumn ["B"]) rfl rfl (by decide)
    kiteXY_ok kiteXY_grouped (by intro s hs; simp [kiteColumn] at hs; subst hs; exact ⟨1, by simp⟩)
    (by intro c _; simp only [kiteColumn]; split <;> decide) ⟨1, by decide, by simp [kiteColumn]⟩
  refine ⟨C, h1, ?_⟩
  rw [(column_counts h2).1]
  rfl

/-- Concrete case of C130, nothing to drop. -/
example (rot : V3 ℝ → ℝ → V3 ℝ → V3 ℝ → V3 ℝ) :
    wellColumn exactVtk rot (kiteColumn ["C"]) kiteXY = .error .keyError :=
  C130_nothing_dropped exactVtk_ok.1 exactVtk_ok.2 rot (w := kiteColumn ["C"]) rfl rfl (by decide)
    kiteXY_ok kiteXY_grouped (by intro c _; simp only [kiteColumn]; split <;> decide)
    (by intro c _; simp only [kiteColumn]; split <;> decide)

/-- The same with a group to drop that is in the table, but in no cell. -/
example (rot : V3 ℝ → ℝ → V3 ℝ → V3 ℝ → V3 ℝ) :
    wellColumn exactVtk rot (kiteColumn ["C"])
      ⟨kiteXY.points, { kiteXY.topo with table := some [("A", 0), ("B", 1), ("C", 2)] }⟩ = .error .keyError :=
  C130_nothing_dropped exactVtk_ok.1 exactVtk_ok.2 rot (w := kiteColumn ["C"]) (codes := [0, 1])
    (table := [("A", 0), ("B", 1), ("C", 2)]) (label := fun c => if c = 0 then "A" else "B") rfl rfl (by decide)
    ⟨kiteXY_ok.some, kiteXY_ok.ids, kiteXY_ok.types, kiteXY_ok.polygons, kiteXY_ok.pd, kiteXY_ok.cd⟩
    ⟨rfl, rfl, rfl, ⟨by decide, by decide⟩, by
      intro c hc
      have : c = 0 ∨ c = 1 := by simp at hc; omega
      rcases this with rfl | rfl
      · exact ⟨0, rfl, by simp⟩
      · exact ⟨1, rfl, by simp⟩⟩
    (by intro c _; simp only [kiteColumn]; split <;> decide)
    (by intro c _; simp only [kiteColumn]; split <;> decide)

end Gridder
