import Verif.Props.StackHidden

/-!
# C97, C98: exactly when the layers and columns of a generated mesh are right
-/

namespace Gridder
open Spec

namespace Spec

/-- The cells of item `k` carry the layer they lie in. -/
def LayersRight (d : Fin 3 → ℕ) (axis : Fin 3) (subs : List (List ℝ)) (M : SGrid ℝ ℤ) (k : ℕ) : Prop :=
  ∃ layers, Dict.get? M.cellData "LayerId" = some layers ∧ ∀ ts, subs[k]? = some ts → ∀ i s, InShape (cells d) i →
    s < ts.length - 1 →
      layers.vals[vtkId (cells M.nodes.d) (Function.update i axis (layersIn subs k + s))]? =
        some ((layersIn subs k + s : ℕ) : ℤ)

/-- The cells of item `k` carry the base cell they lie over. -/
def ColumnsRight (d : Fin 3 → ℕ) (axis : Fin 3) (subs : List (List ℝ)) (M : SGrid ℝ ℤ) (k : ℕ) : Prop :=
  ∃ columns, Dict.get? M.cellData "ColumnId" = some columns ∧ ∀ ts, subs[k]? = some ts → ∀ i s, InShape (cells d) i →
    s < ts.length - 1 →
      columns.vals[vtkId (cells M.nodes.d) (Function.update i axis (layersIn subs k + s))]? =
        some (vtkId (cells d) i : ℤ)

end Spec

/-- If VTK does not list the cells layer by layer, the cell of the second layer over the first base cell is listed among
those of the first layer. -/
theorem slabId_second {d : Ix} {axis : Fin 3} (hd : d axis = 1) (hpos : ∀ ax, 1 ≤ d ax) {ts : List ℝ} (hts : 2 ≤ ts.length)
    (h : ¬ LayerMajor d axis ts) :
    InShape (cells d) (fun _ => 0) ∧ 1 < ts.length - 1 ∧ 0 < slabId d axis ts (fun _ => 0) 1 ∧
      slabId d axis ts (fun _ => 0) 1 < count (cells d) := by
  simp only [LayerMajor, not_or, not_and, not_le] at h
  obtain ⟨h2, h1, hc, hl⟩ := h
  have hcell : ∀ ax, 0 < cells d ax := by
    intro ax
    simp only [cells]
    have := hpos ax
    split <;> omega
  have p0 := hcell 0; have p1 := hcell 1; have p2 := hcell 2
  refine ⟨fun ax => hcell ax, by omega, ?_, ?_⟩
  · fin_cases axis
    · simp [slabId, vtkId, Function.update]
    · simp [slabId, vtkId, Function.update]; omega
    · exact absurd rfl h2
  · have hcp : 0 < count (cells d) := by unfold count; positivity
    fin_cases axis
    · simp [slabId, vtkId, Function.update]; omega
    · have := h1 rfl
      have c1 : cells d 1 = 1 := cells_axis hd
      have c2 : 2 ≤ cells d 2 := by simp only [cells]; split <;> omega
      have : slabId d 1 ts (fun _ => 0) 1 = cells d 0 := by simp [slabId, vtkId, Function.update]
      change slabId d 1 ts (fun _ => 0) 1 < _
      rw [this]
      simp only [count, c1]
      nlinarith
    · exact absurd rfl h2

theorem layered_labels_iff {src : List ℝ → Ix → ℕ → ℕ} {volume : Arr3 (V3 ℝ) → List ℝ} {base : Dict String (DArr ℤ)} {key : String} {d : Ix} {axis : Fin 3}
    (hd : d axis = 1) (hpos : ∀ ax, 1 ≤ d ax) {surfs : List (List (V3 ℝ))} {subs : List (List ℝ)} {names : List (ℕ → String)}
    {M : SGrid ℝ ℤ} {table : List (String × Int)} (h : LayeredBy src volume base key d axis surfs subs names M table)
    {k : ℕ} {ts : List ℝ} (hk : subs[k]? = some ts) (hts : 2 ≤ ts.length) :
    (LayersRight d axis subs M k ↔ LayerMajor d axis ts) ∧ (ColumnsRight d axis subs M k ↔ LayerMajor d axis ts) := by
  obtain ⟨layers, columns, _, _, h1, h2, _⟩ := h.data
  have ho := h.order layers columns h1 h2 k ts hk
  refine ⟨⟨?_, ?_⟩, ⟨?_, ?_⟩⟩
  · rintro ⟨layers', e1, e2⟩
    rw [h1] at e1; cases e1
    by_contra hn
    obtain ⟨g1, g2, g3, g4⟩ := slabId_second hd hpos hts hn
    have := (ho _ 1 g1 g2).1
    rw [e2 ts hk _ 1 g1 g2, Nat.div_eq_of_lt g4] at this
    simp at this
  · intro hm
    refine ⟨layers, h1, ?_⟩
    intro ts' hts' i s hi hs
    rw [hk] at hts'; cases hts'
    have := (ho i s hi hs).1
    rwa [(slabId_layerMajor hd hpos hts hm hi hs).1] at this
  · rintro ⟨columns', e1, e2⟩
    rw [h2] at e1; cases e1
    by_contra hn
    obtain ⟨g1, g2, g3, g4⟩ := slabId_second hd hpos hts hn
    have := (ho _ 1 g1 g2).2
    rw [e2 ts hk _ 1 g1 g2, Nat.mod_eq_of_lt g4] at this
    have h0 : vtkId (cells d) (fun _ => 0) = 0 := by simp [vtkId]
    rw [h0] at this
    simp at this
    omega
  · intro hm
    refine ⟨columns, h2, ?_⟩
    intro ts' hts' i s hi hs
    rw [hk] at hts'; cases hts'
    have := (ho i s hi hs).2
    rwa [(slabId_layerMajor hd hpos hts hm hi hs).2] at this

theorem stacked_labels_iff {src : List ℝ → Ix → ℕ → ℕ} {volume : Arr3 (V3 ℝ) → List ℝ} {base : Dict String (DArr ℤ)} {ignore : List String} {dflt : String}
    {d : Fin 3 → ℕ} {axis : Fin 3} (hd : d axis = 1) (hpos : ∀ ax, 1 ≤ d ax) {codes : Option (List Int)}
    {tbl : Option (List (String × Int))} {args : List ((Resolution ℝ × Option String) × GroupArg)} {key : String}
    {surfs : List (List (Fin 3 → ℝ))} {M : SGrid ℝ ℤ} {table : List (String × Int)}
    (h : StackedMeshBy src volume base ignore dflt d axis codes tbl args key surfs M table)
    (hts : ∀ x ∈ args, ∃ ts, resolutionToPerc x.1.1 x.1.2 = .ok ts ∧ fromZeroToOne ts) :
    ∃ subs, subs.length = args.length ∧ ∀ (k : ℕ) x, args[k]? = some x → ∃ ts, resolutionToPerc x.1.1 x.1.2 = .ok ts ∧
      subs[k]? = some ts ∧
      (LayersRight d axis subs M k ↔ axis = 2 ∨ (axis = 1 ∧ d 2 ≤ 2) ∨ count (cells d) = 1 ∨ ts.length = 2) ∧
      (ColumnsRight d axis subs M k ↔ axis = 2 ∨ (axis = 1 ∧ d 2 ≤ 2) ∨ count (cells d) = 1 ∨ ts.length = 2) := by
  obtain ⟨subs, names, h1, h2, h3, h4⟩ := h
  refine ⟨subs, h1, ?_⟩
  intro k x hx
  obtain ⟨ts, _, t1, t2, _⟩ := h3 k x hx
  obtain ⟨ts', r1, r2⟩ := hts x (List.mem_of_getElem? hx)
  rw [t1] at r1
  obtain rfl := Except.ok.inj r1
  exact ⟨ts, t1, t2, layered_labels_iff hd hpos h4 t2 r2.1⟩

theorem flat_pos {d : Ix} {axis : Fin 3} (hd : FlatAlong d axis) (ax : Fin 3) : 1 ≤ d ax := by
  by_cases hax : ax = axis
  · rw [hax, hd.1]
  · have := hd.2 ax hax; omega

/-- **C96 (exact).** The cells of an item of a 2D stack carry the layer they lie in exactly when they carry the segment of the
line they lie over, namely when the stacking axis is not 0, or the line has one segment, or the item one sublayer. -/
theorem C96_labels_iff (area : Arr3 (V3 ℝ) → List ℝ) (harea : ∀ x, (area x).length = count (cells x.d))
    (ignore : List String) (dflt : String) (o : InterpOracle ℝ) (n : ℕ) (mesh : Surf ℝ LineTopo)
    (hmesh : StackLine n mesh) (axis : Fin 3) (bottomUp : Bool)
    (adds : List (AddArg ℝ × Rest ℝ (Opts (Resolution ℝ × Option String)))) (hadds : 2 ≤ adds.length)
    (hres : ∀ x ∈ itemArgs adds, ∃ ts, resolutionToPerc x.1.1 x.1.2 = .ok ts ∧ fromZeroToOne ts)
    (s : Stack ℝ LineTopo (Opts (Resolution ℝ × Option String)))
    (hs : (Stack.new mesh axis bottomUp).run o (adds.map addCall) = .ok s)
    (M : SGrid ℝ ℤ) (table : List (String × Int)) (s' : Stack ℝ LineTopo (Opts (Resolution ℝ × Option String)))
    (h : stack2D area ignore dflt s = .ok ((M, table), s')) :
    ∃ subs, subs.length = (itemArgs adds).length ∧ ∀ (k : ℕ) x, (itemArgs adds)[k]? = some x →
      ∃ ts, resolutionToPerc x.1.1 x.1.2 = .ok ts ∧ subs[k]? = some ts ∧
      (LayersRight (planeShape (stackPlane axis) n 1) axis subs M k ↔ axis ≠ 0 ∨ n = 2 ∨ ts.length = 2) ∧
      (ColumnsRight (planeShape (stackPlane axis) n 1) axis subs M k ↔ axis ≠ 0 ∨ n = 2 ∨ ts.length = 2) := by
  have hn2 : 2 ≤ n := by rw [← hmesh.size]; exact hmesh.clean.size
  obtain ⟨subs, h1, h2⟩ := stacked_labels_iff (stackPlane_one axis n) (planeShape_pos axis (by omega))
    ((C96_stack2d_by_position area harea ignore dflt o n mesh hmesh axis bottomUp adds hadds hres s hs).2 M table s'
      h).2.2 hres
  refine ⟨subs, h1, ?_⟩
  intro k x hx
  obtain ⟨ts, t1, t2, t3, t4⟩ := h2 k x hx
  have hcell1 : cells (planeShape (stackPlane axis) n 1) = planeShape (stackPlane axis) (n - 1) 1 := by
    funext ax
    fin_cases axis <;> fin_cases ax <;> simp [stackPlane, planeShape, lineAxis, subdivisionAxis, cells] <;> omega
  have hcount : count (cells (planeShape (stackPlane axis) n 1)) = n - 1 := by
    rw [hcell1, count_planeShape (stackPlane_is axis), Nat.mul_one]
  have e : (axis = 2 ∨ (axis = 1 ∧ planeShape (stackPlane axis) n 1 2 ≤ 2) ∨
      count (cells (planeShape (stackPlane axis) n 1)) = 1 ∨ ts.length = 2) ↔ axis ≠ 0 ∨ n = 2 ∨ ts.length = 2 := by
    rw [hcount]
    have hc : n - 1 = 1 ↔ n = 2 := by omega
    rw [hc]
    fin_cases axis <;> simp [stackPlane, planeShape, lineAxis, subdivisionAxis]
  exact ⟨ts, t1, t2, t3.trans e, t4.trans e⟩

/-- **C97 (exact).** The cells of an item of a 3D stack on a structured surface carry the layer they lie in exactly when
they carry the base cell they lie over, namely when the stacking axis is 2, or 1 with a surface of one row of cells, or the
surface has one cell, or the item one sublayer. -/
theorem C97_labels_iff (volume : Arr3 (V3 ℝ) → List ℝ) (hvol : ∀ x, (volume x).length = count (cells x.d))
    (ignore : List String) (dflt : String) (o : InterpOracle ℝ) (d : Fin 3 → ℕ) (mesh : Surf ℝ GridTopo)
    (hmesh : StackGrid d mesh) (axis : Fin 3) (hd : FlatAlong d axis) (bottomUp : Bool)
    (adds : List (AddArg ℝ × Rest ℝ (Opts (Resolution ℝ × Option String)))) (hadds : 2 ≤ adds.length)
    (hres : ∀ x ∈ itemArgs adds, ∃ ts, resolutionToPerc x.1.1 x.1.2 = .ok ts ∧ fromZeroToOne ts)
    (s : Stack ℝ GridTopo (Opts (Resolution ℝ × Option String)))
    (hs : (Stack.new mesh axis bottomUp).run o (adds.map addCall) = .ok s)
    (M : SGrid ℝ ℤ) (table : List (String × Int)) (s' : Stack ℝ GridTopo (Opts (Resolution ℝ × Option String)))
    (h : stack3D volume ignore dflt s = .ok ((M, table), s')) :
    ∃ subs, subs.length = (itemArgs adds).length ∧ ∀ (k : ℕ) x, (itemArgs adds)[k]? = some x →
      ∃ ts, resolutionToPerc x.1.1 x.1.2 = .ok ts ∧ subs[k]? = some ts ∧
      (LayersRight d axis subs M k ↔ axis = 2 ∨ (axis = 1 ∧ d 2 ≤ 2) ∨ count (cells d) = 1 ∨ ts.length = 2) ∧
      (ColumnsRight d axis subs M k ↔ axis = 2 ∨ (axis = 1 ∧ d 2 ≤ 2) ∨ count (cells d) = 1 ∨ ts.length = 2) :=
  stacked_labels_iff hd.1 (flat_pos hd) ((C97_stack3d_partial volume hvol ignore dflt o d mesh hmesh axis hd bottomUp adds hadds hres s
    hs).2 M table s' h).2.2 hres

/-- **C98 (exact).** The same for an extrusion of a structured surface that is flat along `axis`. -/
theorem C98_labels_iff (volume : Arr3 (V3 ℝ) → List ℝ) (hvol : ∀ x, (volume x).length = count (cells x.d))
    (rot : V3 ℝ → ℝ → V3 ℝ → V3 ℝ → V3 ℝ) (ignore : List String) (dflt : String) (d : Fin 3 → ℕ)
    (mesh : Surf ℝ GridTopo) (hmesh : StackGrid d mesh) (axis : Fin 3) (hd : FlatAlong d axis)
    (scale angle : Option ℝ) (args : List (ExtrArgs ℝ (Opts (Resolution ℝ × Option String)))) (hargs : args ≠ [])
    (hres : ∀ x ∈ args, ∃ ts, resolutionToPerc x.opts.sub.1 x.opts.sub.2 = .ok ts ∧ fromZeroToOne ts)
    (e : Extr ℝ GridTopo (Opts (Resolution ℝ × Option String)))
    (he : (Extr.new mesh scale angle).run rot args = .ok e)
    (M : SGrid ℝ ℤ) (table : List (String × Int)) (h : extrudeS volume ignore dflt e = .ok (M, table)) :
    ∃ subs, subs.length = args.length ∧ ∀ (k : ℕ) a, args[k]? = some a →
      ∃ ts, resolutionToPerc a.opts.sub.1 a.opts.sub.2 = .ok ts ∧ subs[k]? = some ts ∧
      (LayersRight d axis subs M k ↔ axis = 2 ∨ (axis = 1 ∧ d 2 ≤ 2) ∨ count (cells d) = 1 ∨ ts.length = 2) ∧
      (ColumnsRight d axis subs M k ↔ axis = 2 ∨ (axis = 1 ∧ d 2 ≤ 2) ∨ count (cells d) = 1 ∨ ts.length = 2) := by
  obtain ⟨subs, h1, h2⟩ := stacked_labels_iff hd.1 (flat_pos hd)
    ((C98_extrude_partial volume hvol rot ignore dflt d mesh hmesh axis hd scale angle args hargs hres e he).2 M table h)
    (by
      intro x hx
      obtain ⟨a, ha, rfl⟩ := List.mem_map.1 hx
      exact hres a ha)
  refine ⟨subs, by simpa using h1, ?_⟩
  intro k a ha
  exact h2 k (a.opts.sub, a.opts.group) (by simp [ha])

/-- A structured surface of 3 x 3 nodes in the xz-plane, of shape (3, 1, 3). -/
def squareXZ : Surf ℝ GridTopo :=
  ⟨[![0, 0, 0], ![1, 0, 0], ![2, 0, 0], ![0, 0, 1], ![1, 0, 1], ![2, 0, 1], ![0, 0, 2], ![1, 0, 2], ![2, 0, 2]],
    ![3, 1, 3], [], [], none⟩

theorem squareXZ_ok : StackGrid ![3, 1, 3] squareXZ := by
  refine ⟨rfl, rfl, by simp [squareXZ, Arrays], ⟨?_, by simp [squareXZ]⟩, by simp [squareXZ]⟩
  intro kv hkv
  simp [squareXZ] at hkv

/-- The square in the xz-plane extruded along y, in two sublayers and then in one. -/
def alongY : List (ExtrArgs ℝ (Opts (Resolution ℝ × Option String))) :=
  [⟨1, [0, 1, 0], none, none, ⟨(.int 2, none), .none⟩⟩, ⟨1, [0, 1, 0], none, none, ⟨(.int 1, none), .none⟩⟩]

/-- Concrete case: the first extrusion gets wrong layers and columns, the second right ones. -/
example (volume : Arr3 (V3 ℝ) → List ℝ) (hvol : ∀ x, (volume x).length = count (cells x.d))
    (rot : V3 ℝ → ℝ → V3 ℝ → V3 ℝ → V3 ℝ) :
    ∃ e M table subs, (Extr.new squareXZ none none).run rot alongY = .ok e ∧
      extrudeS volume [] "default" e = .ok (M, table) ∧ subs.map List.length = [3, 2] ∧
      ¬ LayersRight ![3, 1, 3] 1 subs M 0 ∧ ¬ ColumnsRight ![3, 1, 3] 1 subs M 0 ∧
      LayersRight ![3, 1, 3] 1 subs M 1 ∧ ColumnsRight ![3, 1, 3] 1 subs M 1 := by
  obtain ⟨e, he⟩ : ∃ e, (Extr.new squareXZ none none).run rot alongY = .ok e := ⟨_, rfl⟩
  have key : ∀ (r : ℤ), ∃ ts : List ℝ, resolutionToPerc (.int r) none = .ok ts ∧ fromZeroToOne ts ∧
      ts.length = (max 1 r).toNat + 1 := by
    intro r
    obtain ⟨p, h1, h2, _⟩ := C11_integer_resolution r none (.inl rfl)
    refine ⟨p, h1, ⟨?_, h2.first, ?_⟩, h2.size⟩
    · rw [h2.size]; omega
    · rw [h2.size]; exact h2.last
  have hres : ∀ x ∈ alongY, ∃ ts, resolutionToPerc x.opts.sub.1 x.opts.sub.2 = .ok ts ∧ fromZeroToOne ts := by
    intro x hx
    simp only [alongY, List.mem_cons, List.not_mem_nil, or_false] at hx
    rcases hx with rfl | rfl
    · obtain ⟨ts, h1, h2, _⟩ := key 2; exact ⟨ts, h1, h2⟩
    · obtain ⟨ts, h1, h2, _⟩ := key 1; exact ⟨ts, h1, h2⟩
  obtain ⟨⟨M, table⟩, hR⟩ := (C98_extrude_partial volume hvol rot [] "default" ![3, 1, 3] squareXZ squareXZ_ok 1
    ⟨rfl, by decide⟩ none none alongY (by simp [alongY]) hres e he).1
    (by
      intro x hx
      simp only [alongY, List.mem_cons, List.not_mem_nil, or_false] at hx
      rcases hx with rfl | rfl
      all_goals
        intro kv hkv
        simp [entries] at hkv)
  obtain ⟨subs, h1, h2⟩ := C98_labels_iff volume hvol rot [] "default" ![3, 1, 3] squareXZ squareXZ_ok 1
    ⟨rfl, by decide⟩ none none alongY (by simp [alongY]) hres e he M table hR
  obtain ⟨ts, a1, a2, a3, a4⟩ := h2 0 _ rfl
  obtain ⟨us, b1, b2, b3, b4⟩ := h2 1 _ rfl
  have la : ts.length = 3 := by
    obtain ⟨p, p1, _, p2⟩ := key 2
    obtain rfl : p = ts := Except.ok.inj (p1.symm.trans a1)
    exact p2
  have lb : us.length = 2 := by
    obtain ⟨p, p1, _, p2⟩ := key 1
    obtain rfl : p = us := Except.ok.inj (p1.symm.trans b1)
    exact p2
  have hc : ¬((1 : Fin 3) = 2 ∨ ((1 : Fin 3) = 1 ∧ (![3, 1, 3] : Fin 3 → ℕ) 2 ≤ 2) ∨
      count (cells ![3, 1, 3]) = 1 ∨ ts.length = 2) := by
    rw [la]; decide
  refine ⟨e, M, table, subs, he, hR, ?_, fun h => hc (a3.1 h), fun h => hc (a4.1 h), b3.2 (.inr (.inr (.inr lb))),
    b4.2 (.inr (.inr (.inr lb)))⟩
  match subs, h1, a2, b2 with
  | [x, y], _, a2, b2 =>
    obtain rfl : x = ts := by simpa using a2
    obtain rfl : y = us := by simpa using b2
    simp [la, lb]

end Gridder
