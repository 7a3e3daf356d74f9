import Verif.Props.StackHidden
import Verif.Props.StackU

/-!
# C134: the cell data of the base mesh in the generated mesh
-/

namespace Gridder
open Spec

namespace Spec

/-- Every cell array of the base mesh of shape `d`, but those that the generator writes itself, is a cell array of `M`,
and each cell of `M` has the value of the base cell it lies over. -/
def CarriesData (key : String) (d : Fin 3 → ℕ) (axis : Fin 3) (base : Dict String (DArr ℤ)) (M : SGrid ℝ ℤ) : Prop :=
  ∀ name v, Dict.get? base name = some v → name ∉ ["LayerId", "ColumnId", key, "CellGroup", "vtkGhostType"] →
    ∃ w, Dict.get? M.cellData name = some w ∧ w.vals.length = count (cells M.nodes.d) ∧
      ∀ c, InShape (cells M.nodes.d) c →
        w.vals[vtkId (cells M.nodes.d) c]? = v.vals[vtkId (cells d) (Function.update c axis 0)]?

/-- The same for an unstructured mesh; the base cell of a cell is the one that `ColumnId` gives, of `n` ones. -/
def CarriesDataU (key : String) (n : ℕ) (base : Dict String (DArr ℤ)) (M : UMesh ℝ) : Prop :=
  ∃ columns, Dict.get? M.cellData "ColumnId" = some columns ∧
    ∀ name v, Dict.get? base name = some v → name ∉ ["LayerId", "ColumnId", key, "CellGroup", "vtkGhostType"] →
      ∃ w, Dict.get? M.cellData name = some w ∧
        ∀ i, i < M.cells.length → ∃ c : ℕ, c < n ∧ columns.vals[i]? = some (c : ℤ) ∧ w.vals[i]? = v.vals[c]?

end Spec

theorem stacked_carries {src : List ℝ → (Fin 3 → ℕ) → ℕ → ℕ} {area : Arr3 (V3 ℝ) → List ℝ}
    {ignore : List String} {dflt : String} {d : Fin 3 → ℕ}
    {axis : Fin 3} (hd : d axis = 1) {cd : Dict String (DArr ℤ)} {codes : Option (List Int)}
    {tbl : Option (List (String × Int))} {args : List ((Resolution ℝ × Option String) × GroupArg)} {key : String}
    {surfs : List (List (Fin 3 → ℝ))} {M : SGrid ℝ ℤ} {table : List (String × Int)}
    (h : StackedMeshBy src area cd ignore dflt d axis codes tbl args key surfs M table) (hargs : args ≠ [])
    (hts : ∀ x ∈ args, ∀ ts, resolutionToPerc x.1.1 x.1.2 = .ok ts → 2 ≤ ts.length)
    (hsrc : ∀ x ∈ args, ∀ ts, resolutionToPerc x.1.1 x.1.2 = .ok ts → ∀ i s, InShape (cells d) i → s < ts.length - 1 →
      src ts i s = vtkId (cells d) i) : CarriesData key d axis cd M := by
  obtain ⟨subs, names, h1, h2, h3, h4⟩ := h
  intro name v hv hname
  obtain ⟨w, w1, w2⟩ := h4.carried name v hv hname
  refine ⟨w, w1, h4.arrays.2.1.1 _ (Dict.get?_mem w1), ?_⟩
  intro c hc
  have hpos : 2 ≤ 1 + (subs.map fun ts => ts.length - 1).sum := by
    obtain ⟨x, l, rfl⟩ := List.exists_cons_of_ne_nil hargs
    obtain ⟨ts, _, t1, t2, _⟩ := h3 0 x rfl
    have := hts x (by simp) ts t1
    have := layersIn_le t2
    omega
  have hcM : cells M.nodes.d = Function.update (cells d) axis (subs.map fun ts => ts.length - 1).sum := by
    rw [h4.shape, cells_updateAxis hd hpos]
    congr 1; omega
  obtain ⟨k, ts, s, e1, e2, e3⟩ := exists_part subs (c axis) (by have := hc axis; rw [hcM] at this; simpa using this)
  have hc0 : InShape (cells d) (Function.update c axis 0) := by
    intro ax
    by_cases hax : ax = axis
    · subst hax; simp [cells, hd]
    · have := hc ax; rw [hcM, Function.update_of_ne hax] at this
      simpa [Function.update_of_ne hax] using this
  have hk : k < args.length := by rw [← h1]; exact (List.getElem?_eq_some_iff.1 e1).1
  obtain ⟨ts', _, t1, t2, _⟩ := h3 k _ (List.getElem?_eq_getElem hk)
  rw [e1] at t2; cases t2
  have := w2 k ts e1 _ s hc0 e2
  rw [hsrc _ (List.getElem_mem hk) ts t1 _ s hc0 e2] at this
  rwa [← e3, Function.update_idem, Function.update_eq_self] at this

/-- **C134 (partial).** In a mesh generated by a 2D stack on a line with scalar cell data, along axis 1 or 2 (or with single
sublayers, or on a single segment), every cell array of the line, but those the stack writes itself, is an array of the mesh and
each cell has the value of its segment.
Missing: it is false along axis 0 (`C134_axis0_refuted`) and with vector data (`C134_vector_stack2d_refuted`). -/
theorem C134_stack2d_partial (area : Arr3 (V3 ℝ) → List ℝ) (harea : ∀ x, (area x).length = count (cells x.d))
    (ignore : List String) (dflt : String) (o : InterpOracle ℝ) (n : ℕ) (mesh : Surf ℝ LineTopo)
    (hmesh : StackLine n mesh) (axis : Fin 3) (bottomUp : Bool)
    (adds : List (AddArg ℝ × Rest ℝ (Opts (Resolution ℝ × Option String)))) (hadds : 2 ≤ adds.length)
    (hres : ∀ x ∈ itemArgs adds, ∃ ts, resolutionToPerc x.1.1 x.1.2 = .ok ts ∧ fromZeroToOne ts ∧
      (axis ≠ 0 ∨ ts.length = 2 ∨ n = 2))
    (s : Stack ℝ LineTopo (Opts (Resolution ℝ × Option String)))
    (hs : (Stack.new mesh axis bottomUp).run o (adds.map addCall) = .ok s)
    (M : SGrid ℝ ℤ) (table : List (String × Int)) (s' : Stack ℝ LineTopo (Opts (Resolution ℝ × Option String)))
    (h : stack2D area ignore dflt s = .ok ((M, table), s')) :
    CarriesData "StackItem" (planeShape (stackPlane axis) n 1) axis mesh.topo.cellData M := by
  obtain ⟨_, _, h3⟩ := (C96_stack2d_partial area harea ignore dflt o n mesh hmesh axis bottomUp adds hadds hres s hs).2
    M table s' h
  refine stacked_carries (stackPlane_one axis n) h3 ?_ ?_ (fun _ _ _ _ _ _ _ _ => rfl)
  · intro e
    have := congrArg List.length e
    simp [itemArgs] at this; omega
  · intro x hx ts ht
    obtain ⟨ts', t1, t2, _⟩ := hres x hx
    rw [ht] at t1; cases t1; exact t2.1

/-- **C134 (partial).** The same for a 3D stack on a structured surface, along every axis.
Missing: it is false with vector data (`C134_vector_stack3d_refuted`). -/
theorem C134_stack3d_partial (volume : Arr3 (V3 ℝ) → List ℝ) (hvol : ∀ x, (volume x).length = count (cells x.d))
    (ignore : List String) (dflt : String) (o : InterpOracle ℝ) (d : Fin 3 → ℕ) (mesh : Surf ℝ GridTopo)
    (hmesh : StackGrid d mesh) (axis : Fin 3) (hd : FlatAlong d axis) (bottomUp : Bool)
    (adds : List (AddArg ℝ × Rest ℝ (Opts (Resolution ℝ × Option String)))) (hadds : 2 ≤ adds.length)
    (hres : ∀ x ∈ itemArgs adds, ∃ ts, resolutionToPerc x.1.1 x.1.2 = .ok ts ∧ fromZeroToOne ts)
    (s : Stack ℝ GridTopo (Opts (Resolution ℝ × Option String)))
    (hs : (Stack.new mesh axis bottomUp).run o (adds.map addCall) = .ok s)
    (M : SGrid ℝ ℤ) (table : List (String × Int)) (s' : Stack ℝ GridTopo (Opts (Resolution ℝ × Option String)))
    (h : stack3D volume ignore dflt s = .ok ((M, table), s')) :
    CarriesData "StackItem" d axis mesh.topo.cellData M := by
  obtain ⟨_, _, h3⟩ := (C97_stack3d_partial volume hvol ignore dflt o d mesh hmesh axis hd bottomUp adds hadds hres s
    hs).2 M table s' h
  refine stacked_carries hd.1 h3 ?_ ?_ (fun _ _ _ _ _ _ _ _ => rfl)
  · intro e
    have := congrArg List.length e
    simp [itemArgs] at this; omega
  · intro x hx ts ht
    obtain ⟨ts', t1, t2⟩ := hres x hx
    rw [ht] at t1; cases t1; exact t2.1

/-- **C134 (partial).** The same for an extrusion of a structured surface.
Missing: it is false with vector data (`C134_vector_extrude_refuted`). -/
theorem C134_extrude_partial (volume : Arr3 (V3 ℝ) → List ℝ) (hvol : ∀ x, (volume x).length = count (cells x.d))
    (rot : V3 ℝ → ℝ → V3 ℝ → V3 ℝ → V3 ℝ) (ignore : List String) (dflt : String) (d : Fin 3 → ℕ)
    (mesh : Surf ℝ GridTopo) (hmesh : StackGrid d mesh) (axis : Fin 3) (hd : FlatAlong d axis)
    (scale angle : Option ℝ) (args : List (ExtrArgs ℝ (Opts (Resolution ℝ × Option String)))) (hargs : args ≠ [])
    (hres : ∀ x ∈ args, ∃ ts, resolutionToPerc x.opts.sub.1 x.opts.sub.2 = .ok ts ∧ fromZeroToOne ts)
    (e : Extr ℝ GridTopo (Opts (Resolution ℝ × Option String)))
    (he : (Extr.new mesh scale angle).run rot args = .ok e)
    (M : SGrid ℝ ℤ) (table : List (String × Int)) (h : extrudeS volume ignore dflt e = .ok (M, table)) :
    CarriesData "ExtrudeItem" d axis mesh.topo.cellData M := by
  have h3 := (C98_extrude_partial volume hvol rot ignore dflt d mesh hmesh axis hd scale angle args hargs hres e he).2
    M table h
  refine stacked_carries hd.1 h3 (by simpa using hargs) ?_ (fun _ _ _ _ _ _ _ _ => rfl)
  intro x hx ts ht
  obtain ⟨a, ha, rfl⟩ := List.mem_map.1 hx
  obtain ⟨ts', t1, t2⟩ := hres a ha
  rw [ht] at t1; cases t1; exact t2.1

theorem stackedU_carries {R : V3 ℝ → V3 ℝ → Prop} {flip : Bool} {ignore : List String} {dflt : String}
    {mesh : Surf ℝ UTopo} {args : List ((Resolution ℝ × Option String) × GroupArg)} {key : String}
    {surfs : List (List (V3 ℝ))} {M : UMesh ℝ} {table : List (String × Int)}
    (h : StackedMeshU R flip ignore dflt mesh args key surfs M table) :
    CarriesDataU key mesh.topo.cells.length mesh.topo.cellData M := by
  obtain ⟨subs, names, pos, node, h1, h2, h3, h4⟩ := h
  obtain ⟨layers, columns, items, groups, d1, d2, _, _, d5, _, d7⟩ := h4.data
  refine ⟨columns, d2, ?_⟩
  intro name v hv hname
  obtain ⟨w, w1, w2⟩ := h4.carried name v hv hname
  refine ⟨w, w1, ?_⟩
  intro i hi
  obtain ⟨L, c, hL, hc, rfl⟩ := h4.cover i hi
  obtain ⟨k, ts, s, e1, e2, rfl⟩ := exists_part subs L hL
  have hk : k < names.length := by rw [h2, ← h1]; exact (List.getElem?_eq_some_iff.1 e1).1
  obtain ⟨_, c2, _⟩ := d7 k ts _ e1 (List.getElem?_eq_getElem hk) c s hc e2
  exact ⟨c, hc, c2, w2 k ts e1 c s hc e2⟩

/-- **C134.** A 3D stack on an unstructured surface carries every cell array, vectors too: each cell has the value of
the base cell that `ColumnId` gives. -/
theorem C134_stack3d_unstructured {R : V3 ℝ → V3 ℝ → Prop} {vtk : VtkOracle ℝ} (ho : AppendsAll vtk.order)
    (hc : Cleans R vtk.clean) (invert : Bool) (ignore : List String) (dflt : String) (o : InterpOracle ℝ)
    (mesh : Surf ℝ UTopo) (hmesh : StackSurf mesh) (axis : Fin 3) (bottomUp : Bool)
    (adds : List (AddArg ℝ × Rest ℝ (Opts (Resolution ℝ × Option String)))) (hadds : 2 ≤ adds.length)
    (hres : ∀ x ∈ itemArgs adds, ∃ ts, resolutionToPerc x.1.1 x.1.2 = .ok ts ∧ fromZeroToOne ts)
    (s : Stack ℝ UTopo (Opts (Resolution ℝ × Option String)))
    (hs : (Stack.new mesh axis bottomUp).run o (adds.map addCall) = .ok s)
    (M : UMesh ℝ) (table : List (String × Int)) (s' : Stack ℝ UTopo (Opts (Resolution ℝ × Option String)))
    (h : stack3DU vtk invert ignore dflt s = .ok ((M, table), s')) :
    CarriesDataU "StackItem" mesh.topo.cells.length mesh.topo.cellData M :=
  stackedU_carries ((C97_unstructured_partial ho hc invert ignore dflt o mesh hmesh axis bottomUp adds hadds hres s
    hs).2 M table s' h).2.2

/-- **C134.** The same for an extrusion of an unstructured surface. -/
theorem C134_extrude_unstructured {R : V3 ℝ → V3 ℝ → Prop} {vtk : VtkOracle ℝ} (ho : AppendsAll vtk.order)
    (hc : Cleans R vtk.clean) (rot : V3 ℝ → ℝ → V3 ℝ → V3 ℝ → V3 ℝ) (ignore : List String) (dflt : String)
    (mesh : Surf ℝ UTopo) (hmesh : StackSurf mesh) (scale angle : Option ℝ)
    (args : List (ExtrArgs ℝ (Opts (Resolution ℝ × Option String)))) (hargs : args ≠ [])
    (hres : ∀ x ∈ args, ∃ ts, resolutionToPerc x.opts.sub.1 x.opts.sub.2 = .ok ts ∧ fromZeroToOne ts)
    (e : Extr ℝ UTopo (Opts (Resolution ℝ × Option String)))
    (he : (Extr.new mesh scale angle).run rot args = .ok e)
    (M : UMesh ℝ) (table : List (String × Int)) (h : extrudeU vtk ignore dflt e = .ok (M, table)) :
    CarriesDataU "ExtrudeItem" mesh.topo.cells.length mesh.topo.cellData M :=
  stackedU_carries ((C98_unstructured_partial ho hc rot ignore dflt mesh hmesh scale angle args hargs hres e he).2 M
    table h)

/-! ## vector data -/

theorem labelGrid_others {K : Type _} {key : String} {nA nl i n : ℕ} {p q : SGrid K ℤ}
    (h : labelGrid key nA nl i p = .ok (q, n)) {name : String} (h1 : name ≠ "LayerId") (h2 : name ≠ "ColumnId")
    (h3 : name ≠ key) : Dict.get? q.cellData name = Dict.get? p.cellData name := by
  simp only [labelGrid, setArray] at h
  split at h
  · cases h
  rename_i c1 e1
  split at h
  · cases h
  rename_i c2 e2
  split at h
  · cases h
  rename_i c3 e3
  cases h
  split at e1
  swap
  · cases e1
  split at e2
  swap
  · cases e2
  split at e3
  swap
  · cases e3
  cases e1; cases e2; cases e3
  simp only [Dict.get?_set]
  rw [if_neg (Ne.symm h3), if_neg (Ne.symm h1), if_neg (Ne.symm h2)]

theorem mergeArrays_vector {axis : Fin 3} {da db : Ix} {n : ℕ} {cb : Dict String (DArr ℤ)} {name : String}
    {v vb : DArr ℤ} (hv : v.vector = true) (hb : Dict.get? cb name = some vb) :
    ∀ (l acc out : Dict String (DArr ℤ)), (name, v) ∈ l → mergeArrays axis da db n cb l acc ≠ .ok out
  | [], _, _, h => by simp at h
  | (k, va) :: l, acc, out, h => by
    intro e
    simp only [mergeArrays] at e
    rcases List.mem_cons.1 h with h' | h'
    · cases h'
      simp [hb, mergeArray, hv] at e
    · split at e
      · exact mergeArrays_vector hv hb l acc out h' e
      split at e
      · cases e
      split at e
      · cases e
      exact mergeArrays_vector hv hb l _ out h' e

/-- Two pieces that both have a vector array are not merged. -/
theorem merge2_vector {K : Type _} [Field K] [LinearOrder K] {axis : Fin 3} {a b M : SGrid K ℤ} {name : String}
    {v vb : DArr ℤ} (hv : v.vector = true) (ha : Dict.get? a.cellData name = some v)
    (hb : Dict.get? b.cellData name = some vb) : merge2 axis a b ≠ .ok M := by
  intro e
  simp only [merge2] at e
  split at e
  · cases e
  split at e
  · cases e
  split at e
  · cases e
  split at e
  · cases e
  rename_i h
  exact mergeArrays_vector hv hb _ _ _ (Dict.get?_mem ha) h

section
variable {K τ ρ : Type _} [Field K] [LinearOrder K]

theorem submeshes_cons {kit : Kit K τ ρ} {ignore : List String} {dflt key : String} {a b : GItem K τ ρ}
    {rest : List (GItem K τ ρ)} {groups groups' : Dict String Int} {nl i : ℕ} {qs : List (SGrid K ℤ)}
    (h : submeshes kit ignore dflt key a (b :: rest) groups nl i = .ok (qs, groups')) :
    ∃ o arr g1 p q nsub qs', kit.extrude (kit.withGroup a.1 arr) b.1 o = .ok p ∧
      labelGrid key (kit.labels a.1).nCells nl i p = .ok (q, nsub) ∧
      submeshes kit ignore dflt key b rest g1 (nl + nsub) (i + 1) = .ok (qs', groups') ∧ qs = q :: qs' := by
  simp only [submeshes] at h
  split at h
  · cases h
  rename_i o ho
  split at h
  · cases h
  rename_i arr g1 hinit
  split at h
  · cases h
  rename_i p hp
  split at h
  · cases h
  rename_i q nsub hq
  split at h
  · cases h
  rename_i qs' g2 hrest
  simp only [Except.ok.injEq, Prod.mk.injEq] at h
  obtain ⟨rfl, rfl⟩ := h
  exact ⟨_, _, _, _, _, _, _, hp, hq, hrest, rfl⟩

/-- Meshes of three or more items whose parts have a vector array are not assembled. -/
theorem assemble_vector (kit : Kit K τ ρ) {ignore : List String} {dflt key name : String} {axis : Fin 3}
    (h1 : name ≠ "LayerId") (h2 : name ≠ "ColumnId") (h3 : name ≠ key) (items : List (GItem K τ ρ))
    (hlen : 3 ≤ items.length)
    (hext : ∀ x ∈ items, ∀ y arr r p, kit.extrude (kit.withGroup x.1 arr) y r = .ok p →
      ∃ v, Dict.get? p.cellData name = some v ∧ v.vector = true) (R : SGrid K ℤ × Dict String Int) :
    assemble kit ignore dflt key axis items ≠ .ok R := by
  match items, hlen, hext with
  | a :: b :: c :: rest, _, hext =>
  intro e
  simp only [assemble] at e
  split at e
  · cases e
  rename_i qs groups hs
  obtain ⟨o, arr, g1, p, q, ns, qs1, e1, e2, e3, rfl⟩ := submeshes_cons hs
  obtain ⟨o', arr', g1', p', q', ns', qs2, e1', e2', e3', rfl⟩ := submeshes_cons e3
  obtain ⟨v, v1, v2⟩ := hext a (by simp) _ _ _ _ e1
  obtain ⟨v', v1', _⟩ := hext b (by simp) _ _ _ _ e1'
  rw [← labelGrid_others e2 h1 h2 h3] at v1
  rw [← labelGrid_others e2' h1 h2 h3] at v1'
  simp only [mergeStructured, mergeFold] at e
  split at e
  · cases e
  rename_i hm
  split at hm
  · cases hm
  rename_i hm2
  exact merge2_vector v2 v1 v1' hm2

end

theorem plainItems_map {K τ ρ : Type _} : ∀ (l : List (Item K τ (Opts ρ))) (out : List (GItem K τ ρ)),
    plainItems l = .ok out → out = l.map fun it => (it.mesh, it.opts)
  | [], out, h => by simp only [plainItems, Except.ok.injEq] at h; exact h.symm
  | it :: l, out, h => by
    simp only [plainItems] at h
    split at h
    · cases h
    split at h
    · cases h
    rename_i l' hl
    cases h
    rw [plainItems_map l l' hl]
    rfl

/-- No mesh is generated from a stack of three or more items whose parts have a vector array. -/
theorem generate_vector {τ : Type _} {o : InterpOracle ℝ} {mesh : Surf ℝ τ} {axis : Fin 3} {bottomUp : Bool}
    {adds : List (AddArg ℝ × Rest ℝ (Opts (Resolution ℝ × Option String)))} (hadds : 3 ≤ adds.length)
    {s : Stack ℝ τ (Opts (Resolution ℝ × Option String))}
    (hs : (Stack.new mesh axis bottomUp).run o (adds.map addCall) = .ok s) (kit : Kit ℝ τ (Resolution ℝ × Option String))
    (ignore : List String) (dflt : String) {name : String} (h1 : name ≠ "LayerId") (h2 : name ≠ "ColumnId")
    (h3 : name ≠ "StackItem")
    (hext : ∀ x y arr r p, x.topo = mesh.topo → kit.extrude (kit.withGroup x arr) y r = .ok p →
      ∃ v, Dict.get? p.cellData name = some v ∧ v.vector = true)
    (R : (SGrid ℝ ℤ × Dict String Int) × Stack ℝ τ (Opts (Resolution ℝ × Option String))) :
    s.generateMesh kit ignore dflt ≠ .ok R := by
  obtain ⟨R1, R2⟩ := R
  intro h
  obtain ⟨a, b, rest, out, hitems, hax, hbu, hcut, hlen, hbase, _⟩ := stack_cut (by omega) hs
  obtain ⟨a', rest', i1, i2, i3, _, _⟩ := generate_inv h
  rw [hitems] at i1; cases i1
  rw [hax, hbu, hcut] at i2
  have hout : out = R2.items := Except.ok.inj i2
  rw [← hout] at i3
  simp only [buildStack] at i3
  split at i3
  · cases i3
  rename_i l hl
  have := plainItems_map _ _ hl
  subst this
  refine assemble_vector kit h1 h2 h3 _ (by rw [List.length_map, hlen]; exact hadds) ?_ _ i3
  intro x hx y arr r p hp
  obtain ⟨it, hit, rfl⟩ := List.mem_map.1 hx
  exact hext _ y arr r p (hbase it hit).1.topo hp

theorem flagHidden_others {n : ℕ} {l : List Bool} {cd : Dict String (DArr ℤ)} {name : String} (h : name ≠ "vtkGhostType") :
    Dict.get? (flagHidden n l cd) name = Dict.get? cd name := by
  simp only [flagHidden]
  rw [Dict.get?_set, if_neg (Ne.symm h)]

/-- The surface between two lines has the vector arrays of the first one. -/
theorem surface_vector {area : Arr3 (V3 ℝ) → List ℝ} {axis : Fin 3} {x y : Surf ℝ LineTopo} {arr : List ℤ}
    {r : Resolution ℝ × Option String} {p : SGrid ℝ ℤ} (hk : (x.topo.cellData.map Prod.fst).Nodup)
    {name : String} {v : DArr ℤ} (hv : Dict.get? x.topo.cellData name = some v) (hvec : v.vector = true)
    (h1 : name ≠ "CellGroup") (h2 : name ≠ "vtkGhostType")
    (h : (lineKit fun a b (r : Resolution ℝ × Option String) => generateSurface area a b (stackPlane axis) r.1 r.2).extrude
      ((lineKit fun a b (r : Resolution ℝ × Option String) =>
        generateSurface area a b (stackPlane axis) r.1 r.2).withGroup x arr) y r = .ok p) :
    ∃ v, Dict.get? p.cellData name = some v ∧ v.vector = true := by
  simp only [lineKit, generateSurface] at h
  split at h
  · cases h
  split at h
  · cases h
  obtain ⟨cd', hcd, hp, _⟩ := surfaceCore_data h
  obtain ⟨_, c2⟩ := copyArrays_get _ _ name _ _ _ (Dict.set_keys_nodup hk) hcd
  have hg : Dict.get? (Dict.set x.topo.cellData "CellGroup" ⟨false, arr⟩) name = some v := by
    rw [Dict.get?_set, if_neg (Ne.symm h1), hv]
  obtain ⟨w, w1, _, w3⟩ := c2 v hg
  have hw : w.vector = v.vector := by cases w1; rfl
  exact ⟨w, by rw [hp, flagHidden_others h2, w3], by rw [hw, hvec]⟩

/-- The volume between two structured surfaces has the vector arrays of the first one. -/
theorem volume_vector {volume : Arr3 (V3 ℝ) → List ℝ} {x y : Surf ℝ GridTopo} {arr : List ℤ}
    {r : Resolution ℝ × Option String} {p : SGrid ℝ ℤ} (hk : (x.topo.cellData.map Prod.fst).Nodup)
    {name : String} {v : DArr ℤ} (hv : Dict.get? x.topo.cellData name = some v) (hvec : v.vector = true)
    (h1 : name ≠ "CellGroup") (h2 : name ≠ "vtkGhostType")
    (h : (gridKit fun a b (r : Resolution ℝ × Option String) => generateVolumeS volume a b r.1 r.2).extrude
      ((gridKit fun a b (r : Resolution ℝ × Option String) => generateVolumeS volume a b r.1 r.2).withGroup x arr) y r =
        .ok p) :
    ∃ v, Dict.get? p.cellData name = some v ∧ v.vector = true := by
  simp only [gridKit, generateVolumeS] at h
  split at h
  · cases h
  split at h
  · cases h
  split at h
  · cases h
  obtain ⟨cd', hcd, hp, _⟩ := volumeStructured_data h
  obtain ⟨_, c2⟩ := copyArrays_get _ _ name _ _ _ (Dict.set_keys_nodup hk) hcd
  have hg : Dict.get? (Dict.set x.topo.cellData "CellGroup" ⟨false, arr⟩) name = some v := by
    rw [Dict.get?_set, if_neg (Ne.symm h1), hv]
  obtain ⟨w, w1, _, w3⟩ := c2 v hg
  exact ⟨w, by rw [hp, flagHidden_others h2, w3], by rw [repeatStructured_vector w1, hvec]⟩

/-- **C134 (refuted).** From a 2D stack of three or more items on a line that has a vector array (with any name but
those the stack writes itself), no mesh is generated. -/
theorem C134_vector_stack2d_refuted (area : Arr3 (V3 ℝ) → List ℝ) (ignore : List String) (dflt : String)
    (o : InterpOracle ℝ) (mesh : Surf ℝ LineTopo) (hk : (mesh.topo.cellData.map Prod.fst).Nodup)
    (name : String) (v : DArr ℤ) (hv : Dict.get? mesh.topo.cellData name = some v) (hvec : v.vector = true)
    (hname : name ∉ ["LayerId", "ColumnId", "StackItem", "CellGroup", "vtkGhostType"]) (axis : Fin 3) (bottomUp : Bool)
    (adds : List (AddArg ℝ × Rest ℝ (Opts (Resolution ℝ × Option String)))) (hadds : 3 ≤ adds.length)
    (s : Stack ℝ LineTopo (Opts (Resolution ℝ × Option String)))
    (hs : (Stack.new mesh axis bottomUp).run o (adds.map addCall) = .ok s) (R) :
    stack2D area ignore dflt s ≠ .ok R := by
  simp only [List.mem_cons, List.not_mem_nil, or_false, not_or] at hname
  obtain ⟨n1, n2, n3, n4, n5⟩ := hname
  refine generate_vector hadds hs _ ignore dflt n1 n2 n3 ?_ R
  intro x y arr r p hx hp
  exact surface_vector (by rw [hx]; exact hk) (by rw [hx]; exact hv) hvec n4 n5 hp

/-- **C134 (refuted).** The same for 3D stacks on structured surfaces. -/
theorem C134_vector_stack3d_refuted (volume : Arr3 (V3 ℝ) → List ℝ) (ignore : List String) (dflt : String)
    (o : InterpOracle ℝ) (mesh : Surf ℝ GridTopo) (hk : (mesh.topo.cellData.map Prod.fst).Nodup)
    (name : String) (v : DArr ℤ) (hv : Dict.get? mesh.topo.cellData name = some v) (hvec : v.vector = true)
    (hname : name ∉ ["LayerId", "ColumnId", "StackItem", "CellGroup", "vtkGhostType"]) (axis : Fin 3) (bottomUp : Bool)
    (adds : List (AddArg ℝ × Rest ℝ (Opts (Resolution ℝ × Option String)))) (hadds : 3 ≤ adds.length)
    (s : Stack ℝ GridTopo (Opts (Resolution ℝ × Option String)))
    (hs : (Stack.new mesh axis bottomUp).run o (adds.map addCall) = .ok s) (R) :
    stack3D volume ignore dflt s ≠ .ok R := by
  simp only [List.mem_cons, List.not_mem_nil, or_false, not_or] at hname
  obtain ⟨n1, n2, n3, n4, n5⟩ := hname
  refine generate_vector hadds hs _ ignore dflt n1 n2 n3 ?_ R
  intro x y arr r p hx hp
  exact volume_vector (by rw [hx]; exact hk) (by rw [hx]; exact hv) hvec n4 n5 hp

/-- **C134 (refuted).** The same for extrusions of structured surfaces by two or more items. -/
theorem C134_vector_extrude_refuted (volume : Arr3 (V3 ℝ) → List ℝ) (rot : V3 ℝ → ℝ → V3 ℝ → V3 ℝ → V3 ℝ)
    (ignore : List String) (dflt : String) (mesh : Surf ℝ GridTopo) (hk : (mesh.topo.cellData.map Prod.fst).Nodup)
    (name : String) (v : DArr ℤ) (hv : Dict.get? mesh.topo.cellData name = some v) (hvec : v.vector = true)
    (hname : name ∉ ["LayerId", "ColumnId", "ExtrudeItem", "CellGroup", "vtkGhostType"])
    (scale angle : Option ℝ) (args : List (ExtrArgs ℝ (Opts (Resolution ℝ × Option String)))) (hargs : 2 ≤ args.length)
    (e : Extr ℝ GridTopo (Opts (Resolution ℝ × Option String)))
    (he : (Extr.new mesh scale angle).run rot args = .ok e) (R) : extrudeS volume ignore dflt e ≠ .ok R := by
  simp only [List.mem_cons, List.not_mem_nil, or_false, not_or] at hname
  obtain ⟨n1, n2, n3, n4, n5⟩ := hname
  obtain ⟨h1, new, h2, h3, h4⟩ := run_extr (mesh := mesh) args _ e he (by simp [Extr.new])
  simp only [Extr.new, List.singleton_append] at h2
  intro h
  simp only [extrudeS] at h
  split at h
  swap
  · cases h
  rename_i m oo rest hi
  split at h
  · cases h
  refine assemble_vector _ n1 n2 n3 _ (by rw [← hi, h2]; simp [h3]; omega) ?_ R h
  intro x hx y arr r p hp
  rw [← hi] at hx
  have hx' := (h1 x hx).1
  exact volume_vector (by rw [hx']; exact hk) (by rw [hx']; exact hv) hvec n4 n5 hp

/-- Concrete case of the refutations: three items on a square of 2 x 1 cells with the vector array "velocity". -/
example (volume : Arr3 (V3 ℝ) → List ℝ) (o : InterpOracle ℝ) (base : Surf ℝ GridTopo)
    (_ : base = ⟨(squareXY ℝ).points, { (squareXY ℝ).topo with cellData := [("velocity", ⟨true, [7, 8]⟩)] }⟩) :
    ∃ s, (Stack.new base 2 false).run o (someAdds.map addCall) = .ok s ∧ ∀ R, stack3D volume [] "default" s ≠ .ok R := by
  obtain ⟨s, hs, _⟩ := C26_scalar_heights (ω := Opts (Resolution ℝ × Option String)) o base 2 false
    0 ⟨none, ⟨(.int 1, none), .none⟩, 0, 0⟩
    [(5, ⟨none, ⟨(.int 2, none), .none⟩, 0, 0⟩),
      (7, ⟨none, ⟨(.int 3, some "log"), .dict [("C", .mask [true, false])]⟩, 0, 0⟩)]
  refine ⟨s, hs, ?_⟩
  exact C134_vector_stack3d_refuted volume [] "default" o base (by subst base; simp) "velocity" ⟨true, [7, 8]⟩
    (by subst base; rfl) rfl (by decide) 2 false someAdds (by decide) s hs

/-- Concrete case of C134: the stack of three surfaces on a square of 2 x 1 cells with the array "k" = 7, 8: the mesh has
the array "k" with one of these values on each of its 10 cells. -/
example (volume : Arr3 (V3 ℝ) → List ℝ) (hvol : ∀ x, (volume x).length = count (cells x.d)) (o : InterpOracle ℝ)
    (base : Surf ℝ GridTopo)
    (hb : base = ⟨(squareXY ℝ).points, { (squareXY ℝ).topo with cellData := [("k", ⟨false, [7, 8]⟩)] }⟩) :
    ∃ s M table s' w, (Stack.new base 2 false).run o (someAdds.map addCall) = .ok s ∧
      stack3D volume [] "default" s = .ok ((M, table), s') ∧ Dict.get? M.cellData "k" = some w ∧
      ∀ c, InShape (cells M.nodes.d) c → w.vals[vtkId (cells M.nodes.d) c]? = [7, 8][vtkId ![2, 1, 1] (Function.update c 2 0)]? := by
  obtain ⟨s, hs, _⟩ := C26_scalar_heights (ω := Opts (Resolution ℝ × Option String)) o base 2 false
    0 ⟨none, ⟨(.int 1, none), .none⟩, 0, 0⟩
    [(5, ⟨none, ⟨(.int 2, none), .none⟩, 0, 0⟩),
      (7, ⟨none, ⟨(.int 3, some "log"), .dict [("C", .mask [true, false])]⟩, 0, 0⟩)]
  have hok : StackGrid ![3, 2, 1] base := by
    obtain ⟨g1, g2, g3, g4, g5⟩ := squareXY_ok
    subst hb
    refine ⟨g1, g2, g3, ⟨?_, by simp⟩, by simp⟩
    simp [count, cells]
  have hres : ∀ x ∈ itemArgs someAdds, ∃ ts, resolutionToPerc x.1.1 x.1.2 = .ok ts ∧ fromZeroToOne ts := by
    intro x hx
    obtain ⟨ts, h1, h2⟩ := someAdds_res x hx
    exact ⟨ts, h1, h2⟩
  obtain ⟨⟨⟨M, table⟩, s'⟩, hR⟩ := (C97_stack3d_partial volume hvol [] "default" o ![3, 2, 1] base hok 2
    ⟨rfl, by decide⟩ false someAdds (by decide) hres s hs).1
    (by
      intro x hx
      simp only [itemArgs, someAdds, List.tail_cons, List.map_cons, List.map_nil, List.mem_cons, List.not_mem_nil,
        or_false] at hx
      rcases hx with rfl | rfl
      · simp [Acceptable, entries]
      · intro kv hkv
        simp only [entries, List.mem_singleton] at hkv
        subst hkv
        rfl)
  obtain ⟨w, w1, _, w2⟩ := C134_stack3d_partial volume hvol [] "default" o ![3, 2, 1] base hok 2
    ⟨rfl, by decide⟩ false someAdds (by decide) hres s hs M table s' hR "k" ⟨false, [7, 8]⟩ (by subst hb; rfl) (by decide)
  refine ⟨s, M, table, s', w, hs, hR, w1, ?_⟩
  have : cells ![3, 2, 1] = ![2, 1, 1] := by funext ax; fin_cases ax <;> rfl
  rw [this] at w2
  exact w2

/-- **C134 (refuted).** Stacking along axis 0: two segments with the array "k" = 7, 8 and one item with two sublayers.
The cell of the first segment in the second sublayer has the value 8. -/
theorem C134_axis0_refuted :
    ∃ M table w, stackRun (lineKit fun a b ts => generateSurfaceCore unitCells a b (stackPlane 0) ts)
        ⟨lineY.points, { lineY.topo with cellData := [("k", ⟨false, [7, 8]⟩)] }⟩ 0
        [(0, [0, 1], .none), (2, [0, 1/2, 1], .none)] = .ok (M, table) ∧
      M.nodes.d = planeShape "yx" 3 3 ∧ Dict.get? M.cellData "k" = some w ∧
      w.vals[vtkId (cells M.nodes.d) (planeIx "yx" 0 0)]? = some 7 ∧
      w.vals[vtkId (cells M.nodes.d) (planeIx "yx" 0 1)]? = some 8 := by
  have h : (stackRun (lineKit fun a b ts => generateSurfaceCore unitCells a b (stackPlane 0) ts)
        ⟨lineY.points, { lineY.topo with cellData := [("k", ⟨false, [7, 8]⟩)] }⟩ 0
        [(0, [0, 1], .none), (2, [0, 1/2, 1], .none)]).toOption.map
          (fun r => ((r.1.nodes.d 0, r.1.nodes.d 1, r.1.nodes.d 2), Dict.get? r.1.cellData "k")) =
      some ((3, 3, 1), some ⟨false, [7, 8, 7, 8]⟩) := by
    decide +kernel
  cases hr : stackRun (lineKit fun a b ts => generateSurfaceCore unitCells a b (stackPlane 0) ts)
        ⟨lineY.points, { lineY.topo with cellData := [("k", ⟨false, [7, 8]⟩)] }⟩ 0
        [(0, [0, 1], .none), (2, [0, 1/2, 1], .none)] with
  | error e => rw [hr] at h; cases h
  | ok r =>
    rw [hr] at h
    simp only [Except.toOption, Option.map_some, Option.some.injEq, Prod.mk.injEq] at h
    obtain ⟨⟨h0, h1, h2⟩, h3⟩ := h
    have hd : r.1.nodes.d = planeShape "yx" 3 3 := by
      funext ax; fin_cases ax
      · exact h0
      · exact h1
      · exact h2
    refine ⟨r.1, r.2, _, rfl, hd, h3, ?_, ?_⟩ <;> rw [hd] <;> rfl

end Gridder
