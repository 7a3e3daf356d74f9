import Verif.Props.StackBase

/-!
# C103: hidden cells of generated stacks and extrusions
-/

namespace Gridder
open Spec

namespace Spec

/-- Exactly the cells of measure zero are hidden, the others have the flag of the base cell below them. -/
def HidesCollapsed (μ : ((Fin 3 → Bool) → Fin 3 → ℝ) → ℝ) (d : Fin 3 → ℕ) (axis : Fin 3)
    (base : Dict String (DArr ℤ)) (M : SGrid ℝ ℤ) : Prop :=
  ∀ c, InShape (cells M.nodes.d) c → ghostOf M.cellData (vtkId (cells M.nodes.d) c) =
    if μ (cellCorners M.nodes c) = 0 then 32 else ghostOf base (vtkId (cells d) (Function.update c axis 0))

end Spec

theorem stacked_hides {src : List ℝ → (Fin 3 → ℕ) → ℕ → ℕ} {area : Arr3 (V3 ℝ) → List ℝ}
    {ignore : List String} {dflt : String} {d : Fin 3 → ℕ}
    {axis : Fin 3} (hd : d axis = 1) {cd : Dict String (DArr ℤ)} {codes : Option (List Int)}
    {tbl : Option (List (String × Int))} {args : List ((Resolution ℝ × Option String) × GroupArg)} {key : String}
    {surfs : List (List (Fin 3 → ℝ))} {M : SGrid ℝ ℤ} {table : List (String × Int)}
    (h : StackedMeshBy src area cd ignore dflt d axis codes tbl args key surfs M table) (hargs : args ≠ [])
    (hts : ∀ x ∈ args, ∀ ts, resolutionToPerc x.1.1 x.1.2 = .ok ts → 2 ≤ ts.length)
    (hsrc : ∀ x ∈ args, ∀ ts, resolutionToPerc x.1.1 x.1.2 = .ok ts → ∀ i s, InShape (cells d) i → s < ts.length - 1 →
      ghostOf cd (src ts i s) = ghostOf cd (vtkId (cells d) i))
    {μ : ((Fin 3 → Bool) → Fin 3 → ℝ) → ℝ} (hμ : CellLocal area μ) : HidesCollapsed μ d axis cd M := by
  obtain ⟨subs, names, h1, h2, h3, h4⟩ := h
  intro c hc
  have hpos : 2 ≤ 1 + (subs.map fun ts => ts.length - 1).sum := by
    obtain ⟨x, l, rfl⟩ := List.exists_cons_of_ne_nil hargs
    obtain ⟨ts, _, t1, t2, _⟩ := h3 0 x rfl
    have := hts x (by simp) ts t1
    have := layersIn_le t2
    omega
  have hcM : cells M.nodes.d = Function.update (cells d) axis (subs.map fun ts => ts.length - 1).sum := by
    rw [h4.shape, cells_updateAxis hd hpos]
    congr 1; omega
  obtain ⟨k, ts, s, e1, e2, e3⟩ := exists_part subs (c axis) (by have := hc axis; rw [hcM] at this; simpa using this)
  have hc0 : InShape (cells d) (Function.update c axis 0) := by
    intro ax
    by_cases hax : ax = axis
    · subst hax; simp [cells, hd]
    · have := hc ax; rw [hcM, Function.update_of_ne hax] at this
      simpa [Function.update_of_ne hax] using this
  have hk : k < args.length := by rw [← h1]; exact (List.getElem?_eq_some_iff.1 e1).1
  obtain ⟨ts', _, t1, t2, _⟩ := h3 k _ (List.getElem?_eq_getElem hk)
  rw [e1] at t2; cases t2
  have := h4.hidden μ hμ k ts e1 _ s hc0 e2
  rw [hsrc _ (List.getElem_mem hk) ts t1 _ s hc0 e2] at this
  rwa [← e3, Function.update_idem, Function.update_eq_self] at this

/-- **C103 (partial).** In a mesh generated by a 2D stack exactly the cells whose area is zero are hidden, all other
cells have the ghost flag of their segment of the line (0 if the line has none).  `area` stands for VTK's areas, of
which only is used that they depend on the corners of the cell.
Missing: stacking axis 0 with several segments and several sublayers on a line that carries ghost flags; false with transitions
(`C103_transition_refuted`). -/
theorem C103_stack2d_partial (area : Arr3 (V3 ℝ) → List ℝ) (harea : ∀ x, (area x).length = count (cells x.d))
    (μ : ((Fin 3 → Bool) → V3 ℝ) → ℝ) (hμ : CellLocal area μ)
    (ignore : List String) (dflt : String) (o : InterpOracle ℝ) (n : ℕ) (mesh : Surf ℝ LineTopo)
    (hmesh : StackLine n mesh) (axis : Fin 3) (bottomUp : Bool)
    (adds : List (AddArg ℝ × Rest ℝ (Opts (Resolution ℝ × Option String)))) (hadds : 2 ≤ adds.length)
    (hres : ∀ x ∈ itemArgs adds, ∃ ts, resolutionToPerc x.1.1 x.1.2 = .ok ts ∧ fromZeroToOne ts ∧
      (axis ≠ 0 ∨ ts.length = 2 ∨ n = 2 ∨ Dict.get? mesh.topo.cellData "vtkGhostType" = none))
    (s : Stack ℝ LineTopo (Opts (Resolution ℝ × Option String)))
    (hs : (Stack.new mesh axis bottomUp).run o (adds.map addCall) = .ok s)
    (M : SGrid ℝ ℤ) (table : List (String × Int)) (s' : Stack ℝ LineTopo (Opts (Resolution ℝ × Option String)))
    (h : stack2D area ignore dflt s = .ok ((M, table), s')) :
    HidesCollapsed μ (planeShape (stackPlane axis) n 1) axis mesh.topo.cellData M := by
  obtain ⟨_, _, h3⟩ := (C96_stack2d_by_position area harea ignore dflt o n mesh hmesh axis bottomUp adds hadds
    (fun x hx => by obtain ⟨ts, t1, t2, _⟩ := hres x hx; exact ⟨ts, t1, t2⟩) s hs).2 M table s' h
  refine stacked_hides (stackPlane_one axis n) h3 ?_ ?_ ?_ hμ
  · intro e
    have := congrArg List.length e
    simp [itemArgs] at this; omega
  · intro x hx ts ht
    obtain ⟨ts', t1, t2, _⟩ := hres x hx
    rw [ht] at t1; cases t1; exact t2.1
  · intro x hx ts ht i s hi hs
    obtain ⟨ts', t1, t2, t3⟩ := hres x hx
    rw [ht] at t1; cases t1
    have own : axis ≠ 0 ∨ ts.length = 2 ∨ n = 2 →
        ghostOf mesh.topo.cellData (lineSource (planeShape (stackPlane axis) n 1) axis ts i s) =
          ghostOf mesh.topo.cellData (vtkId (cells (planeShape (stackPlane axis) n 1)) i) := fun hok => by
      rw [lineSource_own hmesh t2.1 hok hi hs]
    rcases t3 with t3 | t3 | t3 | t3
    · exact own (.inl t3)
    · exact own (.inr (.inl t3))
    · exact own (.inr (.inr t3))
    · simp [ghostOf, t3]

/-- **C103 (partial).** The same for a 3D stack on a structured surface.
Missing: vector data on the cells (unstructured surfaces: `C103_unstructured_partial`). -/
theorem C103_stack3d_partial (volume : Arr3 (V3 ℝ) → List ℝ) (hvol : ∀ x, (volume x).length = count (cells x.d))
    (μ : ((Fin 3 → Bool) → V3 ℝ) → ℝ) (hμ : CellLocal volume μ)
    (ignore : List String) (dflt : String) (o : InterpOracle ℝ) (d : Fin 3 → ℕ) (mesh : Surf ℝ GridTopo)
    (hmesh : StackGrid d mesh) (axis : Fin 3) (hd : FlatAlong d axis) (bottomUp : Bool)
    (adds : List (AddArg ℝ × Rest ℝ (Opts (Resolution ℝ × Option String)))) (hadds : 2 ≤ adds.length)
    (hres : ∀ x ∈ itemArgs adds, ∃ ts, resolutionToPerc x.1.1 x.1.2 = .ok ts ∧ fromZeroToOne ts)
    (s : Stack ℝ GridTopo (Opts (Resolution ℝ × Option String)))
    (hs : (Stack.new mesh axis bottomUp).run o (adds.map addCall) = .ok s)
    (M : SGrid ℝ ℤ) (table : List (String × Int)) (s' : Stack ℝ GridTopo (Opts (Resolution ℝ × Option String)))
    (h : stack3D volume ignore dflt s = .ok ((M, table), s')) :
    HidesCollapsed μ d axis mesh.topo.cellData M := by
  obtain ⟨_, _, h3⟩ := (C97_stack3d_partial volume hvol ignore dflt o d mesh hmesh axis hd bottomUp adds hadds hres s
    hs).2 M table s' h
  refine stacked_hides hd.1 h3 ?_ ?_ (fun _ _ _ _ _ _ _ _ => rfl) hμ
  · intro e
    have := congrArg List.length e
    simp [itemArgs] at this; omega
  · intro x hx ts ht
    obtain ⟨ts', t1, t2⟩ := hres x hx
    rw [ht] at t1; cases t1; exact t2.1

/-- **C103 (partial).** The same for an extrusion of a structured surface.
Missing: vector data on the cells (unstructured surfaces: `C103_unstructured_partial`). -/
theorem C103_extrude_partial (volume : Arr3 (V3 ℝ) → List ℝ) (hvol : ∀ x, (volume x).length = count (cells x.d))
    (μ : ((Fin 3 → Bool) → V3 ℝ) → ℝ) (hμ : CellLocal volume μ)
    (rot : V3 ℝ → ℝ → V3 ℝ → V3 ℝ → V3 ℝ) (ignore : List String) (dflt : String) (d : Fin 3 → ℕ)
    (mesh : Surf ℝ GridTopo) (hmesh : StackGrid d mesh) (axis : Fin 3) (hd : FlatAlong d axis)
    (scale angle : Option ℝ) (args : List (ExtrArgs ℝ (Opts (Resolution ℝ × Option String)))) (hargs : args ≠ [])
    (hres : ∀ x ∈ args, ∃ ts, resolutionToPerc x.opts.sub.1 x.opts.sub.2 = .ok ts ∧ fromZeroToOne ts)
    (e : Extr ℝ GridTopo (Opts (Resolution ℝ × Option String)))
    (he : (Extr.new mesh scale angle).run rot args = .ok e)
    (M : SGrid ℝ ℤ) (table : List (String × Int)) (h : extrudeS volume ignore dflt e = .ok (M, table)) :
    HidesCollapsed μ d axis mesh.topo.cellData M := by
  have h3 := (C98_extrude_partial volume hvol rot ignore dflt d mesh hmesh axis hd scale angle args hargs hres e he).2
    M table h
  refine stacked_hides hd.1 h3 (by simpa using hargs) ?_ (fun _ _ _ _ _ _ _ _ => rfl) hμ
  intro x hx ts ht
  obtain ⟨a, ha, rfl⟩ := List.mem_map.1 hx
  obtain ⟨ts', t1, t2⟩ := hres a ha
  rw [ht] at t1; cases t1; exact t2.1

/-- Areas or volumes given by a measure of the corners. -/
noncomputable def measureCells (μ : ((Fin 3 → Bool) → V3 ℝ) → ℝ) (x : Arr3 (V3 ℝ)) : List ℝ :=
  (⟨cells x.d, fun c => μ (cellCorners x c)⟩ : Arr3 ℝ).ravelF

theorem measureCells_ok (μ : ((Fin 3 → Bool) → V3 ℝ) → ℝ) :
    (∀ x, (measureCells μ x).length = count (cells x.d)) ∧ CellLocal (measureCells μ) μ := by
  refine ⟨fun x => by simp [measureCells, ravelF_length], fun x c hc => ?_⟩
  exact ravelF_get (⟨cells x.d, fun c => μ (cellCorners x c)⟩ : Arr3 ℝ) hc

/-- Concrete case of C103: the height of a cell as its measure, and the stack of three surfaces on a base of 2 x 1
cells. -/
example (o : InterpOracle ℝ) (μ : ((Fin 3 → Bool) → V3 ℝ) → ℝ)
    (_ : μ = fun x => x (fun _ => true) 2 - x (fun _ => false) 2) :
    ∃ s M table s', (Stack.new (squareXY ℝ) 2 false).run o (someAdds.map addCall) = .ok s ∧
      stack3D (measureCells μ) [] "default" s = .ok ((M, table), s') ∧
      HidesCollapsed μ ![3, 2, 1] 2 (squareXY ℝ).topo.cellData M := by
  obtain ⟨hlen, hloc⟩ := measureCells_ok μ
  obtain ⟨s, ⟨⟨M, table⟩, s'⟩, h1, h2⟩ := squareXY_stack (measureCells μ) hlen o
  refine ⟨s, M, table, s', h1, h2, ?_⟩
  exact C103_stack3d_partial (measureCells μ) hlen μ hloc [] "default" o ![3, 2, 1] (squareXY ℝ) squareXY_ok 2
    ⟨rfl, by decide⟩ false someAdds (by decide)
    (fun x hx => by
      obtain ⟨ts, h1, h2⟩ := someAdds_res x hx
      exact ⟨ts, h1, h2⟩) s h1 M table s' h2

end Gridder
