import Verif.Model.Examples
import Verif.Props.LayerIds

/-!
# C125: extrusion of generated meshes
-/

namespace Gridder
open Spec

/-- With a name as group every cell gets that name. -/
theorem labels_str {ignore : List String} {dflt : String} {n : ℕ} {codes : Option (List Int)}
    {table : Option (List (String × Int))} {s : String} {names : ℕ → String}
    (h : Labels ignore dflt n codes table (.str s) names) (hs : s ≠ "") (hneg : negated s = false) {i : ℕ} (hi : i < n) :
    names i = s := by
  obtain ⟨sels, h1, h2⟩ := h
  simp only [entries, if_neg hs] at h1
  cases h1 with
  | cons h h' =>
    cases h'
    rename_i e
    rw [h2 i hi]
    have : e.2 i = true := by
      rw [h.2 rfl rfl (fun _ => none) i hi]
      simp [entrySelects, selects, hneg, List.getElem?_replicate, hi]
    simp [lastSelecting, this, h.1, bare, hneg]

/-- Without a group every cell keeps its name. -/
theorem labels_none {dflt : String} {n : ℕ} {codes : List Int}
    {table : List (String × Int)} {names : ℕ → String}
    (h : Labels [] dflt n (some codes) (some table) .none names) (hd : DenseTable table) {i : ℕ} (hi : i < n) {s : String}
    (hc : CellNamed table codes i s) : names i = s := by
  obtain ⟨sels, h1, h2⟩ := h
  simp only [entries] at h1
  cases h1
  rw [h2 i hi]
  have := (baseName_eq_some hd.inj).2 hc
  simp [lastSelecting, baseLabel, this]

theorem surfGrid_gridSurf {m : SGrid ℝ ℤ × Dict String Int} {i : Fin 3 → ℕ} (hi : InShape m.1.nodes.d i) :
    (surfGrid (gridSurf m)).nodes.get i = m.1.nodes.get i := by
  simp [surfGrid, gridSurf, flatF_eq, List.getD_eq_getElem?_getD, ravelF_get _ hi]

/-- What a stack or an extrusion generates is a valid base mesh again. -/
theorem layered_base {src : List ℝ → (Fin 3 → ℕ) → ℕ → ℕ} {area : Arr3 (V3 ℝ) → List ℝ} {base : Dict String (DArr ℤ)} {key : String} {d : Fin 3 → ℕ} {axis : Fin 3}
    {surfs : List (List (Fin 3 → ℝ))} {subs : List (List ℝ)} {names : List (ℕ → String)} {M : SGrid ℝ ℤ}
    {table : List (String × Int)}
    (h : LayeredBy src area base key d axis surfs subs names M table) :
    StackGrid M.nodes.d (gridSurf (M, table)) :=
  ⟨rfl, ravelF_length _, h.arrays.1, h.arrays.2.1, h.arrays.2.2⟩

namespace Spec

/-- The axis across a 2D stack along `axis`. -/
def normalAxis (axis : Fin 3) : Fin 3 := if axis = 2 then 1 else 2

end Spec

theorem stack2d_flat {n L : ℕ} (hn : 2 ≤ n) (hL : 2 ≤ L) (axis : Fin 3) :
    FlatAlong (Function.update (planeShape (stackPlane axis) n 1) axis L) (normalAxis axis) := by
  constructor
  · fin_cases axis <;> simp [normalAxis, stackPlane, planeShape, lineAxis, subdivisionAxis, Function.update_apply]
  · intro ax hax
    fin_cases axis <;> fin_cases ax <;>
      simp_all [normalAxis, stackPlane, planeShape, lineAxis, subdivisionAxis, Function.update_apply]

/-- **C125.** A mesh generated by a 2D stack can be extruded across its plane: it is accepted as a base mesh; any calls of
`add` that succeed give items from which a mesh is generated if the group arguments fit the cells of the stack, and what is
generated has the stack mesh as its first surface, the layers of each item between the surfaces, and names its cells by the
groups of the stack where the group arguments of the extrusion say nothing else. -/
theorem C125_stack_extrude (area volume : Arr3 (V3 ℝ) → List ℝ) (harea : ∀ x, (area x).length = count (cells x.d))
    (hvol : ∀ x, (volume x).length = count (cells x.d)) (ignore ignore' : List String) (dflt dflt' : String)
    (o : InterpOracle ℝ) (rot : V3 ℝ → ℝ → V3 ℝ → V3 ℝ → V3 ℝ) (n : ℕ) (mesh : Surf ℝ LineTopo) (hmesh : StackLine n mesh)
    (axis : Fin 3) (bottomUp : Bool) (adds : List (AddArg ℝ × Rest ℝ (Opts (Resolution ℝ × Option String))))
    (hadds : 2 ≤ adds.length)
    (hres : ∀ x ∈ itemArgs adds, ∃ ts, resolutionToPerc x.1.1 x.1.2 = .ok ts ∧ fromZeroToOne ts)
    (s : Stack ℝ LineTopo (Opts (Resolution ℝ × Option String)))
    (hs : (Stack.new mesh axis bottomUp).run o (adds.map addCall) = .ok s)
    (M : SGrid ℝ ℤ) (table : List (String × Int)) (s' : Stack ℝ LineTopo (Opts (Resolution ℝ × Option String)))
    (hM : stack2D area ignore dflt s = .ok ((M, table), s')) (scale angle : Option ℝ)
    (args : List (ExtrArgs ℝ (Opts (Resolution ℝ × Option String)))) (hargs : args ≠ [])
    (hres' : ∀ x ∈ args, ∃ ts, resolutionToPerc x.opts.sub.1 x.opts.sub.2 = .ok ts ∧ fromZeroToOne ts) :
    extrudeNew (ω := Opts (Resolution ℝ × Option String)) (gridSurf (M, table)) scale angle =
        .ok (Extr.new (gridSurf (M, table)) scale angle) ∧
      ∀ e, (Extr.new (gridSurf (M, table)) scale angle).run rot args = .ok e →
        e.items.head?.map (fun it => it.1.points) = some M.points ∧
        ((∀ x ∈ args, Acceptable (count (cells M.nodes.d)) x.opts.group) →
          ∃ R, extrudeS volume ignore' dflt' e = .ok R) ∧
        ∀ M' table', extrudeS volume ignore' dflt' e = .ok (M', table') →
          StackedMesh volume M.cellData ignore' dflt' M.nodes.d (normalAxis axis) (groupCodes M.cellData)
            (some table) (args.map fun x => (x.opts.sub, x.opts.group)) "ExtrudeItem"
            (e.items.map fun it => it.1.points) M' table' := by
  obtain ⟨_, _, subs, names, h1, h2, h3, h4⟩ := (C96_stack2d_by_position area harea ignore dflt o n mesh hmesh axis bottomUp
    adds hadds hres s hs).2 M table s' hM
  have hflat : FlatAlong M.nodes.d (normalAxis axis) := by
    rw [h4.shape]
    refine stack2d_flat (by rw [← hmesh.size]; exact hmesh.clean.size) ?_ axis
    have hl : 0 < (itemArgs adds).length := by simp [itemArgs]; omega
    have ha := List.getElem?_eq_getElem hl
    obtain ⟨ts, name, t1, t2, _⟩ := h3 0 _ ha
    obtain ⟨ts', r1, r2⟩ := hres _ (List.mem_of_getElem? ha)
    rw [t1] at r1
    obtain rfl := Except.ok.inj r1
    have hmem : ts.length - 1 ∈ subs.map fun ts => ts.length - 1 :=
      List.mem_map.2 ⟨ts, List.mem_of_getElem? t2, rfl⟩
    have := List.le_sum_of_mem hmem
    have := r2.1
    omega
  have hbase := layered_base h4
  refine ⟨?_, ?_⟩
  · have := (dim_two_iff (d := M.nodes.d) (axis := normalAxis axis) (by
      intro ax
      by_cases hax : ax = normalAxis axis
      · rw [hax, hflat.1]
      · have := hflat.2 ax hax; omega)).2 hflat
    have hd : dimOfShape (gridSurf (M, table)).topo.dims = 2 := this.1
    simp [extrudeNew, hd]
  · intro e he
    obtain ⟨g1, g2⟩ := C98_extrude_partial volume hvol rot ignore' dflt' M.nodes.d (gridSurf (M, table)) hbase
      (normalAxis axis) hflat scale angle args hargs hres' e he
    refine ⟨?_, g1, g2⟩
    obtain ⟨_, new, k2, _⟩ := run_extr (mesh := gridSurf (M, table)) args _ e he (by simp [Extr.new])
    rw [k2]
    simp [Extr.new, gridSurf, SGrid.points]

/-- Concrete case of C125: the stack on the line of three points is extruded along y, in two sublayers and then in one. -/
example (area volume : Arr3 (V3 ℝ) → List ℝ) (harea : ∀ x, (area x).length = count (cells x.d))
    (hvol : ∀ x, (volume x).length = count (cells x.d)) (o : InterpOracle ℝ) (rot : V3 ℝ → ℝ → V3 ℝ → V3 ℝ → V3 ℝ) :
    ∃ s M table s' e R, (Stack.new (lineX ℝ) 2 true).run o (someAdds.map addCall) = .ok s ∧
      stack2D area [] "default" s = .ok ((M, table), s') ∧
      (Extr.new (gridSurf (M, table)) none none).run rot alongY = .ok e ∧ extrudeS volume [] "default" e = .ok R := by
  have hres := someAdds_res
  obtain ⟨s, hs, _⟩ := C26_scalar_heights (ω := Opts (Resolution ℝ × Option String)) o (lineX ℝ) 2 true
    0 ⟨none, ⟨(.int 1, none), .none⟩, 0, 0⟩
    [(5, ⟨none, ⟨(.int 2, none), .none⟩, 0, 0⟩),
      (7, ⟨none, ⟨(.int 3, some "log"), .dict [("C", .mask [true, false])]⟩, 0, 0⟩)]
  obtain ⟨⟨⟨M, table⟩, s'⟩, hR⟩ := (C96_stack2d_by_position area harea [] "default" o 3 (lineX ℝ) lineX_ok 2 true someAdds
    (by decide) hres s hs).1
    (by
      intro x hx
      simp only [itemArgs, someAdds, List.tail_cons, List.map_cons, List.map_nil, List.mem_cons, List.not_mem_nil,
        or_false] at hx
      rcases hx with rfl | rfl
      · simp [Acceptable, entries]
      · intro kv hkv
        simp only [entries, List.mem_singleton] at hkv
        subst hkv
        rfl)
  obtain ⟨e, he⟩ : ∃ e, (Extr.new (gridSurf (M, table)) none none).run rot alongY = .ok e := ⟨_, rfl⟩
  have key : ∀ (r : ℤ), ∃ ts : List ℝ, resolutionToPerc (.int r) none = .ok ts ∧ fromZeroToOne ts := by
    intro r
    obtain ⟨p, h1, h2, _⟩ := C11_integer_resolution r none (.inl rfl)
    refine ⟨p, h1, ?_, h2.first, ?_⟩
    · rw [h2.size]; omega
    · rw [h2.size]; exact h2.last
  obtain ⟨R, hR'⟩ := ((C125_stack_extrude area volume harea hvol [] [] "default" "default" o rot 3 (lineX ℝ) lineX_ok 2
    true someAdds (by decide) hres s hs M table s' hR none none alongY (by simp [alongY])
    (by
      intro x hx
      simp only [alongY, List.mem_cons, List.not_mem_nil, or_false] at hx
      rcases hx with rfl | rfl
      · exact key 2
      · exact key 1)).2 e he).2.1
    (by
      intro x hx
      simp only [alongY, List.mem_cons, List.not_mem_nil, or_false] at hx
      rcases hx with rfl | rfl
      all_goals
        intro kv hkv
        simp [entries] at hkv)
  exact ⟨s, M, table, s', e, R, hs, hR, he, hR'⟩

end Gridder
