import Verif.Props.Compose
import Verif.Props.Profile

/-!
# C126: the anticlines of the examples
-/

namespace Gridder
open Spec

namespace Spec

/-- The parts of the anticline: first layer, number of layers, group. -/
def anticlineParts : List (ℕ × ℕ × String) :=
  [(0, 4, "Layer 1"), (4, 2, "Layer 2"), (6, 2, "Layer 3"), (8, 2, "Layer 4"), (10, 4, "Layer 5")]

/-- Abscissa of the nodes of column `i`. -/
noncomputable def anticlineX (i : ℕ) : ℝ := -3.14 + i / 41 * 6.28

/-- Height of horizon `k` at the abscissa `x`. -/
noncomputable def anticlineHeight (k : ℕ) (x : ℝ) : ℝ :=
  if k = 0 then 0 else if k = 1 then Real.cos x + 1 else if k = 2 then Real.cos x + 1.5
  else if k = 3 then Real.cos x + 2 else if k = 4 then min (Real.cos x + 2.5) 3.4 else 3.4

end Spec

/-- The arguments of the calls as profiles. -/
noncomputable def anticlineProfiles : List (Profile × Rest ℝ (Opts (Resolution ℝ × Option String))) :=
  [(.thick 0, ⟨none, ⟨(.none, none), .none⟩, 0, 0⟩),
    (.height fun p => Real.cos (p 0) + 1, ⟨none, ⟨(.int 4, none), .str "Layer 1"⟩, 0, 0⟩),
    (.thick 0.5, ⟨none, ⟨(.int 2, none), .str "Layer 2"⟩, 0, 0⟩),
    (.thick 0.5, ⟨none, ⟨(.int 2, none), .str "Layer 3"⟩, 0, 0⟩),
    (.thick 0.5, ⟨none, ⟨(.int 2, none), .str "Layer 4"⟩, 0, 0⟩),
    (.height fun _ => 3.4, ⟨none, ⟨(.int 4, none), .str "Layer 5"⟩, 0, 0⟩)]

theorem anticlineProfiles_calls :
    (profileAdds anticlineProfiles).map addCall = anticlineCalls := rfl

/-- The horizons after the cut. -/
theorem anticline_cut {k : ℕ} (hk : k ≤ 5) (p : V3 ℝ) :
    cutHeight (anticlineProfiles.map fun a => (a.1, a.2.thickness, a.2.priority)) k p = anticlineHeight k (p 0) := by
  have h1 := Real.neg_one_le_cos (p 0)
  have h2 := Real.cos_le_one (p 0)
  have hh : |(0.5 : ℝ)| = 0.5 := abs_of_pos (by norm_num)
  have : k = 0 ∨ k = 1 ∨ k = 2 ∨ k = 3 ∨ k = 4 ∨ k = 5 := by omega
  rcases this with rfl | rfl | rfl | rfl | rfl | rfl
  · simp [cutHeight, pushedHeight, anticlineProfiles, profileHeight, anticlineHeight]; linarith
  · simp [cutHeight, pushedHeight, anticlineProfiles, profileHeight, anticlineHeight, hh]; norm_num
  · simp [cutHeight, pushedHeight, anticlineProfiles, profileHeight, anticlineHeight, hh]; norm_num; ring
  · simp [cutHeight, pushedHeight, anticlineProfiles, profileHeight, anticlineHeight, hh]; norm_num; ring
  · simp [cutHeight, pushedHeight, anticlineProfiles, profileHeight, anticlineHeight, hh]; congr 1; norm_num; ring
  · simp [cutHeight, pushedHeight, anticlineProfiles, profileHeight, anticlineHeight]

/-- The positions for a number of sublayers. -/
theorem perc_int {r : ℕ} (hr : 1 ≤ r) : ∃ p : List ℝ, resolutionToPerc (.int r) none = .ok p ∧ fromZeroToOne p ∧
    p.length = r + 1 ∧ ∀ s : ℕ, s ≤ r → p[s]? = some ((s : ℝ) / r) := by
  obtain ⟨p, h1, h2, h3, _⟩ := C11_integer_resolution r none (.inl rfl)
  have e : (max 1 (r : ℤ)).toNat = r := by omega
  have e' : max 1 (r : ℤ) = r := by omega
  refine ⟨p, h1, ⟨?_, h2.first, ?_⟩, by rw [h2.size, e], ?_⟩
  · rw [h2.size]; omega
  · rw [h2.size]; exact h2.last
  · intro s hs
    have := h3 rfl s (by omega)
    rwa [e', Int.cast_natCast] at this

theorem anticline_shape : planeShape (stackPlane 2) 42 1 = ![42, 1, 1] := by
  funext ax
  fin_cases ax <;> rfl

theorem anticline_stacked (area : Arr3 (V3 ℝ) → List ℝ) (harea : ∀ x, (area x).length = count (cells x.d))
    (o : InterpOracle ℝ) (pd cd : Dict String (DArr ℤ)) (hline : StackLine 42 (anticlineLine pd cd)) :
    ∃ M table surfs subs names, loadAnticline2d area o pd cd = .ok (M, table) ∧
      (∀ k, k ≤ 5 → ∃ pts, surfs[k]? = some pts ∧ ∀ i : ℕ, i < 42 →
        pts[i]? = some ![anticlineX i, 0, anticlineHeight k (anticlineX i)]) ∧
      subs.length = 5 ∧
      (∀ (k : ℕ) x, anticlineParts[k]? = some x → layersIn subs k = x.1 ∧ ∃ ts name, subs[k]? = some ts ∧
        ts.length = x.2.1 + 1 ∧ (∀ s : ℕ, s ≤ x.2.1 → ts[s]? = some ((s : ℝ) / x.2.1)) ∧ names[k]? = some name ∧
        ∀ i, i < 41 → name i = x.2.2) ∧
      (subs.map fun ts => ts.length - 1).sum = 14 ∧
      Layered area cd "StackItem" ![42, 1, 1] 2 surfs subs names M table := by
  obtain ⟨p4, a1, a2, a3, a4⟩ := perc_int (r := 4) (by norm_num)
  obtain ⟨p2, b1, b2, b3, b4⟩ := perc_int (r := 2) (by norm_num)
  have hres : ∀ a ∈ anticlineProfiles.tail, ∃ ts, resolutionToPerc a.2.opts.sub.1 a.2.opts.sub.2 = .ok ts ∧
      fromZeroToOne ts := by
    intro a ha
    simp only [anticlineProfiles, List.tail_cons, List.mem_cons, List.not_mem_nil, or_false] at ha
    rcases ha with rfl | rfl | rfl | rfl | rfl
    · exact ⟨p4, a1, a2⟩
    · exact ⟨p2, b1, b2⟩
    · exact ⟨p2, b1, b2⟩
    · exact ⟨p2, b1, b2⟩
    · exact ⟨p4, a1, a2⟩
  obtain ⟨s, hs, g1, g2⟩ := C124_stack2d_partial area harea [] "default" o 42 (anticlineLine pd cd) hline 2
    anticlineProfiles (by simp [anticlineProfiles]) hres
  obtain ⟨⟨⟨M, table⟩, s'⟩, hR⟩ := g1 (by
    intro a ha
    simp only [anticlineProfiles, List.tail_cons, List.mem_cons, List.not_mem_nil, or_false] at ha
    rcases ha with rfl | rfl | rfl | rfl | rfl
    all_goals
      intro kv hkv
      simp only [entries] at hkv
      rw [if_neg (by decide), List.mem_singleton] at hkv
      subst hkv
      simp [Fits])
  obtain ⟨⟨surfs, c1, c2, c3⟩, _⟩ := g2 M table s' hR
  obtain ⟨subs, names, d1, d2, d3, d4⟩ := stacked_own hline (by
    intro x hx
    obtain ⟨a, ha, rfl⟩ := List.mem_map.1 hx
    obtain ⟨ts, t1, t2⟩ := hres a ha
    exact ⟨ts, t1, t2, .inl (by decide)⟩) c3
  rw [anticline_shape] at d3 d4
  have hlen5 : subs.length = 5 := by rw [d1]; simp [anticlineProfiles]
  have key : ∀ (k : ℕ) a, anticlineProfiles.tail[k]? = some a → ∃ ts name,
      resolutionToPerc a.2.opts.sub.1 a.2.opts.sub.2 = .ok ts ∧ subs[k]? = some ts ∧ names[k]? = some name ∧
      Labels [] "default" 41 (groupCodes cd) none a.2.opts.group name := by
    intro k a ha
    exact d3 k (a.2.opts.sub, a.2.opts.group) (by rw [List.getElem?_map, ha]; rfl)
  obtain ⟨t0, n0, e00, e01, e02, e03⟩ := key 0 _ rfl
  obtain ⟨t1, n1, e10, e11, e12, e13⟩ := key 1 _ rfl
  obtain ⟨t2, n2, e20, e21, e22, e23⟩ := key 2 _ rfl
  obtain ⟨t3, n3, e30, e31, e32, e33⟩ := key 3 _ rfl
  obtain ⟨t4, n4, e40, e41, e42, e43⟩ := key 4 _ rfl
  obtain rfl : p4 = t0 := Except.ok.inj (a1.symm.trans e00)
  obtain rfl : p2 = t1 := Except.ok.inj (b1.symm.trans e10)
  obtain rfl : p2 = t2 := Except.ok.inj (b1.symm.trans e20)
  obtain rfl : p2 = t3 := Except.ok.inj (b1.symm.trans e30)
  obtain rfl : p4 = t4 := Except.ok.inj (a1.symm.trans e40)
  have hsubs : subs = [p4, p2, p2, p2, p4] := by
    match subs, hlen5, e01, e11, e21, e31, e41 with
    | [u0, u1, u2, u3, u4], _, e01, e11, e21, e31, e41 =>
      simp only [List.getElem?_cons_zero, List.getElem?_cons_succ, Option.some.injEq] at e01 e11 e21 e31 e41
      simp [e01, e11, e21, e31, e41]
  refine ⟨M, table, surfs, subs, names, ?_, ?_, hlen5, ?_, ?_, d4⟩
  · rw [anticlineProfiles_calls] at hs
    have e : stack2DNew (ω := Opts (Resolution ℝ × Option String)) (.poly [anticlineLine pd cd]) 2 true =
      .ok (Stack.new (anticlineLine pd cd) 2 true) := rfl
    simp only [loadAnticline2d, e, hs, hR]
    rfl
  · intro k hk
    have hl : k < surfs.length := by rw [c1]; simp [anticlineProfiles]; omega
    have g := List.getElem?_eq_getElem hl
    refine ⟨_, g, ?_⟩
    intro i hi
    have hb : (anticlineLine pd cd).points[i]? = some ![anticlineX i, 0, 0] := by
      simp [anticlineLine, List.getElem?_range hi, anticlineX]
    rw [(c2 k _ g).2 i _ hb, anticline_cut hk]
    congr 1
    funext ax
    fin_cases ax <;> simp
  · intro k x hx
    have hk : k < 5 := (List.getElem?_eq_some_iff.1 hx).1
    rw [hsubs]
    have : k = 0 ∨ k = 1 ∨ k = 2 ∨ k = 3 ∨ k = 4 := by omega
    rcases this with rfl | rfl | rfl | rfl | rfl
    all_goals
      obtain rfl := Option.some.inj hx
      refine ⟨by simp [layersIn, a3, b3], ?_⟩
    · exact ⟨_, _, rfl, a3, a4, e02, fun i hi => labels_str e03 (by decide) (by decide) hi⟩
    · exact ⟨_, _, rfl, b3, b4, e12, fun i hi => labels_str e13 (by decide) (by decide) hi⟩
    · exact ⟨_, _, rfl, b3, b4, e22, fun i hi => labels_str e23 (by decide) (by decide) hi⟩
    · exact ⟨_, _, rfl, b3, b4, e32, fun i hi => labels_str e33 (by decide) (by decide) hi⟩
    · exact ⟨_, _, rfl, a3, a4, e42, fun i hi => labels_str e43 (by decide) (by decide) hi⟩
  · rw [hsubs]; simp [a3, b3]

theorem ix_update2 (i l : ℕ) : Function.update ![i, 0, 0] (2 : Fin 3) l = ![i, 0, l] := by
  funext ax
  fin_cases ax <;> rfl

theorem ix_update1 (i l j : ℕ) : Function.update ![i, 0, l] (1 : Fin 3) j = ![i, j, l] := by
  funext ax
  fin_cases ax <;> rfl

theorem shape_update2 : Function.update ![42, 1, 1] (2 : Fin 3) 15 = ![42, 1, 15] := by
  funext ax
  fin_cases ax <;> rfl

theorem shape_update1 : Function.update ![42, 1, 15] (1 : Fin 3) 11 = ![42, 11, 15] := by
  funext ax
  fin_cases ax <;> rfl

theorem cells_42_1_1 : cells ![42, 1, 1] = ![41, 1, 1] := by
  funext ax
  fin_cases ax <;> rfl

theorem cells_42_1_15 : cells ![42, 1, 15] = ![41, 1, 14] := by
  funext ax
  fin_cases ax <;> rfl

theorem cells_42_11_15 : cells ![42, 11, 15] = ![41, 10, 14] := by
  funext ax
  fin_cases ax <;> rfl

theorem inShape_vec {a b c i j k : ℕ} : InShape ![a, b, c] ![i, j, k] ↔ i < a ∧ j < b ∧ k < c := by
  constructor
  · intro h
    exact ⟨h 0, h 1, h 2⟩
  · rintro ⟨h0, h1, h2⟩ ax
    fin_cases ax
    · exact h0
    · exact h1
    · exact h2

/-- The nodes and the cells of the 2D anticline, from its generation. -/
theorem anticline_grid {area : Arr3 (V3 ℝ) → List ℝ} {base : Dict String (DArr ℤ)} {surfs : List (List (V3 ℝ))} {subs : List (List ℝ)}
    {names : List (ℕ → String)} {M : SGrid ℝ ℤ} {table : List (String × Int)}
    (h1 : ∀ k, k ≤ 5 → ∃ pts, surfs[k]? = some pts ∧ ∀ i : ℕ, i < 42 →
        pts[i]? = some ![anticlineX i, 0, anticlineHeight k (anticlineX i)])
    (h3 : ∀ (k : ℕ) x, anticlineParts[k]? = some x → layersIn subs k = x.1 ∧ ∃ ts name, subs[k]? = some ts ∧
        ts.length = x.2.1 + 1 ∧ (∀ s : ℕ, s ≤ x.2.1 → ts[s]? = some ((s : ℝ) / x.2.1)) ∧ names[k]? = some name ∧
        ∀ i, i < 41 → name i = x.2.2)
    (h4 : (subs.map fun ts => ts.length - 1).sum = 14)
    (h5 : Layered area base "StackItem" ![42, 1, 1] 2 surfs subs names M table) :
    M.nodes.d = ![42, 1, 15] ∧
      (∀ (k first n : ℕ) name, anticlineParts[k]? = some (first, n, name) → ∀ i s : ℕ, i < 42 → s ≤ n →
        M.points[vtkId ![42, 1, 15] ![i, 0, first + s]]? =
          some ![anticlineX i, 0,
            (1 - (s : ℝ) / n) * anticlineHeight k (anticlineX i) + (s : ℝ) / n * anticlineHeight (k + 1) (anticlineX i)]) ∧
      ∃ layers columns items groups, Dict.get? M.cellData "LayerId" = some layers ∧
        Dict.get? M.cellData "ColumnId" = some columns ∧ Dict.get? M.cellData "StackItem" = some items ∧
        Dict.get? M.cellData "CellGroup" = some groups ∧
        ∀ (k first n : ℕ) name, anticlineParts[k]? = some (first, n, name) → ∀ i s : ℕ, i < 41 → s < n →
          layers.vals[vtkId ![41, 1, 14] ![i, 0, first + s]]? = some ((first + s : ℕ) : ℤ) ∧
          columns.vals[vtkId ![41, 1, 14] ![i, 0, first + s]]? = some (i : ℤ) ∧
          items.vals[vtkId ![41, 1, 14] ![i, 0, first + s]]? = some (k : ℤ) ∧
          CellNamed table groups.vals (vtkId ![41, 1, 14] ![i, 0, first + s]) name := by
  have hd : M.nodes.d = ![42, 1, 15] := by rw [h5.shape, h4]; exact shape_update2
  refine ⟨hd, ?_, ?_⟩
  · intro k first n name hk i s hi hs
    obtain ⟨g1, ts, nm, g2, _, g4, _⟩ := h3 k _ hk
    have hk5 : k < 5 := (List.getElem?_eq_some_iff.1 hk).1
    obtain ⟨a, a1, a2⟩ := h1 k (by omega)
    obtain ⟨b, b1, b2⟩ := h1 (k + 1) (by omega)
    have hid : vtkId ![42, 1, 1] ![i, 0, 0] = i := by simp [vtkId]
    have := h5.nodes k a b ts a1 b1 g2 ![i, 0, 0] s _ _ _ (inShape_vec.2 ⟨hi, by omega, by omega⟩) (g4 s hs)
      (by rw [hid]; exact a2 i hi) (by rw [hid]; exact b2 i hi)
    rw [g1, hd, ix_update2] at this
    rw [this]
    congr 1
    funext ax
    fin_cases ax
    · simp [between]; try ring
    · simp [between]
    · simp [between]; try ring
  · obtain ⟨layers, columns, items, groups, d1, d2, d3, d4, _, _, d7⟩ := h5.data
    refine ⟨layers, columns, items, groups, d1, d2, d3, d4, ?_⟩
    intro k first n name hk i s hi hs
    obtain ⟨g1, ts, nm, g2, g3, _, g5, g6⟩ := h3 k _ hk
    have hid : vtkId ![41, 1, 1] ![i, 0, 0] = i := by simp [vtkId]
    replace g3 : ts.length = n + 1 := g3
    have := d7 k ts nm g2 g5 ![i, 0, 0] s (by rw [cells_42_1_1]; exact inShape_vec.2 ⟨hi, by omega, by omega⟩)
      (by rw [g3]; omega)
    rw [g1, hd, ix_update2, cells_42_1_15, cells_42_1_1, hid, g6 i hi] at this
    exact ⟨(this.1 (.inl rfl)).1, (this.1 (.inl rfl)).2, this.2⟩

/-- **C126 (2D).** `load_anticline_2d` returns a mesh of 42 x 15 nodes in 41 columns and 14 layers: the nodes of the layers
of each part divide the vertical between its two horizons, which lie at `0`, `cos x + 1`, `cos x + 1.5`, `cos x + 2`,
`min (cos x + 2.5) 3.4` and `3.4`, evenly; its cells carry their layer, column, part and group. -/
theorem C126_anticline2d (area : Arr3 (V3 ℝ) → List ℝ) (harea : ∀ x, (area x).length = count (cells x.d))
    (o : InterpOracle ℝ) (pd cd : Dict String (DArr ℤ)) (hline : StackLine 42 (anticlineLine pd cd)) :
    ∃ M table, loadAnticline2d area o pd cd = .ok (M, table) ∧ M.nodes.d = ![42, 1, 15] ∧
      (∀ (k first n : ℕ) name, anticlineParts[k]? = some (first, n, name) → ∀ i s : ℕ, i < 42 → s ≤ n →
        M.points[vtkId ![42, 1, 15] ![i, 0, first + s]]? =
          some ![anticlineX i, 0,
            (1 - (s : ℝ) / n) * anticlineHeight k (anticlineX i) + (s : ℝ) / n * anticlineHeight (k + 1) (anticlineX i)]) ∧
      ∃ layers columns items groups, Dict.get? M.cellData "LayerId" = some layers ∧
        Dict.get? M.cellData "ColumnId" = some columns ∧ Dict.get? M.cellData "StackItem" = some items ∧
        Dict.get? M.cellData "CellGroup" = some groups ∧
        ∀ (k first n : ℕ) name, anticlineParts[k]? = some (first, n, name) → ∀ i s : ℕ, i < 41 → s < n →
          layers.vals[vtkId ![41, 1, 14] ![i, 0, first + s]]? = some ((first + s : ℕ) : ℤ) ∧
          columns.vals[vtkId ![41, 1, 14] ![i, 0, first + s]]? = some (i : ℤ) ∧
          items.vals[vtkId ![41, 1, 14] ![i, 0, first + s]]? = some (k : ℤ) ∧
          CellNamed table groups.vals (vtkId ![41, 1, 14] ![i, 0, first + s]) name := by
  obtain ⟨M, table, surfs, subs, names, h0, h1, h2, h3, h4, h5⟩ := anticline_stacked area harea o pd cd hline
  exact ⟨M, table, h0, anticline_grid h1 h3 h4 h5⟩

/-- The horizons are in order, and the parts make up the 14 layers. -/
theorem C126_horizons (k : ℕ) (hk : k < 5) (x : ℝ) : anticlineHeight k x ≤ anticlineHeight (k + 1) x := by
  have h1 := Real.neg_one_le_cos x
  have h2 := Real.cos_le_one x
  have : k = 0 ∨ k = 1 ∨ k = 2 ∨ k = 3 ∨ k = 4 := by omega
  rcases this with rfl | rfl | rfl | rfl | rfl <;> simp [anticlineHeight] <;> norm_num
  · linarith
  · linarith

theorem anticline_parts_cover {l : ℕ} (hl : l < 14) :
    ∃ (k first n : ℕ) (name : String) (s : ℕ), anticlineParts[k]? = some (first, n, name) ∧ s < n ∧ l = first + s := by
  by_cases h1 : l < 4
  · exact ⟨0, 0, 4, _, l, rfl, h1, by omega⟩
  by_cases h2 : l < 6
  · exact ⟨1, 4, 2, _, l - 4, rfl, by omega, by omega⟩
  by_cases h3 : l < 8
  · exact ⟨2, 6, 2, _, l - 6, rfl, by omega, by omega⟩
  by_cases h4 : l < 10
  · exact ⟨3, 8, 2, _, l - 8, rfl, by omega, by omega⟩
  · exact ⟨4, 10, 4, _, l - 10, rfl, by omega, by omega⟩

theorem loadAnticline3d_eq {area volume : Arr3 (V3 ℝ) → List ℝ} {o : InterpOracle ℝ}
    {rot : V3 ℝ → ℝ → V3 ℝ → V3 ℝ → V3 ℝ} {pd cd : Dict String (DArr ℤ)} {R : SGrid ℝ ℤ × Dict String Int}
    {e e' : Extr ℝ GridTopo (Opts (Resolution ℝ × Option String))} (h0 : loadAnticline2d area o pd cd = .ok R)
    (h1 : extrudeNew (gridSurf R) none none = .ok e)
    (h2 : e.run rot [⟨1, [0, 6.28, 0], none, none, ⟨(.int 10, none), .none⟩⟩] = .ok e') :
    loadAnticline3d area volume o rot pd cd = extrudeS volume [] "default" e' := by
  unfold loadAnticline3d
  generalize loadAnticline2d area o pd cd = x at *
  subst h0
  dsimp only
  generalize extrudeNew (gridSurf R) none none = y at *
  subst h1
  dsimp only
  rw [h2]

/-- **C126 (3D), partial.** `load_anticline_3d` returns a mesh of 42 x 11 x 15 nodes: plane `j` is the 2D anticline moved by
`0.628 j` along y, and its cells keep their groups.
Missing: the layers and columns, see `C126_anticline3d_refuted`. -/
theorem C126_anticline3d_partial (area volume : Arr3 (V3 ℝ) → List ℝ)
    (harea : ∀ x, (area x).length = count (cells x.d)) (hvol : ∀ x, (volume x).length = count (cells x.d))
    (o : InterpOracle ℝ) (rot : V3 ℝ → ℝ → V3 ℝ → V3 ℝ → V3 ℝ) (pd cd : Dict String (DArr ℤ))
    (hline : StackLine 42 (anticlineLine pd cd)) :
    ∃ M table, loadAnticline3d area volume o rot pd cd = .ok (M, table) ∧ M.nodes.d = ![42, 11, 15] ∧
      (∀ (k first n : ℕ) name, anticlineParts[k]? = some (first, n, name) → ∀ i j s : ℕ, i < 42 → j < 11 → s ≤ n →
        M.points[vtkId ![42, 11, 15] ![i, j, first + s]]? =
          some ![anticlineX i, 0.628 * j,
            (1 - (s : ℝ) / n) * anticlineHeight k (anticlineX i) + (s : ℝ) / n * anticlineHeight (k + 1) (anticlineX i)]) ∧
      ∃ layers columns items groups, Dict.get? M.cellData "LayerId" = some layers ∧
        Dict.get? M.cellData "ColumnId" = some columns ∧ Dict.get? M.cellData "ExtrudeItem" = some items ∧
        Dict.get? M.cellData "CellGroup" = some groups ∧
        (∀ (k first n : ℕ) name, anticlineParts[k]? = some (first, n, name) → ∀ i j s : ℕ, i < 41 → j < 10 → s < n →
          items.vals[vtkId ![41, 10, 14] ![i, j, first + s]]? = some 0 ∧
          CellNamed table groups.vals (vtkId ![41, 10, 14] ![i, j, first + s]) name) ∧
        ∀ i j l : ℕ, i < 41 → j < 10 → l < 14 →
          layers.vals[vtkId ![41, 10, 14] ![i, j, l]]? = some ((vtkId ![41, 10, 14] ![i, j, l] / 574 : ℕ) : ℤ) ∧
          columns.vals[vtkId ![41, 10, 14] ![i, j, l]]? = some ((vtkId ![41, 10, 14] ![i, j, l] % 574 : ℕ) : ℤ) := by
  obtain ⟨M, table, surfs, subs, names, h0, h1, h2, h3, h4, h5⟩ := anticline_stacked area harea o pd cd hline
  have hbase := layered_base h5
  obtain ⟨hd, k2, layers0, columns0, items0, groups0, _, _, _, q4, q5⟩ := anticline_grid h1 h3 h4 h5
  obtain ⟨p, p1, p2, p3, p4⟩ := perc_int (r := 10) (by norm_num)
  let m := gridSurf (M, table)
  let arg : ExtrArgs ℝ (Opts (Resolution ℝ × Option String)) := ⟨1, [0, 6.28, 0], none, none, ⟨(.int 10, none), .none⟩⟩
  obtain ⟨e, he, hitems⟩ : ∃ e, (Extr.new m none none).run rot [arg] = .ok e ∧
      e.items.map (fun it => it.1.points) = [M.points, M.points.map fun q ax => q ax + ![0, 6.28, 0] ax] := ⟨_, rfl, rfl⟩
  have hnew : extrudeNew (ω := Opts (Resolution ℝ × Option String)) m none none = .ok (Extr.new m none none) := by
    have : dimOfShape m.topo.dims = 2 := by
      change dimOfShape M.nodes.d = 2
      rw [hd]; decide
    simp [extrudeNew, this]
  have hflat : FlatAlong ![42, 1, 15] 1 := ⟨rfl, by decide⟩
  rw [hd] at hbase
  obtain ⟨g1, g2⟩ := C98_extrude_partial volume hvol rot [] "default" ![42, 1, 15] m hbase 1 hflat none none [arg]
    (by simp) (by
      intro x hx
      rw [List.mem_singleton] at hx
      subst hx
      exact ⟨p, p1, p2⟩) e he
  obtain ⟨⟨M', table'⟩, hR⟩ := g1 (by
    intro x hx
    rw [List.mem_singleton] at hx
    subst hx
    intro kv hkv
    simp [arg, entries] at hkv)
  obtain ⟨subs', names', f1, f2, f3, f4⟩ := g2 M' table' hR
  obtain ⟨ts, nm, t1, t2, t3, t4⟩ := f3 0 _ rfl
  obtain rfl : p = ts := Except.ok.inj (p1.symm.trans t1)
  have hsubs : subs' = [p] := by
    match subs', f1, t2 with
    | [u], _, t2 =>
      simp only [List.getElem?_cons_zero, Option.some.injEq] at t2
      rw [t2]
  have hl0 : layersIn subs' 0 = 0 := by simp [layersIn]
  have hd' : M'.nodes.d = ![42, 11, 15] := by
    rw [f4.shape, hsubs]
    simp only [List.map_cons, List.map_nil, List.sum_cons, List.sum_nil, p3]
    exact shape_update1
  rw [hitems] at f4
  refine ⟨M', table', ?_, hd', ?_, ?_⟩
  · exact (loadAnticline3d_eq h0 hnew he).trans hR
  · intro k first n name hk i j s hi hj hs
    have hfl : first + n ≤ 14 := by
      have hk5 : k < 5 := (List.getElem?_eq_some_iff.1 hk).1
      have : k = 0 ∨ k = 1 ∨ k = 2 ∨ k = 3 ∨ k = 4 := by omega
      rcases this with rfl | rfl | rfl | rfl | rfl <;>
        simp only [anticlineParts, List.getElem?_cons_zero, List.getElem?_cons_succ, Option.some.injEq,
          Prod.mk.injEq] at hk <;> omega
    have hx := k2 k first n name hk i s hi hs
    have := f4.nodes 0 _ _ p rfl rfl t2 ![i, 0, first + s] j _ _ _
      (inShape_vec.2 ⟨hi, by omega, by omega⟩) (p4 j (by omega)) hx (by rw [List.getElem?_map, hx]; rfl)
    rw [hl0, hd', Nat.zero_add, ix_update1] at this
    rw [this]
    congr 1
    funext ax
    fin_cases ax
    · simp [between]; ring
    · simp [between]; ring
    · simp [between]; ring
  · obtain ⟨layers, columns, items, groups, d1, d2, d3, d4, _, _, d7⟩ := f4.data
    refine ⟨layers, columns, items, groups, d1, d2, d3, d4, ?_, ?_⟩
    · intro k first n name hk i j s hi hj hs
      have hl14 : first + s < 14 := by
        have hk5 : k < 5 := (List.getElem?_eq_some_iff.1 hk).1
        have : k = 0 ∨ k = 1 ∨ k = 2 ∨ k = 3 ∨ k = 4 := by omega
        rcases this with rfl | rfl | rfl | rfl | rfl <;>
          simp only [anticlineParts, List.getElem?_cons_zero, List.getElem?_cons_succ, Option.some.injEq,
            Prod.mk.injEq] at hk <;> omega
      have hin : InShape (cells ![42, 1, 15]) ![i, 0, first + s] := by
        rw [cells_42_1_15]; exact inShape_vec.2 ⟨hi, by omega, hl14⟩
      have := (d7 0 p nm t2 t3 ![i, 0, first + s] j hin (by rw [p3]; omega)).2
      rw [hl0, hd', Nat.zero_add, ix_update1, cells_42_11_15, cells_42_1_15] at this
      refine ⟨by simpa using this.1, ?_⟩
      have hnm : nm (vtkId ![41, 1, 14] ![i, 0, first + s]) = name := by
        have hcodes : groupCodes m.topo.cellData = some groups0.vals := by
          change groupCodes M.cellData = _
          simp [groupCodes, q4]
        rw [hcodes, cells_42_1_15] at t4
        refine labels_none t4 h5.dense ?_ (q5 k first n name hk i s hi hs).2.2.2
        simp [vtkId, count]; omega
      rw [← hnm]
      exact this.2
    · intro i j l hi hj hl
      have hin : InShape (cells ![42, 1, 15]) ![i, 0, l] := by
        rw [cells_42_1_15]; exact inShape_vec.2 ⟨hi, by omega, hl⟩
      have := f4.order layers columns d1 d2 0 p t2 ![i, 0, l] j hin (by rw [p3]; omega)
      have hs : slabId ![42, 1, 15] 1 p ![i, 0, l] j = vtkId ![41, 10, 14] ![i, j, l] := by
        simp only [slabId, p3, cells_42_1_15, ix_update1]
        congr 1
        funext ax
        fin_cases ax <;> rfl
      have hc : count (cells ![42, 1, 15]) = 574 := by rw [cells_42_1_15]; rfl
      rw [hl0, hd', hs, hc, Nat.zero_add, Nat.zero_add, ix_update1, cells_42_11_15] at this
      exact this

/-- **C126 (3D), refuted.** The cells of `load_anticline_3d` do not carry the plane they lie in and the cell of the 2D
anticline they come from: the first cell of the second plane has layer 0 and column 41 in place of 1 and 0. -/
theorem C126_anticline3d_refuted (area volume : Arr3 (V3 ℝ) → List ℝ)
    (harea : ∀ x, (area x).length = count (cells x.d)) (hvol : ∀ x, (volume x).length = count (cells x.d))
    (o : InterpOracle ℝ) (rot : V3 ℝ → ℝ → V3 ℝ → V3 ℝ → V3 ℝ) (pd cd : Dict String (DArr ℤ))
    (hline : StackLine 42 (anticlineLine pd cd)) :
    ∃ M table layers columns, loadAnticline3d area volume o rot pd cd = .ok (M, table) ∧
      Dict.get? M.cellData "LayerId" = some layers ∧ Dict.get? M.cellData "ColumnId" = some columns ∧
      layers.vals[vtkId ![41, 10, 14] ![0, 1, 0]]? = some 0 ∧ columns.vals[vtkId ![41, 10, 14] ![0, 1, 0]]? = some 41 := by
  obtain ⟨M, table, h0, _, _, layers, columns, _, _, d1, d2, _, _, _, d6⟩ :=
    C126_anticline3d_partial area volume harea hvol o rot pd cd hline
  have := d6 0 1 0 (by norm_num) (by norm_num) (by norm_num)
  exact ⟨M, table, layers, columns, h0, d1, d2, this.1, this.2⟩

/-- Concrete case: the line without data arrays is a valid base. -/
theorem anticlineLine_ok : StackLine 42 (anticlineLine [] []) := by
  refine ⟨⟨?_, ?_, ?_, ?_, ?_, ?_⟩, ?_, ?_⟩ <;> simp [anticlineLine]

example (area volume : Arr3 (V3 ℝ) → List ℝ) (harea : ∀ x, (area x).length = count (cells x.d))
    (hvol : ∀ x, (volume x).length = count (cells x.d)) (o : InterpOracle ℝ) (rot : V3 ℝ → ℝ → V3 ℝ → V3 ℝ → V3 ℝ) :
    (∃ R, loadAnticline2d area o [] [] = .ok R) ∧ ∃ R, loadAnticline3d area volume o rot [] [] = .ok R := by
  obtain ⟨M, t, h, _⟩ := C126_anticline2d area harea o [] [] anticlineLine_ok
  obtain ⟨M', t', h', _⟩ := C126_anticline3d_partial area volume harea hvol o rot [] [] anticlineLine_ok
  exact ⟨⟨_, h⟩, _, h'⟩

end Gridder
