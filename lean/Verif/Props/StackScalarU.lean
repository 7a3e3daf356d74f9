import Verif.Props.StackU
import Verif.Props.StackBase

/-!
# C99, C103: stacks of scalars on unstructured surfaces
-/

namespace Gridder
open Spec

namespace Spec

/-- Height in a stack of scalars: at position `t` of item `k`, of thickness `a`. -/
noncomputable def itemHeight (bottomUp : Bool) (z0 : ℝ) (as : List ℝ) (k : ℕ) (a t : ℝ) : ℝ :=
  z0 + (if bottomUp then 1 else -1) * (((as.take k).map abs).sum + t * |a|)

end Spec

theorem itemHeight_between {bottomUp : Bool} {z0 : ℝ} {as : List ℝ} {k : ℕ} {a : ℝ} (h : as[k]? = some a) (t : ℝ) :
    (1 - t) * stackHeight bottomUp z0 as k + t * stackHeight bottomUp z0 as (k + 1) =
      itemHeight bottomUp z0 as k a t := by
  rw [stackHeight_succ h]
  simp only [stackHeight, itemHeight]
  cases bottomUp <;> simp <;> ring

/-- **C99, C103 (partial), unstructured surfaces.** A 3D stack of scalars `z0, a1, ..., am` on a surface of triangles,
polygons, pixels and quads, under the conditions of the structured case on the minimum thicknesses but along any axis:
all calls succeed, a mesh is generated if the group arguments fit; its cells are the layers of prisms of C97, the nodes
of item `k` over point `p` at position `t` of its subdivision have (up to the merging of points, `R`) the height
`z0 + |a1| + ... + |a(k-1)| + t |ak|` (minus instead of plus when stacked downwards) and the other coordinates of `p`;
and over a base cell the cells of item `k` are hidden exactly when its first sublayer is not thicker than numpy's
tolerance at its upper height; the other ones have the flag of the base cell.  So the cells of an item of thickness 0 are
hidden.
Missing: other cell types and point data, as in C97. -/
theorem C99_scalar_unstructured_partial {R : V3 ℝ → V3 ℝ → Prop} {vtk : VtkOracle ℝ} (ho : AppendsAll vtk.order)
    (hc : Cleans R vtk.clean) (invert : Bool) (ignore : List String) (dflt : String) (o : InterpOracle ℝ)
    (mesh : Surf ℝ UTopo) (hmesh : StackSurf mesh) (axis : Fin 3) (bottomUp : Bool) (z0 : ℝ)
    (r0 : Rest ℝ (Opts (Resolution ℝ × Option String))) (as : List (ℝ × Rest ℝ (Opts (Resolution ℝ × Option String))))
    (has : as ≠ [])
    (hth : ∀ a ∈ as, if bottomUp then a.2.thickness ≤ |a.1| else -|a.1| ≤ a.2.thickness)
    (hres : ∀ a ∈ as, ∃ ts, resolutionToPerc a.2.opts.sub.1 a.2.opts.sub.2 = .ok ts ∧ fromZeroToOne ts) :
    ∃ s, (Stack.new mesh axis bottomUp).run o (scalarCall (z0, r0) :: as.map scalarCall) = .ok s ∧
      ((∀ a ∈ as, Acceptable mesh.topo.cells.length a.2.opts.group) →
        ∃ r, stack3DU vtk invert ignore dflt s = .ok r) ∧
      ∀ M table s', stack3DU vtk invert ignore dflt s = .ok ((M, table), s') →
        ∃ surfs subs names pos node, surfs.length = as.length + 1 ∧ subs.length = as.length ∧ names.length = as.length ∧
          LayeredU R invert "StackItem" mesh.points.length mesh.topo.cells mesh.topo.cellData surfs subs names M
            table pos node ∧
          ∀ (k : ℕ) a, as[k]? = some a → ∃ ts name, resolutionToPerc a.2.opts.sub.1 a.2.opts.sub.2 = .ok ts ∧
            subs[k]? = some ts ∧ names[k]? = some name ∧
            Labels ignore dflt mesh.topo.cells.length (groupCodes mesh.topo.cellData) mesh.topo.table a.2.opts.group name ∧
            (∀ (j s : ℕ) t p, NodeOf mesh.topo.cells j → ts[s]? = some t → mesh.points[j]? = some p →
              ∃ p' q, M.points[node (layersIn subs k + s) j]? = some p' ∧ R p' q ∧
                q axis = itemHeight bottomUp z0 (as.map Prod.fst) k a.1 t ∧ ∀ ax, ax ≠ axis → q ax = p ax) ∧
            ∀ (c s t : ℕ) conn t1, mesh.topo.cells[c]? = some (t, conn) → conn ≠ [] → s < ts.length - 1 →
              ts[1]? = some t1 →
              (|t1| * |a.1| ≤ 1 / 10 ^ 8 + 1 / 10 ^ 5 * |itemHeight bottomUp z0 (as.map Prod.fst) k a.1 t1| →
                ghostOf M.cellData (pos (layersIn subs k + s) c) = 32) ∧
              (¬ |t1| * |a.1| ≤ 1 / 10 ^ 8 + 1 / 10 ^ 5 * |itemHeight bottomUp z0 (as.map Prod.fst) k a.1 t1| →
                ghostOf M.cellData (pos (layersIn subs k + s) c) = ghostOf mesh.topo.cellData c) := by
  obtain ⟨s, hs, _⟩ := C26_scalar_heights o mesh axis bottomUp z0 r0 as
  refine ⟨s, hs, ?_⟩
  rw [← scalarAdds_calls] at hs
  have hargs : itemArgs (scalarAdds z0 r0 as) = as.map fun a => (a.2.opts.sub, a.2.opts.group) := by
    simp only [itemArgs, scalarAdds, List.tail_cons, List.map_map]; rfl
  have hlen := List.length_pos_of_ne_nil has
  obtain ⟨g1, g2⟩ := C97_unstructured_partial ho hc invert ignore dflt o mesh hmesh axis bottomUp (scalarAdds z0 r0 as)
    (by simp [scalarAdds]; omega)
    (by
      rw [hargs]; intro x hx
      obtain ⟨a, ha, rfl⟩ := List.mem_map.1 hx
      exact hres a ha) s hs
  obtain ⟨u1, u2, u3⟩ := scalar_uncut hth hs
  refine ⟨?_, ?_⟩
  · intro hacc
    refine g1 ?_
    rw [hargs]; intro x hx
    obtain ⟨a, ha, rfl⟩ := List.mem_map.1 hx
    exact hacc a ha
  · intro M table s' h
    have hitems := u3 (by simpa only [stack3DU, Stack.generateU] using h)
    obtain ⟨_, _, subs, names, pos, node, h1, h2, h3, h4⟩ := g2 M table s' h
    rw [hitems] at h4
    rw [hargs] at h1 h2 h3
    refine ⟨_, subs, names, pos, node, by rw [List.length_map, u1], by rw [h1]; simp, by rw [h2]; simp, h4, ?_⟩
    intro k a ha
    have hk : k < as.length := (List.getElem?_eq_some_iff.1 ha).1
    obtain ⟨ts, name, t1, t2, t3, t4⟩ := h3 k (a.2.opts.sub, a.2.opts.group) (by simp [ha])
    have i1 : s.items[k]? = some s.items[k] := List.getElem?_eq_getElem (by omega)
    have i2 : s.items[k + 1]? = some s.items[k + 1] := List.getElem?_eq_getElem (by omega)
    have hz : (as.map Prod.fst)[k]? = some a.1 := by simp [ha]
    have hpoint : ∀ (j : ℕ) (p u v : V3 ℝ) (t : ℝ), mesh.points[j]? = some p →
        s.items[k].mesh.points[j]? = some u → s.items[k + 1].mesh.points[j]? = some v →
        between t u v axis = itemHeight bottomUp z0 (as.map Prod.fst) k a.1 t ∧
          ∀ ax, ax ≠ axis → between t u v ax = p ax := by
      intro j p u v t hp hu hv
      obtain ⟨u', w1, w2, w3⟩ := u2 _ _ i1 _ _ hp
      obtain ⟨v', x1, x2, x3⟩ := u2 _ _ i2 _ _ hp
      rw [hu] at w1; cases w1
      rw [hv] at x1; cases x1
      refine ⟨?_, fun ax hax => ?_⟩
      · simp only [between]
        rw [w2, x2, itemHeight_between hz]
      · simp only [between]
        rw [w3 ax hax, x3 ax hax]; ring
    have hex : ∀ (j : ℕ) (p : V3 ℝ), mesh.points[j]? = some p → ∃ u v,
        s.items[k].mesh.points[j]? = some u ∧ s.items[k + 1].mesh.points[j]? = some v := by
      intro j p hp
      obtain ⟨u, w1, _⟩ := u2 _ _ i1 _ _ hp
      obtain ⟨v, x1, _⟩ := u2 _ _ i2 _ _ hp
      exact ⟨u, v, w1, x1⟩
    have s1 : (s.items.map fun it => it.mesh.points)[k]? = some s.items[k].mesh.points := by simp [i1]
    have s2 : (s.items.map fun it => it.mesh.points)[k + 1]? = some s.items[k + 1].mesh.points := by simp [i2]
    refine ⟨ts, name, t1, t2, t3, t4, ?_, ?_⟩
    · intro j i t p hj ht hp
      obtain ⟨u, v, w1, x1⟩ := hex j p hp
      obtain ⟨p', y1, y2⟩ := h4.nodes k _ _ ts s1 s2 t2 j i t u v hj ht w1 x1
      obtain ⟨z1, z2⟩ := hpoint j p u v t hp w1 x1
      exact ⟨p', _, y1, y2, z1, z2⟩
    · intro c i t conn τ1 hcc hne hi hτ
      obtain ⟨ts', r1, r2⟩ := hres a (List.mem_of_getElem? ha)
      rw [t1] at r1
      obtain rfl := Except.ok.inj r1
      have hiff : Squeezed conn s.items[k].mesh.points s.items[k + 1].mesh.points ts ↔
          |τ1| * |a.1| ≤ 1 / 10 ^ 8 + 1 / 10 ^ 5 * |itemHeight bottomUp z0 (as.map Prod.fst) k a.1 τ1| := by
        have hdiff : |itemHeight bottomUp z0 (as.map Prod.fst) k a.1 0 -
            itemHeight bottomUp z0 (as.map Prod.fst) k a.1 τ1| = |τ1| * |a.1| := by
          simp only [itemHeight]
          cases bottomUp
          · have : z0 + (if false = true then (1 : ℝ) else -1) * ((((as.map Prod.fst).take k).map abs).sum + 0 * |a.1|) -
                (z0 + (if false = true then (1 : ℝ) else -1) * ((((as.map Prod.fst).take k).map abs).sum + τ1 * |a.1|)) =
                τ1 * |a.1| := by simp
            rw [this, abs_mul, abs_abs]
          · have : z0 + (if true = true then (1 : ℝ) else -1) * ((((as.map Prod.fst).take k).map abs).sum + 0 * |a.1|) -
                (z0 + (if true = true then (1 : ℝ) else -1) * ((((as.map Prod.fst).take k).map abs).sum + τ1 * |a.1|)) =
                -(τ1 * |a.1|) := by simp
            rw [this, abs_neg, abs_mul, abs_abs]
        constructor
        · intro hsq
          obtain ⟨j, hj⟩ := List.exists_mem_of_ne_nil conn hne
          have hjp : j < mesh.points.length := hmesh.ids _ (List.mem_of_getElem? hcc) j hj
          obtain ⟨u, v, w1, x1⟩ := hex j _ (List.getElem?_eq_getElem hjp)
          have := hsq j hj 0 τ1 u v r2.2.1 hτ w1 x1 axis
          rw [(hpoint j _ u v 0 (List.getElem?_eq_getElem hjp) w1 x1).1,
            (hpoint j _ u v τ1 (List.getElem?_eq_getElem hjp) w1 x1).1, hdiff] at this
          exact this
        · intro hle j hj t0 t1' u v h0 h1' hu hv ax
          rw [r2.2.1] at h0
          obtain rfl := Option.some.inj h0
          rw [hτ] at h1'
          obtain rfl := Option.some.inj h1'
          have hjp : j < mesh.points.length := hmesh.ids _ (List.mem_of_getElem? hcc) j hj
          have e0 := hpoint j _ u v 0 (List.getElem?_eq_getElem hjp) hu hv
          have e1 := hpoint j _ u v τ1 (List.getElem?_eq_getElem hjp) hu hv
          by_cases hax : ax = axis
          · subst hax
            rw [e0.1, e1.1, hdiff]; exact hle
          · rw [e0.2 ax hax, e1.2 ax hax, sub_self, abs_zero]
            positivity
      obtain ⟨f1, f2⟩ := h4.hidden k _ _ ts s1 s2 t2 c i t conn hcc hi
      exact ⟨fun h => f1 (hiff.2 h), fun h => f2 fun h' => h (hiff.1 h')⟩

/-- Concrete case: two scalars on the kite, the second one of thickness 0, whose cells are all hidden. -/
example (o : InterpOracle ℝ) :
    ∃ s M table s', (Stack.new kiteXY 2 true).run o (scalarCall (0, ⟨none, ⟨(.int 1, none), .none⟩, 0, 0⟩) ::
        [(5, (⟨none, ⟨(.int 1, none), .none⟩, 0, 0⟩ : Rest ℝ (Opts (Resolution ℝ × Option String)))),
          (0, ⟨none, ⟨(.int 1, none), .none⟩, 0, 0⟩)].map scalarCall) = .ok s ∧
      stack3DU exactVtk true [] "default" s = .ok ((M, table), s') ∧
      ∃ pos : ℕ → ℕ → ℕ, ghostOf M.cellData (pos 1 0) = 32 ∧ ghostOf M.cellData (pos 1 1) = 32 ∧
        ghostOf M.cellData (pos 0 0) = 0 := by
  have hres1 : ∃ ts, resolutionToPerc (.int 1 : Resolution ℝ) none = .ok ts ∧ ts = [0, 1] := by
    refine ⟨_, rfl, ?_⟩
    exact npSort_eq (by simp) (by simp [linspace, List.range_succ])
  obtain ⟨ts0, q1, q2⟩ := hres1
  obtain ⟨s, g1, g2, g3⟩ := C99_scalar_unstructured_partial exactVtk_ok.1 exactVtk_ok.2 true [] "default" o kiteXY
    kiteXY_ok 2 true 0 ⟨none, ⟨(.int 1, none), .none⟩, 0, 0⟩
    [(5, ⟨none, ⟨(.int 1, none), .none⟩, 0, 0⟩), (0, ⟨none, ⟨(.int 1, none), .none⟩, 0, 0⟩)] (by simp)
    (by
      intro a ha
      simp only [List.mem_cons, List.not_mem_nil, or_false] at ha
      rcases ha with rfl | rfl <;> norm_num)
    (by
      intro a ha
      simp only [List.mem_cons, List.not_mem_nil, or_false] at ha
      rcases ha with rfl | rfl <;> exact ⟨ts0, q1, by rw [q2]; simp [fromZeroToOne]⟩)
  obtain ⟨⟨⟨M, table⟩, s'⟩, hR⟩ := g2 (by
    intro a ha
    simp only [List.mem_cons, List.not_mem_nil, or_false] at ha
    rcases ha with rfl | rfl <;> simp [Acceptable, entries])
  refine ⟨s, M, table, s', g1, hR, ?_⟩
  obtain ⟨surfs, subs, names, pos, node, _, _, _, _, hk⟩ := g3 M table s' hR
  obtain ⟨t0, _, a1, a2, _, _, _, a3⟩ := hk 0 _ rfl
  obtain ⟨t1, _, b1, b2, _, _, _, b3⟩ := hk 1 _ rfl
  rw [q1] at a1 b1
  obtain rfl := Except.ok.inj a1
  obtain rfl := Except.ok.inj b1
  subst q2
  have hl : layersIn subs 1 = 1 := by
    obtain ⟨x, rest, rfl⟩ : ∃ x rest, subs = x :: rest := by
      cases subs with
      | nil => simp at a2
      | cons x r => exact ⟨x, r, rfl⟩
    simp only [List.getElem?_cons_zero, Option.some.injEq] at a2
    subst a2
    simp [layersIn]
  have hl0 : layersIn subs 0 = 0 := by simp [layersIn]
  refine ⟨pos, ?_, ?_, ?_⟩
  · have := (b3 0 0 5 [0, 1, 2] 1 rfl (by simp) (by simp) rfl).1 (by
      simp only [abs_zero, mul_zero]; positivity)
    rwa [hl] at this
  · have := (b3 1 0 9 [1, 3, 4, 2] 1 rfl (by simp) (by simp) rfl).1 (by
      simp only [abs_zero, mul_zero]; positivity)
    rwa [hl] at this
  · have := (a3 0 0 5 [0, 1, 2] 1 rfl (by simp) (by simp) rfl).2 (by
      simp [itemHeight]; norm_num)
    rw [hl0] at this
    rw [this]
    rfl

end Gridder
