import Verif.Props.StackMesh

/-!
# C95, C99: stacks on arrays of numbers, stacks of scalars from end to end
-/

namespace Gridder
open Spec

/-! ## C95 -/

theorem checkAxis_cast (axis : Fin 3) : checkAxis (axis : ℕ) = .ok axis := by fin_cases axis <;> rfl

theorem checkAxis_inv {x : ℤ} {axis : Fin 3} (h : checkAxis x = .ok axis) : x = (axis : ℕ) := by
  unfold checkAxis at h
  split_ifs at h with h0 h1 h2
  all_goals first | (cases h; simpa) | cases h

/-- The line for an array of numbers, as documented for each axis. -/
def Spec.documentedAxis (axis : Fin 3) : Fin 3 := ![2, 1, 0] axis

/-- **C95 (partial).** `MeshStack2D` on two or more numbers: the base is a line with one node per number, in order,
whose coordinate is the number along the axis after the stacking axis (in cyclic order) and zero along the other two,
so it is perpendicular to the stacking axis; for axis 2 it is the documented X axis; and it satisfies what C96 asks for.
Missing: the documented axes for stacking axes 0 and 1 (`C95_documented_axis_refuted`). -/
theorem C95_number_base_partial {ω : Type _} (xs : List ℝ) (hxs : 2 ≤ xs.length) (axis : Fin 3) (bottomUp : Bool) :
    ∃ s : Stack ℝ LineTopo ω, stack2DNew (.numbers xs) (axis : ℕ) bottomUp = .ok s ∧ s.axis = axis ∧
      s.bottomUp = bottomUp ∧ s.items = [] ∧ s = Stack.new s.mesh axis bottomUp ∧
      StackLine xs.length s.mesh ∧ s.mesh.points.length = xs.length ∧
      (∀ (j : ℕ) x, xs[j]? = some x → ∃ q, s.mesh.points[j]? = some q ∧ q axis = 0 ∧ q (axis + 1) = x ∧
        q (axis + 2) = 0 ∧ (axis = 2 → q (documentedAxis axis) = x)) := by
  refine ⟨⟨⟨numberPoints axis xs, List.range xs.length, [], [], none⟩, axis, bottomUp, false, []⟩, ?_, rfl, rfl, rfl,
    rfl, ⟨⟨?_, ?_, ?_, ?_, ?_, ?_⟩, ?_, ?_⟩, by simp [numberPoints], ?_⟩
  · simp only [stack2DNew, checkAxis_cast]; rw [if_neg (by omega)]; rfl
  · simp [numberPoints]
  · simpa [numberPoints] using hxs
  · simp
  · simp
  · simp
  · simp
  · simp [numberPoints]
  · simp
  · intro j x hx
    refine ⟨Function.update 0 (axis + 1) x, by simp [numberPoints, hx], ?_, by simp, ?_, ?_⟩
    · fin_cases axis <;> simp
    · fin_cases axis <;> simp <;> decide
    · rintro rfl; simp [documentedAxis]

/-- Concrete case of C95. -/
example : ∃ s : Stack ℝ LineTopo Unit, stack2DNew (.numbers [0, 1, 3]) 2 true = .ok s ∧
    s.mesh.points[2]? = some ![3, 0, 0] := by
  refine ⟨_, rfl, ?_⟩
  simp only [Stack.new, numberPoints, List.map_cons, List.map_nil, List.getElem?_cons_succ, List.getElem?_cons_zero,
    Option.some.injEq]
  funext ax; fin_cases ax <;> simp [Function.update_apply]

/-- **C95 (refuted).** For stacking axes 0 and 1 no array with a nonzero number gives a line along the documented axis:
the node of that number has coordinate 0 along it. -/
theorem C95_documented_axis_refuted {ω : Type _} (xs : List ℝ) (hxs : 2 ≤ xs.length) (axis : Fin 3) (hax : axis ≠ 2)
    (bottomUp : Bool) : ∃ s : Stack ℝ LineTopo ω, stack2DNew (.numbers xs) (axis : ℕ) bottomUp = .ok s ∧
      ∀ (j : ℕ) x, xs[j]? = some x → ∃ q, s.mesh.points[j]? = some q ∧ q (documentedAxis axis) = 0 := by
  refine ⟨⟨⟨numberPoints axis xs, List.range xs.length, [], [], none⟩, axis, bottomUp, false, []⟩, ?_, ?_⟩
  · simp only [stack2DNew, checkAxis_cast]; rw [if_neg (by omega)]; rfl
  · intro j x hx
    refine ⟨Function.update 0 (axis + 1) x, by simp [numberPoints, hx], ?_⟩
    fin_cases axis
    · simp [documentedAxis]
    · simp [documentedAxis]
    · exact absurd rfl hax

/-- Anything but numbers and `PolyData` with lines is refused; of a `PolyData` the first line is used. -/
theorem C95_other_bases {ω : Type _} (axis : Fin 3) (bottomUp : Bool) :
    stack2DNew (ω := ω) (.other : LineBase ℝ) (axis : ℕ) bottomUp = .error .valueError ∧
    stack2DNew (ω := ω) (.poly [] : LineBase ℝ) (axis : ℕ) bottomUp = .error .valueError ∧
    ∀ (l : Surf ℝ LineTopo) ls,
      stack2DNew (ω := ω) (.poly (l :: ls)) (axis : ℕ) bottomUp = .ok (Stack.new l axis bottomUp) := by
  simp only [stack2DNew, checkAxis_cast, true_and, implies_true]

/-! ## C100 -/

theorem dim_two_iff {d : Ix} {axis : Fin 3} (hd : ∀ ax, 1 ≤ d ax) :
    dimOfShape d = 2 ∧ d axis = 1 ↔ FlatAlong d axis := by
  have h0 := hd 0; have h1 := hd 1; have h2 := hd 2
  constructor
  · rintro ⟨h, ha⟩
    refine ⟨ha, ?_⟩
    intro ax hax
    have hx := hd ax
    by_contra hcon
    have hone : d ax = 1 := by omega
    unfold dimOfShape at h
    fin_cases axis <;> fin_cases ax <;> simp_all <;> split_ifs at h <;> omega
  · rintro h
    exact ⟨(flatAxis_eq h).2, h.1⟩

/-- **C100.** `MeshStack3D` on a structured grid: accepted exactly when the axis is 0, 1 or 2 and the grid is a surface
that has one node along that axis and several along the two others; then the stack is empty with that base, axis and
direction; refused with a `ValueError` otherwise. -/
theorem C100_stack3d {ω : Type _} (mesh : Surf ℝ GridTopo) (hd : ∀ ax, 1 ≤ mesh.topo.dims ax) (axis : ℤ)
    (bottomUp : Bool) :
    (∀ ax : Fin 3, axis = (ax : ℕ) → FlatAlong mesh.topo.dims ax →
      stack3DNew (ω := ω) mesh axis bottomUp = .ok (Stack.new mesh ax bottomUp)) ∧
    ((¬ ∃ ax : Fin 3, axis = (ax : ℕ) ∧ FlatAlong mesh.topo.dims ax) →
      stack3DNew (ω := ω) mesh axis bottomUp = .error .valueError) := by
  constructor
  · rintro ax rfl hflat
    obtain ⟨h1, h2⟩ := (dim_two_iff hd).2 hflat
    simp only [stack3DNew, checkAxis_cast]
    rw [if_neg (by simp [h1]), if_neg (by simp [h2])]
  · intro hno
    simp only [stack3DNew]
    split_ifs with h1
    · rfl
    · cases hc : checkAxis axis with
      | error e =>
        unfold checkAxis at hc
        split_ifs at hc
        cases hc; rfl
      | ok a =>
        simp only
        rw [if_pos]
        intro h2
        exact hno ⟨a, checkAxis_inv hc, (dim_two_iff hd).1 ⟨by simpa using h1, h2⟩⟩

/-- **C100.** `MeshExtrude` on a structured grid: accepted exactly when it is a surface. -/
theorem C100_extrude {ω : Type _} (mesh : Surf ℝ GridTopo) (hd : ∀ ax, 1 ≤ mesh.topo.dims ax)
    (scale angle : Option ℝ) :
    ((∃ ax, FlatAlong mesh.topo.dims ax) → extrudeNew (ω := ω) mesh scale angle = .ok (Extr.new mesh scale angle)) ∧
    ((¬ ∃ ax, FlatAlong mesh.topo.dims ax) → extrudeNew (ω := ω) mesh scale angle = .error .valueError) := by
  constructor
  · rintro ⟨ax, h⟩
    simp only [extrudeNew]
    rw [if_neg (by simp [((dim_two_iff hd).2 h).1])]
  · intro hno
    simp only [extrudeNew]
    rw [if_pos]
    intro h
    have : ∃ ax, mesh.topo.dims ax = 1 := by
      by_contra hcon
      push Not at hcon
      unfold dimOfShape at h
      rw [if_neg (hcon 0), if_neg (hcon 1), if_neg (hcon 2)] at h
      omega
    obtain ⟨ax, hax⟩ := this
    exact hno ⟨ax, (dim_two_iff hd).1 ⟨h, hax⟩⟩

/-- **C100.** Stacks along anything but 0, 1 and 2 are refused. -/
theorem C100_axis {ω : Type _} (base : LineBase ℝ) (axis : ℤ) (h : ∀ ax : Fin 3, axis ≠ (ax : ℕ)) (bottomUp : Bool) :
    stack2DNew (ω := ω) base axis bottomUp = .error .valueError := by
  have h0 : axis ≠ 0 := h 0
  have h1 : axis ≠ 1 := h 1
  have h2 : axis ≠ 2 := h 2
  simp only [stack2DNew, checkAxis]
  rw [if_neg h0, if_neg h1, if_neg h2]

/-- Concrete cases of C100. -/
example : stack3DNew (ω := Unit) (squareXY ℝ) 2 true = .ok (Stack.new (squareXY ℝ) 2 true) ∧
    stack3DNew (ω := Unit) (squareXY ℝ) 1 true = .error .valueError ∧
    stack3DNew (ω := Unit) (squareXY ℝ) (-1) true = .error .valueError := ⟨rfl, rfl, rfl⟩

/-! ## C99 -/

section
variable {τ ρ : Type _}

/-- The calls of a scalar stack. -/
def scalarAdds {K ω : Type _} (z0 : K) (r0 : Rest K ω) (as : List (K × Rest K ω)) : List (AddArg K × Rest K ω) :=
  (.scalar z0, r0) :: as.map fun a => (.scalar a.1, a.2)

theorem scalarAdds_calls {K ω : Type _} [Field K] [LinearOrder K] (z0 : K) (r0 : Rest K ω) (as : List (K × Rest K ω)) :
    ((scalarAdds z0 r0 as).map addCall : List (Call K τ ω)) = scalarCall (z0, r0) :: as.map scalarCall := by
  simp only [scalarAdds, List.map_cons, List.map_map]; rfl

/-- The height of surface `i`. -/
def Spec.stackHeight (bottomUp : Bool) (z0 : ℝ) (as : List ℝ) (i : ℕ) : ℝ :=
  if bottomUp then z0 + ((as.take i).map abs).sum else z0 - ((as.take i).map abs).sum

theorem stackHeight_succ {bottomUp : Bool} {z0 : ℝ} {as : List ℝ} {k : ℕ} {a : ℝ} (h : as[k]? = some a) :
    stackHeight bottomUp z0 as (k + 1) = stackHeight bottomUp z0 as k + (if bottomUp then |a| else -|a|) := by
  have : ((as.take (k + 1)).map abs).sum = ((as.take k).map abs).sum + |a| := by
    rw [List.take_add_one, h]; simp
  simp only [stackHeight, this]
  cases bottomUp <;> simp <;> ring

theorem scalar_uncut {o : InterpOracle ℝ} {mesh : Surf ℝ τ} {axis : Fin 3} {bottomUp : Bool} {z0 : ℝ}
    {r0 : Rest ℝ (Opts ρ)} {as : List (ℝ × Rest ℝ (Opts ρ))}
    (hth : ∀ a ∈ as, if bottomUp then a.2.thickness ≤ |a.1| else -|a.1| ≤ a.2.thickness)
    {s : Stack ℝ τ (Opts ρ)}
    (hs : (Stack.new mesh axis bottomUp).run o ((scalarAdds z0 r0 as).map addCall) = .ok s) :
    s.items.length = as.length + 1 ∧
    (∀ (i : ℕ) (y : Item ℝ τ (Opts ρ)), s.items[i]? = some y →
      ∀ (j : ℕ) (p : V3 ℝ), mesh.points[j]? = some p → ∃ q, y.mesh.points[j]? = some q ∧
          q axis = stackHeight bottomUp z0 (as.map Prod.fst) i ∧ ∀ ax, ax ≠ axis → q ax = p ax) ∧
    ∀ {M : Type} {build : List (Item ℝ τ (Opts ρ)) → Py M} {m : M} {s' : Stack ℝ τ (Opts ρ)},
      s.generate build = .ok (m, s') → s'.items = s.items := by
  obtain ⟨s1, h1, h2, h3⟩ := C26_scalar_heights o mesh axis bottomUp z0 r0 as
  have hrun := hs
  rw [scalarAdds_calls, h1] at hs
  cases hs
  have hheight : ∀ (i : ℕ) (y : Item ℝ τ (Opts ρ)), s.items[i]? = some y →
      ∀ (j : ℕ) (p : V3 ℝ), mesh.points[j]? = some p → ∃ q, y.mesh.points[j]? = some q ∧
          q axis = stackHeight bottomUp z0 (as.map Prod.fst) i ∧ ∀ ax, ax ≠ axis → q ax = p ax := by
    intro i y hy j p hp
    obtain ⟨q, q1, q2, q3⟩ := (h3 i y hy).2.2 j p hp
    refine ⟨q, q1, ?_, q3⟩
    rw [q2]
    simp only [stackHeight, ← List.map_take, List.map_map]
    rfl
  refine ⟨h2, hheight, ?_⟩
  intro M build m s' hgen
  obtain ⟨_, e2, e3, e4, new, e5, e6, e7⟩ := run_adds _ _ s hrun rfl (by simp [Stack.new])
  simp only [Stack.new, List.nil_append, List.length_nil, Nat.zero_add] at e2 e3 e5 e7
  obtain ⟨a, rest, hitems, hcut, _, _, _⟩ := generate_inv hgen
  rw [e2, e3] at hcut
  have hchain := cutFrom_id (axis := axis) (bu := bottomUp) (a := a) (rest := rest) (by
    rw [← hitems, List.isChain_iff_getElem]
    intro i hi
    right
    have g1 : s.items[i]? = some s.items[i] := List.getElem?_eq_getElem _
    have g2 : s.items[i + 1]? = some s.items[i + 1] := List.getElem?_eq_getElem _
    have l1 := (h3 _ _ g1).2.1
    have l2 := (h3 _ _ g2).2.1
    refine ⟨by rw [l1, l2], ?_⟩
    intro j p q hp hq
    have hj : j < mesh.points.length := by rw [← l1]; exact (List.getElem?_eq_some_iff.1 hp).1
    obtain ⟨p', p1, p2, _⟩ := hheight _ _ g1 j _ (List.getElem?_eq_getElem hj)
    obtain ⟨q', q1, q2, _⟩ := hheight _ _ g2 j _ (List.getElem?_eq_getElem hj)
    rw [p1] at hp; cases hp
    rw [q1] at hq; cases hq
    have hi' : i < as.length := by omega
    have ga : (scalarAdds z0 r0 as)[i + 1]? = some (.scalar as[i].1, as[i].2) := by
      simp [scalarAdds, List.getElem?_eq_getElem hi']
    have hthick := ((e7 (i + 1) _ _ (by rw [← e5]; exact g2) ga).2 (by omega)).2
    have := hth as[i] (List.getElem_mem hi')
    rw [p2, q2, hthick, stackHeight_succ (a := as[i].1) (by simp [List.getElem?_eq_getElem hi'])]
    simp only [shiftAt]
    cases bottomUp <;> simp at this ⊢ <;> linarith)
  rw [hchain] at hcut
  rw [hitems, Except.ok.inj hcut]


namespace Spec

/-- The grid of a scalar stack: base points at the heights the scalars and subdivisions say. -/
def ScalarGrid (d : Fin 3 → ℕ) (axis : Fin 3) (bottomUp : Bool) (base : List (Fin 3 → ℝ)) (z0 : ℝ)
    (as : List (ℝ × (Resolution ℝ × Option String))) (M : SGrid ℝ ℤ) : Prop :=
  ∃ subs, subs.length = as.length ∧
    (∀ (k : ℕ) a, as[k]? = some a → ∃ ts, resolutionToPerc a.2.1 a.2.2 = .ok ts ∧ subs[k]? = some ts) ∧
    M.nodes.d = Function.update d axis (1 + (subs.map fun ts => ts.length - 1).sum) ∧
    ∀ (k : ℕ) a ts, as[k]? = some a → subs[k]? = some ts → ∀ i s t p, InShape d i → ts[s]? = some t →
      base[vtkId d i]? = some p →
      ∃ q, M.points[vtkId M.nodes.d (Function.update i axis (layersIn subs k + s))]? = some q ∧
        q axis = z0 + (if bottomUp then 1 else -1) * (((as.take k).map fun b => |b.1|).sum + t * |a.1|) ∧
        ∀ ax, ax ≠ axis → q ax = p ax

end Spec

theorem scalar_grid {ρ : Type} {src : List ℝ → (Fin 3 → ℕ) → ℕ → ℕ} {area : Arr3 (V3 ℝ) → List ℝ} {ghost : Dict String (DArr ℤ)} {ignore : List String}
    {dflt : String} {d : Fin 3 → ℕ} {axis : Fin 3} {bottomUp : Bool}
    {codes : Option (List Int)} {tbl : Option (List (String × Int))} {key : String}
    {base : List (Fin 3 → ℝ)} {z0 : ℝ} {as : List (ℝ × Rest ℝ (Opts (Resolution ℝ × Option String)))}
    {items : List (Item ℝ ρ (Opts (Resolution ℝ × Option String)))} {M : SGrid ℝ ℤ}
    {r0 : Rest ℝ (Opts (Resolution ℝ × Option String))} {table : List (String × Int)}
    (hlen : items.length = as.length + 1)
    (hh : ∀ (i : ℕ) y, items[i]? = some y → ∀ (j : ℕ) (p : V3 ℝ), base[j]? = some p → ∃ q, y.mesh.points[j]? = some q ∧
          q axis = stackHeight bottomUp z0 (as.map Prod.fst) i ∧ ∀ ax, ax ≠ axis → q ax = p ax)
    (h : StackedMeshBy src area ghost ignore dflt d axis codes tbl (itemArgs (scalarAdds z0 r0 as)) key
      (items.map fun it => it.mesh.points) M table) :
    ScalarGrid d axis bottomUp base z0 (as.map fun a => (a.1, a.2.opts.sub)) M := by
  obtain ⟨subs, names, h1, h2, h3, h4⟩ := h
  have hargs : itemArgs (scalarAdds z0 r0 as) = as.map fun a => (a.2.opts.sub, a.2.opts.group) := by
    simp only [itemArgs, scalarAdds, List.tail_cons, List.map_map]; rfl
  rw [hargs] at h1 h3
  refine ⟨subs, by rw [h1]; simp, ?_, h4.shape, ?_⟩
  · intro k a ha
    rw [List.getElem?_map, Option.map_eq_some_iff] at ha
    obtain ⟨x, hx, rfl⟩ := ha
    obtain ⟨ts, _, t1, t2, _⟩ := h3 k (x.2.opts.sub, x.2.opts.group) (by simp [hx])
    exact ⟨ts, t1, t2⟩
  · intro k a ts ha hts i s t p hi ht hp
    rw [List.getElem?_map, Option.map_eq_some_iff] at ha
    obtain ⟨x, hx, rfl⟩ := ha
    have hk : k < as.length := (List.getElem?_eq_some_iff.1 hx).1
    have g1 : items[k]? = some items[k] := List.getElem?_eq_getElem (by omega)
    have g2 : items[k + 1]? = some items[k + 1] := List.getElem?_eq_getElem (by omega)
    obtain ⟨u, u1, u2, u3⟩ := hh _ _ g1 _ _ hp
    obtain ⟨v, v1, v2, v3⟩ := hh _ _ g2 _ _ hp
    refine ⟨between t u v, h4.nodes k _ _ ts (by simp [g1]) (by simp [g2]) hts i s t u v hi ht u1 v1, ?_, ?_⟩
    · have e := stackHeight_succ (bottomUp := bottomUp) (z0 := z0) (as := as.map Prod.fst) (k := k) (a := x.1)
        (by simp [hx])
      simp only [between]
      rw [u2, v2, e]
      simp only [stackHeight, ← List.map_take, List.map_map]
      have : (abs ∘ Prod.fst : ℝ × Rest ℝ (Opts (Resolution ℝ × Option String)) → ℝ) =
        (fun b => |b.1|) ∘ fun a => (a.1, a.2.opts.sub) := rfl
      rw [this]
      cases bottomUp <;> simp <;> ring
    · intro ax hax
      simp only [between]
      rw [u3 ax hax, v3 ax hax]; ring

/-- **C99 (partial).** A 2D stack of scalars `z0, a1, ..., am` (at least one besides the first), with minimum
thicknesses not above the thicknesses of the items (and, stacked downwards, not below their negatives): all calls
succeed, a mesh is generated if the group arguments fit, and the node at point `p` of the line and position `t` of the
subdivision of item `k` lies at height `z0 + |a1| + ... + |a(k-1)| + t |ak|` (minus instead of plus when stacked
downwards), with the other coordinates of `p`.
Missing: vector data on the cells of the line (no mesh of three or more items, `C134_vector_stack2d_refuted`). -/
theorem C99_scalar_stack2d_partial (area : Arr3 (V3 ℝ) → List ℝ) (harea : ∀ x, (area x).length = count (cells x.d))
    (ignore : List String) (dflt : String) (o : InterpOracle ℝ) (n : ℕ) (mesh : Surf ℝ LineTopo)
    (hmesh : StackLine n mesh) (axis : Fin 3) (bottomUp : Bool) (z0 : ℝ)
    (r0 : Rest ℝ (Opts (Resolution ℝ × Option String))) (as : List (ℝ × Rest ℝ (Opts (Resolution ℝ × Option String))))
    (has : as ≠ [])
    (hth : ∀ a ∈ as, if bottomUp then a.2.thickness ≤ |a.1| else -|a.1| ≤ a.2.thickness)
    (hres : ∀ a ∈ as, ∃ ts, resolutionToPerc a.2.opts.sub.1 a.2.opts.sub.2 = .ok ts ∧ fromZeroToOne ts) :
    ∃ s, (Stack.new mesh axis bottomUp).run o (scalarCall (z0, r0) :: as.map scalarCall) = .ok s ∧
      ((∀ a ∈ as, Acceptable (n - 1) a.2.opts.group) → ∃ R, stack2D area ignore dflt s = .ok R) ∧
      ∀ M table s', stack2D area ignore dflt s = .ok ((M, table), s') →
        ScalarGrid (planeShape (stackPlane axis) n 1) axis bottomUp mesh.points z0
          (as.map fun a => (a.1, a.2.opts.sub)) M := by
  obtain ⟨s, hs, _⟩ := C26_scalar_heights o mesh axis bottomUp z0 r0 as
  refine ⟨s, hs, ?_⟩
  rw [← scalarAdds_calls] at hs
  have hargs : itemArgs (scalarAdds z0 r0 as) = as.map fun a => (a.2.opts.sub, a.2.opts.group) := by
    simp only [itemArgs, scalarAdds, List.tail_cons, List.map_map]; rfl
  have hlen := List.length_pos_of_ne_nil has
  obtain ⟨g1, g2⟩ := C96_stack2d_by_position area harea ignore dflt o n mesh hmesh axis bottomUp (scalarAdds z0 r0 as)
    (by simp [scalarAdds]; omega)
    (by
      rw [hargs]; intro x hx
      obtain ⟨a, ha, rfl⟩ := List.mem_map.1 hx
      exact hres a ha) s hs
  obtain ⟨u1, u2, u3⟩ := scalar_uncut hth hs
  refine ⟨?_, ?_⟩
  · intro hacc
    refine g1 ?_
    rw [hargs]; intro x hx
    obtain ⟨a, ha, rfl⟩ := List.mem_map.1 hx
    exact hacc a ha
  · intro M table s' h
    have hitems := u3 (by simpa only [stack2D, Stack.generateMesh] using h)
    obtain ⟨_, _, k3⟩ := g2 M table s' h
    rw [hitems] at k3
    exact scalar_grid u1 u2 k3

/-- **C99 (partial).** The same for a 3D stack on a structured surface that is flat along the stacking axis.
Missing: vector data on the cells (`C134_vector_stack3d_refuted`; unstructured surfaces: `C99_scalar_unstructured_partial`). -/
theorem C99_scalar_stack3d_partial (volume : Arr3 (V3 ℝ) → List ℝ) (hvol : ∀ x, (volume x).length = count (cells x.d))
    (ignore : List String) (dflt : String) (o : InterpOracle ℝ) (d : Fin 3 → ℕ) (mesh : Surf ℝ GridTopo)
    (hmesh : StackGrid d mesh) (axis : Fin 3) (hd : FlatAlong d axis) (bottomUp : Bool) (z0 : ℝ)
    (r0 : Rest ℝ (Opts (Resolution ℝ × Option String))) (as : List (ℝ × Rest ℝ (Opts (Resolution ℝ × Option String))))
    (has : as ≠ [])
    (hth : ∀ a ∈ as, if bottomUp then a.2.thickness ≤ |a.1| else -|a.1| ≤ a.2.thickness)
    (hres : ∀ a ∈ as, ∃ ts, resolutionToPerc a.2.opts.sub.1 a.2.opts.sub.2 = .ok ts ∧ fromZeroToOne ts) :
    ∃ s, (Stack.new mesh axis bottomUp).run o (scalarCall (z0, r0) :: as.map scalarCall) = .ok s ∧
      ((∀ a ∈ as, Acceptable (count (cells d)) a.2.opts.group) → ∃ R, stack3D volume ignore dflt s = .ok R) ∧
      ∀ M table s', stack3D volume ignore dflt s = .ok ((M, table), s') →
        ScalarGrid d axis bottomUp mesh.points z0 (as.map fun a => (a.1, a.2.opts.sub)) M := by
  obtain ⟨s, hs, _⟩ := C26_scalar_heights o mesh axis bottomUp z0 r0 as
  refine ⟨s, hs, ?_⟩
  rw [← scalarAdds_calls] at hs
  have hargs : itemArgs (scalarAdds z0 r0 as) = as.map fun a => (a.2.opts.sub, a.2.opts.group) := by
    simp only [itemArgs, scalarAdds, List.tail_cons, List.map_map]; rfl
  have hlen := List.length_pos_of_ne_nil has
  obtain ⟨g1, g2⟩ := C97_stack3d_partial volume hvol ignore dflt o d mesh hmesh axis hd bottomUp (scalarAdds z0 r0 as)
    (by simp [scalarAdds]; omega)
    (by
      rw [hargs]; intro x hx
      obtain ⟨a, ha, rfl⟩ := List.mem_map.1 hx
      exact hres a ha) s hs
  obtain ⟨u1, u2, u3⟩ := scalar_uncut hth hs
  refine ⟨?_, ?_⟩
  · intro hacc
    refine g1 ?_
    rw [hargs]; intro x hx
    obtain ⟨a, ha, rfl⟩ := List.mem_map.1 hx
    exact hacc a ha
  · intro M table s' h
    have hitems := u3 (by simpa only [stack3D, Stack.generateMesh] using h)
    obtain ⟨_, _, k3⟩ := g2 M table s' h
    rw [hitems] at k3
    exact scalar_grid u1 u2 k3

/-- Two scalars with subdivisions, a method and a group. -/
def someScalars : List (ℝ × Rest ℝ (Opts (Resolution ℝ × Option String))) :=
  [(5, ⟨none, ⟨(.int 2, none), .none⟩, 0, 0⟩),
    (7, ⟨none, ⟨(.int 3, some "log"), .dict [("C", .mask [true, false])]⟩, 0, 1⟩)]

/-- Concrete case of C99: numbers and scalars, from the constructor to the generated mesh. -/
example (area : Arr3 (V3 ℝ) → List ℝ) (harea : ∀ x, (area x).length = count (cells x.d)) (o : InterpOracle ℝ) :
    ∃ b s M table s', stack2DNew (.numbers [0, 1, 3]) 2 true = .ok b ∧
      b.run o (scalarCall (0, ⟨none, ⟨(.int 1, none), .none⟩, 0, 0⟩) :: someScalars.map scalarCall) = .ok s ∧
      stack2D area [] "default" s = .ok ((M, table), s') ∧
      ScalarGrid ![3, 1, 1] 2 true b.mesh.points 0 (someScalars.map fun a => (a.1, a.2.opts.sub)) M := by
  obtain ⟨b, h1, _, _, _, h5, h6, _⟩ := C95_number_base_partial
    (ω := Opts (Resolution ℝ × Option String)) [0, 1, 3] (by simp) 2 true
  have hres := someAdds_res
  obtain ⟨s, g1, g2, g3⟩ := C99_scalar_stack2d_partial area harea [] "default" o 3 b.mesh h6 2 true 0
    ⟨none, ⟨(.int 1, none), .none⟩, 0, 0⟩ someScalars (by simp [someScalars])
    (by
      intro a ha
      simp only [someScalars, List.mem_cons, List.not_mem_nil, or_false] at ha
      rcases ha with rfl | rfl <;> norm_num)
    (by
      intro a ha
      obtain ⟨ts, t1, t2⟩ := hres (a.2.opts.sub, a.2.opts.group) (by
        simp only [someScalars, List.mem_cons, List.not_mem_nil, or_false] at ha
        rcases ha with rfl | rfl <;> simp [itemArgs, someAdds])
      exact ⟨ts, t1, t2⟩)
  obtain ⟨⟨⟨M, table⟩, s'⟩, hR⟩ := g2 (by
    intro a ha
    simp only [someScalars, List.mem_cons, List.not_mem_nil, or_false] at ha
    rcases ha with rfl | rfl
    · simp [Acceptable, entries]
    · simp [Acceptable, entries, Fits])
  have hd : planeShape (stackPlane 2) 3 1 = ![3, 1, 1] := by funext ax; fin_cases ax <;> rfl
  refine ⟨b, s, M, table, s', h1, by rw [h5]; exact g1, hR, ?_⟩
  rw [← hd]
  exact g3 M table s' hR

end

end Gridder
