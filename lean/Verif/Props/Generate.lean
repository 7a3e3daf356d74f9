import Verif.Model.Generate
import Verif.Props.Ids
import Verif.Props.Groups
import Verif.Props.Remap
import Verif.Props.Stack
import Verif.Props.MeshExtrude
import Verif.Props.CellOps
import Verif.Props.ExtrudeGeom

/-!
# C95-C98: meshes generated by stacks and extrusions
-/

namespace Gridder
open Spec

variable {K : Type _} [Field K] [LinearOrder K] {τ ρ : Type _} {area : Arr3 (V3 K) → List K} {base : Dict String (DArr ℤ)}
  {src : List K → (Fin 3 → ℕ) → ℕ → ℕ}

namespace Spec

/-- The corners of the cell `c` of a structured grid with the nodes `x`. -/
def cellCorners (x : Arr3 (Fin 3 → K)) (c : Fin 3 → ℕ) : (Fin 3 → Bool) → Fin 3 → K := fun b =>
  x.get fun ax => c ax + if b ax ∧ x.d ax ≠ 1 then 1 else 0

/-- `area` gives each cell the measure `μ` of its corners. -/
def CellLocal (area : Arr3 (Fin 3 → K) → List K) (μ : ((Fin 3 → Bool) → Fin 3 → K) → K) : Prop :=
  ∀ x c, InShape (cells x.d) c → (area x)[vtkId (cells x.d) c]? = some (μ (cellCorners x c))

/-- The ghost flag of a cell, 0 where there is no ghost array. -/
def ghostOf (cd : Dict String (DArr ℤ)) (c : ℕ) : ℤ :=
  match Dict.get? cd "vtkGhostType" with
  | none => 0
  | some g => g.vals.getD c 0

/-- Number of layers before part `k`, for parts with the given positions. -/
def layersIn (subs : List (List K)) (k : ℕ) : ℕ := ((subs.take k).map fun ts => ts.length - 1).sum

/-- The label of each cell of a base mesh with `n` cells after the group argument of an item has been applied: the last
entry that selects the cell, otherwise the label of the base mesh unless it is ignored, otherwise the default group. -/
def Labels (ignore : List String) (dflt : String) (n : ℕ) (codes : Option (List Int))
    (table : Option (List (String × Int))) (group : GroupArg) (names : ℕ → String) : Prop :=
  ∃ sels : List (String × (ℕ → Bool)),
    List.Forall₂ (fun kv e => e.1 = bare kv.1 ∧
        (byName kv.2 = false → negatedCallIdx kv = false → ∀ label i, i < n → e.2 i = entrySelects n label kv i))
      (entries n group) sels ∧
    ∀ i, i < n → names i =
      ((lastSelecting sels i).or (baseLabel (fun k => decide (k ∉ ignore)) codes table i)).getD dflt

/-- VTK lists the cells over a surface of shape `d`, subdivided as `ts` along `axis`, layer by layer. -/
def LayerMajor (d : Fin 3 → ℕ) (axis : Fin 3) (ts : List K) : Prop :=
  axis = 2 ∨ (axis = 1 ∧ d 2 ≤ 2) ∨ count (cells d) = 1 ∨ ts.length = 2

/-- Position in VTK's order of the cell of layer `s` over the base cell `i` in such a part. -/
def slabId (d : Fin 3 → ℕ) (axis : Fin 3) (ts : List K) (i : Fin 3 → ℕ) (s : ℕ) : ℕ :=
  vtkId (Function.update (cells d) axis (ts.length - 1)) (Function.update i axis s)

/-- The base cell from which a surface between lines takes the data of the cell of layer `s` over the base cell `i`: the
position of the cell modulo the number of base cells. -/
def lineSource (d : Fin 3 → ℕ) (axis : Fin 3) (ts : List K) (i : Fin 3 → ℕ) (s : ℕ) : ℕ :=
  slabId d axis ts i s % count (cells d)

/-- The cell arrays that a stack or an extrusion writes itself; `key` is the one with the items. -/
def ownArrays (key : String) : List String := ["LayerId", "ColumnId", key, "CellGroup", "vtkGhostType"]

/-- The part of a mesh between two surfaces of shape `d`: node `s` of each column lies at the fraction `ts[s]` between
the two surfaces; the cells carry the item, the label and, where VTK lists them layer by layer, the layer and the base cell (in
general the numbers by position, `slabId`); the cells whose measure is zero are hidden (32), the others have the ghost flag
of a base cell; all other cell arrays of the base mesh are carried over.  `src ts i s` is the base cell the label, the flag
and the carried data come from. -/
structure SlabBy (src : List K → (Fin 3 → ℕ) → ℕ → ℕ) (area : Arr3 (Fin 3 → K) → List K) (base : Dict String (DArr ℤ)) (key : String) (d : Fin 3 → ℕ) (axis : Fin 3) (a b : List (Fin 3 → K)) (ts : List K)
    (names : ℕ → String) (table : List (String × Int)) (layer item : ℕ) (q : SGrid K ℤ) : Prop where
  shape : q.nodes.d = Function.update d axis ts.length
  nodes : ∀ i s t x y, InShape d i → ts[s]? = some t → a[vtkId d i]? = some x → b[vtkId d i]? = some y →
    q.nodes.get (Function.update i axis s) = between t x y
  data : ∃ layers columns items groups, Dict.get? q.cellData "LayerId" = some layers ∧
    Dict.get? q.cellData "ColumnId" = some columns ∧ Dict.get? q.cellData key = some items ∧
    Dict.get? q.cellData "CellGroup" = some groups ∧
    ∀ i s, InShape (cells d) i → s < ts.length - 1 →
      layers.vals[vtkId (cells q.nodes.d) (Function.update i axis s)]? =
        some ((layer + slabId d axis ts i s / count (cells d) : ℕ) : ℤ) ∧
      columns.vals[vtkId (cells q.nodes.d) (Function.update i axis s)]? =
        some ((slabId d axis ts i s % count (cells d) : ℕ) : ℤ) ∧
      items.vals[vtkId (cells q.nodes.d) (Function.update i axis s)]? = some (item : ℤ) ∧
      CellNamed table groups.vals (vtkId (cells q.nodes.d) (Function.update i axis s)) (names (src ts i s))
  hidden : ∃ g, Dict.get? q.cellData "vtkGhostType" = some g ∧ ∀ μ, CellLocal area μ → ∀ i s, InShape (cells d) i →
    s < ts.length - 1 → g.vals[vtkId (cells q.nodes.d) (Function.update i axis s)]? =
      some (if μ (cellCorners q.nodes (Function.update i axis s)) = 0 then 32 else ghostOf base (src ts i s))
  pd : Arrays (count q.nodes.d) q.pointData
  carried : ∀ name v, Dict.get? base name = some v → name ∉ ownArrays key → ∃ w, Dict.get? q.cellData name = some w ∧
    ∀ i s, InShape (cells d) i → s < ts.length - 1 →
      w.vals[vtkId (cells q.nodes.d) (Function.update i axis s)]? = v.vals[src ts i s]?

/-- `M` consists of slabs between consecutive surfaces of shape `d`, stacked along `axis`.  Layers and columns are those of
the cell where VTK lists the cells of the slab layer by layer (`LayerMajor`); in general they follow the position of the cell in the
slab (`order`).  `src ts i s` is the base cell from which the cell of layer `s` over the base cell `i` takes its label, its
ghost flag and every other cell array of the base mesh (`carried`). -/
structure LayeredBy (src : List K → (Fin 3 → ℕ) → ℕ → ℕ) (area : Arr3 (Fin 3 → K) → List K) (base : Dict String (DArr ℤ)) (key : String) (d : Fin 3 → ℕ) (axis : Fin 3) (surfs : List (List (Fin 3 → K)))
    (subs : List (List K)) (names : List (ℕ → String)) (M : SGrid K ℤ) (table : List (String × Int)) : Prop where
  shape : M.nodes.d = Function.update d axis (1 + (subs.map fun ts => ts.length - 1).sum)
  nodes : ∀ k a b ts, surfs[k]? = some a → surfs[k + 1]? = some b → subs[k]? = some ts →
    ∀ i s t x y, InShape d i → ts[s]? = some t → a[vtkId d i]? = some x → b[vtkId d i]? = some y →
      M.points[vtkId M.nodes.d (Function.update i axis (layersIn subs k + s))]? = some (between t x y)
  dense : DenseTable table
  data : ∃ layers columns items groups, Dict.get? M.cellData "LayerId" = some layers ∧
    Dict.get? M.cellData "ColumnId" = some columns ∧ Dict.get? M.cellData key = some items ∧
    Dict.get? M.cellData "CellGroup" = some groups ∧ groups.vals.length = count (cells M.nodes.d) ∧
    (∀ kv ∈ table, kv.2 ∈ groups.vals) ∧
    ∀ k ts name, subs[k]? = some ts → names[k]? = some name → ∀ i s, InShape (cells d) i → s < ts.length - 1 →
      (LayerMajor d axis ts →
        layers.vals[vtkId (cells M.nodes.d) (Function.update i axis (layersIn subs k + s))]? =
          some ((layersIn subs k + s : ℕ) : ℤ) ∧
        columns.vals[vtkId (cells M.nodes.d) (Function.update i axis (layersIn subs k + s))]? =
          some (vtkId (cells d) i : ℤ)) ∧
      items.vals[vtkId (cells M.nodes.d) (Function.update i axis (layersIn subs k + s))]? = some (k : ℤ) ∧
      CellNamed table groups.vals (vtkId (cells M.nodes.d) (Function.update i axis (layersIn subs k + s)))
        (name (src ts i s))
  order : ∀ layers columns, Dict.get? M.cellData "LayerId" = some layers →
    Dict.get? M.cellData "ColumnId" = some columns → ∀ (k : ℕ) ts, subs[k]? = some ts → ∀ i s, InShape (cells d) i →
      s < ts.length - 1 →
      layers.vals[vtkId (cells M.nodes.d) (Function.update i axis (layersIn subs k + s))]? =
        some ((layersIn subs k + slabId d axis ts i s / count (cells d) : ℕ) : ℤ) ∧
      columns.vals[vtkId (cells M.nodes.d) (Function.update i axis (layersIn subs k + s))]? =
        some ((slabId d axis ts i s % count (cells d) : ℕ) : ℤ)
  hidden : ∀ μ, CellLocal area μ → ∀ (k : ℕ) ts, subs[k]? = some ts → ∀ i s, InShape (cells d) i → s < ts.length - 1 →
    ghostOf M.cellData (vtkId (cells M.nodes.d) (Function.update i axis (layersIn subs k + s))) =
      if μ (cellCorners M.nodes (Function.update i axis (layersIn subs k + s))) = 0 then 32
      else ghostOf base (src ts i s)
  arrays : Arrays (count M.nodes.d) M.pointData ∧ Arrays (count (cells M.nodes.d)) M.cellData ∧
    ∀ kv ∈ M.cellData, kv.2.vector = false
  carried : ∀ name v, Dict.get? base name = some v → name ∉ ownArrays key → ∃ w, Dict.get? M.cellData name = some w ∧
    ∀ (k : ℕ) ts, subs[k]? = some ts → ∀ i s, InShape (cells d) i → s < ts.length - 1 →
      w.vals[vtkId (cells M.nodes.d) (Function.update i axis (layersIn subs k + s))]? = v.vals[src ts i s]?

/-- Each cell takes its label, its ghost flag and the carried data from the base cell it lies over. -/
abbrev Layered (area : Arr3 (Fin 3 → K) → List K) (base : Dict String (DArr ℤ)) (key : String) (d : Fin 3 → ℕ) (axis : Fin 3)
    (surfs : List (List (Fin 3 → K))) (subs : List (List K)) (names : List (ℕ → String)) (M : SGrid K ℤ)
    (table : List (String × Int)) : Prop :=
  LayeredBy (fun _ i _ => vtkId (cells d) i) area base key d axis surfs subs names M table

end Spec

/-! ## one slab -/

theorem cells_updateAxis {d : Ix} {axis : Fin 3} (h : d axis = 1) {n : ℕ} (hn : 2 ≤ n) :
    cells (Function.update d axis n) = Function.update (cells d) axis (n - 1) := by
  funext ax
  by_cases hax : ax = axis
  · subst hax; simp [cells]; omega
  · simp [cells, Function.update_of_ne hax]

theorem cells_axis {d : Ix} {axis : Fin 3} (h : d axis = 1) : cells d axis = 1 := by simp [cells, h]

/-- What the extrusion between two meshes has to provide. -/
structure BetweenBy (src : List K → (Fin 3 → ℕ) → ℕ → ℕ) (area : Arr3 (V3 K) → List K) (base : Dict String (DArr ℤ)) (d : Ix)
    (axis : Fin 3) (a b : List (V3 K)) (ts : List K) (arr : List ℤ) (p : SGrid K ℤ) : Prop where
  piece : Piece axis p
  shape : p.nodes.d = Function.update d axis ts.length
  nodes : ∀ i s t x y, InShape d i → ts[s]? = some t → a[vtkId d i]? = some x → b[vtkId d i]? = some y →
    p.nodes.get (Function.update i axis s) = between t x y
  group : ∃ g, Dict.get? p.cellData "CellGroup" = some g ∧ ∀ i s, InShape (cells d) i → s < ts.length - 1 →
    g.vals[vtkId (cells p.nodes.d) (Function.update i axis s)]? = arr[src ts i s]?
  hidden : ∃ g, Dict.get? p.cellData "vtkGhostType" = some g ∧ ∀ μ, CellLocal area μ → ∀ i s, InShape (cells d) i →
    s < ts.length - 1 → g.vals[vtkId (cells p.nodes.d) (Function.update i axis s)]? =
      some (if μ (cellCorners p.nodes (Function.update i axis s)) = 0 then 32 else ghostOf base (src ts i s))
  pd : Arrays (count p.nodes.d) p.pointData
  carried : ∀ name v, Dict.get? base name = some v → name ≠ "CellGroup" → name ≠ "vtkGhostType" →
    ∃ w, Dict.get? p.cellData name = some w ∧ ∀ i s, InShape (cells d) i → s < ts.length - 1 →
      w.vals[vtkId (cells p.nodes.d) (Function.update i axis s)]? = v.vals[src ts i s]?

/-- The same with data taken from the base cell below. -/
abbrev Between (area : Arr3 (V3 K) → List K) (base : Dict String (DArr ℤ)) (d : Ix) (axis : Fin 3) (a b : List (V3 K)) (ts : List K)
    (arr : List ℤ) (p : SGrid K ℤ) : Prop :=
  BetweenBy (fun _ i _ => vtkId (cells d) i) area base d axis a b ts arr p

theorem labelGrid_pd {key : String} {nA nl i n : ℕ} {p q : SGrid K ℤ} (h : labelGrid key nA nl i p = .ok (q, n)) :
    q.pointData = p.pointData := by
  simp only [labelGrid] at h
  repeat' split at h
  all_goals first | cases h; rfl | cases h

theorem merge2_pd {axis : Fin 3} {a b m : SGrid K ℤ} (h : merge2 axis a b = .ok m) : m.pointData = [] := by
  simp only [merge2] at h
  repeat' split at h
  all_goals first | cases h; rfl | cases h

theorem mergeFold_pd {axis : Fin 3} : ∀ (l : List (SGrid K ℤ)) (a m : SGrid K ℤ), a.pointData = [] →
    mergeFold axis a l = .ok m → m.pointData = []
  | [], a, m, ha, h => by simp only [mergeFold, Except.ok.injEq] at h; exact h ▸ ha
  | b :: l, a, m, _, h => by
    simp only [mergeFold] at h
    split at h
    · cases h
    · rename_i m' hm
      exact mergeFold_pd l _ m (merge2_pd hm) h

theorem mergeStructured_pd {axis : Fin 3} {qs : List (SGrid K ℤ)} {M : SGrid K ℤ}
    (h : mergeStructured (some axis) qs = .ok M) (hq : ∀ q ∈ qs, Arrays (count q.nodes.d) q.pointData) :
    Arrays (count M.nodes.d) M.pointData := by
  match qs, h with
  | [], h => cases h
  | [a], h =>
    simp only [mergeStructured, Except.ok.injEq] at h
    exact h ▸ hq a (by simp)
  | a :: b :: rest, h =>
    simp only [mergeStructured, mergeFold] at h
    split at h
    · cases h
    · rename_i m' hm
      rw [mergeFold_pd rest _ M (merge2_pd hm) h]
      simp [Arrays]

/-- Where VTK lists the cells layer by layer, layer and base cell follow from the position. -/
theorem slabId_layerMajor {d : Ix} {axis : Fin 3} (hd : d axis = 1) (hpos : ∀ ax, 1 ≤ d ax) {ts : List K}
    (hts : 2 ≤ ts.length) (hlay : LayerMajor d axis ts) {i : Ix} {s : ℕ} (hi : InShape (cells d) i) (hs : s < ts.length - 1) :
    slabId d axis ts i s / count (cells d) = s ∧ slabId d axis ts i s % count (cells d) = vtkId (cells d) i := by
  have hmaj : slabId d axis ts i s = vtkId (cells d) i + count (cells d) * s := by
    refine layerMajor (cells_axis hd) hi hs ?_
    rcases hlay with h | h | h | h
    · exact .inl h
    · exact .inr (.inl ⟨h.1, by have := hpos 2; have := h.2; simp only [cells]; split <;> omega⟩)
    · exact .inr (.inr (.inl h))
    · exact .inr (.inr (.inr (by omega)))
  have hlt := vtkId_lt hi
  rw [hmaj, Nat.add_mul_div_left _ _ (by omega), Nat.div_eq_of_lt hlt, Nat.add_mul_mod_self_left, Nat.mod_eq_of_lt hlt]
  exact ⟨by omega, rfl⟩

theorem cellNamed_mono {t t' : Dict String Int} {codes : List Int} {i : ℕ} {s : String} (h : t <+: t')
    (hc : CellNamed t codes i s) : CellNamed t' codes i s := by
  obtain ⟨c, h1, h2⟩ := hc
  exact ⟨c, h1, h.subset h2⟩

theorem slab_of_between {key : String} (hkey : key ≠ "LayerId" ∧ key ≠ "ColumnId" ∧ key ≠ "CellGroup" ∧ key ≠ "vtkGhostType")
    {d : Ix} {axis : Fin 3} (hd : d axis = 1) (hpos : ∀ ax, 1 ≤ d ax) {a b : List (V3 K)} {ts : List K}
    (hts : 2 ≤ ts.length) (hsrc : ∀ i s, InShape (cells d) i → s < ts.length - 1 → src ts i s < count (cells d))
    {arr : List ℤ} {p q : SGrid K ℤ} {nl i nsub : ℕ}
    {names : ℕ → String} {table : Dict String Int} (hb : BetweenBy src area base d axis a b ts arr p)
    (hn : ∀ c, c < count (cells d) → CellNamed table arr c (names c))
    (h : labelGrid key (count (cells d)) nl i p = .ok (q, nsub)) :
    Piece axis q ∧ nsub = ts.length - 1 ∧ SlabBy src area base key d axis a b ts names table nl i q := by
  have hcpos : 0 < count (cells d) := by
    have h0 : 0 < cells d 0 := by simp only [cells]; split <;> omega
    have h1 : 0 < cells d 1 := by simp only [cells]; split <;> omega
    have h2 : 0 < cells d 2 := by simp only [cells]; split <;> omega
    unfold count; positivity
  have hcells : cells p.nodes.d = Function.update (cells d) axis (ts.length - 1) := by
    rw [hb.shape, cells_updateAxis hd hts]
  have hcount : count (cells p.nodes.d) = count (cells d) * (ts.length - 1) := by
    rw [hcells, count_update (cells_axis hd)]
  obtain ⟨q', h1, h2, h3, h4, h5, h6, h7⟩ :=
    labelGrid_ok ⟨hkey.1, hkey.2.1⟩ (nl := nl) (i := i) hcpos hb.piece hcount
  have hpd := labelGrid_pd h
  rw [h1] at h; cases h
  obtain ⟨g, hg1, hg2⟩ := hb.group
  refine ⟨h3, rfl, by rw [h2]; exact hb.shape, by rw [h2]; exact hb.nodes, ?_,
    by rw [h7 _ (by decide) (by decide) hkey.2.2.2.symm, h2]; exact hb.hidden, by rw [hpd, h2]; exact hb.pd, ?_⟩
  rotate_left
  · intro name v hv hname
    simp only [ownArrays, List.mem_cons, List.not_mem_nil, or_false, not_or] at hname
    obtain ⟨n1, n2, n3, n4, n5⟩ := hname
    obtain ⟨w, w1, w2⟩ := hb.carried name v hv n4 n5
    exact ⟨w, by rw [h7 _ n1 n2 n3, w1], by rw [h2]; exact w2⟩
  refine ⟨_, _, _, g, h4, h5, h6, by rw [h7 _ (by decide) (by decide) hkey.2.2.1.symm, hg1], ?_⟩
  intro j s hj hs
  have hid : vtkId (cells q.nodes.d) (Function.update j axis s) = slabId d axis ts j s := by rw [h2, hcells]; rfl
  have hlt := vtkId_lt hj
  have hslt : slabId d axis ts j s < count (cells d) * (ts.length - 1) := by
    rw [← hid, ← hcount, h2]
    apply vtkId_lt
    rw [hcells]; exact inShape_update hj hs
  have hdm := Nat.mod_add_div (slabId d axis ts j s) (count (cells d))
  have hmod := Nat.mod_lt (slabId d axis ts j s) hcpos
  have hdiv : slabId d axis ts j s / count (cells d) < ts.length - 1 := by
    rw [Nat.div_lt_iff_lt_mul hcpos, Nat.mul_comm]; exact hslt
  refine ⟨?_, ?_, ?_, ?_⟩
  · have := layerIds_get (nl := nl) hmod hdiv
    rw [hdm] at this
    rw [hid, this, Nat.add_comm]
  · have := columnIds_get hmod hdiv
    rw [hdm] at this
    rw [hid, this]
  · rw [itemIds, List.getElem?_replicate, if_pos]
    rw [← hcount, h2]
    apply vtkId_lt
    rw [hcells]; exact inShape_update hj hs
  · obtain ⟨c, e1, e2⟩ := hn _ (hsrc j s hj hs)
    exact ⟨c, by rw [h2, hg2 j s hj hs]; exact e1, e2⟩

/-! ## the loop -/

theorem submeshes_ok (kit : Kit K τ ρ) {ignore : List String} {dflt key : String}
    (hkey : key ≠ "LayerId" ∧ key ≠ "ColumnId" ∧ key ≠ "CellGroup" ∧ key ≠ "vtkGhostType")
    {d : Ix} {axis : Fin 3} (hd : d axis = 1) (hpos : ∀ ax, 1 ≤ d ax)
    (hsrc : ∀ ts i s, InShape (cells d) i → s < ts.length - 1 → src ts i s < count (cells d)) (perc : ρ → List K) :
    ∀ (rest : List (GItem K τ ρ)) (a : GItem K τ ρ) (groups groups' : Dict String Int) (nl i : ℕ) (qs : List (SGrid K ℤ)),
      (∀ it ∈ a :: rest, (kit.labels it.1).nCells = count (cells d) ∧
        ∀ x, (kit.labels it.1).cellGroup = some x → x.length = (kit.labels it.1).nCells) →
      (∀ it ∈ rest, ∀ o, it.2 = some o → 2 ≤ (perc o.sub).length) →
      (∀ (k : ℕ) x y o arr p, (a :: rest)[k]? = some x → rest[k]? = some y → y.2 = some o →
        arr.length = count (cells d) → kit.extrude (kit.withGroup x.1 arr) y.1 o.sub = .ok p →
        BetweenBy src area base d axis x.1.points y.1.points (perc o.sub) arr p) →
      DenseTable groups →
      submeshes kit ignore dflt key a rest groups nl i = .ok (qs, groups') →
      DenseTable groups' ∧ groups <+: groups' ∧ qs.length = rest.length ∧
      ∃ (subs : List (List K)) (names : List (ℕ → String)), subs.length = rest.length ∧ names.length = rest.length ∧
        (∀ (k : ℕ) y, rest[k]? = some y → ∃ x o ts name q, (a :: rest)[k]? = some x ∧ y.2 = some o ∧
          subs[k]? = some ts ∧ ts = perc o.sub ∧ names[k]? = some name ∧ qs[k]? = some q ∧
          Labels ignore dflt (count (cells d)) (kit.labels x.1).cellGroup (kit.labels x.1).table o.group name ∧
          Piece axis q ∧
          SlabBy src area base key d axis x.1.points y.1.points ts name groups' (nl + layersIn subs k) (i + k) q) := by
  intro rest
  induction rest with
  | nil =>
    intro a groups groups' nl i qs _ _ _ hg h
    simp only [submeshes, Except.ok.injEq, Prod.mk.injEq] at h
    obtain ⟨rfl, rfl⟩ := h
    exact ⟨hg, List.prefix_refl _, rfl, [], [], rfl, rfl, by simp⟩
  | cons b rest ih =>
    intro a groups groups' nl i qs hlab hts hext hg h
    simp only [submeshes] at h
    split at h
    · cases h
    rename_i o ho
    split at h
    · cases h
    rename_i arr g1 hinit
    split at h
    · cases h
    rename_i p hp
    split at h
    · cases h
    rename_i q nsub hq
    split at h
    · cases h
    rename_i qs' g2 hrest
    simp only [Except.ok.injEq, Prod.mk.injEq] at h
    obtain ⟨rfl, rfl⟩ := h
    obtain ⟨hn, hl⟩ := hlab a (by simp)
    obtain ⟨e1, e2, e3, _, _⟩ := C02_every_cell_has_a_group hl hg hinit
    obtain ⟨sels, f1, f2⟩ := C03_group_precedence hl hg hinit
    have hts2 := hts b (by simp) o ho
    have hbt := hext 0 a b o arr p rfl rfl ho (by rw [e1, hn]) hp
    rw [hn] at hq f1 f2
    let name : ℕ → String := fun c => ((lastSelecting sels c).or
      (baseLabel (fun k => decide (k ∉ ignore)) (kit.labels a.1).cellGroup (kit.labels a.1).table c)).getD
        (defaultName dflt none)
    obtain ⟨g1', g2', g3', subs, names, g4', g5', g6'⟩ := ih b g1 g2 (nl + nsub) (i + 1) qs'
      (fun it hit => hlab it (List.mem_cons_of_mem _ hit))
      (fun it hit => hts it (List.mem_cons_of_mem _ hit))
      (fun k x y o' arr' p' hx hy => hext (k + 1) x y o' arr' p' (by simpa using hx) (by simpa using hy)) e2 hrest
    obtain ⟨s1, s2, s3⟩ := slab_of_between hkey hd hpos hts2 (hsrc _) hbt (names := name) (table := g2)
      (fun c hc => cellNamed_mono g2' (f2 c hc)) hq
    refine ⟨g1', e3.trans g2', by simp [g3'], perc o.sub :: subs, name :: names, by simp [g4'], by simp [g5'], ?_⟩
    intro k y hy
    cases k with
    | zero =>
      simp only [List.getElem?_cons_zero, Option.some.injEq] at hy; subst hy
      exact ⟨a, o, _, name, q, rfl, ho, rfl, rfl, rfl, rfl, ⟨sels, f1, fun c hc => rfl⟩, s1,
        by simpa [layersIn] using s3⟩
    | succ k =>
      simp only [List.getElem?_cons_succ] at hy
      obtain ⟨x, o', ts, nm, q', r1, r2, r3, r4, r5, r6, r7, r8, r9⟩ := g6' k y hy
      refine ⟨x, o', ts, nm, q', by simpa using r1, r2, by simpa using r3, r4, by simpa using r5,
        by simpa using r6, r7, r8, ?_⟩
      have h1 : nl + layersIn (perc o.sub :: subs) (k + 1) = nl + nsub + layersIn subs k := by
        simp only [layersIn, List.take_succ_cons, List.map_cons, List.sum_cons, s2]; omega
      rw [h1, show i + (k + 1) = i + 1 + k by omega]
      exact r9

/-! ## merging the slabs -/

theorem merge2_piece {δ : Type _} [Inhabited δ] {axis : Fin 3} {a b M : SGrid K δ} (ha : Piece axis a)
    (hb : Piece axis b) (h : merge2 axis a b = .ok M) : Piece axis M := by
  by_cases h1 : (∀ ax, ax ≠ axis → a.nodes.d ax = b.nodes.d ax) ∧ Facing axis a b
  · obtain ⟨M', e1, e2, _⟩ := merge2_ok ha hb h1.1 h1.2
    rw [e1] at h; cases h; exact e2
  · rw [merge2_error ha.across (by tauto)] at h; cases h

theorem mergeFold_piece {δ : Type _} [Inhabited δ] {axis : Fin 3} :
    ∀ (rest : List (SGrid K δ)) (A M : SGrid K δ), Piece axis A → (∀ p ∈ rest, Piece axis p) →
      mergeFold axis A rest = .ok M → Piece axis M
  | [], A, M, hA, _, h => by simp only [mergeFold, Except.ok.injEq] at h; exact h ▸ hA
  | b :: rest, A, M, hA, hr, h => by
    simp only [mergeFold] at h
    split at h
    · cases h
    rename_i m hm
    exact mergeFold_piece rest m M (merge2_piece hA (hr b (by simp)) hm)
      (fun p hp => hr p (List.mem_cons_of_mem _ hp)) h

theorem facingChain_of_get {δ : Type _} {axis : Fin 3} : ∀ (l : List (SGrid K δ)),
    (∀ (k : ℕ) a b, l[k]? = some a → l[k + 1]? = some b → Facing axis a b) → FacingChain axis l
  | [], _ => trivial
  | [_], _ => trivial
  | a :: b :: l, h => ⟨h 0 a b rfl rfl, facingChain_of_get (b :: l) fun k x y hx hy =>
      h (k + 1) x y (by simpa using hx) (by simpa using hy)⟩

theorem merge_glued {axis : Fin 3} (q : SGrid K ℤ) (qs : List (SGrid K ℤ)) (hp : ∀ p ∈ q :: qs, Piece axis p)
    (hac : ∀ p ∈ qs, ∀ ax, ax ≠ axis → q.nodes.d ax = p.nodes.d ax) (hf : FacingChain axis (q :: qs)) :
    ∃ M, mergeStructured (some axis) (q :: qs) = .ok M ∧ Piece axis M ∧ Glued axis (q :: qs) M := by
  have hq := hp q (by simp)
  cases qs with
  | nil => exact ⟨q, rfl, hq, Glued.single hq⟩
  | cons b rest =>
    obtain ⟨M, e1, e2⟩ := (C18_structured_merge_partial axis q b rest hp).1 hac hf
    exact ⟨M, e1, mergeFold_piece (b :: rest) q M hq (fun p h => hp p (List.mem_cons_of_mem _ h)) e1, e2⟩

theorem between_zero (x y : V3 K) : between 0 x y = x := by funext ax; simp [between]
theorem between_one (x y : V3 K) : between 1 x y = y := by funext ax; simp [between]

theorem close_refl [IsStrictOrderedRing K] (x : V3 K) : Close x x := by
  intro ax; simp only [sub_self, abs_zero]; positivity

/-- Positions from 0 to 1. -/
def Spec.fromZeroToOne (ts : List K) : Prop := 2 ≤ ts.length ∧ ts[0]? = some 0 ∧ ts[ts.length - 1]? = some 1

theorem slab_facing [IsStrictOrderedRing K] {key : String} {d : Ix} {axis : Fin 3} (hd : d axis = 1)
    {a b c : List (V3 K)} {ts ts' : List K} {n n' : ℕ → String} {t t' : Dict String Int} {l l' i i' : ℕ}
    {q q' : SGrid K ℤ} (ha : a.length = count d) (hb : b.length = count d) (hc : c.length = count d)
    (h1 : fromZeroToOne ts) (h2 : fromZeroToOne ts')
    (hq : SlabBy src area base key d axis a b ts n t l i q) (hq' : SlabBy src area base key d axis b c ts' n' t' l' i' q') : Facing axis q q' := by
  intro j hj
  rw [hq.shape] at hj ⊢
  have hj0 : InShape d (Function.update j axis 0) := by
    intro ax
    by_cases hax : ax = axis
    · subst hax; simp [hd]
    · simpa [Function.update_of_ne hax] using hj ax
  have hlt := vtkId_lt hj0
  have e1 := hq.nodes _ (ts.length - 1) 1 _ _ hj0 h1.2.2 (List.getElem?_eq_getElem (by omega))
    (List.getElem?_eq_getElem (by omega))
  have e2 := hq'.nodes _ 0 0 _ _ hj0 h2.2.1 (List.getElem?_eq_getElem (by omega))
    (List.getElem?_eq_getElem (by omega))
  rw [Function.update_idem, between_one] at e1
  rw [Function.update_idem, between_zero] at e2
  simp only [Function.update_self]
  rw [e1, e2]
  exact close_refl _

theorem layersIn_succ {subs : List (List K)} {k : ℕ} {ts : List K} (h : subs[k]? = some ts) :
    layersIn subs (k + 1) = layersIn subs k + (ts.length - 1) := by
  simp [layersIn, List.take_add_one, h]

theorem layersIn_le {subs : List (List K)} {k : ℕ} {ts : List K} (h : subs[k]? = some ts) :
    layersIn subs k + (ts.length - 1) ≤ (subs.map fun ts => ts.length - 1).sum := by
  induction subs generalizing k with
  | nil => simp at h
  | cons a subs ih =>
    cases k with
    | zero => simp only [List.getElem?_cons_zero, Option.some.injEq] at h; subst h; simp [layersIn]
    | succ k =>
      have := ih (by simpa using h)
      simp only [layersIn, List.take_succ_cons, List.map_cons, List.sum_cons] at *
      omega

/-- Every layer lies in one part. -/
theorem exists_part : ∀ (subs : List (List K)) (j : ℕ), j < (subs.map fun ts => ts.length - 1).sum →
    ∃ (k : ℕ) (ts : List K) (s : ℕ), subs[k]? = some ts ∧ s < ts.length - 1 ∧ j = layersIn subs k + s
  | [], j, h => by simp at h
  | a :: subs, j, h => by
    by_cases hj : j < a.length - 1
    · exact ⟨0, a, j, rfl, hj, by simp [layersIn]⟩
    · simp only [List.map_cons, List.sum_cons] at h
      obtain ⟨k, ts, s, h1, h2, h3⟩ := exists_part subs (j - (a.length - 1)) (by omega)
      refine ⟨k + 1, ts, s, by simpa using h1, h2, ?_⟩
      simp only [layersIn, List.take_succ_cons, List.map_cons, List.sum_cons] at *; omega

theorem sum_of_get {α : Type _} (f : SGrid K ℤ → ℕ) (g : α → ℕ) : ∀ (l : List (SGrid K ℤ)) (l' : List α),
    l.length = l'.length → (∀ (k : ℕ) x y, l[k]? = some x → l'[k]? = some y → f x = g y) → l.map f = l'.map g
  | [], [], _, _ => rfl
  | [], _ :: _, h, _ => by simp at h
  | _ :: _, [], h, _ => by simp at h
  | x :: l, y :: l', h, hk => by
    simp only [List.map_cons, List.cons.injEq]
    exact ⟨hk 0 x y rfl rfl, sum_of_get f g l l' (by simpa using h) fun k x' y' hx hy =>
      hk (k + 1) x' y' (by simpa using hx) (by simpa using hy)⟩

/-- Merged slabs, before `_clean`. -/
theorem merge_slabs [IsStrictOrderedRing K] {key : String} {d : Ix} {axis : Fin 3} (hd : d axis = 1)
    (hpos : ∀ ax, 1 ≤ d ax) {surfs : List (List (V3 K))} {subs : List (List K)} {names : List (ℕ → String)}
    {table : Dict String Int} {qs : List (SGrid K ℤ)} (hne : qs ≠ [])
    (hn1 : subs.length = qs.length) (hn2 : names.length = qs.length)
    (hs : ∀ a ∈ surfs, a.length = count d) (h01 : ∀ ts ∈ subs, fromZeroToOne ts)
    (hdense : DenseTable table)
    (hslab : ∀ (k : ℕ) q, qs[k]? = some q → ∃ a b ts name, surfs[k]? = some a ∧ surfs[k + 1]? = some b ∧
      subs[k]? = some ts ∧ names[k]? = some name ∧ Piece axis q ∧
      SlabBy src area base key d axis a b ts name table (layersIn subs k) k q) :
    ∃ M, mergeStructured (some axis) qs = .ok M ∧ Piece axis M ∧ Arrays (count M.nodes.d) M.pointData ∧
      (∃ w, Dict.get? M.cellData "CellGroup" = some w ∧ ∀ c ∈ w.vals, ∃ s, (s, c) ∈ table) ∧
      ∃ layers columns items groups, Dict.get? M.cellData "LayerId" = some layers ∧
        Dict.get? M.cellData "ColumnId" = some columns ∧ Dict.get? M.cellData key = some items ∧
        Dict.get? M.cellData "CellGroup" = some groups ∧
        M.nodes.d = Function.update d axis (1 + (subs.map fun ts => ts.length - 1).sum) ∧
        (∃ g, Dict.get? M.cellData "vtkGhostType" = some g ∧ ∀ μ, CellLocal area μ → ∀ (k : ℕ) ts,
          subs[k]? = some ts → ∀ i s, InShape (cells d) i → s < ts.length - 1 →
          g.vals[vtkId (cells M.nodes.d) (Function.update i axis (layersIn subs k + s))]? =
            some (if μ (cellCorners M.nodes (Function.update i axis (layersIn subs k + s))) = 0 then 32
              else ghostOf base (src ts i s))) ∧
        (∀ k a b ts, surfs[k]? = some a → surfs[k + 1]? = some b → subs[k]? = some ts →
          ∀ i s t x y, InShape d i → ts[s]? = some t → a[vtkId d i]? = some x → b[vtkId d i]? = some y →
          M.points[vtkId M.nodes.d (Function.update i axis (layersIn subs k + s))]? = some (between t x y)) ∧
        (∀ k ts name, subs[k]? = some ts → names[k]? = some name → ∀ i s, InShape (cells d) i → s < ts.length - 1 →
          layers.vals[vtkId (cells M.nodes.d) (Function.update i axis (layersIn subs k + s))]? =
            some ((layersIn subs k + slabId d axis ts i s / count (cells d) : ℕ) : ℤ) ∧
          columns.vals[vtkId (cells M.nodes.d) (Function.update i axis (layersIn subs k + s))]? =
            some ((slabId d axis ts i s % count (cells d) : ℕ) : ℤ) ∧
          items.vals[vtkId (cells M.nodes.d) (Function.update i axis (layersIn subs k + s))]? = some (k : ℤ) ∧
          CellNamed table groups.vals (vtkId (cells M.nodes.d) (Function.update i axis (layersIn subs k + s)))
            (name (src ts i s))) ∧
        ∀ name v, Dict.get? base name = some v → name ∉ ownArrays key → ∃ w, Dict.get? M.cellData name = some w ∧
          ∀ (k : ℕ) ts, subs[k]? = some ts → ∀ i s, InShape (cells d) i → s < ts.length - 1 →
            w.vals[vtkId (cells M.nodes.d) (Function.update i axis (layersIn subs k + s))]? = v.vals[src ts i s]? := by
  have hp : ∀ p ∈ qs, Piece axis p := by
    intro p hm
    obtain ⟨k, hk⟩ := List.getElem?_of_mem hm
    obtain ⟨_, _, _, _, _, _, _, _, h, _⟩ := hslab k p hk
    exact h
  have hpds : ∀ q ∈ qs, Arrays (count q.nodes.d) q.pointData := by
    intro p hm
    obtain ⟨k, hk⟩ := List.getElem?_of_mem hm
    obtain ⟨_, _, _, _, _, _, _, _, _, h⟩ := hslab k p hk
    exact h.pd
  have hshape : ∀ (k : ℕ) q ts, qs[k]? = some q → subs[k]? = some ts → q.nodes.d = Function.update d axis ts.length := by
    intro k q ts hk ht
    obtain ⟨_, _, ts', _, _, _, e, _, _, h⟩ := hslab k q hk
    rw [ht] at e; cases e; exact h.shape
  have hac : ∀ q ∈ qs, ∀ ax, ax ≠ axis → q.nodes.d ax = d ax := by
    intro q hm ax hax
    obtain ⟨k, hk⟩ := List.getElem?_of_mem hm
    obtain ⟨_, _, ts', _, _, _, e, _, _, h⟩ := hslab k q hk
    rw [h.shape]; simp [Function.update_of_ne hax]
  have hf : FacingChain axis qs := by
    refine facingChain_of_get qs fun k q q' hk hk' => ?_
    obtain ⟨a, b, ts, _, a1, a2, a3, _, _, a4⟩ := hslab k q hk
    obtain ⟨b', c, ts', _, b1, b2, b3, _, _, b4⟩ := hslab (k + 1) q' hk'
    rw [a2] at b1; cases b1
    exact slab_facing hd (hs _ (List.mem_of_getElem? a1)) (hs _ (List.mem_of_getElem? a2))
      (hs _ (List.mem_of_getElem? b2)) (h01 _ (List.mem_of_getElem? a3)) (h01 _ (List.mem_of_getElem? b3)) a4 b4
  obtain ⟨q0, qr, rfl⟩ := List.exists_cons_of_ne_nil hne
  obtain ⟨M, hM, hMp, hG⟩ := merge_glued q0 qr hp
    (fun p hm ax hax => by rw [hac q0 (by simp) ax hax, hac p (by simp [hm]) ax hax]) hf
  set qs := q0 :: qr with hqs
  have hmap : qs.map (fun p => p.nodes.d axis - 1) = subs.map fun ts => ts.length - 1 :=
    sum_of_get _ _ qs subs hn1.symm fun k q ts hk ht => by rw [hshape k q ts hk ht]; simp
  have hoff : ∀ k, offset axis qs k = layersIn subs k := by
    intro k
    simp only [offset, layersIn, List.map_take, hmap]
  have hMd : M.nodes.d = Function.update d axis (1 + (subs.map fun ts => ts.length - 1).sum) := by
    funext ax
    by_cases hax : ax = axis
    · subst hax; rw [hG.along, hmap]; simp
    · rw [hG.across q0 (by simp [qs]) ax hax, hac q0 (by simp [qs]) ax hax, Function.update_of_ne hax]
  have hget : ∀ (k : ℕ) ts, subs[k]? = some ts → ∃ q, qs[k]? = some q := by
    intro k ts h
    have := (List.getElem?_eq_some_iff.1 h).1
    exact ⟨_, List.getElem?_eq_getElem (by omega)⟩
  have hkeys : ∀ kk, (∀ (k : ℕ) q, qs[k]? = some q → ∃ v, Dict.get? q.cellData kk = some v) →
      ∃ w, Dict.get? M.cellData kk = some w := by
    intro kk h
    rw [← Option.isSome_iff_exists, hG.keys]
    intro q hm
    obtain ⟨k, hk⟩ := List.getElem?_of_mem hm
    obtain ⟨v, e⟩ := h k q hk
    rw [e]; rfl
  obtain ⟨layers, hla⟩ := hkeys "LayerId" fun k q hk => by
    obtain ⟨_, _, _, _, _, _, _, _, _, h⟩ := hslab k q hk
    obtain ⟨x, _, _, _, e, _⟩ := h.data; exact ⟨x, e⟩
  obtain ⟨columns, hco⟩ := hkeys "ColumnId" fun k q hk => by
    obtain ⟨_, _, _, _, _, _, _, _, _, h⟩ := hslab k q hk
    obtain ⟨_, x, _, _, _, e, _⟩ := h.data; exact ⟨x, e⟩
  obtain ⟨items, hit⟩ := hkeys key fun k q hk => by
    obtain ⟨_, _, _, _, _, _, _, _, _, h⟩ := hslab k q hk
    obtain ⟨_, _, x, _, _, _, e, _⟩ := h.data; exact ⟨x, e⟩
  obtain ⟨ghosts, hgh⟩ := hkeys "vtkGhostType" fun k q hk => by
    obtain ⟨_, _, _, _, _, _, _, _, _, h⟩ := hslab k q hk
    obtain ⟨x, e, _⟩ := h.hidden; exact ⟨x, e⟩
  obtain ⟨groups, hgr⟩ := hkeys "CellGroup" fun k q hk => by
    obtain ⟨_, _, _, _, _, _, _, _, _, h⟩ := hslab k q hk
    obtain ⟨_, _, _, x, _, _, _, e, _⟩ := h.data; exact ⟨x, e⟩
  have hdata : ∀ k ts name, subs[k]? = some ts → names[k]? = some name → ∀ i s, InShape (cells d) i →
      s < ts.length - 1 →
          layers.vals[vtkId (cells M.nodes.d) (Function.update i axis (layersIn subs k + s))]? =
            some ((layersIn subs k + slabId d axis ts i s / count (cells d) : ℕ) : ℤ) ∧
          columns.vals[vtkId (cells M.nodes.d) (Function.update i axis (layersIn subs k + s))]? =
            some ((slabId d axis ts i s % count (cells d) : ℕ) : ℤ) ∧
          items.vals[vtkId (cells M.nodes.d) (Function.update i axis (layersIn subs k + s))]? = some (k : ℤ) ∧
          CellNamed table groups.vals (vtkId (cells M.nodes.d) (Function.update i axis (layersIn subs k + s)))
            (name (src ts i s)) := by
    intro k ts name hts hname i s hi hsl
    obtain ⟨q, hq⟩ := hget k ts hts
    obtain ⟨a, b, ts', name', a1, a2, a3, a4, a5, a6⟩ := hslab k q hq
    rw [hts] at a3; cases a3
    rw [hname] at a4; cases a4
    obtain ⟨l, c, it, g, b1, b2, b3, b4, b5⟩ := a6.data
    obtain ⟨c1, c2, c3, c4⟩ := b5 i s hi hsl
    have hcells : cells q.nodes.d = Function.update (cells d) axis (ts.length - 1) := by
      rw [a6.shape, cells_updateAxis hd (h01 ts (List.mem_of_getElem? hts)).1]
    have hin : InShape (cells q.nodes.d) (Function.update i axis s) := by
      rw [hcells]; exact inShape_update hi hsl
    have key' : ∀ kk v w, Dict.get? q.cellData kk = some v → Dict.get? M.cellData kk = some w →
        w.vals[vtkId (cells M.nodes.d) (Function.update i axis (layersIn subs k + s))]? =
          v.vals[vtkId (cells q.nodes.d) (Function.update i axis s)]? := by
      intro kk v w hv hw
      have := hG.data k q hq kk v w hv hw _ hin
      rw [Function.update_idem, Function.update_self, hoff] at this
      exact this
    refine ⟨?_, ?_, ?_, ?_⟩
    · rw [key' _ _ _ b1 hla, c1]
    · rw [key' _ _ _ b2 hco, c2]
    · rw [key' _ _ _ b3 hit, c3]
    · obtain ⟨x, x1, x2⟩ := c4
      exact ⟨x, by rw [key' _ _ _ b4 hgr, x1], x2⟩
  have hcM : cells M.nodes.d = Function.update (cells d) axis (subs.map fun ts => ts.length - 1).sum := by
    have h2 : 2 ≤ 1 + (subs.map fun ts => ts.length - 1).sum := by
      have h1 : subs[0]? = some (subs[0]'(by rw [hn1]; simp [qs])) := List.getElem?_eq_getElem _
      have h3 := layersIn_le h1
      have h4 := (h01 _ (List.mem_of_getElem? h1)).1
      omega
    rw [hMd, cells_updateAxis hd h2]
    congr 1; omega
  have hpoints : ∀ k a b ts, surfs[k]? = some a → surfs[k + 1]? = some b → subs[k]? = some ts →
      ∀ i s t x y, InShape d i → ts[s]? = some t → a[vtkId d i]? = some x → b[vtkId d i]? = some y →
      M.points[vtkId M.nodes.d (Function.update i axis (layersIn subs k + s))]? = some (between t x y) := by
    have hpt : ∀ (i : Ix) (l : ℕ), InShape d i → l < 1 + (subs.map fun ts => ts.length - 1).sum →
        M.points[vtkId M.nodes.d (Function.update i axis l)]? = some (M.nodes.get (Function.update i axis l)) := by
      intro i l hi hl
      simp only [SGrid.points]
      exact ravelF_get _ (by rw [hMd]; exact inShape_update hi hl)
    have hmain : ∀ k a b ts, surfs[k]? = some a → surfs[k + 1]? = some b → subs[k]? = some ts →
        ∀ i s t x y, InShape d i → ts[s]? = some t → a[vtkId d i]? = some x → b[vtkId d i]? = some y →
          (k = 0 ∨ 0 < s) →
          M.points[vtkId M.nodes.d (Function.update i axis (layersIn subs k + s))]? = some (between t x y) := by
      intro k a b ts ha hb hts i s t x y hi ht hx hy hk
      have hsl : s < ts.length := (List.getElem?_eq_some_iff.1 ht).1
      have hle := layersIn_le hts
      obtain ⟨q, hq⟩ := hget k ts hts
      obtain ⟨a', b', ts', name', a1, a2, a3, a4, a5, a6⟩ := hslab k q hq
      rw [ha] at a1; cases a1
      rw [hb] at a2; cases a2
      rw [hts] at a3; cases a3
      rw [hpt i _ hi (by omega)]
      have hin : InShape q.nodes.d (Function.update i axis s) := by
        rw [a6.shape]; exact inShape_update hi hsl
      have := hG.nodes k q hq _ hin (by simpa using hk)
      rw [Function.update_idem, Function.update_self, hoff, a6.nodes i s t x y hi ht hx hy] at this
      rw [this]
    intro k a b ts ha hb hts i s t x y hi ht hx hy
    by_cases hk : k = 0 ∨ 0 < s
    · exact hmain k a b ts ha hb hts i s t x y hi ht hx hy hk
    · obtain ⟨hk0, hs0⟩ : k ≠ 0 ∧ s = 0 := by omega
      subst hs0
      obtain ⟨k, rfl⟩ := Nat.exists_eq_succ_of_ne_zero hk0
      have h0 := (h01 ts (List.mem_of_getElem? hts)).2.1
      rw [ht] at h0; cases h0
      have hkl : k < subs.length := by
        have := (List.getElem?_eq_some_iff.1 hts).1; omega
      have hprev := List.getElem?_eq_getElem hkl
      obtain ⟨q, hq⟩ := hget k _ hprev
      obtain ⟨a', b', ts', name', a1, a2, a3, a4, a5, a6⟩ := hslab k q hq
      rw [ha] at a2; cases a2
      obtain ⟨p1, p2, p3⟩ := h01 _ (List.mem_of_getElem? hprev)
      have hva : vtkId d i < a'.length := by rw [hs _ (List.mem_of_getElem? a1)]; exact vtkId_lt hi
      have := hmain k a' a _ a1 ha hprev i _ 1 _ x hi p3 (List.getElem?_eq_getElem hva) hx (.inr (by omega))
      rw [between_one] at this
      rw [between_zero, Nat.add_zero, layersIn_succ hprev]
      exact this
  have hcorner : ∀ (k : ℕ) ts q, subs[k]? = some ts → qs[k]? = some q → ∀ i s, InShape (cells d) i →
      s < ts.length - 1 → cellCorners M.nodes (Function.update i axis (layersIn subs k + s)) =
        cellCorners q.nodes (Function.update i axis s) := by
    intro k ts q hts hq i s hi hsl
    obtain ⟨a, b, ts', name', a1, a2, a3, a4, a5, a6⟩ := hslab k q hq
    rw [hts] at a3; cases a3
    have hle := layersIn_le hts
    funext β
    let e : ℕ := if β axis then 1 else 0
    let i' : Ix := fun ax => if ax = axis then 0 else i ax + if β ax ∧ d ax ≠ 1 then 1 else 0
    have hi' : InShape d i' := by
      intro ax
      by_cases hax : ax = axis
      · simp [i', hax, hd]
      · have := hi ax
        simp only [cells] at this
        simp only [i', hax, if_false]
        have := hpos ax
        split at * <;> split <;> first | omega | simp_all
    have he : s + e < ts.length := by
      have : e ≤ 1 := by simp only [e]; split <;> omega
      omega
    have hva : vtkId d i' < a.length := by rw [hs _ (List.mem_of_getElem? a1)]; exact vtkId_lt hi'
    have hvb : vtkId d i' < b.length := by rw [hs _ (List.mem_of_getElem? a2)]; exact vtkId_lt hi'
    have p1 := hpoints k a b ts a1 a2 hts i' (s + e) _ _ _ hi' (List.getElem?_eq_getElem he)
      (List.getElem?_eq_getElem hva) (List.getElem?_eq_getElem hvb)
    have p2 := a6.nodes i' (s + e) _ _ _ hi' (List.getElem?_eq_getElem he)
      (List.getElem?_eq_getElem hva) (List.getElem?_eq_getElem hvb)
    rw [SGrid.points, ravelF_get _ (by rw [hMd]; exact inShape_update hi' (by omega)), Option.some.injEq] at p1
    simp only [cellCorners]
    have g1 : (fun ax => Function.update i axis (layersIn subs k + s) ax + if β ax ∧ M.nodes.d ax ≠ 1 then 1 else 0) =
        Function.update i' axis (layersIn subs k + (s + e)) := by
      funext ax
      by_cases hax : ax = axis
      · subst hax
        have h1 : M.nodes.d ax ≠ 1 := by rw [hMd]; simp; omega
        simp [h1, e]; omega
      · simp [Function.update_of_ne hax, i', hax, hMd]
    have g2 : (fun ax => Function.update i axis s ax + if β ax ∧ q.nodes.d ax ≠ 1 then 1 else 0) =
        Function.update i' axis (s + e) := by
      funext ax
      by_cases hax : ax = axis
      · subst hax
        have h1 : q.nodes.d ax ≠ 1 := by rw [a6.shape]; simp; omega
        simp [h1, e]
      · simp [Function.update_of_ne hax, i', hax, a6.shape]
    rw [g1, g2, p1, p2]
  have hhid : ∀ μ, CellLocal area μ → ∀ (k : ℕ) ts, subs[k]? = some ts → ∀ i s, InShape (cells d) i →
      s < ts.length - 1 → ghosts.vals[vtkId (cells M.nodes.d) (Function.update i axis (layersIn subs k + s))]? =
        some (if μ (cellCorners M.nodes (Function.update i axis (layersIn subs k + s))) = 0 then 32
          else ghostOf base (src ts i s)) := by
    intro μ hμ k ts hts i s hi hsl
    obtain ⟨q, hq⟩ := hget k ts hts
    rw [hcorner k ts q hts hq i s hi hsl]
    obtain ⟨a, b, ts', name', a1, a2, a3, a4, a5, a6⟩ := hslab k q hq
    rw [hts] at a3; cases a3
    obtain ⟨g, b1, b2⟩ := a6.hidden
    have hin : InShape (cells q.nodes.d) (Function.update i axis s) := by
      rw [a6.shape, cells_updateAxis hd (h01 ts (List.mem_of_getElem? hts)).1]; exact inShape_update hi hsl
    have := hG.data k q hq _ g ghosts b1 hgh _ hin
    rw [Function.update_idem, Function.update_self, hoff] at this
    rw [this, b2 μ hμ i s hi hsl]
  have hcarried : ∀ name v, Dict.get? base name = some v → name ∉ ownArrays key →
      ∃ w, Dict.get? M.cellData name = some w ∧
      ∀ (k : ℕ) ts, subs[k]? = some ts → ∀ i s, InShape (cells d) i → s < ts.length - 1 →
        w.vals[vtkId (cells M.nodes.d) (Function.update i axis (layersIn subs k + s))]? = v.vals[src ts i s]? := by
    intro name v hv hname
    obtain ⟨w, hw⟩ := hkeys name fun k q hk => by
      obtain ⟨_, _, _, _, _, _, _, _, _, h⟩ := hslab k q hk
      obtain ⟨x, e, _⟩ := h.carried name v hv hname; exact ⟨x, e⟩
    refine ⟨w, hw, ?_⟩
    intro k ts hts i s hi hsl
    obtain ⟨q, hq⟩ := hget k ts hts
    obtain ⟨a, b, ts', name', a1, a2, a3, a4, a5, a6⟩ := hslab k q hq
    rw [hts] at a3; cases a3
    obtain ⟨g, b1, b2⟩ := a6.carried name v hv hname
    have hin : InShape (cells q.nodes.d) (Function.update i axis s) := by
      rw [a6.shape, cells_updateAxis hd (h01 ts (List.mem_of_getElem? hts)).1]; exact inShape_update hi hsl
    have := hG.data k q hq _ g w b1 hw _ hin
    rw [Function.update_idem, Function.update_self, hoff] at this
    rw [this, b2 i s hi hsl]
  refine ⟨M, hM, hMp, mergeStructured_pd hM hpds, ⟨groups, hgr, ?_⟩, layers, columns, items, groups, hla, hco, hit, hgr, hMd, ⟨ghosts, hgh, hhid⟩,
    hpoints, hdata, hcarried⟩
  · intro c hc
    obtain ⟨n, hn⟩ := List.getElem?_of_mem hc
    have hlen := (hMp.size _ (Dict.get?_mem hgr)).1
    have hlt : n < count (cells M.nodes.d) := by
      rw [← hlen]; exact (List.getElem?_eq_some_iff.1 hn).1
    obtain ⟨j, hj, rfl⟩ := exists_ix hlt
    have hjax : j axis < (subs.map fun ts => ts.length - 1).sum := by
      have := hj axis; rw [hcM] at this; simpa using this
    obtain ⟨k, ts, s, e1, e2, e3⟩ := exists_part subs _ hjax
    have hk : k < names.length := by
      have := (List.getElem?_eq_some_iff.1 e1).1; omega
    have hj0 : InShape (cells d) (Function.update j axis 0) := by
      intro ax
      by_cases hax : ax = axis
      · subst hax; simp [cells, hd]
      · have := hj ax; rw [hcM, Function.update_of_ne hax] at this
        simpa [Function.update_of_ne hax] using this
    obtain ⟨_, _, _, x, x1, x2⟩ := hdata k ts _ e1 (List.getElem?_eq_getElem hk) _ s hj0 e2
    rw [← e3, Function.update_idem, Function.update_eq_self] at x1
    rw [hn] at x1; cases x1
    exact ⟨_, x2⟩

/-! ## clean -/

theorem dropGhost_get {cd : Dict String (DArr ℤ)} (hu : (cd.map Prod.fst).Nodup) {k : String}
    (hk : k ≠ "vtkGhostType") : Dict.get? (dropGhost cd) k = Dict.get? cd k := by
  unfold dropGhost
  split
  · split
    · rw [Dict.get?_pop hu, if_neg hk]
    · rfl
  · rfl

theorem Dict.pop_sublist {κ ν : Type _} [DecidableEq κ] (k : κ) : ∀ d : Dict κ ν, (Dict.pop d k).Sublist d
  | [] => List.Sublist.refl _
  | (a, b) :: d => by
    simp only [Dict.pop]
    split
    · exact List.sublist_cons_self _ _
    · exact (Dict.pop_sublist k d).cons_cons _

theorem dropGhost_mem {cd : Dict String (DArr ℤ)} {kv : String × DArr ℤ} (h : kv ∈ dropGhost cd) : kv ∈ cd := by
  unfold dropGhost at h
  split at h
  · split at h
    · exact (Dict.pop_sublist _ _).subset h
    · exact h
  · exact h

theorem dropGhost_nodup {cd : Dict String (DArr ℤ)} (hu : (cd.map Prod.fst).Nodup) :
    ((dropGhost cd).map Prod.fst).Nodup := by
  unfold dropGhost
  split
  · split
    · exact hu.sublist ((Dict.pop_sublist _ _).map _)
    · exact hu
  · exact hu

theorem dropGhost_ghostOf {cd : Dict String (DArr ℤ)} (hu : (cd.map Prod.fst).Nodup) (c : ℕ) :
    ghostOf (dropGhost cd) c = ghostOf cd c := by
  unfold dropGhost
  cases hg : Dict.get? cd "vtkGhostType" with
  | none => rfl
  | some g =>
    simp only
    split
    · rename_i hall
      simp only [ghostOf, Dict.get?_pop hu, if_true, hg]
      rw [List.all_eq_true] at hall
      rw [List.getD_eq_getElem?_getD]
      cases hc : g.vals[c]? with
      | none => rfl
      | some x => exact (by simpa using hall x (List.mem_of_getElem? hc) : x = 0).symm
    · rfl

theorem cleanGrid_ok {M : SGrid K ℤ} {table : Dict String Int} {axis : Fin 3} (hM : Piece axis M)
    {w : DArr ℤ} (hw : Dict.get? M.cellData "CellGroup" = some w) (hd : DenseTable table)
    (hcov : ∀ c ∈ w.vals, ∃ s, (s, c) ∈ table) :
    ∃ M' table' w', cleanGrid M table = .ok (M', table') ∧ M'.nodes = M.nodes ∧
      (∀ k, k ≠ "vtkGhostType" → k ≠ "CellGroup" → Dict.get? M'.cellData k = Dict.get? M.cellData k) ∧
      (∀ c, ghostOf M'.cellData c = ghostOf M.cellData c) ∧
      Dict.get? M'.cellData "CellGroup" = some w' ∧ DenseTable table' ∧ SameNames table w.vals table' w'.vals ∧
      (∀ kv ∈ table', kv.2 ∈ w'.vals) ∧ M'.pointData = M.pointData ∧ Piece axis M' := by
  obtain ⟨data', table', e1, e2, e3, e4, _⟩ := C08_clean hd hcov
  refine ⟨{ M with cellData := Dict.set (dropGhost M.cellData) "CellGroup" ⟨w.vector, data'⟩ }, table',
    ⟨w.vector, data'⟩, ?_, rfl, ?_, ?_, ?_, e2, e3, ?_, rfl, ⟨hM.along, hM.across, ?_, ?_⟩⟩
  · simp only [cleanGrid, dropGhost_get hM.keys (k := "CellGroup") (by decide), hw, e1]
  · intro k h1 h2
    simp only
    rw [Dict.get?_set, if_neg (Ne.symm h2), dropGhost_get hM.keys h1]
  · intro c
    rw [← dropGhost_ghostOf hM.keys]
    simp only [ghostOf]
    rw [Dict.get?_set, if_neg (by decide)]
  · simp only [Dict.get?_set, if_true]
  · rintro ⟨s, c⟩ hkv
    have hs : s ∈ table'.map Prod.fst := List.mem_map.2 ⟨_, hkv, rfl⟩
    rw [e4] at hs
    obtain ⟨⟨s', c0⟩, h1, h2⟩ := List.mem_map.1 hs
    simp only at h2; subst h2
    obtain ⟨h3, h4⟩ := List.mem_filter.1 h1
    simp only [decide_eq_true_eq] at h4
    obtain ⟨n, hn⟩ := List.getElem?_of_mem h4
    obtain ⟨c1, g1, g2⟩ := (e3.2 n s').1 ⟨c0, hn, h3⟩
    have : c1 = c := by
      have := Dict.get?_of_mem e2.1 g2
      rw [Dict.get?_of_mem e2.1 hkv] at this; exact (Option.some.inj this).symm
    subst this
    exact List.mem_of_getElem? g1
  · rintro ⟨k, v⟩ hkv
    have hnd := dropGhost_nodup hM.keys
    have := Dict.get?_of_mem (Dict.set_keys_nodup hnd) hkv
    rw [Dict.get?_set] at this
    split at this
    · cases this
      have := hM.size _ (Dict.get?_mem hw)
      exact ⟨by rw [← e3.1]; exact this.1, this.2⟩
    · exact hM.size _ (dropGhost_mem (Dict.get?_mem this))
  · exact Dict.set_keys_nodup (dropGhost_nodup hM.keys)

/-! ## the whole generation -/

/-- The general result, for any kind of mesh whose extrusion is as it should be. -/
theorem assemble_ok [IsStrictOrderedRing K] (kit : Kit K τ ρ) {ignore : List String} {dflt key : String}
    (hkey : key ≠ "LayerId" ∧ key ≠ "ColumnId" ∧ key ≠ "CellGroup" ∧ key ≠ "vtkGhostType")
    {d : Ix} {axis : Fin 3} (hd : d axis = 1) (hpos : ∀ ax, 1 ≤ d ax)
    (hsrc : ∀ ts i s, InShape (cells d) i → s < ts.length - 1 → src ts i s < count (cells d)) (perc : ρ → List K)
    (a b : GItem K τ ρ) (rest : List (GItem K τ ρ))
    (hsurf : ∀ it ∈ a :: b :: rest, it.1.points.length = count d ∧ (kit.labels it.1).nCells = count (cells d) ∧
        ∀ x, (kit.labels it.1).cellGroup = some x → x.length = (kit.labels it.1).nCells)
    (hts : ∀ it ∈ b :: rest, ∀ o, it.2 = some o →
      fromZeroToOne (perc o.sub))
    (hext : ∀ (k : ℕ) x y o arr p, (a :: b :: rest)[k]? = some x → (b :: rest)[k]? = some y → y.2 = some o →
        arr.length = count (cells d) → kit.extrude (kit.withGroup x.1 arr) y.1 o.sub = .ok p →
        BetweenBy src area base d axis x.1.points y.1.points (perc o.sub) arr p) :
    (∀ qs groups, submeshes kit ignore dflt key a (b :: rest) [] 0 0 = .ok (qs, groups) →
      ∃ M table, assemble kit ignore dflt key axis (a :: b :: rest) = .ok (M, table)) ∧
    ∀ M table, assemble kit ignore dflt key axis (a :: b :: rest) = .ok (M, table) →
      ∃ subs names, subs.length = rest.length + 1 ∧ names.length = rest.length + 1 ∧
        (∀ (k : ℕ) x y, (a :: b :: rest)[k]? = some x → (b :: rest)[k]? = some y → ∃ o name, y.2 = some o ∧
          subs[k]? = some (perc o.sub) ∧ names[k]? = some name ∧
          Labels ignore dflt (count (cells d)) (kit.labels x.1).cellGroup (kit.labels x.1).table o.group name) ∧
        LayeredBy src area base key d axis ((a :: b :: rest).map fun it => it.1.points) subs names M table := by
  have main : ∀ qs groups, submeshes kit ignore dflt key a (b :: rest) [] 0 0 = .ok (qs, groups) →
      ∃ M table, assemble kit ignore dflt key axis (a :: b :: rest) = .ok (M, table) ∧
      ∃ subs names, subs.length = rest.length + 1 ∧ names.length = rest.length + 1 ∧
        (∀ (k : ℕ) x y, (a :: b :: rest)[k]? = some x → (b :: rest)[k]? = some y → ∃ o name, y.2 = some o ∧
          subs[k]? = some (perc o.sub) ∧ names[k]? = some name ∧
          Labels ignore dflt (count (cells d)) (kit.labels x.1).cellGroup (kit.labels x.1).table o.group name) ∧
        LayeredBy src area base key d axis ((a :: b :: rest).map fun it => it.1.points) subs names M table := by
    intro qs groups h
    obtain ⟨h1, _, h3, subs, names, h4, h5, h6⟩ := submeshes_ok kit hkey hd hpos hsrc perc
      (b :: rest) a [] groups 0 0 qs (fun it hit => (hsurf it hit).2)
      (fun it hit o ho => (hts it hit o ho).1) hext
      ⟨by simp, by simp⟩ h
    have h01 : ∀ ts ∈ subs, fromZeroToOne ts := by
      intro ts hm
      obtain ⟨k, hk⟩ := List.getElem?_of_mem hm
      have hk' : k < (b :: rest).length := by
        have := (List.getElem?_eq_some_iff.1 hk).1; omega
      obtain ⟨x, o, ts', _, _, _, e2, e3, e4, _⟩ := h6 k _ (List.getElem?_eq_getElem hk')
      rw [hk] at e3; cases e3
      rw [e4]
      exact hts _ (List.mem_of_getElem? (List.getElem?_eq_getElem hk')) o e2
    obtain ⟨M, m1, m2, mpd, ⟨w, m3, m4⟩, layers, columns, items, gr, m5, m6, m7, m8, m9, ⟨gh, mg, mh⟩, m10, m11, m12⟩ :=
      merge_slabs (key := key) (surfs := (a :: b :: rest).map fun it => it.1.points) (qs := qs) (names := names)
        (subs := subs) hd hpos
        (by intro h; rw [h] at h3; simp at h3) (by omega) (by omega)
        (by intro l hl; obtain ⟨it, hit, rfl⟩ := List.mem_map.1 hl; exact (hsurf it hit).1) h01 h1
        (by
          intro k q hk
          have hk' : k < (b :: rest).length := by
            have := (List.getElem?_eq_some_iff.1 hk).1; omega
          obtain ⟨x, o, ts, nm, q', e1, e2, e3, e4, e5, e6, e7, e8, e9⟩ := h6 k _ (List.getElem?_eq_getElem hk')
          rw [hk] at e6; cases e6
          refine ⟨x.1.points, (b :: rest)[k].1.points, ts, nm, ?_, ?_, e3, e5, e8, by simpa using e9⟩
          · rw [List.getElem?_map, e1]; rfl
          · rw [List.getElem?_map, List.getElem?_cons_succ, List.getElem?_eq_getElem hk']; rfl)
    rw [m8] at m3; cases m3
    obtain ⟨M', table, w', c1, c2, c3, cg, c4, c5, c6, c7, c8, c9⟩ := cleanGrid_ok m2 m8 h1 m4
    refine ⟨M', table, ?_, subs, names, by simpa using h4, by simpa using h5, ?_, ?_⟩
    · simp only [assemble, h, m1, c1]
    · intro k x y hx hy
      obtain ⟨x', o, ts, nm, q', e1, e2, e3, e4, e5, e6, e7, e8, e9⟩ := h6 k y hy
      rw [hx] at e1; cases e1
      exact ⟨o, nm, e2, e4 ▸ e3, e5, e7⟩
    · refine ⟨by rw [c2]; exact m9, ?_, c5, ⟨layers, columns, items, w', ?_, ?_, ?_, c4, ?_, c7, ?_⟩, ?_, ?_, ⟨by rw [c2, c8]; exact mpd,
          ⟨fun kv hkv => (c9.size kv hkv).1, c9.keys⟩, fun kv hkv => (c9.size kv hkv).2⟩, ?_⟩
      · simpa only [SGrid.points, c2] using m10
      · rw [c3 _ (by decide) (by decide), m5]
      · rw [c3 _ (by decide) (by decide), m6]
      · rw [c3 _ hkey.2.2.2 hkey.2.2.1, m7]
      · rw [← c6.1, (m2.size _ (Dict.get?_mem m8)).1, c2]
      · intro k ts name e1 e2 i s e3 e4
        obtain ⟨f1, f2, f3, f4⟩ := m11 k ts name e1 e2 i s e3 e4
        rw [c2]
        refine ⟨fun hlay => ?_, f3, (c6.2 _ _).1 f4⟩
        obtain ⟨v1, v2⟩ := slabId_layerMajor hd hpos (h01 ts (List.mem_of_getElem? e1)).1 hlay e3 e4
        rw [v1] at f1; rw [v2] at f2
        exact ⟨f1, f2⟩
      · intro layers' columns' hl' hc' k ts e1 i s e3 e4
        rw [c3 _ (by decide) (by decide), m5] at hl'
        rw [c3 _ (by decide) (by decide), m6] at hc'
        cases hl'; cases hc'
        have hk : k < names.length := by
          have := (List.getElem?_eq_some_iff.1 e1).1; omega
        obtain ⟨f1, f2, _⟩ := m11 k ts _ e1 (List.getElem?_eq_getElem hk) i s e3 e4
        rw [c2]
        exact ⟨f1, f2⟩
      · intro μ hμ k ts e1 i s e3 e4
        rw [cg, c2]
        simp only [ghostOf, mg, List.getD_eq_getElem?_getD, mh μ hμ k ts e1 i s e3 e4, Option.getD_some]
      · intro name v hv hname
        obtain ⟨w, w1, w2⟩ := m12 name v hv hname
        simp only [ownArrays, List.mem_cons, List.not_mem_nil, or_false, not_or] at hname
        exact ⟨w, by rw [c3 _ hname.2.2.2.2 hname.2.2.2.1, w1], by rw [c2]; exact w2⟩
  constructor
  · intro qs groups h
    obtain ⟨M, table, h1, _⟩ := main qs groups h
    exact ⟨M, table, h1⟩
  · intro M table h
    have h' := h
    simp only [assemble] at h'
    split at h'
    · cases h'
    rename_i qs groups hs
    obtain ⟨M', table', h1, h2⟩ := main qs groups hs
    rw [h1] at h; cases h
    exact h2

/-! ## lines and structured surfaces -/

section arrays
variable {δ : Type _}

theorem copyArrays_nodup {n : ℕ} {f : DArr δ → Py (DArr δ)} :
    ∀ (src acc out : Dict String (DArr δ)), (acc.map Prod.fst).Nodup → copyArrays n f src acc = .ok out →
      (out.map Prod.fst).Nodup
  | [], acc, out, ha, h => by simp only [copyArrays, Except.ok.injEq] at h; exact h ▸ ha
  | (k, v) :: src, acc, out, ha, h => by
    simp only [copyArrays] at h
    split at h
    · cases h
    split at h
    · cases h
    rename_i acc' hs
    simp only [setArray] at hs
    split at hs
    · cases hs
      exact copyArrays_nodup src _ out (Dict.set_keys_nodup ha) h
    · cases hs

theorem copyArrays_arrays {n : ℕ} {f : DArr δ → Py (DArr δ)} :
    ∀ (src acc out : Dict String (DArr δ)), Arrays n acc → copyArrays n f src acc = .ok out → Arrays n out
  | [], acc, out, ha, h => by simp only [copyArrays, Except.ok.injEq] at h; exact h ▸ ha
  | (k, v) :: src, acc, out, ha, h => by
    simp only [copyArrays] at h
    split at h
    · cases h
    split at h
    · cases h
    rename_i v' _ _ acc' hs
    simp only [setArray] at hs
    split at hs
    · rename_i hl
      cases hs
      refine copyArrays_arrays src _ out ⟨?_, Dict.set_keys_nodup ha.2⟩ h
      rintro ⟨k', w⟩ hkv
      have := Dict.get?_of_mem (Dict.set_keys_nodup ha.2) hkv
      rw [Dict.get?_set] at this
      split at this
      · cases this; exact hl
      · exact ha.1 _ (Dict.get?_mem this)
    · cases hs

/-- Arrays copied from `src` by a function that keeps scalars scalar. -/
theorem copyArrays_scalar {n : ℕ} {f : DArr δ → Py (DArr δ)} (hf : ∀ v w, f v = .ok w → w.vector = v.vector) :
    ∀ (src acc out : Dict String (DArr δ)), (∀ kv ∈ src, kv.2.vector = false) →
      (∀ kv ∈ acc, kv.2.vals.length = n ∧ kv.2.vector = false) → copyArrays n f src acc = .ok out →
      ∀ kv ∈ out, kv.2.vals.length = n ∧ kv.2.vector = false
  | [], acc, out, _, ha, h => by simp only [copyArrays, Except.ok.injEq] at h; exact h ▸ ha
  | (k, v) :: src, acc, out, hs, ha, h => by
    simp only [copyArrays] at h
    split at h
    · cases h
    rename_i w hw
    split at h
    · cases h
    rename_i acc' hset
    simp only [setArray] at hset
    split at hset
    · rename_i hlen
      cases hset
      refine copyArrays_scalar hf src _ out (fun kv hkv => hs kv (List.mem_cons_of_mem _ hkv)) ?_ h
      intro kv hkv
      have hv : w.vector = false := by rw [hf v w hw]; exact hs (k, v) (by simp)
      clear h
      induction acc with
      | nil => simp only [Dict.set, List.mem_singleton] at hkv; subst hkv; exact ⟨hlen, hv⟩
      | cons x acc ih =>
        obtain ⟨x, y⟩ := x
        simp only [Dict.set] at hkv
        split at hkv
        · rcases List.mem_cons.1 hkv with rfl | hkv
          · exact ⟨hlen, hv⟩
          · exact ha kv (List.mem_cons_of_mem _ hkv)
        · rcases List.mem_cons.1 hkv with rfl | hkv
          · exact ha _ (by simp)
          · exact ih (fun kv h => ha kv (List.mem_cons_of_mem _ h)) hkv
    · cases hset

theorem flagHidden_ok [OfNat δ 0] [OfNat δ 32] {n : ℕ} {inactive : List Bool} (hi : inactive.length = n)
    {cd : Dict String (DArr δ)} (h1 : ∀ kv ∈ cd, kv.2.vals.length = n ∧ kv.2.vector = false)
    (h2 : (cd.map Prod.fst).Nodup) :
    (∀ kv ∈ flagHidden n inactive cd, kv.2.vals.length = n ∧ kv.2.vector = false) ∧
      ((flagHidden n inactive cd).map Prod.fst).Nodup ∧
      ∀ k, k ≠ "vtkGhostType" → Dict.get? (flagHidden n inactive cd) k = Dict.get? cd k := by
  have hnd : ((flagHidden n inactive cd).map Prod.fst).Nodup := Dict.set_keys_nodup h2
  refine ⟨?_, hnd, ?_⟩
  · rintro ⟨k, v⟩ hkv
    have := Dict.get?_of_mem hnd hkv
    simp only [flagHidden, Dict.get?_set] at this
    split at this
    · cases this
      simp only [List.length_zipWith, hi]
      split
      · rename_i g hg
        have := h1 _ (Dict.get?_mem hg)
        simp only at this
        simp [this]
      · simp
    · exact h1 _ (Dict.get?_mem this)
  · intro k hk
    simp only [flagHidden, Dict.get?_set, if_neg (Ne.symm hk)]

end arrays

theorem stackPlane_is (axis : Fin 3) : isPlane (stackPlane axis) := by
  fin_cases axis <;> simp [stackPlane, isPlane]

theorem stackPlane_axis (axis : Fin 3) : subdivisionAxis (stackPlane axis) = axis := by
  fin_cases axis <;> rfl

theorem stackPlane_shape (axis : Fin 3) (n m : ℕ) :
    Function.update (planeShape (stackPlane axis) n 1) axis m = planeShape (stackPlane axis) n m := by
  funext ax
  fin_cases axis <;> fin_cases ax <;> rfl

theorem stackPlane_one (axis : Fin 3) (n : ℕ) : planeShape (stackPlane axis) n 1 axis = 1 := by
  fin_cases axis <;> rfl

theorem stackPlane_index {axis : Fin 3} {n : ℕ} {i : Ix} (h : InShape (planeShape (stackPlane axis) n 1) i) (s : ℕ) :
    Function.update i axis s = planeIx (stackPlane axis) (i (lineAxis (stackPlane axis))) s ∧
    vtkId (planeShape (stackPlane axis) n 1) i = i (lineAxis (stackPlane axis)) ∧
    i (lineAxis (stackPlane axis)) < n := by
  have h0 := h 0; have h1 := h 1; have h2 := h 2
  fin_cases axis
  · have e0 : i 0 = 0 := by change i 0 < 1 at h0; omega
    have e2 : i 2 = 0 := by change i 2 < 1 at h2; omega
    refine ⟨?_, ?_, h1⟩
    · funext ax; fin_cases ax
      · rfl
      · rfl
      · exact e2
    · simp [vtkId, stackPlane, planeShape, lineAxis, subdivisionAxis, e0, e2]
  · have e1 : i 1 = 0 := by change i 1 < 1 at h1; omega
    have e2 : i 2 = 0 := by change i 2 < 1 at h2; omega
    refine ⟨?_, ?_, h0⟩
    · funext ax; fin_cases ax
      · rfl
      · rfl
      · exact e2
    · simp [vtkId, stackPlane, planeShape, lineAxis, subdivisionAxis, e1, e2]
  · have e1 : i 1 = 0 := by change i 1 < 1 at h1; omega
    have e2 : i 2 = 0 := by change i 2 < 1 at h2; omega
    refine ⟨?_, ?_, h0⟩
    · funext ax; fin_cases ax
      · rfl
      · exact e1
      · rfl
    · simp [vtkId, stackPlane, planeShape, lineAxis, subdivisionAxis, e1, e2]

/-- A line as the 2D stacks use it: in order, one cell per segment, scalar data. -/
structure Spec.StackLine (n : ℕ) (s : Surf K LineTopo) : Prop where
  clean : CleanLine s.points s.topo.ids s.topo.pointData s.topo.cellData
  size : s.points.length = n
  scalar : ∀ kv ∈ s.topo.cellData, kv.2.vector = false

theorem withGroup_clean {n : ℕ} {s : Surf K LineTopo} (h : StackLine n s) {arr : List ℤ}
    (ha : arr.length = n - 1) :
    CleanLine s.points s.topo.ids s.topo.pointData (Dict.set s.topo.cellData "CellGroup" ⟨false, arr⟩) ∧
    ∀ kv ∈ Dict.set s.topo.cellData "CellGroup" ⟨false, arr⟩, kv.2.vector = false := by
  have hnd := Dict.set_keys_nodup (k := "CellGroup") (v := (⟨false, arr⟩ : DArr ℤ)) h.clean.cdKeys
  have hget : ∀ kv ∈ Dict.set s.topo.cellData "CellGroup" (⟨false, arr⟩ : DArr ℤ),
      kv.2 = ⟨false, arr⟩ ∨ kv ∈ s.topo.cellData := by
    rintro ⟨k, v⟩ hkv
    have := Dict.get?_of_mem hnd hkv
    rw [Dict.get?_set] at this
    split at this
    · cases this; exact .inl rfl
    · exact .inr (Dict.get?_mem this)
  refine ⟨⟨h.clean.ids_eq, h.clean.size, h.clean.pdLen, ?_, h.clean.pdKeys, hnd⟩, ?_⟩
  · intro kv hkv
    rcases hget kv hkv with e | e
    · rw [e, h.size]; exact ha
    · exact h.clean.cdLen kv e
  · intro kv hkv
    rcases hget kv hkv with e | e
    · rw [e]
    · exact h.scalar kv e

theorem surfaceCore_data {area : Arr3 (V3 K) → List K} {pts : List (V3 K)} {ids : List ℕ}
    {pd cd : Dict String (DArr ℤ)} {lineB : LineArg K ℤ} {plane : String} {ts : List K} {p : SGrid K ℤ}
    (h : generateSurfaceCore area (.poly pts ids pd cd) lineB plane ts = .ok p) :
    ∃ cd', copyArrays (count (cells p.nodes.d)) (fun v => .ok (tileRows (ts.length - 1) v)) cd [] = .ok cd' ∧
      p.cellData = flagHidden (count (cells p.nodes.d)) ((area p.nodes).map fun x => decide (x = 0)) cd' ∧
      Arrays (count p.nodes.d) p.pointData := by
  simp only [generateSurfaceCore] at h
  split at h
  · cases h
  split at h
  · cases h
  split at h
  · cases h
  rename_i pd' hpd
  split at h
  · cases h
  · rename_i cd' hcd
    cases h
    simp only [sizeOfShape_eq, cellShape_eq] at hcd hpd
    exact ⟨cd', hcd, by simp only [sizeOfShape_eq, cellShape_eq], copyArrays_arrays _ _ _ (by simp [Arrays]) hpd⟩

/-- The surface between two lines. -/
theorem line_between {area : Arr3 (V3 K) → List K} (harea : ∀ x, (area x).length = count (cells x.d))
    {n : ℕ} {a b : Surf K LineTopo} (ha : StackLine n a) (hb : StackLine n b) {axis : Fin 3} {arr : List ℤ}
    (harr : arr.length = n - 1) {ts : List K} (hts : 2 ≤ ts.length) :
    ∃ p, generateSurfaceCore area (.poly a.points a.topo.ids a.topo.pointData
      (Dict.set a.topo.cellData "CellGroup" ⟨false, arr⟩)) (lineArg b) (stackPlane axis) ts = .ok p ∧
    BetweenBy (lineSource (planeShape (stackPlane axis) n 1) axis) area a.topo.cellData
      (planeShape (stackPlane axis) n 1) axis a.points b.points ts arr p := by
  obtain ⟨hclean, hscal⟩ := withGroup_clean ha harr
  have hA := hclean.points_eq
  have hB : (lineArg b).points = b.points := hb.clean.points_eq
  have hn2 : 2 ≤ n := by rw [← ha.size]; exact ha.clean.size
  obtain ⟨p, h, _, hdata, _⟩ := C16_surface_by_position area a.points a.topo.ids a.topo.pointData
    (Dict.set a.topo.cellData "CellGroup" ⟨false, arr⟩) (lineArg b) (stackPlane axis) ts hclean
    (by rw [hB, hb.size, ha.size]) (stackPlane_is axis) hts
  refine ⟨p, h, ?_⟩
  obtain ⟨_, hshape, _, hpts⟩ := surface_nodes_core h
  rw [hA, ha.size] at hshape
  rw [hA, hB] at hpts
  have hsh : p.nodes.d = Function.update (planeShape (stackPlane axis) n 1) axis ts.length := by
    rw [stackPlane_shape, hshape]
  have hcell1 : cells (planeShape (stackPlane axis) n 1) = planeShape (stackPlane axis) (n - 1) 1 := by
    funext ax
    fin_cases axis <;> fin_cases ax <;> simp [stackPlane, planeShape, lineAxis, subdivisionAxis, cells] <;> omega
  have hcount : count (cells (planeShape (stackPlane axis) n 1)) = n - 1 := by
    rw [hcell1, count_planeShape (stackPlane_is axis), Nat.mul_one]
  have hid : ∀ i s, InShape (cells (planeShape (stackPlane axis) n 1)) i → s < ts.length - 1 →
      vtkId (cells p.nodes.d) (Function.update i axis s) = slabId (planeShape (stackPlane axis) n 1) axis ts i s ∧
      slabId (planeShape (stackPlane axis) n 1) axis ts i s < (n - 1) * (ts.length - 1) := by
    intro i s hi hs
    have e : vtkId (cells p.nodes.d) (Function.update i axis s) =
        slabId (planeShape (stackPlane axis) n 1) axis ts i s := by
      rw [slabId, hsh, cells_updateAxis (stackPlane_one axis n) hts]
    refine ⟨e, ?_⟩
    rw [← e, hshape, planeShape_cells (stackPlane_is axis) hn2 hts]
    rw [hcell1] at hi
    obtain ⟨g1, _, g3⟩ := stackPlane_index hi s
    rw [g1]
    exact vtkId_planeIx_lt (stackPlane_is axis) g3 hs
  obtain ⟨cd', hcd, hp, hpd⟩ := surfaceCore_data h
  have e1 := copyArrays_scalar (fun v w hw => by cases hw; rfl) _ _ _ hscal (by simp) hcd
  have e2 := copyArrays_nodup _ _ _ (by simp) hcd
  obtain ⟨f1, f2, _⟩ := flagHidden_ok (inactive := (area p.nodes).map fun x => decide (x = 0))
    (by simp [harea]) e1 e2
  refine ⟨⟨?_, ?_, ?_, ?_⟩, hsh, ?_, ?_, ?_, hpd, ?_⟩
  · rw [hsh]; simpa using hts
  · intro ax
    rw [hshape]
    fin_cases axis <;> fin_cases ax <;> simp [stackPlane, planeShape, lineAxis, subdivisionAxis] <;> omega
  · rw [hp]; exact f1
  · rw [hp]; exact f2
  · intro i s t x y hi ht hx hy
    obtain ⟨h1, h2, h3⟩ := stackPlane_index hi s
    rw [h2] at hx hy
    have := hpts _ _ _ _ _ hx hy ht
    rw [← h1, SGrid.points, ravelF_get, Option.some.injEq] at this
    · exact this
    · rw [hsh]
      have hs : s < ts.length := (List.getElem?_eq_some_iff.1 ht).1
      intro ax
      by_cases hax : ax = axis
      · subst hax; simpa using hs
      · simpa [Function.update_of_ne hax] using hi ax
  · obtain ⟨w, hw1, _, _, hw2⟩ := hdata "CellGroup" ⟨false, arr⟩ (by decide) (by rw [Dict.get?_set, if_pos rfl])
    refine ⟨w, hw1, ?_⟩
    intro i s hi hs
    obtain ⟨g1, g2⟩ := hid i s hi hs
    rw [g1, hw2 _ (by rw [ha.size]; exact g2), lineSource, hcount, ha.size]
  · obtain ⟨w, w1, w2⟩ := flagHidden_get (count (cells p.nodes.d)) ((area p.nodes).map fun x => decide (x = 0)) cd'
    refine ⟨w, by rw [hp]; exact w1, ?_⟩
    intro μ hμ i s hi hs
    have hin : InShape (cells p.nodes.d) (Function.update i axis s) := by
      rw [hsh, cells_updateAxis (stackPlane_one axis n) hts]; exact inShape_update hi hs
    have hμ' := hμ p.nodes _ hin
    rw [w2 _ (ghostOf a.topo.cellData (lineSource (planeShape (stackPlane axis) n 1) axis ts i s))
      (decide (μ (cellCorners p.nodes (Function.update i axis s)) = 0)) (by rw [List.getElem?_map, hμ']; rfl)]
    · simp
    obtain ⟨c1, c2⟩ := copyArrays_get _ _ "vtkGhostType" _ _ _ hclean.cdKeys hcd
    rw [Dict.get?_set, if_neg (by decide)] at c1 c2
    cases hg : Dict.get? a.topo.cellData "vtkGhostType" with
    | none => exact .inl ⟨by rw [c1 hg]; rfl, vtkId_lt hin, by simp [ghostOf, hg]⟩
    | some v =>
      right
      obtain ⟨v', f1, _, f3⟩ := c2 v hg
      cases f1
      refine ⟨_, f3, ?_⟩
      have hl : v.vals.length = n - 1 := by
        rw [← ha.size]; exact ha.clean.cdLen _ (Dict.get?_mem hg)
      obtain ⟨g1, g2⟩ := hid i s hi hs
      have h0 : 0 < v.vals.length := by omega
      have hm := Nat.mod_lt (slabId (planeShape (stackPlane axis) n 1) axis ts i s) h0
      rw [g1, lineSource, hcount, ← hl, tileRows, flatten_replicate_get _ _ _
        (slabId (planeShape (stackPlane axis) n 1) axis ts i s / v.vals.length) _ hm
        (Nat.div_lt_of_lt_mul (by rw [hl]; exact g2)) (Nat.mod_add_div _ _).symm]
      simp only [ghostOf, hg, List.getD_eq_getElem?_getD]
      rw [List.getElem?_eq_getElem hm]; rfl
  · intro name v hv n1 n2
    obtain ⟨w, hw1, _, _, hw2⟩ := hdata name v n2 (by rw [Dict.get?_set, if_neg (Ne.symm n1), hv])
    refine ⟨w, hw1, ?_⟩
    intro i s hi hs
    obtain ⟨g1, g2⟩ := hid i s hi hs
    rw [g1, hw2 _ (by rw [ha.size]; exact g2), lineSource, hcount, ha.size]

/-! ## structured surfaces -/

/-- A structured surface as the 3D stacks use it: dimensions `d`, scalar data, one entry per node or cell. -/
structure Spec.StackGrid (d : Fin 3 → ℕ) (s : Surf K GridTopo) : Prop where
  dims : s.topo.dims = d
  size : s.points.length = count d
  pd : Arrays (count d) s.topo.pointData
  cd : Arrays (count (cells d)) s.topo.cellData
  scalar : ∀ kv ∈ s.topo.cellData, kv.2.vector = false

theorem setGroup_arrays {n : ℕ} {cd : Dict String (DArr ℤ)} (h : Arrays n cd)
    (hs : ∀ kv ∈ cd, kv.2.vector = false) {arr : List ℤ} (ha : arr.length = n) :
    Arrays n (Dict.set cd "CellGroup" ⟨false, arr⟩) ∧
    ∀ kv ∈ Dict.set cd "CellGroup" ⟨false, arr⟩, kv.2.vector = false := by
  have hnd := Dict.set_keys_nodup (k := "CellGroup") (v := (⟨false, arr⟩ : DArr ℤ)) h.2
  have hget : ∀ kv ∈ Dict.set cd "CellGroup" (⟨false, arr⟩ : DArr ℤ), kv.2 = ⟨false, arr⟩ ∨ kv ∈ cd := by
    rintro ⟨k, v⟩ hkv
    have := Dict.get?_of_mem hnd hkv
    rw [Dict.get?_set] at this
    split at this
    · cases this; exact .inl rfl
    · exact .inr (Dict.get?_mem this)
  refine ⟨⟨?_, hnd⟩, ?_⟩
  · intro kv hkv
    rcases hget kv hkv with e | e
    · rw [e]; exact ha
    · exact h.1 kv e
  · intro kv hkv
    rcases hget kv hkv with e | e
    · rw [e]
    · exact hs kv e

theorem volumeStructured_data {volume : Arr3 (V3 K) → List K} {a b : SGrid K ℤ} {ts : List K} {p : SGrid K ℤ}
    (h : generateVolumeStructured volume a b ts = .ok p) :
    ∃ cd', copyArrays (count (cells p.nodes.d))
        (fun v => repeatStructured (cellShape a.nodes.d) v (ts.length - 1) (flatAxis a.nodes.d)) a.cellData [] =
          .ok cd' ∧
      p.cellData = flagHidden (count (cells p.nodes.d)) ((volume p.nodes).map fun x => decide (x = 0)) cd' ∧
      Arrays (count p.nodes.d) p.pointData := by
  simp only [generateVolumeStructured] at h
  split at h
  · cases h
  split at h
  · cases h
  split at h
  · cases h
  rename_i pd' hpd
  split at h
  · cases h
  · rename_i cd' hcd
    cases h
    simp only [sizeOfShape_eq, cellShape_eq] at hcd hpd
    simp only [sizeOfShape_eq, cellShape_eq]
    exact ⟨cd', hcd, rfl, copyArrays_arrays _ _ _ (by simp [Arrays]) hpd⟩

theorem repeatStructured_vector {shape : Ix} {v w : DArr ℤ} {n : ℕ} {axis : Fin 3}
    (h : repeatStructured shape v n axis = .ok w) : w.vector = v.vector := by
  simp only [repeatStructured] at h
  split at h
  · cases h
  split at h
  · cases h
  · cases h; rfl

/-- The volume between two structured surfaces. -/
theorem grid_between {volume : Arr3 (V3 K) → List K} (hvol : ∀ x, (volume x).length = count (cells x.d))
    {d : Ix} {axis : Fin 3} (hd : FlatAlong d axis) {a b : Surf K GridTopo} (ha : StackGrid d a)
    (hb : StackGrid d b) {arr : List ℤ} (harr : arr.length = count (cells d)) {ts : List K} (hts : 2 ≤ ts.length) :
    ∃ p, generateVolumeStructured volume
      (surfGrid ⟨a.points, { a.topo with cellData := Dict.set a.topo.cellData "CellGroup" ⟨false, arr⟩ }⟩)
      (surfGrid b) ts = .ok p ∧
    Between volume a.topo.cellData d axis a.points b.points ts arr p := by
  obtain ⟨hcd, hscal⟩ := setGroup_arrays ha.cd ha.scalar harr
  obtain ⟨p, h, hsh, hpts, _, hdata⟩ := volume_core volume
    (surfGrid ⟨a.points, { a.topo with cellData := Dict.set a.topo.cellData "CellGroup" ⟨false, arr⟩ }⟩)
    (surfGrid b) ts axis (by simp [surfGrid, ha.dims, hb.dims]) (by simpa [surfGrid, ha.dims] using hd)
    (by simpa [surfGrid, ha.dims] using ha.pd) (by simpa [surfGrid, ha.dims] using hcd) hts (.inl hscal)
  refine ⟨p, h, ?_⟩
  replace hsh : p.nodes.d = Function.update d axis ts.length := by simpa [surfGrid, ha.dims] using hsh
  obtain ⟨cd', hcopy, hp, hpd⟩ := volumeStructured_data h
  have e1 := copyArrays_scalar (fun v w hw => repeatStructured_vector hw) _ _ _ hscal (by simp) hcopy
  have e2 := copyArrays_nodup _ _ _ (by simp) hcopy
  obtain ⟨f1, f2, _⟩ := flagHidden_ok (inactive := (volume p.nodes).map fun x => decide (x = 0))
    (by simp [hvol]) e1 e2
  refine ⟨⟨?_, ?_, ?_, ?_⟩, hsh, ?_, ?_, ?_, hpd, ?_⟩
  · rw [hsh]; simpa using hts
  · intro ax
    rw [hsh]
    by_cases hax : ax = axis
    · subst hax; simp; omega
    · rw [Function.update_of_ne hax]; have := hd.2 ax hax; omega
  · rw [hp]; exact f1
  · rw [hp]; exact f2
  · intro i s t x y hi ht hx hy
    have := hpts i s t (by simpa [surfGrid, ha.dims] using hi) ht
    rw [SGrid.points, ravelF_get] at this
    · simp only [surfGrid, ha.dims, hb.dims, Option.some.injEq] at this
      rw [this]
      simp [flatF_eq, List.getD_eq_getElem?_getD, hx, hy]
    · rw [hsh]
      have hs : s < ts.length := (List.getElem?_eq_some_iff.1 ht).1
      intro ax
      by_cases hax : ax = axis
      · subst hax; simpa using hs
      · simpa [Function.update_of_ne hax] using hi ax
  · obtain ⟨w, hw1, _, hw2⟩ := hdata "CellGroup" ⟨false, arr⟩ (by decide)
      (by simp only [surfGrid]; rw [Dict.get?_set, if_pos rfl])
    refine ⟨w, hw1, ?_⟩
    intro i s hi hs
    simpa [surfGrid, ha.dims] using hw2 i s (by simpa [surfGrid, ha.dims] using hi) hs
  · obtain ⟨w, w1, w2⟩ := C23_structured_hidden volume
      (surfGrid ⟨a.points, { a.topo with cellData := Dict.set a.topo.cellData "CellGroup" ⟨false, arr⟩ }⟩)
      (surfGrid b) ts p axis (by simpa [surfGrid, ha.dims] using hd)
      (by simpa [surfGrid, ha.dims] using hcd) hts h
    refine ⟨w, w1, ?_⟩
    intro μ hμ i s hi hs
    have hin : InShape (cells p.nodes.d) (Function.update i axis s) := by
      rw [hsh, cells_updateAxis hd.1 hts]; exact inShape_update hi hs
    refine w2 i s _ _ (by simpa [surfGrid, ha.dims] using hi) hs (hμ p.nodes _ hin) ?_
    simp only [surfGrid, ha.dims]
    rw [Dict.get?_set, if_neg (by decide)]
    cases hg : Dict.get? a.topo.cellData "vtkGhostType" with
    | none => exact .inl ⟨rfl, by simp [ghostOf, hg]⟩
    | some v =>
      refine .inr ⟨v, rfl, ?_⟩
      have hl : v.vals.length = count (cells d) := ha.cd.1 _ (Dict.get?_mem hg)
      have hlt := vtkId_lt hi
      simp only [ghostOf, hg, List.getD_eq_getElem?_getD]
      rw [List.getElem?_eq_getElem (by omega)]; rfl
  · intro name v hv n1 n2
    obtain ⟨w, hw1, _, hw2⟩ := hdata name v n2
      (by simp only [surfGrid]; rw [Dict.get?_set, if_neg (Ne.symm n1), hv])
    refine ⟨w, hw1, ?_⟩
    intro i s hi hs
    simpa [surfGrid, ha.dims] using hw2 i s (by simpa [surfGrid, ha.dims] using hi) hs

end Gridder
