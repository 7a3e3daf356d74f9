import Verif.Props.MergeS
import Verif.Model.Ids

/-!
# C19: layer, column and item ids
-/

namespace Gridder
open Spec

theorem flatten_get {α : Type _} (m c s : ℕ) (hc : c < m) :
    ∀ (L : List (List α)) (l : List α), (∀ l ∈ L, l.length = m) → L[s]? = some l →
      L.flatten[c + m * s]? = l[c]? := by
  intro L
  induction L generalizing s with
  | nil => intro l _ h; simp at h
  | cons a L ih =>
    intro l hL h
    have ha := hL a (by simp)
    rw [List.flatten_cons]
    cases s with
    | zero =>
      simp only [List.getElem?_cons_zero, Option.some.injEq] at h; subst h
      simp only [Nat.mul_zero, Nat.add_zero]
      rw [List.getElem?_append_left (by omega)]
    | succ s =>
      simp only [List.getElem?_cons_succ] at h
      rw [List.getElem?_append_right (by rw [Nat.mul_succ]; omega)]
      rw [show c + m * (s + 1) - a.length = c + m * s by rw [Nat.mul_succ]; omega]
      exact ih s l (fun l hl => hL l (List.mem_cons_of_mem _ hl)) h

theorem columnIds_length (nA nsub : ℕ) : (columnIds nA nsub).length = nA * nsub := by
  simp [columnIds, Nat.mul_comm]

theorem layerIds_length (nsub nl nA : ℕ) : (layerIds nsub nl nA).length = nA * nsub := by
  simp only [layerIds, List.length_flatten, List.map_map]
  rw [show (List.length ∘ fun s : ℕ => List.replicate nA ((s + nl : ℕ) : ℤ)) = fun _ => nA by
    funext s; simp]
  simp [Nat.mul_comm]

theorem columnIds_get {nA nsub c s : ℕ} (hc : c < nA) (hs : s < nsub) :
    (columnIds nA nsub)[c + nA * s]? = some (c : ℤ) := by
  unfold columnIds
  rw [flatten_replicate_get nsub _ _ s c (by simpa using hc) hs (by simp)]
  simp [List.getElem?_range hc]

theorem layerIds_get {nsub nl nA c s : ℕ} (hc : c < nA) (hs : s < nsub) :
    (layerIds nsub nl nA)[c + nA * s]? = some ((s + nl : ℕ) : ℤ) := by
  unfold layerIds
  rw [flatten_get nA c s hc _ (List.replicate nA ((s + nl : ℕ) : ℤ))]
  · rw [List.getElem?_replicate, if_pos hc]
  · intro l hl
    obtain ⟨t, _, rfl⟩ := List.mem_map.1 hl
    simp
  · rw [List.getElem?_map, List.getElem?_range hs]; rfl

/-! ## layer-major submeshes (unstructured grids, transitions) -/

namespace Spec

/-- Number of sublayers of an item: the number of cells over the number of base cells; a transition
item is one layer. -/
def sublayers {γ : Type*} (item : Option ℕ × List γ) : ℕ :=
  match item.1 with
  | none => 1
  | some nA => item.2.length / nA

/-- Number of sublayers of the items before item `k`. -/
def layersBefore {γ : Type*} (items : List (Option ℕ × List γ)) (k : ℕ) : ℕ :=
  ((items.take k).map sublayers).sum

end Spec

theorem labelLoop_get {γ : Type _} : ∀ (items : List (Option ℕ × List γ)) (nl i k : ℕ)
    (it : Option ℕ × List γ), items[k]? = some it →
    (labelLoop items nl i)[k]? =
      some (labelCells it.1 (nl + layersBefore items k) (i + k) it.2).1 := by
  intro items
  induction items with
  | nil => intro nl i k it h; simp at h
  | cons a items ih =>
    obtain ⟨nA, cells⟩ := a
    intro nl i k it h
    cases k with
    | zero =>
      simp only [List.getElem?_cons_zero, Option.some.injEq] at h; subst h
      simp [labelLoop, layersBefore]
    | succ k =>
      simp only [List.getElem?_cons_succ] at h
      have hs : (labelCells nA nl i cells).2 = sublayers (nA, cells) := by
        cases nA <;> rfl
      simp only [labelLoop, List.getElem?_cons_succ]
      rw [ih _ _ k it h, hs]
      simp only [layersBefore, List.take_succ_cons, List.map_cons, List.sum_cons]
      rw [show nl + (sublayers (nA, cells) + (List.map sublayers (List.take k items)).sum) =
        nl + sublayers (nA, cells) + (List.map sublayers (List.take k items)).sum by omega,
        show i + (k + 1) = i + 1 + k by omega]

/-- **C19 (unstructured and transition items).** In a stack or extrusion whose submeshes list their
cells layer by layer, the cell at column `c` and sublayer `s` of item `k` gets layer number (number of
sublayers of the items before) + s, column number `c` and item number `k`; the cells of a transition
item all get the next layer number and column -1.  The merged mesh has these rows in some order. -/
theorem C19_ids_layer_major {γ : Type _} (items : List (Option ℕ × List γ)) :
    (labelLoop items 0 0).length = items.length ∧
    (∀ (k nA : ℕ) (cells : List γ) (nsub : ℕ), items[k]? = some (some nA, cells) → cells.length = nA * nsub →
      ∃ rows, (labelLoop items 0 0)[k]? = some rows ∧ rows.length = cells.length ∧
        ∀ (c s : ℕ) (cell : γ), c < nA → s < nsub → cells[c + nA * s]? = some cell →
          rows[c + nA * s]? =
            some (cell, ((layersBefore items k + s : ℕ) : ℤ), (c : ℤ), (k : ℤ))) ∧
    (∀ (k : ℕ) (cells : List γ), items[k]? = some (none, cells) →
      ∃ rows, (labelLoop items 0 0)[k]? = some rows ∧ rows.length = cells.length ∧
        ∀ (j : ℕ) (cell : γ), cells[j]? = some cell →
          rows[j]? = some (cell, ((layersBefore items k : ℕ) : ℤ), (-1 : ℤ), (k : ℤ))) ∧
    (∀ (k nA : ℕ) (cells : List γ) (nsub : ℕ), items[k]? = some (some nA, cells) → 0 < nA →
      cells.length = nA * nsub →
      layersBefore items (k + 1) = layersBefore items k + nsub) := by
  refine ⟨?_, ?_, ?_, ?_⟩
  · suffices ∀ (items : List (Option ℕ × List γ)) nl i,
        (labelLoop items nl i).length = items.length from this items 0 0
    intro items
    induction items with
    | nil => intros; rfl
    | cons a items ih =>
      obtain ⟨nA, cells⟩ := a
      intro nl i
      simp [labelLoop, ih]
  · intro k nA cells nsub hk hlen
    refine ⟨_, labelLoop_get items 0 0 k _ hk, ?_, ?_⟩
    · rcases Nat.eq_zero_or_pos nA with h0 | hpos
      · subst h0; simp only [Nat.zero_mul] at hlen
        simp [labelCells, List.length_eq_zero_iff.1 hlen]
      · simp [labelCells, hlen, layerIds_length, columnIds_length, itemIds,
          Nat.mul_div_cancel_left _ hpos]
    · intro c s cell hc hs hcell
      have hpos : 0 < nA := by omega
      have hlt := (List.getElem?_eq_some_iff.1 hcell).1
      simp only [labelCells, hlen, Nat.mul_div_cancel_left _ hpos, Nat.zero_add]
      refine List.getElem?_zip_eq_some.2 ⟨hcell, List.getElem?_zip_eq_some.2
        ⟨?_, List.getElem?_zip_eq_some.2 ⟨columnIds_get hc hs, ?_⟩⟩⟩
      · rw [layerIds_get hc hs, Nat.add_comm]
      · rw [itemIds, List.getElem?_replicate, if_pos (by omega)]
  · intro k cells hk
    refine ⟨_, labelLoop_get items 0 0 k _ hk, ?_, ?_⟩
    · simp [labelCells, layerIds_length, itemIds]
    · intro j cell hj
      have hlt := (List.getElem?_eq_some_iff.1 hj).1
      simp only [labelCells, Nat.zero_add]
      have h1 : (layerIds 1 (layersBefore items k) cells.length)[j]? =
          some ((layersBefore items k : ℕ) : ℤ) := by
        have := layerIds_get (nsub := 1) (nl := layersBefore items k) hlt (s := 0) (by omega)
        simpa using this
      refine List.getElem?_zip_eq_some.2 ⟨hj, List.getElem?_zip_eq_some.2
        ⟨h1, List.getElem?_zip_eq_some.2 ⟨?_, ?_⟩⟩⟩
      · rw [List.getElem?_replicate, if_pos hlt]
      · rw [itemIds, List.getElem?_replicate, if_pos hlt]
  · intro k nA cells nsub hk hpos hlen
    have hlt := (List.getElem?_eq_some_iff.1 hk).1
    unfold layersBefore
    rw [List.take_add_one, hk]
    simp [sublayers, hlen, Nat.mul_div_cancel_left _ hpos]

/-- Concrete case: two items over two base cells, with 2 and 1 sublayers; the last cell is in layer
2, column 1, item 1. -/
example : labelLoop [(some 2, ["a", "b", "c", "d"]), (some 2, ["e", "f"])] 0 0 =
    [[("a", 0, 0, 0), ("b", 0, 1, 0), ("c", 1, 0, 0), ("d", 1, 1, 0)],
     [("e", 2, 0, 1), ("f", 2, 1, 1)]] := by decide

/-! ## structured submeshes -/

variable {K : Type _} [Field K] [LinearOrder K]

namespace Spec

/-- A submesh obtained by extruding a base grid with cell shape `c` along `axis`. -/
def Extruded (c : Fin 3 → ℕ) (axis : Fin 3) {δ : Type*} (p : SGrid K δ) : Prop :=
  cells p.nodes.d = Function.update c axis (p.nodes.d axis - 1)

/-- Cases in which VTK lists the cells of the extruded grids layer by layer. -/
def LayerByLayer (c : Fin 3 → ℕ) (axis : Fin 3) {δ : Type*} (pieces : List (SGrid K δ)) : Prop :=
  axis = 2 ∨ (axis = 1 ∧ c 2 = 1) ∨ count c = 1 ∨ ∀ p ∈ pieces, p.nodes.d axis = 2

end Spec

theorem layerMajor {c i : Ix} {axis : Fin 3} {n s : ℕ} (hc : c axis = 1) (hi : InShape c i)
    (hs : s < n) (h : axis = 2 ∨ (axis = 1 ∧ c 2 = 1) ∨ count c = 1 ∨ n = 1) :
    vtkId (Function.update c axis n) (Function.update i axis s) = vtkId c i + count c * s := by
  have hi0 := hi 0; have hi1 := hi 1; have hi2 := hi 2; have hia := hi axis
  have one : n = 1 → vtkId (Function.update c axis n) (Function.update i axis s) =
      vtkId c i + count c * s := by
    rintro rfl
    have hs0 : s = 0 := by omega
    have hia0 : i axis = 0 := by omega
    subst hs0
    rw [show Function.update c axis 1 = c by rw [← hc]; simp,
      show Function.update i axis 0 = i by rw [← hia0]; simp]
    simp
  rcases h with rfl | ⟨rfl, h2⟩ | h | h
  · simp only [vtkId, count, Function.update]
    simp
    rw [hc, show i 2 = 0 by omega]
    ring
  · simp only [vtkId, count, Function.update]
    simp
    rw [hc, h2, show i 1 = 0 by omega, show i 2 = 0 by omega]
    ring
  · have hall : ∀ ax, c ax = 1 := by
      have h12 := mul_eq_one.1 h
      have h01 := mul_eq_one.1 h12.1
      intro ax
      fin_cases ax
      · exact h01.1
      · exact h01.2
      · exact h12.2
    have a0 := hall 0; have a1 := hall 1; have a2 := hall 2
    have z0 : i 0 = 0 := by omega
    have z1 : i 1 = 0 := by omega
    have z2 : i 2 = 0 := by omega
    fin_cases axis <;> simp [vtkId, count, Function.update, a0, a1, a2, z0, z1, z2]
  · exact one h

/-- What `labelGrid` does to a submesh with the right number of cells. -/
theorem labelGrid_ok {key : String} (hkey : key ≠ "LayerId" ∧ key ≠ "ColumnId")
    {nA nl i ns : ℕ} (hnA : 0 < nA) {axis : Fin 3} {p : SGrid K ℤ} (hp : Piece axis p)
    (hcount : count (cells p.nodes.d) = nA * ns) :
    ∃ q, labelGrid key nA nl i p = .ok (q, ns) ∧ q.nodes = p.nodes ∧ Piece axis q ∧
      Dict.get? q.cellData "LayerId" = some ⟨false, layerIds ns nl nA⟩ ∧
      Dict.get? q.cellData "ColumnId" = some ⟨false, columnIds nA ns⟩ ∧
      Dict.get? q.cellData key = some ⟨false, itemIds (nA * ns) i⟩ ∧
      (∀ k, k ≠ "LayerId" → k ≠ "ColumnId" → k ≠ key →
        Dict.get? q.cellData k = Dict.get? p.cellData k) := by
  let cd := Dict.set (Dict.set (Dict.set p.cellData "ColumnId" ⟨false, columnIds nA ns⟩)
    "LayerId" ⟨false, layerIds ns nl nA⟩) key ⟨false, itemIds (nA * ns) i⟩
  have hnd : (cd.map Prod.fst).Nodup :=
    Dict.set_keys_nodup (Dict.set_keys_nodup (Dict.set_keys_nodup hp.keys))
  have hget : ∀ k, Dict.get? cd k = if key = k then some ⟨false, itemIds (nA * ns) i⟩
      else if "LayerId" = k then some ⟨false, layerIds ns nl nA⟩
      else if "ColumnId" = k then some ⟨false, columnIds nA ns⟩
      else Dict.get? p.cellData k := by
    intro k
    simp only [cd, Dict.get?_set]
  refine ⟨⟨p.nodes, p.pointData, cd⟩, ?_, rfl, ?_, ?_, ?_, ?_, ?_⟩
  · simp only [labelGrid, sizeOfShape_eq, cellShape_eq, hcount, Nat.mul_div_cancel_left _ hnA,
      setArray, columnIds_length, layerIds_length, itemIds, List.length_replicate, if_true]
    rfl
  · refine ⟨hp.along, hp.across, ?_, hnd⟩
    rintro ⟨k, v⟩ hkv
    have := Dict.get?_of_mem hnd hkv
    rw [hget] at this
    simp only
    split at this
    · cases this; exact ⟨by rw [hcount]; simp [itemIds], rfl⟩
    split at this
    · cases this; exact ⟨by rw [hcount]; simp [layerIds_length], rfl⟩
    split at this
    · cases this; exact ⟨by rw [hcount]; simp [columnIds_length], rfl⟩
    · exact hp.size (k, v) (Dict.get?_mem this)
  · simp only; rw [hget]; simp [hkey.1]
  · simp only; rw [hget]; simp [hkey.2]
  · simp only; rw [hget]; simp
  · intro k h1 h2 h3
    simp only; rw [hget]; simp [Ne.symm h1, Ne.symm h2, Ne.symm h3]

/-- Number of sublayers before piece `k`. -/
theorem labelGrids_ok {key : String} (hkey : key ≠ "LayerId" ∧ key ≠ "ColumnId") {c : Ix}
    {axis : Fin 3} (hc : c axis = 1) (hpos : 0 < count c) :
    ∀ (pieces : List (SGrid K ℤ)) (nl i : ℕ),
      (∀ p ∈ pieces, Piece axis p ∧ Extruded c axis p) →
      ∃ qs, labelGrids key (count c) pieces nl i = .ok qs ∧ qs.length = pieces.length ∧
        ∀ (k : ℕ) p, pieces[k]? = some p → ∃ q, qs[k]? = some q ∧ q.nodes = p.nodes ∧ Piece axis q ∧
          Dict.get? q.cellData "LayerId" =
            some ⟨false, layerIds (p.nodes.d axis - 1) (nl + offset axis pieces k) (count c)⟩ ∧
          Dict.get? q.cellData "ColumnId" =
            some ⟨false, columnIds (count c) (p.nodes.d axis - 1)⟩ ∧
          Dict.get? q.cellData key =
            some ⟨false, itemIds (count c * (p.nodes.d axis - 1)) (i + k)⟩ := by
  intro pieces
  induction pieces with
  | nil => intro nl i _; exact ⟨[], rfl, rfl, by simp⟩
  | cons p pieces ih =>
    intro nl i hp
    obtain ⟨hpp, hpe⟩ := hp p (by simp)
    have hcount : count (cells p.nodes.d) = count c * (p.nodes.d axis - 1) := by
      rw [hpe, count_update hc]
    obtain ⟨q, h1, h2, h3, h4, h5, h6, _⟩ :=
      labelGrid_ok hkey (nl := nl) (i := i) hpos hpp hcount
    obtain ⟨qs, g1, g2, g3⟩ := ih (nl + (p.nodes.d axis - 1)) (i + 1)
      (fun p hp' => hp p (List.mem_cons_of_mem _ hp'))
    refine ⟨q :: qs, by simp only [labelGrids, h1, g1], by simp [g2], ?_⟩
    intro k p' hk
    cases k with
    | zero =>
      simp only [List.getElem?_cons_zero, Option.some.injEq] at hk; subst hk
      exact ⟨q, rfl, h2, h3, by simpa [offset] using h4, h5, by simpa using h6⟩
    | succ k =>
      simp only [List.getElem?_cons_succ] at hk
      obtain ⟨q', e1, e2, e3, e4, e5, e6⟩ := g3 k p' hk
      refine ⟨q', by simpa using e1, e2, e3, ?_, e5, ?_⟩
      · rw [e4]
        simp only [offset, List.take_succ_cons, List.map_cons, List.sum_cons]
        rw [Nat.add_assoc]
      · rw [e6, show i + 1 + k = i + (k + 1) by omega]

theorem facing_congr {axis : Fin 3} {a b a' b' : SGrid K ℤ} (ha : a'.nodes = a.nodes)
    (hb : b'.nodes = b.nodes) : Facing axis a' b' ↔ Facing axis a b := by
  unfold Facing; rw [ha, hb]

theorem facingChain_congr {axis : Fin 3} : ∀ (l l' : List (SGrid K ℤ)),
    l'.map (·.nodes) = l.map (·.nodes) → (FacingChain axis l' ↔ FacingChain axis l)
  | [], [], _ => Iff.rfl
  | [], _ :: _, h => by simp at h
  | _ :: _, [], h => by simp at h
  | [a], [a'], _ => Iff.rfl
  | [a], _ :: _ :: _, h => by simp at h
  | _ :: _ :: _, [a'], h => by simp at h
  | a :: b :: l, a' :: b' :: l', h => by
    simp only [List.map_cons, List.cons.injEq] at h
    simp only [FacingChain]
    rw [facing_congr h.1 h.2.1, facingChain_congr (b :: l) (b' :: l') (by simp [h.2.1, h.2.2])]

/-- Every position along the axis lies in one piece. -/
theorem exists_piece {axis : Fin 3} : ∀ (l : List (SGrid K ℤ)) (j : ℕ),
    j < (l.map fun p => p.nodes.d axis - 1).sum →
    ∃ (k : ℕ) (p : SGrid K ℤ), l[k]? = some p ∧ offset axis l k ≤ j ∧
      j < offset axis l k + (p.nodes.d axis - 1)
  | [], j, h => by simp at h
  | a :: l, j, h => by
    by_cases hj : j < a.nodes.d axis - 1
    · exact ⟨0, a, rfl, by simp [offset], by simpa [offset] using hj⟩
    · simp only [List.map_cons, List.sum_cons] at h
      obtain ⟨k, p, h1, h2, h3⟩ := exists_piece (axis := axis) l (j - (a.nodes.d axis - 1)) (by omega)
      refine ⟨k + 1, p, by simpa using h1, ?_, ?_⟩ <;>
        simp only [offset, List.take_succ_cons, List.map_cons, List.sum_cons] at * <;> omega

/-- **C19 (partial, structured grids).** Stacking or extruding a structured base grid with cell shape
`c` along `axis`: in the merged grid, LayerId of a cell is its index along the axis, ColumnId the
number of the base cell it sits above, and StackItem/ExtrudeItem the number of the item whose
sublayers contain it, provided VTK lists the cells of each submesh layer by layer: axis 2, or axis 1
with nothing along axis 2 (`MeshStack2D` with axis 1), or one base cell, or single sublayers.
Missing: the other cases of axes 0 and 1, where it is false (`C19_axis1_refuted`,
`C19_stack2d_axis0_refuted`). -/
theorem C19_structured_ids_partial (key : String) (hkey : key ≠ "LayerId" ∧ key ≠ "ColumnId")
    (c : Fin 3 → ℕ) (axis : Fin 3) (hc : c axis = 1) (hpos : ∀ ax, 0 < c ax)
    (a b : SGrid K ℤ) (rest : List (SGrid K ℤ))
    (hp : ∀ p ∈ a :: b :: rest, Piece axis p ∧ Extruded c axis p)
    (hac : ∀ p ∈ b :: rest, ∀ ax, ax ≠ axis → a.nodes.d ax = p.nodes.d ax)
    (hf : FacingChain axis (a :: b :: rest))
    (hlay : LayerByLayer c axis (a :: b :: rest)) :
    ∃ M layer column item, labelAndMerge key (count c) axis (a :: b :: rest) = .ok M ∧
      Dict.get? M.cellData "LayerId" = some layer ∧
      Dict.get? M.cellData "ColumnId" = some column ∧
      Dict.get? M.cellData key = some item ∧
      ∀ j, InShape (cells M.nodes.d) j →
        layer.vals[vtkId (cells M.nodes.d) j]? = some (j axis : ℤ) ∧
        column.vals[vtkId (cells M.nodes.d) j]? = some (vtkId c (Function.update j axis 0) : ℤ) ∧
        ∃ k : ℕ, item.vals[vtkId (cells M.nodes.d) j]? = some (k : ℤ) ∧
          offset axis (a :: b :: rest) k ≤ j axis ∧
          j axis < offset axis (a :: b :: rest) (k + 1) := by
  have hcount : 0 < count c := by
    have h0 := hpos 0; have h1 := hpos 1; have h2 := hpos 2
    unfold count; positivity
  set pieces := a :: b :: rest with hpieces
  obtain ⟨qs, hqs, hlen, hq⟩ := labelGrids_ok hkey hc hcount pieces 0 0 hp
  have hnodes : qs.map (·.nodes) = pieces.map (·.nodes) := by
    apply List.ext_getElem?
    intro k
    by_cases hk : k < pieces.length
    · obtain ⟨q, e1, e2, _⟩ := hq k _ (List.getElem?_eq_getElem hk)
      rw [List.getElem?_map, List.getElem?_map, e1, List.getElem?_eq_getElem hk]
      simp [e2]
    · rw [List.getElem?_eq_none (by simp; omega), List.getElem?_eq_none (by simp; omega)]
  have hback : ∀ (k : ℕ) q, qs[k]? = some q → ∃ p, pieces[k]? = some p ∧ q.nodes = p.nodes ∧
      Piece axis q := by
    intro k q hk
    have hk' : k < pieces.length := by
      have := (List.getElem?_eq_some_iff.1 hk).1; omega
    obtain ⟨q', e1, e2, e3, _⟩ := hq k _ (List.getElem?_eq_getElem hk')
    rw [hk] at e1; cases e1
    exact ⟨_, List.getElem?_eq_getElem hk', e2, e3⟩
  have hpq : ∀ q ∈ qs, Piece axis q := by
    intro q hm
    obtain ⟨k, hk⟩ := List.getElem?_of_mem hm
    obtain ⟨_, _, _, h⟩ := hback k q hk
    exact h
  obtain ⟨qa, qb, qr, rfl⟩ : ∃ qa qb qr, qs = qa :: qb :: qr := by
    match qs, hlen with
    | qa :: qb :: qr, _ => exact ⟨qa, qb, qr, rfl⟩
    | [_], h => simp [pieces] at h
    | [], h => simp [pieces] at h
  have hacq : ∀ q ∈ qb :: qr, ∀ ax, ax ≠ axis → qa.nodes.d ax = q.nodes.d ax := by
    intro q hm ax hax
    obtain ⟨k, hk⟩ := List.getElem?_of_mem hm
    obtain ⟨p, h1, h2, _⟩ := hback (k + 1) q (by simpa using hk)
    obtain ⟨p0, h01, h02, _⟩ := hback 0 qa rfl
    simp only [pieces, List.getElem?_cons_succ, List.getElem?_cons_zero, Option.some.injEq]
      at h1 h01
    subst h01
    rw [h02, h2]
    exact hac p (List.mem_of_getElem? h1) ax hax
  have hfq : FacingChain axis (qa :: qb :: qr) := (facingChain_congr _ _ hnodes).2 hf
  obtain ⟨M, hM, hG⟩ := (C18_structured_merge_partial axis qa qb qr hpq).1 hacq hfq
  have hoff : ∀ k, offset axis (qa :: qb :: qr) k = offset axis pieces k := by
    intro k
    have e : ∀ l : List (SGrid K ℤ), offset axis l k =
        (((l.map (·.nodes)).take k).map fun n => n.d axis - 1).sum := by
      intro l; simp [offset, ← List.map_take, Function.comp_def]
    rw [e, e, hnodes]
  have hkeys : ∀ kk, (∀ (k : ℕ) p, pieces[k]? = some p → ∃ q v, (qa :: qb :: qr)[k]? = some q ∧
      Dict.get? q.cellData kk = some v) → ∃ w, Dict.get? M.cellData kk = some w := by
    intro kk h
    rw [← Option.isSome_iff_exists, hG.keys]
    intro q hm
    obtain ⟨k, hk⟩ := List.getElem?_of_mem hm
    obtain ⟨p, h1, _⟩ := hback k q hk
    obtain ⟨q', v, e1, e2⟩ := h k p h1
    rw [hk] at e1; cases e1
    rw [e2]; rfl
  obtain ⟨layer, hlayer⟩ := hkeys "LayerId" fun k p hk => by
    obtain ⟨q, e1, _, _, e4, _, _⟩ := hq k p hk; exact ⟨q, _, e1, e4⟩
  obtain ⟨column, hcolumn⟩ := hkeys "ColumnId" fun k p hk => by
    obtain ⟨q, e1, _, _, _, e5, _⟩ := hq k p hk; exact ⟨q, _, e1, e5⟩
  obtain ⟨item, hitem⟩ := hkeys key fun k p hk => by
    obtain ⟨q, e1, _, _, _, _, e6⟩ := hq k p hk; exact ⟨q, _, e1, e6⟩
  refine ⟨M, layer, column, item, ?_, hlayer, hcolumn, hitem, ?_⟩
  · simp only [labelAndMerge, hqs]; exact hM
  intro j hj
  have hsum : (pieces.map fun p => p.nodes.d axis - 1).sum =
      ((qa :: qb :: qr).map fun p => p.nodes.d axis - 1).sum := by
    have e : ∀ l : List (SGrid K ℤ), (l.map fun p => p.nodes.d axis - 1).sum =
        ((l.map (·.nodes)).map fun n => n.d axis - 1).sum := by
      intro l; simp [Function.comp_def]
    rw [e, e, hnodes]
  have hjM : j axis < (pieces.map fun p => p.nodes.d axis - 1).sum := by
    have h1 := hj axis
    have h2 := hG.along
    have hal := (hp a (by simp [pieces])).1.along
    have h3 : 1 ≤ (pieces.map fun p => p.nodes.d axis - 1).sum := by
      simp only [pieces, List.map_cons, List.sum_cons]; omega
    simp only [cells] at h1
    split at h1 <;> omega
  obtain ⟨k, p, hk, hlo, hhi⟩ := exists_piece pieces (j axis) hjM
  obtain ⟨q, e1, e2, e3, e4, e5, e6⟩ := hq k p hk
  obtain ⟨hpp, hpe⟩ := hp p (List.mem_of_getElem? hk)
  set s := j axis - offset axis pieces k with hs
  have hsn : s < p.nodes.d axis - 1 := by omega
  -- the base cell below `j`
  have hbase : InShape c (Function.update j axis 0) := by
    intro ax
    by_cases hax : ax = axis
    · subst hax; simp [hc]
    · rw [Function.update_of_ne hax]
      have h1 := hj ax
      have h2 := hG.across q (List.mem_of_getElem? e1) ax hax
      have h3 : cells M.nodes.d ax = cells p.nodes.d ax := by
        simp only [cells]; rw [h2, e2]
      rw [h3, hpe, Function.update_of_ne hax] at h1
      exact h1
  have hin : InShape (cells q.nodes.d) (Function.update j axis s) := by
    rw [e2, hpe]
    have := inShape_update (axis := axis) hbase hsn
    rwa [Function.update_idem] at this
  have hjeq : Function.update (Function.update j axis s) axis
      (offset axis (qa :: qb :: qr) k + (Function.update j axis s) axis) = j := by
    rw [hoff]
    simp only [Function.update_self, Function.update_idem]
    rw [show offset axis pieces k + s = j axis by omega]
    simp
  have hflat : vtkId (cells q.nodes.d) (Function.update j axis s) =
      vtkId c (Function.update j axis 0) + count c * s := by
    rw [e2, hpe]
    have := layerMajor (n := p.nodes.d axis - 1) hc hbase hsn (by
      rcases hlay with h | h | h | h
      · exact .inl h
      · exact .inr (.inl h)
      · exact .inr (.inr (.inl h))
      · have := h p (List.mem_of_getElem? hk)
        exact .inr (.inr (.inr (by omega))))
    rwa [Function.update_idem] at this
  have hcol := vtkId_lt hbase
  have d1 := hG.data k q e1 "LayerId" _ layer e4 hlayer _ hin
  have d2 := hG.data k q e1 "ColumnId" _ column e5 hcolumn _ hin
  have d3 := hG.data k q e1 key _ item e6 hitem _ hin
  rw [hjeq, hflat] at d1 d2 d3
  refine ⟨?_, ?_, k, ?_, hlo, ?_⟩
  · rw [d1, layerIds_get hcol hsn]
    congr 2; omega
  · rw [d2, columnIds_get hcol hsn]
  · rw [d3, itemIds, List.getElem?_replicate, if_pos]
    · simp
    · have := Nat.mul_le_mul_left (count c) (show s + 1 ≤ p.nodes.d axis - 1 by omega)
      rw [Nat.mul_add] at this; omega
  · have : offset axis pieces (k + 1) = offset axis pieces k + (p.nodes.d axis - 1) := by
      unfold offset; rw [List.take_add_one, hk]; simp
    omega

/-- Two unit cells along x, one along y, `nz` along z starting at `z0`. -/
def columnGrid (z0 : ℚ) (nz : ℕ) : SGrid ℚ ℤ :=
  ⟨⟨![3, 2, nz + 1], fun i => ![(i 0 : ℚ), (i 1 : ℚ), z0 + i 2]⟩, [], []⟩

/-- Concrete case meeting the hypotheses: two base cells with 2 and then 1 sublayers. -/
example :
    ((labelAndMerge "StackItem" 2 2 [columnGrid 0 2, columnGrid 2 1]).toOption.map
      fun M => (M.nodes.d, M.cellData)) =
        some (![3, 2, 4], [("ColumnId", ⟨false, [0, 1, 0, 1, 0, 1]⟩),
          ("LayerId", ⟨false, [0, 0, 1, 1, 2, 2]⟩), ("StackItem", ⟨false, [0, 0, 0, 0, 1, 1]⟩)]) ∧
      (∀ p ∈ [columnGrid 0 2, columnGrid 2 1], Piece 2 p ∧ Extruded ![2, 1, 1] 2 p) ∧
      FacingChain 2 [columnGrid 0 2, columnGrid 2 1] := by
  refine ⟨by decide +kernel, ?_, ?_⟩
  · intro p hp
    simp only [List.mem_cons, List.not_mem_nil, or_false] at hp
    rcases hp with rfl | rfl <;>
    exact ⟨⟨by decide, by decide, by decide, by decide⟩, by unfold Extruded; decide⟩
  · refine ⟨?_, trivial⟩
    intro i _ ax
    fin_cases ax <;> simp [columnGrid] <;> positivity

/-- **C19 (refuted, axis 1).** A 2 x 2 cell base in the xz plane extruded along axis 1 by two
sublayers: the cell over base cell 0 in the second sublayer gets layer 0 and column 2. -/
theorem C19_axis1_refuted :
    ∃ (p q : SGrid ℚ ℤ) (layer column : DArr ℤ), p.nodes.d = ![3, 3, 3] ∧
      labelGrid "ExtrudeItem" 4 0 0 p = .ok (q, 2) ∧
      Dict.get? q.cellData "LayerId" = some layer ∧ Dict.get? q.cellData "ColumnId" = some column ∧
      layer.vals[vtkId (cells p.nodes.d) ![0, 1, 0]]? = some 0 ∧
      column.vals[vtkId (cells p.nodes.d) ![0, 1, 0]]? = some 2 := by
  refine ⟨⟨⟨![3, 3, 3], fun i => ![(i 0 : ℚ), (i 1 : ℚ), (i 2 : ℚ)]⟩, [], []⟩, _, _, _, rfl, rfl,
    rfl, rfl, by decide, by decide⟩

/-- **C19 (refuted, `MeshStack2D` along axis 0).** A line of two segments stacked along axis 0 by two
sublayers (plane "yx", grid 3 x 3 x 1): the cell of segment 0 in the second sublayer gets layer 0 and
column 1. -/
theorem C19_stack2d_axis0_refuted :
    ∃ (p q : SGrid ℚ ℤ) (layer column : DArr ℤ), p.nodes.d = planeShape "yx" 3 3 ∧
      labelGrid "StackItem" 2 0 0 p = .ok (q, 2) ∧
      Dict.get? q.cellData "LayerId" = some layer ∧ Dict.get? q.cellData "ColumnId" = some column ∧
      layer.vals[vtkId (cells p.nodes.d) (planeIx "yx" 0 1)]? = some 0 ∧
      column.vals[vtkId (cells p.nodes.d) (planeIx "yx" 0 1)]? = some 1 := by
  refine ⟨⟨⟨planeShape "yx" 3 3, fun i => ![(i 0 : ℚ), (i 1 : ℚ), (i 2 : ℚ)]⟩, [], []⟩, _, _, _,
    rfl, rfl, rfl, rfl, by decide, by decide⟩

end Gridder
