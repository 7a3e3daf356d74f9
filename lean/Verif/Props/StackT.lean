import Verif.Model.StackT
import Verif.Props.StackU

/-!
# C104: 2D stacks with transitions
-/

namespace Gridder
open Spec

section
variable {K : Type _} [Field K] [LinearOrder K]

namespace Spec

/-- The corners of quad `c` of layer `s` between the lines `a` and `b` at the positions `ts`. -/
def quadCorners (axis : Fin 3) (a b : List (Fin 3 → K)) (ts : List K) (c s : ℕ) : (Fin 3 → Bool) → Fin 3 → K := fun o =>
  between (ts.getD (s + if o axis then 1 else 0) 0) (a.getD (c + if o 0 then 1 else 0) 0)
    (b.getD (c + if o 0 then 1 else 0) 0)

/-- The type of a quad: that of a hidden one if its area is zero, and otherwise according to the flag of its segment. -/
def QuadType (area : Arr3 (Fin 3 → K) → List K) (quad : ℤ → ℤ) (axis : Fin 3) (flag : ℕ → ℤ) (a b : List (Fin 3 → K))
    (ts : List K) (c s : ℕ) (t : ℤ) : Prop :=
  ∀ μ, CellLocal area μ → t = quad (if μ (quadCorners axis a b ts c s) = 0 then 32 else flag c)

end Spec

/-- The surface between two lines of `n` points, as an unstructured mesh. -/
structure StripU (kind : ℕ → ℕ → ℤ → Prop) (n : ℕ) (a b : List (V3 K)) (ts : List K) (arr : List ℤ) (p : UMesh K) :
    Prop where
  size : p.cells.length = (n - 1) * (ts.length - 1)
  nodes : ∀ (j s : ℕ) t x y, ts[s]? = some t → a[j]? = some x → b[j]? = some y →
    p.points[s * n + j]? = some (between t x y)
  cell : ∀ c s : ℕ, c < n - 1 → s < ts.length - 1 → ∃ t, kind c s t ∧ p.cells[c + (n - 1) * s]? =
    some (t, .nodes [s * n + c, s * n + (c + 1), (s + 1) * n + (c + 1), (s + 1) * n + c])
  arrays : Arrays p.cells.length p.cellData
  group : ∃ g, Dict.get? p.cellData "CellGroup" = some g ∧ ∀ c s, c < n - 1 → s < ts.length - 1 →
    g.vals[c + (n - 1) * s]? = arr[c]?
  ghost : ∃ g, Dict.get? p.cellData "vtkGhostType" = some g

theorem strip_of_between {quad : ℤ → ℤ} {area : Arr3 (V3 K) → List K} {base : Dict String (DArr ℤ)} {axis : Fin 3} (hax : axis ≠ 0) {n : ℕ}
    (hn : 2 ≤ n) {a b : List (V3 K)} (ha : a.length = n) (hb : b.length = n) {ts : List K} (hts : 2 ≤ ts.length)
    {arr : List ℤ} {p : SGrid K ℤ}
    (h : Between area base (planeShape (stackPlane axis) n 1) axis a b ts arr p) :
    StripU (QuadType area quad axis (ghostOf base) a b ts) n a b ts arr (castGrid quad p) := by
  set m := ts.length with hm
  have hn1 : ¬ n ≤ 1 := by omega
  have hm1 : ¬ m ≤ 1 := by omega
  have hn1' : n ≠ 1 := by omega
  have hm1' : m ≠ 1 := by omega
  have hd : p.nodes.d = if axis = 1 then ![n, m, 1] else ![n, 1, m] := by
    rw [h.shape]
    funext ax
    fin_cases axis
    · exact absurd rfl hax
    all_goals fin_cases ax <;> simp [stackPlane, planeShape, lineAxis, subdivisionAxis, hm]
  have hplane : planeShape (stackPlane axis) n 1 = ![n, 1, 1] := by
    funext ax
    fin_cases axis
    · exact absurd rfl hax
    all_goals fin_cases ax <;> simp [stackPlane, planeShape, lineAxis, subdivisionAxis]
  have hcd : cells p.nodes.d = if axis = 1 then ![n - 1, m - 1, 1] else ![n - 1, 1, m - 1] := by
    rw [hd]
    split_ifs <;> funext ax <;> fin_cases ax <;> simp [cells, hn1, hm1]
  have hix : ∀ c s : ℕ, Function.update ![c, 0, 0] axis s = if axis = 1 then ![c, s, 0] else ![c, 0, s] := by
    intro c s
    funext ax
    fin_cases axis
    · exact absurd rfl hax
    all_goals fin_cases ax <;> simp
  have hcount : count (cells p.nodes.d) = (n - 1) * (m - 1) := by
    rw [hcd]; split_ifs <;> simp [count]
  have hcellid : ∀ c s : ℕ, vtkId (cells p.nodes.d) (Function.update ![c, 0, 0] axis s) = c + (n - 1) * s := by
    intro c s; rw [hcd, hix]; split_ifs <;> simp [vtkId]
  have hnodeid : ∀ c s : ℕ, vtkId p.nodes.d (Function.update ![c, 0, 0] axis s) = s * n + c := by
    intro c s; rw [hd, hix]; split_ifs <;> simp [vtkId] <;> ring
  have hcell0 : cells (planeShape (stackPlane axis) n 1) = ![n - 1, 1, 1] := by
    rw [hplane]; funext ax; fin_cases ax <;> simp [cells, hn1]
  have hsize : (castGrid quad p).cells.length = (n - 1) * (m - 1) := by
    simp only [castGrid, ravelF_length, cellShape_eq]; exact hcount
  have hnode : ∀ (j s : ℕ) t x y, ts[s]? = some t → a[j]? = some x → b[j]? = some y →
      p.nodes.get (Function.update ![j, 0, 0] axis s) = between t x y := by
    intro j s t x y h1 h2 h3
    have hj : j < n := by rw [← ha]; exact (List.getElem?_eq_some_iff.1 h2).1
    have hi : InShape (planeShape (stackPlane axis) n 1) ![j, 0, 0] := by
      rw [hplane]; intro ax; fin_cases ax <;> simp; omega
    have hv : vtkId (planeShape (stackPlane axis) n 1) ![j, 0, 0] = j := by rw [hplane]; simp [vtkId]
    exact h.nodes ![j, 0, 0] s t x y hi h1 (by rw [hv]; exact h2) (by rw [hv]; exact h3)
  refine ⟨hsize, ?_, ?_, ?_, ?_, ?_⟩
  · intro j s t x y h1 h2 h3
    have hj : j < n := by rw [← ha]; exact (List.getElem?_eq_some_iff.1 h2).1
    have hs : s < m := (List.getElem?_eq_some_iff.1 h1).1
    rw [← hnode j s t x y h1 h2 h3, ← hnodeid]
    refine ravelF_get _ ?_
    rw [hd, hix]
    split_ifs <;> intro ax <;> fin_cases ax <;> simp <;> omega
  · intro c s hc hs
    have hin : InShape (cellShape p.nodes.d) (Function.update ![c, 0, 0] axis s) := by
      rw [cellShape_eq, hcd, hix]
      split_ifs <;> intro ax <;> fin_cases ax <;> simp <;> omega
    have := ravelF_get (⟨cellShape p.nodes.d, fun c => (quad (ghostFlag p.cellData (flatF (cellShape p.nodes.d) c)),
      .nodes (quadIds p.nodes.d c))⟩ : Arr3 (ℤ × Cell)) hin
    simp only at this
    rw [cellShape_eq, hcellid] at this
    refine ⟨quad (ghostFlag p.cellData (c + (n - 1) * s)), ?_, ?_⟩
    · intro μ hμ
      obtain ⟨g, g1, g2⟩ := h.hidden
      have hi0 : InShape (cells (planeShape (stackPlane axis) n 1)) ![c, 0, 0] := by
        rw [hcell0]; intro ax; fin_cases ax <;> simp; omega
      have := g2 μ hμ ![c, 0, 0] s hi0 hs
      rw [hcellid, hcell0] at this
      simp only [ghostFlag, g1, List.getD_eq_getElem?_getD, this, Option.getD_some]
      congr 1
      have hcor : cellCorners p.nodes (Function.update ![c, 0, 0] axis s) = quadCorners axis a b ts c s := by
        funext o
        have hC : c + (if o 0 then 1 else 0) < n := by split_ifs <;> omega
        have hS : s + (if o axis then 1 else 0) < m := by split_ifs <;> omega
        have := hnode (c + if o 0 then 1 else 0) (s + if o axis then 1 else 0) _ _ _
          (List.getElem?_eq_getElem hS) (List.getElem?_eq_getElem (by rw [ha]; exact hC))
          (List.getElem?_eq_getElem (by rw [hb]; exact hC))
        simp only [quadCorners, List.getD_eq_getElem?_getD, List.getElem?_eq_getElem hS,
          List.getElem?_eq_getElem (show _ < a.length by rw [ha]; exact hC),
          List.getElem?_eq_getElem (show _ < b.length by rw [hb]; exact hC), Option.getD_some]
        rw [← this]
        simp only [cellCorners]
        congr 1
        rw [hix, hix, hd]
        funext ax
        fin_cases axis
        · exact absurd rfl hax
        all_goals fin_cases ax <;> simp [hn1', hm1']
      rw [hcor]
      simp [vtkId]
    simp only [castGrid]
    rw [cellShape_eq, this]
    rw [← cellShape_eq, flatF_eq, cellShape_eq, hcellid]
    simp only [Option.some.injEq, Prod.mk.injEq, true_and, Cell.nodes.injEq]
    rw [hix, hd]
    by_cases h1 : axis = 1
    · simp only [h1, if_true]
      simp [quadIds, flatF, hn1']
      refine ⟨?_, ?_, ?_, ?_⟩ <;> ring
    · simp only [h1, if_false]
      simp [quadIds, flatF, hn1', hm1']
      refine ⟨?_, ?_, ?_, ?_⟩ <;> ring
  · rw [hsize, ← hcount]
    exact ⟨fun kv hkv => (h.piece.size kv hkv).1, h.piece.keys⟩
  · obtain ⟨g, g1, g2⟩ := h.group
    refine ⟨g, g1, fun c s hc hs => ?_⟩
    have := g2 ![c, 0, 0] s (by rw [hcell0]; intro ax; fin_cases ax <;> simp; omega) hs
    rw [hcellid, hcell0] at this
    rw [this]; simp [vtkId]
  · obtain ⟨g, g1, _⟩ := h.hidden
    exact ⟨g, g1⟩

end

/-! ## the mesh -/

namespace Spec
variable {K : Type _} [Field K] [LinearOrder K]

/-- Number of layers of the first `k` parts; a transition is one layer. -/
def layersT (subs : List (Option (List K))) (k : ℕ) : ℕ :=
  ((subs.take k).map fun o => (o.map fun ts => ts.length - 1).getD 1).sum

/-- Every point of the outline is a node of a triangle. -/
def KeepsOutline (tri : List (Fin 3 → K) → Py (UMesh K)) : Prop :=
  ∀ pts p, tri pts = .ok p → ∀ x ∈ pts, ∃ j, UsedPoint p.cells j ∧ p.points[j]? = some x

/-- The mesh of the parts between the lines `lines[k]` and `lines[k + 1]`.  Part `k` is a strip of quads with the
positions `ts` if `subs[k]` is `ts`, and the triangulation of the outline of the two lines if there are none; its cell
`c` is cell `pos k c` of the mesh, its point `j` is point `node k j`.  `flags[k]` are the ghost flags of line `k`. -/
structure StackedT (area : Arr3 (Fin 3 → K) → List K) (quad : ℤ → ℤ) (axis : Fin 3)
    (R : (Fin 3 → K) → (Fin 3 → K) → Prop) (tri : List (Fin 3 → K) → Py (UMesh K)) (key : String)
    (lines : List (List (Fin 3 → K))) (flags : List (ℕ → ℤ)) (subs : List (Option (List K))) (sizes : List ℕ) (names : List (ℕ → String))
    (M : UMesh K) (table : List (String × Int)) (pos node : ℕ → ℕ → ℕ) : Prop where
  strip : ∀ (k : ℕ) a b f ts n, lines[k]? = some a → lines[k + 1]? = some b → flags[k]? = some f →
    subs[k]? = some (some ts) → sizes[k]? = some n → a.length = b.length ∧ n = (a.length - 1) * (ts.length - 1) ∧
      ∀ c s, c < a.length - 1 → s < ts.length - 1 → ∃ t, QuadType area quad axis f a b ts c s t ∧
        M.cells[pos k (c + (a.length - 1) * s)]? = some (t, .nodes [node k (s * a.length + c), node k (s * a.length + (c + 1)), node k ((s + 1) * a.length + (c + 1)),
          node k ((s + 1) * a.length + c)])
  nodes : ∀ (k : ℕ) a b ts, lines[k]? = some a → lines[k + 1]? = some b → subs[k]? = some (some ts) →
    ∀ j s t x y, ts[s]? = some t → a[j]? = some x → b[j]? = some y →
      ∃ p, M.points[node k (s * a.length + j)]? = some p ∧ R p (between t x y)
  triangles : ∀ (k : ℕ) a b n, lines[k]? = some a → lines[k + 1]? = some b → subs[k]? = some none →
    sizes[k]? = some n → ∃ p, tri (a ++ b.reverse) = .ok p ∧ n = p.cells.length ∧
      (∀ c t cell, p.cells[c]? = some (t, cell) → M.cells[pos k c]? = some (t, cell.renamed (node k))) ∧
      ∀ j x, UsedPoint p.cells j → p.points[j]? = some x → ∃ y, M.points[node k j]? = some y ∧ R y x
  size : M.cells.length = sizes.sum
  cover : ∀ i, i < M.cells.length → ∃ k n c, sizes[k]? = some n ∧ c < n ∧ pos k c = i
  inj : ∀ (k k' : ℕ) n n' c c', sizes[k]? = some n → sizes[k']? = some n' → c < n → c' < n' →
    pos k c = pos k' c' → k = k' ∧ c = c'
  shared : ∀ (k : ℕ) b n n' x, lines[k + 1]? = some b → sizes[k]? = some n → sizes[k + 1]? = some n' → x ∈ b →
    ∃ v p c c' w w', M.points[v]? = some p ∧ R p x ∧ c < n ∧ c' < n' ∧ M.cells[pos k c]? = some w ∧ v ∈ w.2.ids ∧
      M.cells[pos (k + 1) c']? = some w' ∧ v ∈ w'.2.ids
  dense : DenseTable table
  data : ∃ layers columns items groups, Dict.get? M.cellData "LayerId" = some layers ∧
    Dict.get? M.cellData "ColumnId" = some columns ∧ Dict.get? M.cellData key = some items ∧
    Dict.get? M.cellData "CellGroup" = some groups ∧ groups.vals.length = M.cells.length ∧
    (∀ kv ∈ table, kv.2 ∈ groups.vals) ∧
    ∀ (k : ℕ) name, names[k]? = some name →
      (∀ a ts, lines[k]? = some a → subs[k]? = some (some ts) → ∀ c s, c < a.length - 1 → s < ts.length - 1 →
        layers.vals[pos k (c + (a.length - 1) * s)]? = some ((layersT subs k + s : ℕ) : ℤ) ∧
        columns.vals[pos k (c + (a.length - 1) * s)]? = some (c : ℤ) ∧
        items.vals[pos k (c + (a.length - 1) * s)]? = some (k : ℤ) ∧
        CellNamed table groups.vals (pos k (c + (a.length - 1) * s)) (name c)) ∧
      (∀ n, subs[k]? = some none → sizes[k]? = some n → ∀ c, c < n →
        layers.vals[pos k c]? = some ((layersT subs k : ℕ) : ℤ) ∧ columns.vals[pos k c]? = some (-1) ∧
        items.vals[pos k c]? = some (k : ℤ) ∧ CellNamed table groups.vals (pos k c) (name c))

end Spec

section
variable {K : Type _} [Field K] [LinearOrder K]

theorem stripU_used {kind : ℕ → ℕ → ℤ → Prop} {n : ℕ} {a b : List (V3 K)} {ts : List K} {arr : List ℤ} {p : UMesh K} 
    (h : StripU kind n a b ts arr p) (hn : 2 ≤ n) (hts : 2 ≤ ts.length) {j s : ℕ} (hj : j < n) (hs : s < ts.length) :
    UsedPoint p.cells (s * n + j) := by
  let c := if j < n - 1 then j else j - 1
  let s' := if s < ts.length - 1 then s else s - 1
  have hc : c < n - 1 := by simp only [c]; split <;> omega
  have hs' : s' < ts.length - 1 := by simp only [s']; split <;> omega
  obtain ⟨_, _, hcell⟩ := h.cell c s' hc hs'
  refine ⟨_, List.mem_of_getElem? hcell, ?_⟩
  simp only [Cell.ids, List.mem_cons, List.not_mem_nil, or_false]
  have e1 : c = j ∨ c + 1 = j := by simp only [c]; split <;> omega
  have e2 : s' = s ∨ s' + 1 = s := by simp only [s']; split <;> omega
  rcases e1 with e1 | e1 <;> rcases e2 with e2 | e2
  · left; rw [e1, e2]
  · right; right; right; rw [e1, e2]
  · right; left; rw [e1, e2]
  · right; right; left; rw [e1, e2]

/-- One part with its labels. -/
structure PartT (kind : List K → ℕ → ℕ → ℤ → Prop) (tri : List (V3 K) → Py (UMesh K)) (key : String) (a b : List (V3 K)) (sub : Option (List K))
    (name : ℕ → String) (groups : Dict String Int) (layer item : ℕ) (q : UMesh K) : Prop where
  arrays : Arrays q.cells.length q.cellData
  items : Dict.get? q.cellData key = some ⟨false, itemIds q.cells.length item⟩
  strip : ∀ ts, sub = some ts → a.length = b.length ∧ 2 ≤ a.length ∧ fromZeroToOne ts ∧
    (∃ arr, StripU (kind ts) a.length a b ts arr ⟨q.points, q.cells, q.cellData⟩) ∧
    ∃ layers columns groups', Dict.get? q.cellData "LayerId" = some layers ∧
      Dict.get? q.cellData "ColumnId" = some columns ∧ Dict.get? q.cellData "CellGroup" = some groups' ∧
      ∀ c s, c < a.length - 1 → s < ts.length - 1 →
        layers.vals[c + (a.length - 1) * s]? = some ((layer + s : ℕ) : ℤ) ∧
        columns.vals[c + (a.length - 1) * s]? = some (c : ℤ) ∧
        CellNamed groups groups'.vals (c + (a.length - 1) * s) (name c)
  trans : sub = none → ∃ p, tri (a ++ b.reverse) = .ok p ∧ q.points = p.points ∧ q.cells = p.cells ∧
    ∃ layers columns groups', Dict.get? q.cellData "LayerId" = some layers ∧
      Dict.get? q.cellData "ColumnId" = some columns ∧ Dict.get? q.cellData "CellGroup" = some groups' ∧
      ∀ c, c < q.cells.length → layers.vals[c]? = some ((layer : ℕ) : ℤ) ∧ columns.vals[c]? = some (-1) ∧
        CellNamed groups groups'.vals c (name c)

theorem PartT.cellOf {kind : List K → ℕ → ℕ → ℤ → Prop} {tri : List (V3 K) → Py (UMesh K)} {key : String} {a b : List (V3 K)} {sub : Option (List K)}
    {name : ℕ → String} {groups : Dict String Int} {layer item : ℕ} {q : UMesh K}
    (h : PartT kind tri key a b sub name groups layer item q) (c : ℕ) (hc : c < q.cells.length) :
    ∃ g s, Dict.get? q.cellData "CellGroup" = some g ∧ CellNamed groups g.vals c s := by
  cases hs : sub with
  | none =>
    obtain ⟨_, _, _, _, _, _, g, _, _, g1, g2⟩ := h.trans hs
    exact ⟨g, _, g1, (g2 c hc).2.2⟩
  | some ts =>
    obtain ⟨_, _, _, ⟨arr, hst⟩, _, _, g, _, _, g1, g2⟩ := h.strip ts hs
    have := hst.size
    simp only at this
    rw [this] at hc
    obtain ⟨i, s, hi, hs', rfl⟩ := index_inv hc
    exact ⟨g, _, g1, (g2 i s hi hs').2.2⟩

/-- Points of the lower and upper line are nodes of the part. -/
theorem PartT.used {kind : List K → ℕ → ℕ → ℤ → Prop} {tri : List (V3 K) → Py (UMesh K)} (htri : KeepsOutline tri) {key : String} {a b : List (V3 K)}
    {sub : Option (List K)} {name : ℕ → String} {groups : Dict String Int} {layer item : ℕ} {q : UMesh K}
    (h : PartT kind tri key a b sub name groups layer item q) (x : V3 K) (hx : x ∈ a ∨ x ∈ b) :
    ∃ j, UsedPoint q.cells j ∧ q.points[j]? = some x := by
  cases hs : sub with
  | none =>
    obtain ⟨p, h1, h2, h3, _⟩ := h.trans hs
    rw [h2, h3]
    exact htri _ p h1 x (by simpa using hx)
  | some ts =>
    obtain ⟨hl, h2, h01, ⟨arr, hst⟩, _⟩ := h.strip ts hs
    obtain ⟨t1, t2, t3⟩ := h01
    have use : ∀ (j s : ℕ), j < a.length → s < ts.length → UsedPoint q.cells (s * a.length + j) :=
      fun j s hj hs => stripU_used hst h2 t1 hj hs
    rcases hx with hx | hx
    · obtain ⟨j, hj⟩ := List.getElem?_of_mem hx
      have hjl := (List.getElem?_eq_some_iff.1 hj).1
      refine ⟨0 * a.length + j, use j 0 hjl (by omega), ?_⟩
      have := hst.nodes j 0 0 x b[j] t2 hj (List.getElem?_eq_getElem (by omega))
      rw [between_zero] at this
      exact this
    · obtain ⟨j, hj⟩ := List.getElem?_of_mem hx
      have hjl := (List.getElem?_eq_some_iff.1 hj).1
      refine ⟨(ts.length - 1) * a.length + j, use j _ (by omega) (by omega), ?_⟩
      have := hst.nodes j (ts.length - 1) 1 a[j] x t3 (List.getElem?_eq_getElem (by omega)) hj
      rw [between_one] at this
      exact this

/-- Merging the parts. -/
theorem stackedT_of_parts {area : Arr3 (V3 K) → List K} {quad : ℤ → ℤ} {axis : Fin 3} {R : V3 K → V3 K → Prop} {vtk : VtkOracle K} (ho : AppendsAll vtk.order)
    (hc : Cleans R vtk.clean) {tri : List (V3 K) → Py (UMesh K)} (htri : KeepsOutline tri) {key : String}
    (hkey : key ≠ "CellGroup" ∧ key ≠ "vtkGhostType") {groups : Dict String Int} (hd : DenseTable groups)
    {lines : List (List (V3 K))} {flags : List (ℕ → ℤ)} {subs : List (Option (List K))} {names : List (ℕ → String)}
    {qs : List (UMesh K)}
    (hne : qs ≠ []) (hpart : ∀ (k : ℕ) q, qs[k]? = some q → ∃ a b f sub name, lines[k]? = some a ∧
      lines[k + 1]? = some b ∧ flags[k]? = some f ∧ subs[k]? = some sub ∧ names[k]? = some name ∧
      PartT (QuadType area quad axis f a b) tri key a b sub name groups (layersT subs k) k q) :
    ∃ m M table pos node, mergeU vtk qs = .ok m ∧ cleanU vtk m groups = .ok (M, table) ∧
      (∀ k q, qs[k]? = some q → ∀ c, c < q.cells.length → pos k c < M.cells.length) ∧
      (subs.length = qs.length → names.length = qs.length →
        StackedT area quad axis R tri key lines flags subs (qs.map fun q => q.cells.length) names M table pos node) := by
  have hp : ∀ q ∈ qs, ∃ a b sub name layer item kind, PartT kind tri key a b sub name groups layer item q := by
    intro q hq
    obtain ⟨k, hk⟩ := List.getElem?_of_mem hq
    obtain ⟨a, b, f, sub, name, _, _, _, _, _, h⟩ := hpart k q hk
    exact ⟨a, b, sub, name, _, _, _, h⟩
  have hkeys : ∀ q ∈ qs, (∃ v, Dict.get? q.cellData "LayerId" = some v) ∧
      (∃ v, Dict.get? q.cellData "ColumnId" = some v) ∧ ∃ v, Dict.get? q.cellData key = some v := by
    intro q hq
    obtain ⟨a, b, sub, name, layer, item, _, h⟩ := hp q hq
    cases hs : sub with
    | none =>
      obtain ⟨_, _, _, _, l, c, _, h1, h2, _⟩ := h.trans hs
      exact ⟨⟨l, h1⟩, ⟨c, h2⟩, ⟨_, h.items⟩⟩
    | some ts =>
      obtain ⟨_, _, _, _, l, c, _, h1, h2, _⟩ := h.strip ts hs
      exact ⟨⟨l, h1⟩, ⟨c, h2⟩, ⟨_, h.items⟩⟩
  obtain ⟨m, M, table, pos, node, h1, h2, hj, h3, h4, _, w, h6, h7, h8, h9⟩ := mergeClean_ok ho hc qs hne
    (fun q hq => by obtain ⟨_, _, _, _, _, _, _, h⟩ := hp q hq; exact h.arrays.2)
    (fun q hq key v hv => by
      obtain ⟨_, _, _, _, _, _, _, h⟩ := hp q hq; exact h.arrays.1 _ (Dict.get?_mem hv)) hd
    (fun q hq => by
      obtain ⟨a, b, sub, name, layer, item, _, h⟩ := hp q hq
      have hgr : ∃ g, Dict.get? q.cellData "CellGroup" = some g := by
        cases hs : sub with
        | none => obtain ⟨_, _, _, _, _, _, g, _, _, g1, _⟩ := h.trans hs; exact ⟨g, g1⟩
        | some ts => obtain ⟨_, _, _, _, _, _, g, _, _, g1, _⟩ := h.strip ts hs; exact ⟨g, g1⟩
      obtain ⟨g, g1⟩ := hgr
      refine ⟨g, g1, fun x hx => ?_⟩
      obtain ⟨i, hi⟩ := List.getElem?_of_mem hx
      have hlt := (List.getElem?_eq_some_iff.1 hi).1
      rw [show g.vals.length = q.cells.length from h.arrays.1 _ (Dict.get?_mem g1)] at hlt
      obtain ⟨g', s, e1, v, v1, v2⟩ := h.cellOf i hlt
      rw [g1] at e1; cases e1
      rw [hi] at v1; cases v1
      exact ⟨s, v2⟩)
  obtain ⟨ly, y1, y2⟩ := h4 "LayerId" (by decide) (by decide) fun q hq => (hkeys q hq).1
  obtain ⟨co, c1, c2⟩ := h4 "ColumnId" (by decide) (by decide) fun q hq => (hkeys q hq).2.1
  obtain ⟨im, i1, i2⟩ := h4 key hkey.2 hkey.1 fun q hq => (hkeys q hq).2.2
  have hlt : ∀ k q, qs[k]? = some q → ∀ c, c < q.cells.length → pos k c < M.cells.length := by
    intro k q hk c hc
    have := hj.cell k q c _ _ hk (List.getElem?_eq_getElem hc)
    exact (List.getElem?_eq_some_iff.1 this).1
  refine ⟨m, M, table, pos, node, h1, h2, hlt, fun hsubs hnames => ?_⟩
  have hsz : ∀ (k n : ℕ), (qs.map fun q => q.cells.length)[k]? = some n → ∃ q, qs[k]? = some q ∧ n = q.cells.length := by
    intro k n h
    rw [List.getElem?_map, Option.map_eq_some_iff] at h
    obtain ⟨q, hq, rfl⟩ := h
    exact ⟨q, hq, rfl⟩
  have hget : ∀ (k : ℕ) sub, subs[k]? = some sub → ∃ q a b name, qs[k]? = some q ∧ lines[k]? = some a ∧
      lines[k + 1]? = some b ∧ names[k]? = some name ∧ ∃ f, flags[k]? = some f ∧
      PartT (QuadType area quad axis f a b) tri key a b sub name groups (layersT subs k) k q := by
    intro k sub h
    have hk : k < qs.length := by rw [← hsubs]; exact (List.getElem?_eq_some_iff.1 h).1
    obtain ⟨a, b, f, sub', name, e1, e2, e0, e3, e4, e5⟩ := hpart k _ (List.getElem?_eq_getElem hk)
    rw [h] at e3; cases e3
    exact ⟨_, a, b, name, List.getElem?_eq_getElem hk, e1, e2, e4, f, e0, e5⟩
  refine ⟨?_, ?_, ?_, hj.size, ?_, ?_, ?_, h3, ?_⟩
  · intro k a b f ts n ha hb hf hs hn
    obtain ⟨q, a', b', name, q1, q2, q3, q4, f', q0, q5⟩ := hget k _ hs
    rw [ha] at q2; cases q2
    rw [hb] at q3; cases q3
    obtain ⟨q', e1, rfl⟩ := hsz k n hn
    rw [q1] at e1; cases e1
    obtain ⟨r1, r2, r3, ⟨arr, hst⟩, _⟩ := q5.strip ts rfl
    rw [hf] at q0; cases q0
    refine ⟨r1, hst.size, fun c s hc hs => ?_⟩
    obtain ⟨t, t1, t2⟩ := hst.cell c s hc hs
    refine ⟨t, t1, ?_⟩
    rw [hj.cell k q _ _ _ q1 t2]
    rfl
  · intro k a b ts ha hb hs j s t x y ht hx hy
    obtain ⟨q, a', b', name, q1, q2, q3, q4, f', q0, q5⟩ := hget k _ hs
    rw [ha] at q2; cases q2
    rw [hb] at q3; cases q3
    obtain ⟨r1, r2, r3, ⟨arr, hst⟩, _⟩ := q5.strip ts rfl
    have hp := hst.nodes j s t x y ht hx hy
    refine hj.point k q _ _ q1 ?_ hp
    exact stripU_used hst r2 r3.1 (List.getElem?_eq_some_iff.1 hx).1 (List.getElem?_eq_some_iff.1 ht).1
  · intro k a b n ha hb hs hn
    obtain ⟨q, a', b', name, q1, q2, q3, q4, f', q0, q5⟩ := hget k _ hs
    rw [ha] at q2; cases q2
    rw [hb] at q3; cases q3
    obtain ⟨q', e1, rfl⟩ := hsz k n hn
    rw [q1] at e1; cases e1
    obtain ⟨p, p1, p2, p3, _⟩ := q5.trans rfl
    refine ⟨p, p1, by rw [p3], ?_, ?_⟩
    · intro c t cell hcell
      exact hj.cell k q c t cell q1 (by rw [p3]; exact hcell)
    · intro j x hu hx
      exact hj.point k q j x q1 (by rw [p3]; exact hu) (by rw [p2]; exact hx)
  · intro i hi
    obtain ⟨k, q, c, e1, e2, e3⟩ := hj.cover i hi
    exact ⟨k, _, c, by rw [List.getElem?_map, e1]; rfl, e2, e3⟩
  · intro k k' n n' c c' hn hn' hc hc' he
    obtain ⟨q, e1, rfl⟩ := hsz k n hn
    obtain ⟨q', e1', rfl⟩ := hsz k' n' hn'
    exact hj.inj k k' q q' c c' e1 e1' hc hc' he
  · intro k b n n' x hb hn hn' hx
    obtain ⟨q, e1, rfl⟩ := hsz k n hn
    obtain ⟨q', e1', rfl⟩ := hsz (k + 1) n' hn'
    obtain ⟨a, b1, _, sub, name, l1, l2, _, _, _, hP⟩ := hpart k q e1
    obtain ⟨b2, c2, _, sub', name', l1', l2', _, _, _, hP'⟩ := hpart (k + 1) q' e1'
    rw [hb] at l2; cases l2
    rw [hb] at l1'; cases l1'
    obtain ⟨j, u1, u2⟩ := hP.used htri x (.inr hx)
    obtain ⟨j', u1', u2'⟩ := hP'.used htri x (.inl hx)
    obtain ⟨p, p1, p2⟩ := hj.point k q j x e1 u1 u2
    have hsame := hj.same k (k + 1) q q' j j' x e1 e1' u1 u1' u2 u2'
    have cellOf : ∀ {k : ℕ} {q : UMesh K} {j : ℕ}, qs[k]? = some q → UsedPoint q.cells j →
        ∃ c w, c < q.cells.length ∧ M.cells[pos k c]? = some w ∧ node k j ∈ w.2.ids := by
      intro k q j hq hu
      obtain ⟨⟨t, cell⟩, m1, m2⟩ := hu
      obtain ⟨c, hc⟩ := List.getElem?_of_mem m1
      refine ⟨c, _, (List.getElem?_eq_some_iff.1 hc).1, hj.cell k q c t cell hq hc, ?_⟩
      simp only
      rw [renamed_ids]
      exact List.mem_map_of_mem m2
    obtain ⟨c, w, w1, w2, w3⟩ := cellOf e1 u1
    obtain ⟨c', w', w1', w2', w3'⟩ := cellOf e1' u1'
    exact ⟨node k j, p, c, c', w, w', p1, p2, w1, w1', w2, w3, w2', by rw [hsame]; exact w3'⟩
  · refine ⟨ly, co, im, w, y1, c1, i1, h6, h7, h8, fun k name hk => ⟨?_, ?_⟩⟩
    · intro a ts ha hs c s hc hs'
      obtain ⟨q, a', b', name', q1, q2, q3, q4, f', q0, q5⟩ := hget k _ hs
      rw [ha] at q2; cases q2
      rw [hk] at q4; cases q4
      obtain ⟨r1, r2, r3, ⟨arr, hst⟩, l, cc, g, g1, g2, g3, g4⟩ := q5.strip ts rfl
      have hlt' : c + (a.length - 1) * s < q.cells.length := by
        have := hst.size; simp only at this; rw [this]; exact index_lt hc hs'
      obtain ⟨f1, f2, f3⟩ := g4 c s hc hs'
      refine ⟨by rw [y2 k q l _ q1 g1 hlt']; exact f1, by rw [c2 k q cc _ q1 g2 hlt']; exact f2, ?_,
        h9 k q g _ _ q1 g3 hlt' f3⟩
      rw [i2 k q _ _ q1 q5.items hlt', itemIds, List.getElem?_replicate, if_pos hlt']
    · intro n hs hn c hc
      obtain ⟨q, a', b', name', q1, q2, q3, q4, f', q0, q5⟩ := hget k _ hs
      rw [hk] at q4; cases q4
      obtain ⟨q', e1, rfl⟩ := hsz k n hn
      rw [q1] at e1; cases e1
      obtain ⟨p, p1, p2, p3, l, cc, g, g1, g2, g3, g4⟩ := q5.trans rfl
      obtain ⟨f1, f2, f3⟩ := g4 c hc
      refine ⟨by rw [y2 k q l _ q1 g1 hc]; exact f1, by rw [c2 k q cc _ q1 g2 hc]; exact f2, ?_,
        h9 k q g _ _ q1 g3 hc f3⟩
      rw [i2 k q _ _ q1 q5.items hc, itemIds, List.getElem?_replicate, if_pos hc]

/-- The part of a pair of items. -/
theorem partT_of_block {τ ρ : Type _} {kind : List K → ℕ → ℕ → ℤ → Prop} {kit : UKit K τ ρ} {tri : List (V3 K) → Py (UMesh K)} {ignore : List String}
    {dflt key : String}
    (hkey : key ≠ "LayerId" ∧ key ≠ "ColumnId" ∧ key ≠ "CellGroup" ∧ key ≠ "vtkGhostType") {groups : Dict String Int}
    {x y : TItem K τ ρ} {o : Opts ρ} {nl i ns : ℕ} {arr : List Int} {name : ℕ → String} {p q : UMesh K}
    (h : BlockU kit ignore dflt key groups x y o nl i ns arr name p q)
    (hn : (kit.labels x.mesh).nCells = x.mesh.points.length - 1) (hx2 : 2 ≤ x.mesh.points.length) {ts : List K}
    (hst : y.transition = false → x.mesh.points.length = y.mesh.points.length ∧ fromZeroToOne ts ∧
      StripU (kind ts) x.mesh.points.length x.mesh.points y.mesh.points ts arr p)
    (htr : y.transition = true → tri (x.mesh.points ++ y.mesh.points.reverse) = .ok p) :
    ns = (if y.transition then 1 else ts.length - 1) ∧
    ∃ name', (y.transition = false → name' = name) ∧
      (y.transition = true → Labels ignore dflt p.cells.length (groupCodes p.cellData) none o.group name') ∧
      PartT kind tri key x.mesh.points y.mesh.points (if y.transition then none else some ts) name' groups nl i q := by
  cases ht : y.transition with
  | false =>
    obtain ⟨e1, e2, e3⟩ := hst ht
    obtain ⟨_, h2, h3, h4, h5⟩ := h.plain ht
    rw [hn] at h2 h3 h4
    have hns : ns = ts.length - 1 := by
      have := e3.size
      rw [← h.cells, h2] at this
      exact Nat.eq_of_mul_eq_mul_left (by omega) this
    subst hns
    obtain ⟨g, g1, g2⟩ := e3.group
    refine ⟨by simp, name, fun _ => rfl, by simp, h.arrays, h.items, ?_, by simp⟩
    intro ts' hts'
    simp only [Bool.false_eq_true, if_false, Option.some.injEq] at hts'
    subst hts'
    refine ⟨e1, hx2, e2, ⟨arr, h2, by simp only [h.points]; exact e3.nodes, by simp only [h.cells]; exact e3.cell,
      h.arrays, ⟨g, by simp only; rw [h5, g1], g2⟩, ?_⟩, _, _, g, h3, h4, by rw [h5, g1], ?_⟩
    · obtain ⟨gh, hgh⟩ := e3.ghost
      exact ⟨gh, by simp only; rw [h.others _ (by decide) (by decide) hkey.2.2.2.symm (by decide), hgh]⟩
    · intro c s hc hs
      refine ⟨by rw [layerIds_get hc hs, Nat.add_comm], columnIds_get hc hs, ?_⟩
      obtain ⟨v, v1, v2⟩ := h.named c (by omega)
      exact ⟨v, by rw [g2 c s hc hs]; exact v1, v2⟩
  | true =>
    obtain ⟨_, h2, h3, h4, name', g, h5, h6, h7⟩ := h.trans ht
    refine ⟨by simp [h2], name', by simp, fun _ => by rw [← h.cells]; exact h5, h.arrays, h.items, by simp, ?_⟩
    intro _
    refine ⟨p, htr ht, h.points, h.cells, _, _, g, h3, h4, h6, fun c hc => ⟨?_, ?_, h7 c hc⟩⟩
    · have := layerIds_get (nsub := 1) (nl := nl) hc Nat.zero_lt_one
      simpa using this
    · rw [List.getElem?_replicate, if_pos hc]

/-- The loop succeeds, with transitions. -/
theorem submeshesT_total {τ ρ : Type _} (kit : UKit K τ ρ) {ignore : List String} {dflt key : String}
    (hkey : key ≠ "LayerId" ∧ key ≠ "ColumnId" ∧ key ≠ "CellGroup") :
    ∀ (rest : List (TItem K τ ρ)) (a : TItem K τ ρ) (groups : Dict String Int) (nl i : ℕ),
      (∀ it ∈ a :: rest, ∀ c, (kit.labels it.mesh).cellGroup = some c → c.length = (kit.labels it.mesh).nCells) →
      (∀ (k : ℕ) x y, (a :: rest)[k]? = some x → rest[k]? = some y → ∃ o, y.opts = some o ∧
        Acceptable (kit.labels x.mesh).nCells o.group ∧
        (y.transition = false → ∀ arr, arr.length = (kit.labels x.mesh).nCells →
          ∃ p, kit.extrude (kit.withGroup x.mesh arr) y.mesh o.sub = .ok p ∧ Arrays p.cells.length p.cellData ∧
          0 < (kit.labels x.mesh).nCells ∧ ∃ ns, p.cells.length = (kit.labels x.mesh).nCells * ns) ∧
        (y.transition = true → ∀ arr, arr.length = (kit.labels x.mesh).nCells →
          ∃ p, kit.transition (kit.withGroup x.mesh arr) y.mesh = .ok p ∧ Arrays p.cells.length p.cellData ∧
          Acceptable p.cells.length o.group)) →
      DenseTable groups → ∃ r, submeshesU kit ignore dflt key a rest groups nl i = .ok r := by
  intro rest
  induction rest with
  | nil => intro a groups nl i _ _ _; exact ⟨_, rfl⟩
  | cons b rest ih =>
    intro a groups nl i hlab hext hg
    obtain ⟨o, ho, hacc, hx, hy⟩ := hext 0 a b rfl rfl
    obtain ⟨⟨arr, g1⟩, hr⟩ := initGroupArray_total (ignore := ignore) (dflt := dflt) (hlab a (by simp)) hacc groups
    obtain ⟨e1, e2, _⟩ := C02_every_cell_has_a_group (hlab a (by simp)) hg hr
    have hrest : ∀ g nl, DenseTable g → ∃ r, submeshesU kit ignore dflt key b rest g nl (i + 1) = .ok r :=
      fun g nl hd => ih b g nl (i + 1) (fun it hit => hlab it (List.mem_cons_of_mem _ hit))
        (fun k x y hx hy => hext (k + 1) x y (by simpa using hx) (by simpa using hy)) hd
    cases ht : b.transition with
    | false =>
      obtain ⟨p, hp, a1, a2, ns, a3⟩ := hx ht arr e1
      obtain ⟨q, l1, _⟩ := labelU_ok (key := key) (nl := nl) (i := i) ⟨hkey.1, hkey.2.1⟩ a1
        (.inl ⟨rfl, a2, a3⟩)
      obtain ⟨r, hr'⟩ := hrest g1 (nl + ns) e2
      exact ⟨_, by
        simp only [submeshesU, ho, submeshU, hr, ht, Bool.false_eq_true, if_false, hp, l1, hr']; rfl⟩
    | true =>
      obtain ⟨p, hp, a1, a2⟩ := hy ht arr e1
      have hl2 : ∀ c, (⟨p.cells.length, groupCodes p.cellData, none⟩ : LMesh).cellGroup = some c →
          c.length = (⟨p.cells.length, groupCodes p.cellData, none⟩ : LMesh).nCells := by
        intro c hc
        simp only [groupCodes, Option.map_eq_some_iff] at hc
        obtain ⟨g, hg, rfl⟩ := hc
        exact a1.1 _ (Dict.get?_mem hg)
      obtain ⟨⟨arr2, g2⟩, hr2⟩ := initGroupArray_total (ignore := ignore) (dflt := dflt) hl2 a2 g1
      obtain ⟨f1, f2, _⟩ := C02_every_cell_has_a_group hl2 e2 hr2
      have hset : setArray p.cells.length p.cellData "CellGroup" ⟨false, arr2⟩ =
          .ok (Dict.set p.cellData "CellGroup" ⟨false, arr2⟩) := by
        simp only [setArray]; rw [if_pos f1]
      obtain ⟨ha', _⟩ := setArray_arrays a1 hset
      obtain ⟨q, l1, _⟩ := labelU_ok (key := key) (nl := nl) (i := i) (n := p.cells.length) (ns := 1) (nA := none)
        (p := { p with cellData := Dict.set p.cellData "CellGroup" ⟨false, arr2⟩ }) ⟨hkey.1, hkey.2.1⟩ ha'
        (.inr ⟨rfl, rfl, rfl⟩)
      obtain ⟨r, hr'⟩ := hrest g2 (nl + 1) f2
      exact ⟨_, by
        simp only [submeshesU, ho, submeshU, hr, ht, if_true, hp, groupTransition, hr2, hset, l1, hr']; rfl⟩

end

/-- `x` and the item `y` after it can be joined: by a transition, or by a strip between lines of the same size. -/
structure PairT (x y : TItem ℝ LineTopo (Resolution ℝ × Option String)) (o : Opts (Resolution ℝ × Option String)) :
    Prop where
  opts : y.opts = some o
  plain : y.transition = false → x.mesh.points.length = y.mesh.points.length ∧
    ∃ ts, resolutionToPerc o.sub.1 o.sub.2 = .ok ts ∧ fromZeroToOne ts

theorem lineKitU_strip {quad : ℤ → ℤ} {area : Arr3 (V3 ℝ) → List ℝ} (harea : ∀ x, (area x).length = count (cells x.d))
    {tri : List (V3 ℝ) → Py (UMesh ℝ)} {axis : Fin 3} (hax : axis ≠ 0) {x y : Surf ℝ LineTopo} {n : ℕ}
    (hx : StackLine n x) (hy : StackLine n y) {r : Resolution ℝ × Option String} {ts : List ℝ}
    (hr : resolutionToPerc r.1 r.2 = .ok ts) (h01 : fromZeroToOne ts) {arr : List ℤ} (harr : arr.length = n - 1) :
    ∃ p, (lineKitU quad (fun a b (r : Resolution ℝ × Option String) => generateSurface area a b (stackPlane axis) r.1 r.2)
        tri).extrude ((lineKitU quad (fun a b (r : Resolution ℝ × Option String) =>
          generateSurface area a b (stackPlane axis) r.1 r.2) tri).withGroup x arr) y r = .ok p ∧
      StripU (QuadType area quad axis (ghostOf x.topo.cellData) x.points y.points ts) n x.points y.points ts arr p := by
  obtain ⟨p, hp, hb⟩ := line_between harea hx hy (axis := axis) harr h01.1
  have hb : Between area x.topo.cellData (planeShape (stackPlane axis) n 1) axis x.points y.points ts arr p := by
    obtain ⟨g1, g2, g3, ⟨g, g4, g5⟩, ⟨w, g6, g7⟩, g8, g9⟩ := hb
    refine ⟨g1, g2, g3, ⟨g, g4, ?_⟩, ⟨w, g6, ?_⟩, g8, ?_⟩
    · intro i s hi hs
      rw [g5 i s hi hs, lineSource_own hx h01.1 (.inl hax) hi hs]
    · intro μ hμ i s hi hs
      rw [g7 μ hμ i s hi hs, lineSource_own hx h01.1 (.inl hax) hi hs]
    · intro name v hv n1 n2
      obtain ⟨u, u1, u2⟩ := g9 name v hv n1 n2
      refine ⟨u, u1, ?_⟩
      intro i s hi hs
      rw [u2 i s hi hs, lineSource_own hx h01.1 (.inl hax) hi hs]
  refine ⟨castGrid quad p, ?_, strip_of_between hax (by rw [← hx.size]; exact hx.clean.size) hx.size hy.size h01.1 hb⟩
  have e1 : (lineArg ⟨x.points, { x.topo with
      cellData := Dict.set x.topo.cellData "CellGroup" ⟨false, arr⟩ }⟩).points = x.points :=
    (withGroup_clean hx harr).1.points_eq
  have e2 : (lineArg y).points = y.points := hy.clean.points_eq
  have hgen : generateSurface area (lineArg ⟨x.points, { x.topo with
      cellData := Dict.set x.topo.cellData "CellGroup" ⟨false, arr⟩ }⟩) (lineArg y) (stackPlane axis) r.1 r.2 =
      .ok p := by
    simp only [generateSurface]
    rw [if_neg (by rw [e1, e2, hx.size, hy.size]; simp), hr]
    exact hp
  simp only [lineKitU]
  rw [hgen]

/-- The generation from the list of items. -/
theorem items_stackedT {quad : ℤ → ℤ} {R : V3 ℝ → V3 ℝ → Prop} {vtk : VtkOracle ℝ} (ho : AppendsAll vtk.order)
    (hc : Cleans R vtk.clean) {area : Arr3 (V3 ℝ) → List ℝ} (harea : ∀ x, (area x).length = count (cells x.d))
    {tri : List (V3 ℝ) → Py (UMesh ℝ)} (htri : KeepsOutline tri)
    (hdat : ∀ pts p, tri pts = .ok p → Arrays p.cells.length p.cellData) {axis : Fin 3} (hax : axis ≠ 0)
    (ignore : List String) (dflt : String) (a b : TItem ℝ LineTopo (Resolution ℝ × Option String))
    (rest : List (TItem ℝ LineTopo (Resolution ℝ × Option String)))
    (hline : ∀ it ∈ a :: b :: rest, StackLine it.mesh.points.length it.mesh)
    (hpair : ∀ (k : ℕ) x y, (a :: b :: rest)[k]? = some x → (b :: rest)[k]? = some y → ∃ o, PairT x y o) :
    ((∀ (k : ℕ) x y o, (a :: b :: rest)[k]? = some x → (b :: rest)[k]? = some y → y.opts = some o →
        Acceptable (x.mesh.points.length - 1) o.group ∧ (y.transition = true →
          ∃ p, tri (x.mesh.points ++ y.mesh.points.reverse) = .ok p ∧ Acceptable p.cells.length o.group)) →
      ∃ r, assembleU (lineKitU quad (fun a b r => generateSurface area a b (stackPlane axis) r.1 r.2) tri) vtk ignore dflt
        "StackItem" (a :: b :: rest) = .ok r) ∧
    ∀ M table, assembleU (lineKitU quad (fun a b r => generateSurface area a b (stackPlane axis) r.1 r.2) tri) vtk ignore
        dflt "StackItem" (a :: b :: rest) = .ok (M, table) →
      ∃ subs sizes names pos node, subs.length = rest.length + 1 ∧ sizes.length = rest.length + 1 ∧
        names.length = rest.length + 1 ∧
        (∀ (k : ℕ) x y o, (a :: b :: rest)[k]? = some x → (b :: rest)[k]? = some y → y.opts = some o →
          ∃ name, names[k]? = some name ∧
          (y.transition = false → (∃ ts, resolutionToPerc o.sub.1 o.sub.2 = .ok ts ∧ subs[k]? = some (some ts)) ∧
            Labels ignore dflt (x.mesh.points.length - 1) (groupCodes x.mesh.topo.cellData) x.mesh.topo.table o.group
              name) ∧
          (y.transition = true → subs[k]? = some none ∧ ∃ p, tri (x.mesh.points ++ y.mesh.points.reverse) = .ok p ∧
            Labels ignore dflt p.cells.length (groupCodes p.cellData) none o.group name)) ∧
        StackedT area quad axis R tri "StackItem" ((a :: b :: rest).map fun it => it.mesh.points)
          ((a :: b :: rest).map fun it => ghostOf it.mesh.topo.cellData) subs sizes names M table pos node := by
  set kit : UKit ℝ LineTopo (Resolution ℝ × Option String) :=
    lineKitU quad (fun a b r => generateSurface area a b (stackPlane axis) r.1 r.2) tri with hkit
  have hkn : ∀ m : Surf ℝ LineTopo, (kit.labels m).nCells = m.points.length - 1 := fun m => rfl
  have hlab : ∀ it ∈ a :: b :: rest, ∀ c, (kit.labels it.mesh).cellGroup = some c →
      c.length = (kit.labels it.mesh).nCells := by
    intro it hit c hc
    simp only [hkit, lineKitU, groupCodes, Option.map_eq_some_iff] at hc
    obtain ⟨g, hg, rfl⟩ := hc
    exact (hline it hit).clean.cdLen _ (Dict.get?_mem hg)
  have hX : ∀ (k : ℕ) x, (a :: b :: rest)[k]? = some x → StackLine x.mesh.points.length x.mesh :=
    fun k x hx => hline x (List.mem_of_getElem? hx)
  have hY : ∀ (k : ℕ) y, (b :: rest)[k]? = some y → StackLine y.mesh.points.length y.mesh :=
    fun k y hy => hline y (List.mem_cons_of_mem _ (List.mem_of_getElem? hy))
  have hstrip : ∀ (k : ℕ) x y o arr, (a :: b :: rest)[k]? = some x → (b :: rest)[k]? = some y → y.opts = some o →
      y.transition = false → arr.length = (kit.labels x.mesh).nCells →
      x.mesh.points.length = y.mesh.points.length ∧ fromZeroToOne (percOf o.sub) ∧
      ∃ p, kit.extrude (kit.withGroup x.mesh arr) y.mesh o.sub = .ok p ∧
        StripU (QuadType area quad axis (ghostOf x.mesh.topo.cellData) x.mesh.points y.mesh.points (percOf o.sub))
          x.mesh.points.length x.mesh.points y.mesh.points (percOf o.sub) arr p := by
    intro k x y o arr hx hy hoo ht harr
    obtain ⟨o', h1, h2⟩ := hpair k x y hx hy
    rw [hoo] at h1; cases h1
    obtain ⟨e1, ts, e2, e3⟩ := h2 ht
    rw [percOf_ok e2]
    exact ⟨e1, e3, lineKitU_strip harea hax (hX k x hx) (by rw [e1]; exact hY k y hy) e2 e3 harr⟩
  have hsize2 : ∀ (k : ℕ) x, (a :: b :: rest)[k]? = some x → 2 ≤ x.mesh.points.length :=
    fun k x hx => (hX k x hx).clean.size
  have main : ∀ qs groups, submeshesU kit ignore dflt "StackItem" a (b :: rest) [] 0 0 = .ok (qs, groups) →
      ∃ M table, assembleU kit vtk ignore dflt "StackItem" (a :: b :: rest) = .ok (M, table) ∧
      ∃ subs sizes names pos node, subs.length = rest.length + 1 ∧ sizes.length = rest.length + 1 ∧
        names.length = rest.length + 1 ∧
        (∀ (k : ℕ) x y o, (a :: b :: rest)[k]? = some x → (b :: rest)[k]? = some y → y.opts = some o →
          ∃ name, names[k]? = some name ∧
          (y.transition = false → (∃ ts, resolutionToPerc o.sub.1 o.sub.2 = .ok ts ∧ subs[k]? = some (some ts)) ∧
            Labels ignore dflt (x.mesh.points.length - 1) (groupCodes x.mesh.topo.cellData) x.mesh.topo.table o.group
              name) ∧
          (y.transition = true → subs[k]? = some none ∧ ∃ p, tri (x.mesh.points ++ y.mesh.points.reverse) = .ok p ∧
            Labels ignore dflt p.cells.length (groupCodes p.cellData) none o.group name)) ∧
        StackedT area quad axis R tri "StackItem" ((a :: b :: rest).map fun it => it.mesh.points)
          ((a :: b :: rest).map fun it => ghostOf it.mesh.topo.cellData) subs sizes names M table pos node := by
    intro qs groups h
    obtain ⟨h1, _, h3, nsubs, h4, h5⟩ := submeshesU_ok kit (key := "StackItem") ⟨by decide, by decide, by decide⟩
      (b :: rest) a [] groups 0 0 qs hlab
      (fun k x y o hx hy hoo => ⟨fun arr p harr ht hp => by
          obtain ⟨_, _, p', hp', hst⟩ := hstrip k x y o arr hx hy hoo ht harr
          rw [hp] at hp'; cases hp'
          have := hsize2 k x hx
          exact ⟨hst.arrays, by rw [hkn]; omega, _, hst.size⟩,
        fun arr p _ _ hp => hdat _ p hp⟩) ⟨by simp, by simp⟩ h
    let dx : TItem ℝ LineTopo (Resolution ℝ × Option String) → Option (List ℝ) := fun y =>
      if y.transition then none else some ((y.opts.map fun o => percOf o.sub).getD [])
    have hblock : ∀ (k : ℕ) y, (b :: rest)[k]? = some y → ∃ name : ℕ → String, ∃ x o q,
        (a :: b :: rest)[k]? = some x ∧ y.opts = some o ∧ qs[k]? = some q ∧
        nsubs[k]? = some (((dx y).map fun ts => ts.length - 1).getD 1) ∧
        (y.transition = false → Labels ignore dflt (x.mesh.points.length - 1) (groupCodes x.mesh.topo.cellData)
          x.mesh.topo.table o.group name) ∧
        (y.transition = true → ∃ p, tri (x.mesh.points ++ y.mesh.points.reverse) = .ok p ∧
            Labels ignore dflt p.cells.length (groupCodes p.cellData) none o.group name) ∧
        PartT (QuadType area quad axis (ghostOf x.mesh.topo.cellData) x.mesh.points y.mesh.points) tri "StackItem"
          x.mesh.points y.mesh.points (dx y) name groups ((nsubs.take k).sum) k q := by
      intro k y hy
      obtain ⟨x, o, ns, arr, name, p, q, e1, e2, e3, e4, e5⟩ := h5 k y hy
      obtain ⟨f1, name', f2, f3, f4⟩ := partT_of_block
        (kind := QuadType area quad axis (ghostOf x.mesh.topo.cellData) x.mesh.points y.mesh.points) (tri := tri) (ts := percOf o.sub) (key := "StackItem")
        ⟨by decide, by decide, by decide, by decide⟩ e5 (hkn _) (hsize2 k x e1)
        (fun ht => by
          obtain ⟨g1, g2, p', g3, g4⟩ := hstrip k x y o arr e1 hy e2 ht e5.size
          rw [(e5.plain ht).1] at g3; cases g3
          exact ⟨g1, g2, g4⟩)
        (fun ht => (e5.trans ht).1)
      have hdx : dx y = if y.transition then none else some (percOf o.sub) := by
        simp only [dx, e2, Option.map_some, Option.getD_some]
      refine ⟨name', x, o, q, e1, e2, e4, ?_, ?_, ?_, ?_⟩
      · rw [e3, f1, hdx]
        cases y.transition <;> rfl
      · intro ht
        rw [f2 ht]
        exact e5.labels
      · intro ht
        exact ⟨p, (e5.trans ht).1, f3 ht⟩
      · rw [hdx]
        simpa using f4
    choose nm hnm using fun (k : Fin (b :: rest).length) => hblock k _ (List.getElem?_eq_getElem k.2)
    let subs := (b :: rest).map dx
    let names := List.ofFn nm
    have hnames : ∀ (k : ℕ) (hk : k < (b :: rest).length), names[k]? = some (nm ⟨k, hk⟩) := by
      intro k hk
      simp only [names, List.getElem?_ofFn, hk, dif_pos]
    have hsz : nsubs = subs.map fun o => (o.map fun ts => ts.length - 1).getD 1 := by
      apply List.ext_getElem?
      intro k
      rw [List.getElem?_map]
      by_cases hk : k < (b :: rest).length
      · obtain ⟨x, o, q, _, _, _, e4, _⟩ := hnm ⟨k, hk⟩
        rw [e4]
        simp only [subs, List.getElem?_map, List.getElem?_eq_getElem hk, Option.map_some]
      · rw [List.getElem?_eq_none (by omega), List.getElem?_eq_none (by simp only [subs, List.length_map]; omega)]; rfl
    obtain ⟨m, M, table, pos, node, m1, m2, _, m3⟩ := stackedT_of_parts ho hc htri (key := "StackItem")
      ⟨by decide, by decide⟩ h1 (lines := (a :: b :: rest).map fun it => it.mesh.points)
      (flags := (a :: b :: rest).map fun it => ghostOf it.mesh.topo.cellData) (subs := subs)
      (names := names) (qs := qs) (by intro e; rw [e] at h3; simp at h3)
      (by
        intro k q hk
        have hk' : k < (b :: rest).length := by rw [← h3]; exact (List.getElem?_eq_some_iff.1 hk).1
        obtain ⟨x, o, q', e1, e2, e3, e4, _, _, e5⟩ := hnm ⟨k, hk'⟩
        simp only at e1 e2 e3 e4 e5
        rw [hk] at e3; cases e3
        refine ⟨x.mesh.points, (b :: rest)[k].mesh.points, ghostOf x.mesh.topo.cellData, dx (b :: rest)[k],
          nm ⟨k, hk'⟩, ?_, ?_, ?_, ?_, hnames k hk', ?_⟩
        · rw [List.getElem?_map, e1]; rfl
        · rw [List.getElem?_map, List.getElem?_cons_succ, List.getElem?_eq_getElem hk']; rfl
        · rw [List.getElem?_map, e1]; rfl
        · simp only [subs, List.getElem?_map, List.getElem?_eq_getElem hk', Option.map_some]
        · have : layersT subs k = (nsubs.take k).sum := by rw [layersT, hsz, List.map_take]
          rw [this]; exact e5)
    refine ⟨M, table, by simp only [assembleU, h, m1, m2], subs, _, names, pos, node, by simp [subs],
      by simp [h3], by simp [names], ?_, m3 (by simp [subs, h3]) (by simp [names, h3])⟩
    intro k x y o hx hy hoo
    have hk' := (List.getElem?_eq_some_iff.1 hy).1
    obtain ⟨x', o', q', e1, e2, e3, e4, e5, e6, e7⟩ := hnm ⟨k, hk'⟩
    simp only at e1 e2 e5 e6 e7
    have hyk : (b :: rest)[k] = y := (List.getElem?_eq_some_iff.1 hy).2
    rw [hx] at e1; cases e1
    rw [hyk] at e2 e5 e6
    rw [hoo] at e2; cases e2
    have hs : subs[k]? = some (dx y) := by simp only [subs, List.getElem?_map, hy, Option.map_some]
    refine ⟨nm ⟨k, hk'⟩, hnames k hk', fun ht => ⟨?_, e5 ht⟩, fun ht => ⟨?_, e6 ht⟩⟩
    · obtain ⟨o', h1, h2⟩ := hpair k x y hx hy
      rw [hoo] at h1; cases h1
      obtain ⟨_, ts, t1, _⟩ := h2 ht
      refine ⟨ts, t1, ?_⟩
      rw [hs]
      simp only [dx, ht, Bool.false_eq_true, if_false, hoo, Option.map_some, Option.getD_some, percOf_ok t1]
    · rw [hs]
      simp only [dx, ht, if_true]
  constructor
  · intro hacc
    obtain ⟨r, hr⟩ := submeshesT_total kit (ignore := ignore) (dflt := dflt) (key := "StackItem")
      ⟨by decide, by decide, by decide⟩ (b :: rest) a [] 0 0 hlab
      (by
        intro k x y hx hy
        obtain ⟨o, h1, h2⟩ := hpair k x y hx hy
        obtain ⟨a1, a2⟩ := hacc k x y o hx hy h1
        refine ⟨o, h1, a1, ?_, ?_⟩
        · intro ht arr harr
          obtain ⟨_, _, p, hp, hst⟩ := hstrip k x y o arr hx hy h1 ht harr
          have := hsize2 k x hx
          exact ⟨p, hp, hst.arrays, by rw [hkn]; omega, _, hst.size⟩
        · intro ht arr _
          obtain ⟨p, p1, p2⟩ := a2 ht
          exact ⟨p, p1, hdat _ p p1, p2⟩)
      ⟨by simp, by simp⟩
    obtain ⟨M, table, h, _⟩ := main r.1 r.2 hr
    exact ⟨_, h⟩
  · intro M table h
    have h' := h
    simp only [assembleU] at h'
    split at h'
    · cases h'
    rename_i qs groups hsub
    obtain ⟨M', table', e1, e2⟩ := main qs groups hsub
    rw [h] at e1
    obtain ⟨rfl, rfl⟩ := Prod.mk.inj (Except.ok.inj e1)
    exact e2

/-! ## the calls -/

namespace Spec
variable {K τ ω : Type _}

/-- The options of the `add` calls, and whether `set_transition` was called since the one before. -/
def planned : Bool → List (Call K τ ω) → List (ω × Bool)
  | _, [] => []
  | f, .add _ _ w _ _ :: cs => (w, f) :: planned false cs
  | _, .setTransition _ :: cs => planned true cs

/-- No scalar is added right after `set_transition`. -/
def NoScalarAfter : Bool → List (Call K τ ω) → Prop
  | _, [] => True
  | f, .add arg _ _ _ _ :: cs => (f = true → NotScalar arg) ∧ NoScalarAfter false cs
  | _, .setTransition _ :: cs => NoScalarAfter true cs

end Spec

section
variable {K τ ω : Type _} [Field K] [LinearOrder K]

/-- A new item has the cells and the number of points of the base, or of the last item if it is given by a scalar. -/
theorem newMesh_like {o : InterpOracle K} {s : Stack K τ ω} {arg : AddArg K} {e : Option String} {m : Surf K τ}
    (h : newMesh o s arg e = .ok m) :
    (m.topo = s.mesh.topo ∧ m.points.length = s.mesh.points.length) ∨
    (¬ NotScalar arg ∧ ∃ it, s.items.getLast? = some it ∧ m.topo = it.mesh.topo ∧
      m.points.length = it.mesh.points.length) := by
  by_cases hn : NotScalar arg
  · obtain ⟨h1, h2, _⟩ := newMesh_base h hn
    exact .inl ⟨h1, h2⟩
  · cases arg with
    | scalar x =>
      simp only [newMesh] at h
      split at h
      · cases h
        exact .inl ⟨rfl, by simp⟩
      · rename_i it hit
        cases h
        exact .inr ⟨hn, it, hit, rfl, by simp⟩
    | _ => exact absurd trivial hn

/-- The items of a stack after any calls. -/
theorem run_lines {o : InterpOracle K} {Q : Surf K τ → Prop}
    (hQ : ∀ m m' : Surf K τ, Q m → m'.topo = m.topo → m'.points.length = m.points.length → Q m') :
    ∀ (calls : List (Call K τ ω)) (s s' : Stack K τ ω), s.run o calls = .ok s' → Q s.mesh →
    (∀ m, Call.setTransition m ∈ calls → Q m) → (∀ it ∈ s.items, Q it.mesh) →
    s'.axis = s.axis ∧ s'.bottomUp = s.bottomUp ∧ (∀ it ∈ s'.items, Q it.mesh) ∧
      (∃ new, s'.items = s.items ++ new ∧ new.length = (planned s.flag calls).length ∧
        ∀ (k : ℕ) it w, new[k]? = some it → (planned s.flag calls)[k]? = some w → s.items.length + k ≠ 0 →
          it.opts = some w.1 ∧ it.transition = w.2) ∧
      (NoScalarAfter s.flag calls →
        (∀ it, s.items.getLast? = some it → s.flag = false → it.mesh.points.length = s.mesh.points.length) →
        (∀ (k : ℕ) x y, s.items[k]? = some x → s.items[k + 1]? = some y → y.transition = false →
          x.mesh.points.length = y.mesh.points.length) →
        ∀ (k : ℕ) x y, s'.items[k]? = some x → s'.items[k + 1]? = some y → y.transition = false →
          x.mesh.points.length = y.mesh.points.length) := by
  intro calls
  induction calls with
  | nil =>
    intro s s' h _ _ hs
    simp only [Stack.run, Except.ok.injEq] at h
    subst h
    exact ⟨rfl, rfl, hs, ⟨[], by simp, rfl, by simp⟩, fun _ _ h => h⟩
  | cons c calls ih =>
    intro s s' h hm hc hs
    cases c with
    | setTransition m =>
      simp only [Stack.run, Stack.call, Stack.setTransition] at h
      obtain ⟨h1, h2, h3, h4, h5⟩ := ih _ s' h (hc m (by simp))
        (fun m' hm' => hc m' (List.mem_cons_of_mem _ hm')) hs
      exact ⟨h1, h2, h3, h4, fun n1 _ n3 => h5 n1 (fun _ _ hf => by simp at hf) n3⟩
    | add arg e w p t =>
      simp only [Stack.run, Stack.call, Stack.add] at h
      cases hmesh : newMesh o s arg e with
      | error _ => rw [hmesh] at h; cases h
      | ok m =>
        rw [hmesh] at h
        simp only at h
        set item : Item K τ ω := if s.items.isEmpty then ⟨m, p, 0, false, none⟩ else ⟨m, p, t, s.flag, some w⟩
          with hitem
        have him : item.mesh = m := by rw [hitem]; split <;> rfl
        have hlike := newMesh_like hmesh
        have hQm : Q m := by
          rcases hlike with ⟨e1, e2⟩ | ⟨_, it, hit, e1, e2⟩
          · exact hQ _ _ hm e1 e2
          · exact hQ _ _ (hs it (List.mem_of_getLast? hit)) e1 e2
        obtain ⟨h1, h2, h3, ⟨new, h4, h5, h6⟩, h7⟩ := ih _ s' h hm
          (fun m' hm' => hc m' (List.mem_cons_of_mem _ hm')) (by
            intro it hit
            rcases List.mem_append.1 hit with hit | hit
            · exact hs it hit
            · rw [List.mem_singleton] at hit; subst hit; rw [him]; exact hQm)
        simp only at h1 h2 h4 h5 h6 h7
        refine ⟨h1, h2, h3, ⟨item :: new, by rw [h4]; simp, by simp [planned, h5], ?_⟩, ?_⟩
        · intro k it w' hit hw hne
          cases k with
          | zero =>
            simp only [planned, List.getElem?_cons_zero, Option.some.injEq] at hit hw
            subst hit; subst hw
            have : s.items.isEmpty = false := by
              cases hi : s.items with
              | nil => rw [hi] at hne; simp at hne
              | cons _ _ => rfl
            rw [hitem]; simp [this]
          | succ k =>
            simp only [planned, List.getElem?_cons_succ] at hit hw
            exact h6 k it w' hit hw (by simp)
        · intro n1 n2 n3
          simp only [NoScalarAfter] at n1
          -- the new item has the size of the base
          have hsz : m.points.length = s.mesh.points.length := by
            rcases hlike with ⟨_, e2⟩ | ⟨hns, it, hit, _, e2⟩
            · exact e2
            · rw [e2]
              refine n2 it hit ?_
              cases hf : s.flag with
              | false => rfl
              | true => exact absurd (n1.1 hf) hns
          refine h7 n1.2 ?_ ?_
          · intro it hit _
            simp only [List.getLast?_append, List.getLast?_singleton, Option.some_or, Option.some.injEq] at hit
            rw [← hit, him, hsz]
          · intro k x y hx hy ht
            rcases Nat.lt_trichotomy (k + 1) s.items.length with hk | hk | hk
            · rw [List.getElem?_append_left (by omega)] at hx
              rw [List.getElem?_append_left hk] at hy
              exact n3 k x y hx hy ht
            · rw [List.getElem?_append_left (by omega)] at hx
              rw [List.getElem?_append_right (by omega), hk, Nat.sub_self] at hy
              simp only [List.getElem?_cons_zero, Option.some.injEq] at hy
              subst hy
              rw [him, hsz]
              refine n2 x ?_ ?_
              · rw [List.getLast?_eq_getElem?, ← hk]; exact hx
              · have hne : s.items.isEmpty = false := by
                  cases hi : s.items with
                  | nil => rw [hi] at hk; simp at hk
                  | cons _ _ => rfl
                rw [hitem] at ht
                simpa [hne] using ht
            · exfalso
              have := (List.getElem?_eq_some_iff.1 hy).1
              simp at this
              omega

/-- The cut pass needs, and only needs, lines of the same size below items that are no transition. -/
theorem cutFrom_sizes {axis : Fin 3} {bu : Bool} : ∀ (rest : List (Item K τ ω)) (a : Item K τ ω),
    (∃ out, cutFrom axis bu a rest = .ok out) ↔
    ∀ (k : ℕ) x y, (a :: rest)[k]? = some x → rest[k]? = some y → y.transition = false →
      x.mesh.points.length = y.mesh.points.length := by
  intro rest
  induction rest with
  | nil => intro a; simp [cutFrom]
  | cons b rest ih =>
    intro a
    have hb : ∀ b' : Item K τ ω, b'.mesh.points.length = b.mesh.points.length →
        ((∀ (k : ℕ) x y, (b' :: rest)[k]? = some x → rest[k]? = some y → y.transition = false →
          x.mesh.points.length = y.mesh.points.length) ↔
        ∀ (k : ℕ) x y, (b :: rest)[k]? = some x → rest[k]? = some y → y.transition = false →
          x.mesh.points.length = y.mesh.points.length) := by
      intro b' hl
      constructor <;> intro h k x y hx hy ht <;> cases k with
      | zero =>
        simp only [List.getElem?_cons_zero, Option.some.injEq] at hx
        subst hx
        first
          | (rw [← hl]; exact h 0 b' y rfl hy ht)
          | (rw [hl]; exact h 0 b y rfl hy ht)
      | succ k => exact h (k + 1) x y (by simpa using hx) hy ht
    constructor
    · rintro ⟨out, h⟩ k x y hx hy ht
      rcases cutFrom_cons h with ⟨h1, out', h2, _⟩ | ⟨h1, a', b', out', h2, h3, _⟩
      · cases k with
        | zero =>
          simp only [List.getElem?_cons_zero, Option.some.injEq] at hy
          subst hy; rw [h1] at ht; cases ht
        | succ k => exact (ih b).1 ⟨_, h2⟩ k x y (by simpa using hx) (by simpa using hy) ht
      · obtain ⟨e1, _, e3, _⟩ := cutPair_spec h2
        cases k with
        | zero =>
          simp only [List.getElem?_cons_zero, Option.some.injEq] at hx hy
          subst hx; subst hy; exact e1
        | succ k =>
          exact (hb b' e3.length).1 ((ih b').1 ⟨_, h3⟩) k x y (by simpa using hx) (by simpa using hy) ht
    · intro h
      have hrest : ∀ (k : ℕ) x y, (b :: rest)[k]? = some x → rest[k]? = some y → y.transition = false →
          x.mesh.points.length = y.mesh.points.length := fun k x y hx hy => h (k + 1) x y (by simpa using hx)
        (by simpa using hy)
      simp only [cutFrom]
      cases ht : b.transition with
      | true =>
        obtain ⟨out, ho⟩ := (ih b).2 hrest
        simp only [if_true, ho]
        exact ⟨_, rfl⟩
      | false =>
        simp only [Bool.false_eq_true, if_false]
        cases hc : cutPair axis bu a b with
        | error e =>
          exfalso
          simp only [cutPair, h 0 a b rfl rfl ht, ne_eq, not_true_eq_false, if_false] at hc
          split at hc <;> cases hc
        | ok ab =>
          obtain ⟨a', b'⟩ := ab
          obtain ⟨_, _, sb, _⟩ := cutPair_spec hc
          obtain ⟨out, ho⟩ := (ih b').2 ((hb b' sb.length).2 hrest)
          exact ⟨_, by simp only [ho]; rfl⟩

end

/-- **C104 (partial).** A 2D stack along y or z, filled by any sequence of `add` and `set_transition` calls.
It is generated if no scalar is added right after `set_transition`, the outlines can be triangulated, and the group
arguments fit the line below, those of transitions any mesh.  Every generated mesh consists of one part per item after
the first: a strip of quads at the given fractions between the line below and the line of the item, or, for the first
item after `set_transition`, the triangulation of the outline of the two lines.  Each cell carries the layer (a
transition is one layer), the column (-1 in transitions), the item, and a group code that stands for the label that the
group argument gives it.  Every point of a line between two parts is one node that cells of both parts have.
Assumed: `pv.merge` and `clean` as in C97; the triangulation keeps the points of the outline.  `quad` are the types VTK
reports for quads with a ghost flag, 9 for the flag 0.
Missing: stacking along x, where it is false (`C104_axis0_refuted`); vector data on the cells of the lines; that the triangles fill the outline (C87). -/
theorem C104_transition_partial (quad : ℤ → ℤ) {R : V3 ℝ → V3 ℝ → Prop} {vtk : VtkOracle ℝ} (ho : AppendsAll vtk.order)
    (hc : Cleans R vtk.clean) {area : Arr3 (V3 ℝ) → List ℝ} (harea : ∀ x, (area x).length = count (cells x.d))
    {tri : List (V3 ℝ) → Py (UMesh ℝ)} (htri : KeepsOutline tri)
    (hdat : ∀ pts p, tri pts = .ok p → Arrays p.cells.length p.cellData) (ignore : List String) (dflt : String)
    (o : InterpOracle ℝ) (mesh : Surf ℝ LineTopo) (hmesh : StackLine mesh.points.length mesh) (axis : Fin 3)
    (hax : axis ≠ 0) (bottomUp : Bool) (calls : List (Call ℝ LineTopo (Opts (Resolution ℝ × Option String))))
    (hlines : ∀ m, Call.setTransition m ∈ calls → StackLine m.points.length m)
    (hres : ∀ w ∈ (planned false calls).tail, w.2 = false →
      ∃ ts, resolutionToPerc w.1.sub.1 w.1.sub.2 = .ok ts ∧ fromZeroToOne ts)
    (s : Stack ℝ LineTopo (Opts (Resolution ℝ × Option String)))
    (hs : (Stack.new mesh axis bottomUp).run o calls = .ok s) :
    (2 ≤ (planned false calls).length → NoScalarAfter false calls →
      (∀ (k : ℕ) x w, s.items[k]? = some x → (planned false calls)[k + 1]? = some w →
        Acceptable (x.mesh.points.length - 1) w.1.group ∧ (w.2 = true → ∀ n, Acceptable n w.1.group)) →
      (∀ pts : List (V3 ℝ), 4 ≤ pts.length → ∃ p, tri pts = .ok p) →
      ∃ r, stack2DT quad area tri vtk ignore dflt s = .ok r) ∧
    ∀ M table s', stack2DT quad area tri vtk ignore dflt s = .ok ((M, table), s') →
      s'.items.length = (planned false calls).length ∧
      (∀ (k : ℕ) x, s.items[k]? = some x → ∃ y, s'.items[k]? = some y ∧ SameBut axis x y) ∧
      ∃ subs sizes names pos node, subs.length + 1 = s'.items.length ∧ sizes.length + 1 = s'.items.length ∧
        names.length + 1 = s'.items.length ∧
        (∀ (k : ℕ) x y w, s'.items[k]? = some x → s'.items[k + 1]? = some y →
          (planned false calls)[k + 1]? = some w → ∃ name, names[k]? = some name ∧
          (w.2 = false → (∃ ts, resolutionToPerc w.1.sub.1 w.1.sub.2 = .ok ts ∧ subs[k]? = some (some ts)) ∧
            Labels ignore dflt (x.mesh.points.length - 1) (groupCodes x.mesh.topo.cellData) x.mesh.topo.table w.1.group
              name) ∧
          (w.2 = true → subs[k]? = some none ∧ ∃ p, tri (x.mesh.points ++ y.mesh.points.reverse) = .ok p ∧
            Labels ignore dflt p.cells.length (groupCodes p.cellData) none w.1.group name)) ∧
        StackedT area quad axis R tri "StackItem" (s'.items.map fun it => it.mesh.points)
          (s'.items.map fun it => ghostOf it.mesh.topo.cellData) subs sizes names M table pos node := by
  obtain ⟨h1, h2, h3, ⟨new, h4, h5, h6⟩, h7⟩ := run_lines (o := o)
    (Q := fun m : Surf ℝ LineTopo => StackLine m.points.length m)
    (by
      intro m m' hm ht hl
      obtain ⟨⟨c1, c2, c3, c4, c5, c6⟩, c7, c8⟩ := hm
      exact ⟨⟨by rw [ht, hl]; exact c1, by rw [hl]; exact c2, by rw [ht, hl]; exact c3, by rw [ht, hl]; exact c4,
        by rw [ht]; exact c5, by rw [ht]; exact c6⟩, rfl, by rw [ht]; exact c8⟩)
    calls _ s hs hmesh hlines (by simp [Stack.new])
  simp only [Stack.new, List.nil_append, List.length_nil, Nat.zero_add] at h1 h2 h4 h5 h6 h7
  have hlen : s.items.length = (planned false calls).length := by rw [h4, h5]
  -- the items after the cut pass
  have hcut : ∀ a rest out, s.items = a :: rest → cutFrom axis bottomUp a rest = .ok out → rest ≠ [] →
      ∃ x y l, (out.map fun it => (⟨it.mesh, it.opts, it.transition⟩ :
          TItem ℝ LineTopo (Resolution ℝ × Option String))) = x :: y :: l ∧ out.length = s.items.length ∧
        (∀ (k : ℕ) x, s.items[k]? = some x → ∃ y, out[k]? = some y ∧ SameBut axis x y) ∧
        (∀ it ∈ x :: y :: l, StackLine it.mesh.points.length it.mesh) ∧
        (∀ (k : ℕ) x' y', (x :: y :: l)[k]? = some x' → (y :: l)[k]? = some y' → ∃ o, PairT x' y' o) ∧
        (∀ (k : ℕ) y' w, (y :: l)[k]? = some y' → (planned false calls)[k + 1]? = some w →
          y'.opts = some w.1 ∧ y'.transition = w.2) := by
    intro a rest out hi hcut hne
    obtain ⟨e1, e2⟩ := cutFrom_same hcut
    have hol : out.length = s.items.length := by rw [e1, hi]; rfl
    have hback : ∀ (k : ℕ) z, out[k]? = some z → ∃ x, s.items[k]? = some x ∧ SameBut axis x z := by
      intro k z hz
      have hk : k < (a :: rest).length := by
        have := (List.getElem?_eq_some_iff.1 hz).1; simp only [List.length_cons]; omega
      obtain ⟨y, hy, sy⟩ := e2 k _ (List.getElem?_eq_getElem hk)
      rw [hz] at hy; cases hy
      exact ⟨_, by rw [hi]; exact List.getElem?_eq_getElem hk, sy⟩
    have hopt : ∀ (k : ℕ) z w, out[k + 1]? = some z → (planned false calls)[k + 1]? = some w →
        z.opts = some w.1 ∧ z.transition = w.2 := by
      intro k z w hz hw
      obtain ⟨x, hx, sx⟩ := hback (k + 1) z hz
      rw [h4] at hx
      obtain ⟨f1, f2⟩ := h6 (k + 1) x w hx hw (by simp)
      exact ⟨by rw [sx.opts, f1], by rw [sx.transition, f2]⟩
    have hQ : ∀ (k : ℕ) z, out[k]? = some z → StackLine z.mesh.points.length z.mesh := by
      intro k z hz
      obtain ⟨x, hx, sx⟩ := hback k z hz
      obtain ⟨⟨c1, c2, c3, c4, c5, c6⟩, _, c8⟩ := h3 x (List.mem_of_getElem? hx)
      have ht := sx.topo
      have hl := sx.length
      exact ⟨⟨by rw [ht, hl]; exact c1, by rw [hl]; exact c2, by rw [ht, hl]; exact c3, by rw [ht, hl]; exact c4,
        by rw [ht]; exact c5, by rw [ht]; exact c6⟩, rfl, by rw [ht]; exact c8⟩
    have hplain := (cutFrom_sizes (axis := axis) (bu := bottomUp) rest a).1 ⟨out, hcut⟩
    match hq : out with
    | [] => simp at e1
    | [_] => simp only [List.length_cons, List.length_nil] at e1
             exact absurd (List.length_eq_zero_iff.1 (by omega)) hne
    | x :: y :: l =>
      set tit : Item ℝ LineTopo (Opts (Resolution ℝ × Option String)) →
        TItem ℝ LineTopo (Resolution ℝ × Option String) := fun it => ⟨it.mesh, it.opts, it.transition⟩ with htit
      have hun : ∀ (k : ℕ) z, (tit x :: tit y :: l.map tit)[k]? = some z →
          ∃ it, (x :: y :: l)[k]? = some it ∧ z = tit it := by
        intro k z hz
        rw [← List.map_cons, ← List.map_cons, List.getElem?_map, Option.map_eq_some_iff] at hz
        obtain ⟨it, hit, rfl⟩ := hz
        exact ⟨it, hit, rfl⟩
      refine ⟨tit x, tit y, l.map tit, rfl, hol, ?_, ?_, ?_, ?_⟩
      · intro k z hz
        rw [hi] at hz
        exact e2 k z hz
      · intro z hz
        obtain ⟨k, hk⟩ := List.getElem?_of_mem hz
        obtain ⟨it, hit, rfl⟩ := hun k z hk
        exact hQ k it hit
      · intro k x' y' hx hy
        obtain ⟨u, hu, rfl⟩ := hun k x' hx
        obtain ⟨v, hv, rfl⟩ := hun (k + 1) y' (by simpa using hy)
        have hk : k + 1 < (planned false calls).length := by
          rw [← hlen, ← hol]; exact (List.getElem?_eq_some_iff.1 hv).1
        obtain ⟨g1, g2⟩ := hopt k v _ hv (List.getElem?_eq_getElem hk)
        refine ⟨_, g1, fun ht => ⟨?_, ?_⟩⟩
        · obtain ⟨u0, hu0, su⟩ := hback k u hu
          obtain ⟨v0, hv0, sv⟩ := hback (k + 1) v hv
          rw [hi] at hu0 hv0
          have := hplain k u0 v0 hu0 (by simpa using hv0) (by rw [← sv.transition]; exact ht)
          simp only [htit]
          rw [su.length, sv.length, this]
        · refine hres _ ?_ (by rw [← g2]; exact ht)
          refine List.mem_of_getElem? (i := k) ?_
          rw [List.getElem?_tail]
          exact List.getElem?_eq_getElem hk
      · intro k y' w hy hw
        obtain ⟨v, hv, rfl⟩ := hun (k + 1) y' (by simpa using hy)
        exact hopt k v w hv hw
  constructor
  · intro hn hns hacc htot
    have hl2 : 2 ≤ s.items.length := by omega
    obtain ⟨a, b, rest, hitems⟩ : ∃ a b rest, s.items = a :: b :: rest := by
      match hi : s.items with
      | [] => rw [hi] at hl2; simp at hl2
      | [_] => rw [hi] at hl2; simp at hl2
      | a :: b :: rest => exact ⟨a, b, rest, rfl⟩
    have hpl := h7 hns (by simp) (by simp)
    rw [hitems] at hpl
    obtain ⟨out, hout⟩ := (cutFrom_sizes (axis := axis) (bu := bottomUp) (b :: rest) a).2
      (fun k x y hx hy => hpl k x y hx (by simpa using hy))
    obtain ⟨x, y, l, g0, g1, g2, g3, g4, g5⟩ := hcut a (b :: rest) out hitems hout (by simp)
    have hg1 : (x :: y :: l).length = (planned false calls).length := by rw [← g0, List.length_map, g1, hlen]
    obtain ⟨r, hr⟩ := (items_stackedT (quad := quad) ho hc harea htri hdat hax ignore dflt x y l g3 g4).1 (by
      intro k x' y' o' hx hy hoo
      have hk : k + 1 < (planned false calls).length := by
        have := (List.getElem?_eq_some_iff.1 hy).1; simp only [List.length_cons] at hg1 this; omega
      have hw := List.getElem?_eq_getElem hk
      obtain ⟨f1, f2⟩ := g5 k y' _ hy hw
      rw [hoo] at f1; cases f1
      have hx0 : ∃ x0, s.items[k]? = some x0 ∧ x0.mesh.points.length = x'.mesh.points.length := by
        have hk' : k < s.items.length := by omega
        obtain ⟨z, hz, sz⟩ := g2 k _ (List.getElem?_eq_getElem hk')
        rw [← g0, List.getElem?_map, hz] at hx
        simp only [Option.map_some, Option.some.injEq] at hx
        exact ⟨_, List.getElem?_eq_getElem hk', by rw [← hx]; exact sz.length.symm⟩
      obtain ⟨x0, hx0, hxl⟩ := hx0
      obtain ⟨a1, a2⟩ := hacc k x0 _ hx0 hw
      refine ⟨by rw [← hxl]; exact a1, fun ht => ?_⟩
      have l1 := (g3 x' (List.mem_of_getElem? hx)).clean.size
      have l2 := (g3 y' (List.mem_cons_of_mem _ (List.mem_of_getElem? hy))).clean.size
      obtain ⟨p, hp⟩ := htot (x'.mesh.points ++ y'.mesh.points.reverse) (by simp; omega)
      exact ⟨p, hp, a2 (by rw [← f2]; exact ht) _⟩)
    refine ⟨(r, { s with items := out }), ?_⟩
    simp only [stack2DT, Stack.generateU, Stack.generate, hitems, h1, h2, hout, g0, hr]
  · intro M table s' h
    obtain ⟨a, rest, i1, i2, i3, _, i5⟩ := generate_inv h
    rw [h1, h2] at i2
    obtain ⟨x, y, l, g0, g1, g2, g3, g4, g5⟩ := hcut a rest s'.items i1 i2 i5
    rw [g0, h1] at i3
    obtain ⟨subs, sizes, names, pos, node, n1, n2, n3, n4, n5⟩ :=
      (items_stackedT (quad := quad) ho hc harea htri hdat hax ignore dflt x y l g3 g4).2 M table i3
    have hl' : s'.items.length = l.length + 2 := by
      have := congrArg List.length g0; simpa using this
    refine ⟨by rw [g1, hlen], g2, subs, sizes, names, pos, node, by omega, by omega, by omega, ?_, ?_⟩
    · intro k x' y' w hx hy hw
      have hx2 : (x :: y :: l)[k]? = some ⟨x'.mesh, x'.opts, x'.transition⟩ := by
        rw [← g0, List.getElem?_map, hx]; rfl
      have hy2 : (y :: l)[k]? = some ⟨y'.mesh, y'.opts, y'.transition⟩ := by
        have : (x :: y :: l)[k + 1]? = some ⟨y'.mesh, y'.opts, y'.transition⟩ := by
          rw [← g0, List.getElem?_map, hy]; rfl
        simpa using this
      obtain ⟨f1, f2⟩ := g5 k _ w hy2 hw
      simp only at f1 f2
      obtain ⟨name, m1, m2, m3⟩ := n4 k _ _ w.1 hx2 hy2 f1
      exact ⟨name, m1, fun ht => m2 (by simp only; rw [f2, ht]), fun ht => m3 (by simp only; rw [f2, ht])⟩
    · rw [← g0, List.map_map, List.map_map] at n5
      exact n5

end Gridder
