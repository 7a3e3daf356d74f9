import Verif.Props.MergeU
import Verif.Props.StackMesh
import Verif.Props.Extrude
import Verif.Props.ExtrudeGeom

/-!
# C97, C98, C103 on unstructured surfaces
-/

namespace Gridder
open Spec

section
variable {K τ ρ : Type _}

/-- What the loop does with one pair of items: the mesh `p` between them, labelled. -/
structure BlockU (kit : UKit K τ ρ) (ignore : List String) (dflt key : String) (groups : Dict String Int)
    (x y : TItem K τ ρ) (o : Opts ρ) (nl i ns : ℕ) (arr : List Int) (name : ℕ → String) (p q : UMesh K) : Prop where
  size : arr.length = (kit.labels x.mesh).nCells
  labels : Labels ignore dflt (kit.labels x.mesh).nCells (kit.labels x.mesh).cellGroup (kit.labels x.mesh).table
    o.group name
  named : ∀ c, c < (kit.labels x.mesh).nCells → CellNamed groups arr c (name c)
  points : q.points = p.points
  cells : q.cells = p.cells
  arrays : Arrays q.cells.length q.cellData
  items : Dict.get? q.cellData key = some ⟨false, itemIds q.cells.length i⟩
  others : ∀ k, k ≠ "LayerId" → k ≠ "ColumnId" → k ≠ key → k ≠ "CellGroup" →
    Dict.get? q.cellData k = Dict.get? p.cellData k
  plain : y.transition = false → kit.extrude (kit.withGroup x.mesh arr) y.mesh o.sub = .ok p ∧
    q.cells.length = (kit.labels x.mesh).nCells * ns ∧
    Dict.get? q.cellData "LayerId" = some ⟨false, layerIds ns nl (kit.labels x.mesh).nCells⟩ ∧
    Dict.get? q.cellData "ColumnId" = some ⟨false, columnIds (kit.labels x.mesh).nCells ns⟩ ∧
    Dict.get? q.cellData "CellGroup" = Dict.get? p.cellData "CellGroup"
  trans : y.transition = true → kit.transition (kit.withGroup x.mesh arr) y.mesh = .ok p ∧ ns = 1 ∧
    Dict.get? q.cellData "LayerId" = some ⟨false, layerIds 1 nl q.cells.length⟩ ∧
    Dict.get? q.cellData "ColumnId" = some ⟨false, List.replicate q.cells.length (-1)⟩ ∧
    ∃ name' g, Labels ignore dflt q.cells.length (groupCodes p.cellData) none o.group name' ∧
      Dict.get? q.cellData "CellGroup" = some g ∧ ∀ c, c < q.cells.length → CellNamed groups g.vals c (name' c)

theorem BlockU.mono {kit : UKit K τ ρ} {ignore : List String} {dflt key : String} {groups groups' : Dict String Int}
    {x y : TItem K τ ρ} {o : Opts ρ} {nl i ns : ℕ} {arr : List Int} {name : ℕ → String} {p q : UMesh K}
    (h : BlockU kit ignore dflt key groups x y o nl i ns arr name p q) (hg : groups <+: groups') :
    BlockU kit ignore dflt key groups' x y o nl i ns arr name p q :=
  { h with
    named := fun c hc => cellNamed_mono hg (h.named c hc)
    trans := fun ht => by
      obtain ⟨h1, h2, h3, h4, name', g, h5, h6, h7⟩ := h.trans ht
      exact ⟨h1, h2, h3, h4, name', g, h5, h6, fun c hc => cellNamed_mono hg (h7 c hc)⟩ }

theorem setArray_arrays {n : ℕ} {cd cd' : Dict String (DArr ℤ)} {k : String} {v : DArr ℤ} (h : Arrays n cd)
    (hs : setArray n cd k v = .ok cd') : Arrays n cd' ∧ cd' = Dict.set cd k v := by
  simp only [setArray] at hs
  split at hs
  · rename_i hl
    cases hs
    have hnd := Dict.set_keys_nodup (k := k) (v := v) h.2
    refine ⟨⟨?_, hnd⟩, rfl⟩
    rintro ⟨k', v'⟩ hkv
    have := Dict.get?_of_mem hnd hkv
    rw [Dict.get?_set] at this
    split at this
    · cases this; exact hl
    · exact h.1 _ (Dict.get?_mem this)
  · cases hs

/-- One round of the loop. -/
theorem blockU_ok (kit : UKit K τ ρ) {ignore : List String} {dflt key : String}
    (hkey : key ≠ "LayerId" ∧ key ≠ "ColumnId" ∧ key ≠ "CellGroup") {x y : TItem K τ ρ} {o : Opts ρ}
    (hlab : ∀ c, (kit.labels x.mesh).cellGroup = some c → c.length = (kit.labels x.mesh).nCells)
    (hext : ∀ arr p, arr.length = (kit.labels x.mesh).nCells → y.transition = false →
      kit.extrude (kit.withGroup x.mesh arr) y.mesh o.sub = .ok p → Arrays p.cells.length p.cellData ∧
      0 < (kit.labels x.mesh).nCells ∧ ∃ ns, p.cells.length = (kit.labels x.mesh).nCells * ns)
    (htr : ∀ arr p, arr.length = (kit.labels x.mesh).nCells → y.transition = true →
      kit.transition (kit.withGroup x.mesh arr) y.mesh = .ok p → Arrays p.cells.length p.cellData)
    {groups groups' : Dict String Int} (hd : DenseTable groups) {p0 q : UMesh K} {nl i ns : ℕ}
    (h : submeshU kit ignore dflt x y o groups = .ok (p0, groups'))
    (hq : labelU key (if y.transition then none else some (kit.labels x.mesh).nCells) nl i p0 = .ok (q, ns)) :
    DenseTable groups' ∧ groups <+: groups' ∧
      ∃ arr name p, BlockU kit ignore dflt key groups' x y o nl i ns arr name p q := by
  simp only [submeshU] at h
  split at h
  · cases h
  rename_i arr g1 hinit
  obtain ⟨e1, e2, e3, _, _⟩ := C02_every_cell_has_a_group hlab hd hinit
  obtain ⟨sels, f1, f2⟩ := C03_group_precedence hlab hd hinit
  cases ht : y.transition with
  | false =>
    simp only [ht, Bool.false_eq_true, if_false] at h hq
    split at h
    · cases h
    rename_i p hp
    simp only [Except.ok.injEq, Prod.mk.injEq] at h
    obtain ⟨rfl, rfl⟩ := h
    obtain ⟨a1, a2, ns', a3⟩ := hext arr p e1 ht hp
    obtain ⟨q', l1, l2, l3, l4, l5, l6, l7, l8⟩ := labelU_ok (key := key) (nl := nl) (i := i) ⟨hkey.1, hkey.2.1⟩ a1
      (.inl ⟨rfl, a2, a3⟩)
    rw [hq] at l1; cases l1
    refine ⟨e2, e3, arr, _, p, e1, ⟨sels, f1, fun c _ => rfl⟩, f2, l2, l3, l4, ?_, ?_, ?_, by simp [ht]⟩
    · rw [l7, l3, a3]
    · intro k k1 k2 k3 _; exact l8 k k1 k2 k3
    · intro _
      exact ⟨hp, by rw [l3, a3], l5, by rw [l6]; rfl, l8 _ (by decide) (by decide) hkey.2.2.symm⟩
  | true =>
    simp only [ht, if_true] at h hq
    split at h
    · cases h
    rename_i p hp
    simp only [groupTransition] at h
    split at h
    · cases h
    rename_i arr2 g2 hinit2
    split at h
    · cases h
    rename_i cd hcd
    simp only [Except.ok.injEq, Prod.mk.injEq] at h
    obtain ⟨rfl, rfl⟩ := h
    have ha := htr arr p e1 ht hp
    obtain ⟨ha', rfl⟩ := setArray_arrays ha hcd
    have hl2 : ∀ c, (⟨p.cells.length, groupCodes p.cellData, none⟩ : LMesh).cellGroup = some c →
        c.length = (⟨p.cells.length, groupCodes p.cellData, none⟩ : LMesh).nCells := by
      intro c hc
      simp only [groupCodes, Option.map_eq_some_iff] at hc
      obtain ⟨g, hg, rfl⟩ := hc
      exact ha.1 _ (Dict.get?_mem hg)
    obtain ⟨b1, b2, b3, _, _⟩ := C02_every_cell_has_a_group hl2 e2 hinit2
    obtain ⟨sels2, c1, c2⟩ := C03_group_precedence hl2 e2 hinit2
    obtain ⟨q', l1, l2, l3, l4, l5, l6, l7, l8⟩ := labelU_ok (key := key) (nl := nl) (i := i)
      (p := { p with cellData := Dict.set p.cellData "CellGroup" ⟨false, arr2⟩ }) ⟨hkey.1, hkey.2.1⟩ ha'
      (.inr ⟨rfl, rfl, rfl⟩)
    rw [hq] at l1; cases l1
    simp only at l2 l3 l8 l5 l6 l7
    refine ⟨b2, e3.trans b3, arr, _, p, e1, ⟨sels, f1, fun c _ => rfl⟩,
      fun c hc => cellNamed_mono b3 (f2 c hc), l2, l3, l4, ?_, ?_, by simp [ht], ?_⟩
    · rw [l7, l3]; simp
    · intro k k1 k2 k3 k4; rw [l8 k k1 k2 k3, Dict.get?_set, if_neg (Ne.symm k4)]
    · intro _
      refine ⟨hp, rfl, by rw [l5, l3], by rw [l6, l3]; simp [columnsU], _, ⟨false, arr2⟩,
        ⟨sels2, by rw [l3]; exact c1, fun c _ => rfl⟩, ?_, ?_⟩
      · rw [l8 _ (by decide) (by decide) hkey.2.2.symm, Dict.get?_set, if_pos rfl]
      · rw [l3]; exact c2

/-- The loop. -/
theorem submeshesU_ok (kit : UKit K τ ρ) {ignore : List String} {dflt key : String}
    (hkey : key ≠ "LayerId" ∧ key ≠ "ColumnId" ∧ key ≠ "CellGroup") :
    ∀ (rest : List (TItem K τ ρ)) (a : TItem K τ ρ) (groups groups' : Dict String Int) (nl i : ℕ)
      (qs : List (UMesh K)),
      (∀ it ∈ a :: rest, ∀ c, (kit.labels it.mesh).cellGroup = some c → c.length = (kit.labels it.mesh).nCells) →
      (∀ (k : ℕ) x y o, (a :: rest)[k]? = some x → rest[k]? = some y → y.opts = some o →
        (∀ arr p, arr.length = (kit.labels x.mesh).nCells → y.transition = false →
          kit.extrude (kit.withGroup x.mesh arr) y.mesh o.sub = .ok p → Arrays p.cells.length p.cellData ∧
          0 < (kit.labels x.mesh).nCells ∧ ∃ ns, p.cells.length = (kit.labels x.mesh).nCells * ns) ∧
        (∀ arr p, arr.length = (kit.labels x.mesh).nCells → y.transition = true →
          kit.transition (kit.withGroup x.mesh arr) y.mesh = .ok p → Arrays p.cells.length p.cellData)) →
      DenseTable groups →
      submeshesU kit ignore dflt key a rest groups nl i = .ok (qs, groups') →
      DenseTable groups' ∧ groups <+: groups' ∧ qs.length = rest.length ∧
      ∃ nsubs : List ℕ, nsubs.length = rest.length ∧
        ∀ (k : ℕ) y, rest[k]? = some y → ∃ x o ns arr name p q, (a :: rest)[k]? = some x ∧ y.opts = some o ∧
          nsubs[k]? = some ns ∧ qs[k]? = some q ∧
          BlockU kit ignore dflt key groups' x y o (nl + (nsubs.take k).sum) (i + k) ns arr name p q := by
  intro rest
  induction rest with
  | nil =>
    intro a groups groups' nl i qs _ _ hg h
    simp only [submeshesU, Except.ok.injEq, Prod.mk.injEq] at h
    obtain ⟨rfl, rfl⟩ := h
    exact ⟨hg, List.prefix_refl _, rfl, [], rfl, by simp⟩
  | cons b rest ih =>
    intro a groups groups' nl i qs hlab hext hg h
    simp only [submeshesU] at h
    split at h
    · cases h
    rename_i o ho
    split at h
    · cases h
    rename_i p0 g1 hsub
    split at h
    · cases h
    rename_i q ns hq
    split at h
    · cases h
    rename_i qs' g2 hrest
    simp only [Except.ok.injEq, Prod.mk.injEq] at h
    obtain ⟨rfl, rfl⟩ := h
    obtain ⟨h1, h2⟩ := hext 0 a b o rfl rfl ho
    obtain ⟨e1, e2, arr, name, p, e3⟩ := blockU_ok kit hkey (hlab a (by simp)) h1 h2 hg hsub hq
    obtain ⟨f1, f2, f3, nsubs, f4, f5⟩ := ih b g1 g2 (nl + ns) (i + 1) qs'
      (fun it hit => hlab it (List.mem_cons_of_mem _ hit))
      (fun k x y o hx hy => hext (k + 1) x y o (by simpa using hx) (by simpa using hy)) e1 hrest
    refine ⟨f1, e2.trans f2, by simp [f3], ns :: nsubs, by simp [f4], ?_⟩
    intro k y hy
    cases k with
    | zero =>
      simp only [List.getElem?_cons_zero, Option.some.injEq] at hy; subst hy
      exact ⟨a, o, ns, arr, name, p, q, rfl, ho, rfl, rfl, by simpa using e3.mono f2⟩
    | succ k =>
      simp only [List.getElem?_cons_succ] at hy
      obtain ⟨x, o', ns', arr', name', p', q', r1, r2, r3, r4, r5⟩ := f5 k y hy
      refine ⟨x, o', ns', arr', name', p', q', by simpa using r1, r2, by simpa using r3, by simpa using r4, ?_⟩
      rw [show nl + ((ns :: nsubs).take (k + 1)).sum = nl + ns + (nsubs.take k).sum by simp; omega,
        show i + (k + 1) = i + 1 + k by omega]
      exact r5

/-- The loop succeeds when every group argument fits and every submesh can be made. -/
theorem submeshesU_total (kit : UKit K τ ρ) {ignore : List String} {dflt key : String}
    (hkey : key ≠ "LayerId" ∧ key ≠ "ColumnId" ∧ key ≠ "CellGroup") :
    ∀ (rest : List (TItem K τ ρ)) (a : TItem K τ ρ) (groups : Dict String Int) (nl i : ℕ),
      (∀ it ∈ a :: rest, ∀ c, (kit.labels it.mesh).cellGroup = some c → c.length = (kit.labels it.mesh).nCells) →
      (∀ (k : ℕ) x y, (a :: rest)[k]? = some x → rest[k]? = some y → ∃ o, y.opts = some o ∧ y.transition = false ∧
        Acceptable (kit.labels x.mesh).nCells o.group ∧
        ∀ arr, arr.length = (kit.labels x.mesh).nCells →
          ∃ p, kit.extrude (kit.withGroup x.mesh arr) y.mesh o.sub = .ok p ∧ Arrays p.cells.length p.cellData ∧
          0 < (kit.labels x.mesh).nCells ∧ ∃ ns, p.cells.length = (kit.labels x.mesh).nCells * ns) →
      DenseTable groups → ∃ r, submeshesU kit ignore dflt key a rest groups nl i = .ok r := by
  intro rest
  induction rest with
  | nil => intro a groups nl i _ _ _; exact ⟨_, rfl⟩
  | cons b rest ih =>
    intro a groups nl i hlab hext hg
    obtain ⟨o, ho, ht, hacc, hx⟩ := hext 0 a b rfl rfl
    obtain ⟨⟨arr, g1⟩, hr⟩ := initGroupArray_total (ignore := ignore) (dflt := dflt) (hlab a (by simp)) hacc groups
    obtain ⟨e1, e2, _⟩ := C02_every_cell_has_a_group (hlab a (by simp)) hg hr
    obtain ⟨p, hp, a1, a2, ns, a3⟩ := hx arr e1
    obtain ⟨q, l1, _⟩ := labelU_ok (key := key) (nl := nl) (i := i) ⟨hkey.1, hkey.2.1⟩ a1
      (.inl ⟨rfl, a2, a3⟩)
    obtain ⟨r, hr'⟩ := ih b g1 (nl + ns) (i + 1) (fun it hit => hlab it (List.mem_cons_of_mem _ hit))
      (fun k x y hx hy => hext (k + 1) x y (by simpa using hx) (by simpa using hy)) e2
    exact ⟨_, by
      simp only [submeshesU, ho, submeshU, hr, ht, Bool.false_eq_true, if_false, hp, l1, hr']; rfl⟩

end

/-! ## layers of prisms -/

namespace Spec
variable {K : Type _} [Field K] [LinearOrder K]

/-- `j` is a node of a cell of the surface. -/
def NodeOf (cells : List (ℕ × List ℕ)) (j : ℕ) : Prop := ∃ tc ∈ cells, j ∈ tc.2

/-- In the first sublayer, at the positions `ts[0]` and `ts[1]` between the surfaces `a` and `b`, the nodes of the base
cell are within numpy's tolerance of each other. -/
def Squeezed (conn : List ℕ) (a b : List (Fin 3 → K)) (ts : List K) : Prop :=
  ∀ j ∈ conn, ∀ t0 t1 x y, ts[0]? = some t0 → ts[1]? = some t1 → a[j]? = some x → b[j]? = some y →
    Close (between t0 x y) (between t1 x y)

/-- The layers of prisms over the cells of a surface with `N` points: layer `L` over base cell `c` is cell `pos L c`,
its nodes are the points `node L j` (below) and `node (L + 1) j` (above).  Part `k` of the layers lies between the surfaces
`k` and `k + 1`, at the positions `subs[k]`.  So two layers, also of different parts, share the nodes between them.  Nodes at the same place are one node. -/
structure LayeredU (R : (Fin 3 → K) → (Fin 3 → K) → Prop) (flip : Bool) (key : String) (N : ℕ)
    (cells : List (ℕ × List ℕ)) (base : Dict String (DArr ℤ)) (surfs : List (List (Fin 3 → K))) (subs : List (List K))
    (names : List (ℕ → String)) (M : UMesh K) (table : List (String × Int)) (pos node : ℕ → ℕ → ℕ) : Prop where
  size : M.cells.length = (subs.map fun ts => ts.length - 1).sum * cells.length
  cover : ∀ n, n < M.cells.length →
    ∃ L c, L < (subs.map fun ts => ts.length - 1).sum ∧ c < cells.length ∧ pos L c = n
  inj : ∀ L L' c c', L < (subs.map fun ts => ts.length - 1).sum → L' < (subs.map fun ts => ts.length - 1).sum →
    c < cells.length → c' < cells.length → pos L c = pos L' c' → L = L' ∧ c = c'
  cell : ∀ L c t conn, L < (subs.map fun ts => ts.length - 1).sum → cells[c]? = some (t, conn) →
    ∃ t' cell, PrismOver flip N L t conn t' cell ∧
      M.cells[pos L c]? = some (t', cell.renamed fun id => node (id / N) (id % N))
  nodes : ∀ k a b ts, surfs[k]? = some a → surfs[k + 1]? = some b → subs[k]? = some ts →
    ∀ j s t x y, NodeOf cells j → ts[s]? = some t → a[j]? = some x → b[j]? = some y →
      ∃ p, M.points[node (layersIn subs k + s) j]? = some p ∧ R p (between t x y)
  dense : DenseTable table
  data : ∃ layers columns items groups, Dict.get? M.cellData "LayerId" = some layers ∧
    Dict.get? M.cellData "ColumnId" = some columns ∧ Dict.get? M.cellData key = some items ∧
    Dict.get? M.cellData "CellGroup" = some groups ∧ groups.vals.length = M.cells.length ∧
    (∀ kv ∈ table, kv.2 ∈ groups.vals) ∧
    ∀ k ts name, subs[k]? = some ts → names[k]? = some name → ∀ c s, c < cells.length → s < ts.length - 1 →
      layers.vals[pos (layersIn subs k + s) c]? = some ((layersIn subs k + s : ℕ) : ℤ) ∧
      columns.vals[pos (layersIn subs k + s) c]? = some (c : ℤ) ∧
      items.vals[pos (layersIn subs k + s) c]? = some (k : ℤ) ∧
      CellNamed table groups.vals (pos (layersIn subs k + s) c) (name c)
  hidden : ∀ k a b ts, surfs[k]? = some a → surfs[k + 1]? = some b → subs[k]? = some ts →
    ∀ c s t conn, cells[c]? = some (t, conn) → s < ts.length - 1 →
      (Squeezed conn a b ts → ghostOf M.cellData (pos (layersIn subs k + s) c) = 32) ∧
      (¬ Squeezed conn a b ts → ghostOf M.cellData (pos (layersIn subs k + s) c) = ghostOf base c)
  carried : ∀ name v, Dict.get? base name = some v → name ∉ ownArrays key → ∃ w, Dict.get? M.cellData name = some w ∧
    ∀ (k : ℕ) ts, subs[k]? = some ts → ∀ c s, c < cells.length → s < ts.length - 1 →
      w.vals[pos (layersIn subs k + s) c]? = v.vals[c]?
  merged : ∀ (k k' : ℕ) a b ts a' b' ts', surfs[k]? = some a → surfs[k + 1]? = some b → subs[k]? = some ts →
    surfs[k']? = some a' → surfs[k' + 1]? = some b' → subs[k']? = some ts' →
    ∀ (j j' s s' : ℕ) t t' x y x' y', NodeOf cells j → NodeOf cells j' → ts[s]? = some t → ts'[s']? = some t' →
      a[j]? = some x → b[j]? = some y → a'[j']? = some x' → b'[j']? = some y' → between t x y = between t' x' y' →
      node (layersIn subs k + s) j = node (layersIn subs k' + s') j'

end Spec

section
variable {K : Type _} [Field K] [LinearOrder K]

/-- The mesh between two surfaces, before the items of the loop are labelled. -/
structure BetweenU (flip : Bool) (N : ℕ) (cells : List (ℕ × List ℕ)) (base : Dict String (DArr ℤ)) (a b : List (V3 K)) (ts : List K)
    (arr : List ℤ) (p : UMesh K) : Prop where
  size : p.cells.length = cells.length * (ts.length - 1)
  nodes : ∀ (j s : ℕ) t x y, ts[s]? = some t → a[j]? = some x → b[j]? = some y →
    p.points[s * N + j]? = some (between t x y)
  cell : ∀ (c s t : ℕ) conn, s < ts.length - 1 → cells[c]? = some (t, conn) →
    ∃ t' cell, p.cells[c + cells.length * s]? = some (t', cell) ∧ PrismOver flip N s t conn t' cell
  arrays : Arrays p.cells.length p.cellData
  group : ∃ g, Dict.get? p.cellData "CellGroup" = some g ∧ ∀ c s, c < cells.length → s < ts.length - 1 →
    g.vals[c + cells.length * s]? = arr[c]?
  hidden : ∃ g, Dict.get? p.cellData "vtkGhostType" = some g ∧ ∀ (c s t : ℕ) conn, s < ts.length - 1 →
    cells[c]? = some (t, conn) → (Squeezed conn a b ts → g.vals[c + cells.length * s]? = some 32) ∧
      (¬ Squeezed conn a b ts → g.vals[c + cells.length * s]? = some (ghostOf base c))
  carried : ∀ name v, Dict.get? base name = some v → name ≠ "CellGroup" → name ≠ "vtkGhostType" →
    ∃ w, Dict.get? p.cellData name = some w ∧ ∀ c s, c < cells.length → s < ts.length - 1 →
      w.vals[c + cells.length * s]? = v.vals[c]?

/-- The same with labels. -/
structure SlabU (flip : Bool) (key : String) (N : ℕ) (cells : List (ℕ × List ℕ)) (base : Dict String (DArr ℤ)) (a b : List (V3 K))
    (ts : List K) (names : ℕ → String) (table : List (String × Int)) (layer item : ℕ) (q : UMesh K) : Prop where
  size : q.cells.length = cells.length * (ts.length - 1)
  nodes : ∀ (j s : ℕ) t x y, ts[s]? = some t → a[j]? = some x → b[j]? = some y →
    q.points[s * N + j]? = some (between t x y)
  cell : ∀ (c s t : ℕ) conn, s < ts.length - 1 → cells[c]? = some (t, conn) →
    ∃ t' cell, q.cells[c + cells.length * s]? = some (t', cell) ∧ PrismOver flip N s t conn t' cell
  arrays : Arrays q.cells.length q.cellData
  data : ∃ layers columns items groups, Dict.get? q.cellData "LayerId" = some layers ∧
    Dict.get? q.cellData "ColumnId" = some columns ∧ Dict.get? q.cellData key = some items ∧
    Dict.get? q.cellData "CellGroup" = some groups ∧
    ∀ c s, c < cells.length → s < ts.length - 1 →
      layers.vals[c + cells.length * s]? = some ((layer + s : ℕ) : ℤ) ∧
      columns.vals[c + cells.length * s]? = some (c : ℤ) ∧ items.vals[c + cells.length * s]? = some (item : ℤ) ∧
      CellNamed table groups.vals (c + cells.length * s) (names c)
  hidden : ∃ g, Dict.get? q.cellData "vtkGhostType" = some g ∧ ∀ (c s t : ℕ) conn, s < ts.length - 1 →
    cells[c]? = some (t, conn) → (Squeezed conn a b ts → g.vals[c + cells.length * s]? = some 32) ∧
      (¬ Squeezed conn a b ts → g.vals[c + cells.length * s]? = some (ghostOf base c))
  carried : ∀ name v, Dict.get? base name = some v → name ∉ ownArrays key → ∃ w, Dict.get? q.cellData name = some w ∧
    ∀ c s, c < cells.length → s < ts.length - 1 → w.vals[c + cells.length * s]? = v.vals[c]?

theorem index_lt {c n s m : ℕ} (hc : c < n) (hs : s < m) : c + n * s < n * m := by
  calc c + n * s < n + n * s := by omega
    _ = n * (s + 1) := by ring
    _ ≤ n * m := Nat.mul_le_mul_left _ hs

theorem index_inv {i n m : ℕ} (h : i < n * m) : ∃ c s, c < n ∧ s < m ∧ i = c + n * s := by
  have hn : 0 < n := by by_contra h0; have : n = 0 := by omega
                        subst this; simp at h
  exact ⟨i % n, i / n, Nat.mod_lt _ hn, Nat.div_lt_of_lt_mul h, (Nat.mod_add_div i n).symm⟩

theorem slabU_of_block {τ ρ : Type _} {kit : UKit K τ ρ} {ignore : List String} {dflt key : String}
    (hkey : key ≠ "LayerId" ∧ key ≠ "ColumnId" ∧ key ≠ "CellGroup" ∧ key ≠ "vtkGhostType") {groups : Dict String Int}
    {x y : TItem K τ ρ} {o : Opts ρ} {nl i ns : ℕ} {arr : List Int} {name : ℕ → String} {p q : UMesh K}
    (h : BlockU kit ignore dflt key groups x y o nl i ns arr name p q) (ht : y.transition = false) {flip : Bool} {N : ℕ}
    {cells : List (ℕ × List ℕ)} (hn : (kit.labels x.mesh).nCells = cells.length) (hpos : 0 < cells.length)
    {base : Dict String (DArr ℤ)} {a b : List (V3 K)} {ts : List K} (hb : BetweenU flip N cells base a b ts arr p) :
    ns = ts.length - 1 ∧ SlabU flip key N cells base a b ts name groups nl i q := by
  obtain ⟨_, h2, h3, h4, h5⟩ := h.plain ht
  rw [hn] at h2 h3 h4
  have hns : ns = ts.length - 1 := by
    have := hb.size
    rw [← h.cells, h2] at this
    exact Nat.eq_of_mul_eq_mul_left hpos this
  subst hns
  obtain ⟨g, g1, g2⟩ := hb.group
  refine ⟨rfl, h2, by rw [h.points]; exact hb.nodes, by rw [h.cells]; exact hb.cell, h.arrays, ?_, ?_, ?_⟩
  · refine ⟨_, _, _, g, h3, h4, h.items, by rw [h5, g1], ?_⟩
    intro c s hc hs
    refine ⟨?_, columnIds_get hc hs, ?_, ?_⟩
    · rw [layerIds_get hc hs, Nat.add_comm]
    · rw [itemIds, List.getElem?_replicate, if_pos]
      rw [h2]; exact index_lt hc hs
    · obtain ⟨v, v1, v2⟩ := h.named c (by omega)
      exact ⟨v, by rw [g2 c s hc hs]; exact v1, v2⟩
  · rw [h.others _ (by decide) (by decide) hkey.2.2.2.symm (by decide)]
    exact hb.hidden
  · intro nm v hv hnm
    simp only [ownArrays, List.mem_cons, List.not_mem_nil, or_false, not_or] at hnm
    obtain ⟨n1, n2, n3, n4, n5⟩ := hnm
    obtain ⟨w, w1, w2⟩ := hb.carried nm v hv n4 n5
    exact ⟨w, by rw [h.others _ n1 n2 n3 n4, w1], w2⟩

/-! ### prisms -/

theorem prismOver_shift {flip : Bool} {N s t m : ℕ} {conn : List ℕ} {t' : ℤ} {cell : Cell}
    (h : PrismOver flip N s t conn t' cell) :
    PrismOver flip N (m + s) t conn t' (cell.renamed (m * N + ·)) := by
  have hs : ∀ (k : ℕ) (f : List ℕ), (shift (k * N) f).map (m * N + ·) = shift ((m + k) * N) f := by
    intro k f
    simp only [shift, List.map_map]
    refine List.map_congr_left fun x _ => ?_
    simp only [Function.comp]; ring
  rcases h with ⟨h1, rfl⟩ | ⟨h1, h2, a, b, c, d, rfl, rfl⟩ | ⟨h1, h2, f, h3, rfl⟩
  · exact .inl ⟨h1, by simp only [Cell.renamed, List.map_append, hs, Nat.add_assoc]⟩
  · exact .inr (.inl ⟨h1, h2, a, b, c, d, rfl, by simp only [Cell.renamed, List.map_append, hs, Nat.add_assoc]⟩)
  · refine .inr (.inr ⟨h1, h2, f, h3, ?_⟩)
    simp only [Cell.renamed, prismFaces, List.map_cons, hs, List.map_map, Nat.add_assoc, Cell.polyhedron.injEq,
      List.cons.injEq, true_and]
    refine List.map_congr_left fun e _ => ?_
    simp only [Function.comp, List.map_cons, List.map_nil, List.cons.injEq, and_true]
    refine ⟨?_, ?_, ?_, ?_⟩ <;> ring

theorem prismOver_ids_mem {flip : Bool} {N s t : ℕ} {conn : List ℕ} {t' : ℤ} {cell : Cell}
    (h : PrismOver flip N s t conn t' cell) (id : ℕ) :
    id ∈ cell.ids ↔ ∃ x ∈ conn, id = s * N + x ∨ id = (s + 1) * N + x := by
  have hs : ∀ f : List ℕ, id ∈ shift (s * N) f ++ shift ((s + 1) * N) f ↔
      ∃ x ∈ f, id = s * N + x ∨ id = (s + 1) * N + x := by
    intro f
    simp only [shift, List.mem_append, List.mem_map]
    constructor
    · rintro (⟨x, hx, rfl⟩ | ⟨x, hx, rfl⟩)
      · exact ⟨x, hx, .inl rfl⟩
      · exact ⟨x, hx, .inr rfl⟩
    · rintro ⟨x, hx, rfl | rfl⟩
      · exact .inl ⟨x, hx, rfl⟩
      · exact .inr ⟨x, hx, rfl⟩
  rcases h with ⟨_, rfl⟩ | ⟨_, _, a, b, c, d, rfl, rfl⟩ | ⟨_, _, f, hf, rfl⟩
  · exact hs conn
  · simp only [Cell.ids]
    rw [hs]
    simp only [List.mem_cons, List.not_mem_nil, or_false, exists_eq_or_imp, exists_eq_left]
    tauto
  · have hmem : ∀ x, x ∈ f ↔ x ∈ conn := by
      intro x
      rcases hf with rfl | ⟨_, rfl⟩
      · rfl
      · exact List.mem_reverse
    simp only [Cell.ids, prismFaces, List.flatten_cons, List.mem_append]
    have htop : id ∈ shift ((s + 1) * N) (if flip = true then f.reverse else f) ↔ id ∈ shift ((s + 1) * N) f := by
      cases flip <;> simp [shift]
    rw [htop]
    have hh := hs f
    rw [List.mem_append] at hh
    constructor
    · rintro (h | h | h)
      · obtain ⟨x, hx, e⟩ := hh.1 (.inl h); exact ⟨x, (hmem x).1 hx, e⟩
      · obtain ⟨x, hx, e⟩ := hh.1 (.inr h); exact ⟨x, (hmem x).1 hx, e⟩
      · simp only [List.mem_flatten, List.mem_map, Prod.exists] at h
        obtain ⟨_, ⟨u, v, huv, rfl⟩, hid⟩ := h
        have hu := (hmem u).1 (edges_mem huv).1
        have hv := (hmem v).1 (edges_mem huv).2
        simp only [List.mem_cons, List.not_mem_nil, or_false] at hid
        rcases hid with e | e | e | e
        · exact ⟨u, hu, .inr e⟩
        · exact ⟨v, hv, .inr e⟩
        · exact ⟨v, hv, .inl e⟩
        · exact ⟨u, hu, .inl e⟩
    · rintro ⟨x, hx, e⟩
      rcases hh.2 ⟨x, (hmem x).2 hx, e⟩ with h | h
      · exact .inl h
      · exact .inr (.inl h)

/-! ### parts -/

/-- The part a layer belongs to, and its position in it. -/
def partOf : List ℕ → ℕ → ℕ × ℕ
  | [], L => (0, L)
  | n :: l, L => if L < n then (0, L) else ((partOf l (L - n)).1 + 1, (partOf l (L - n)).2)

theorem partOf_eq : ∀ (l : List ℕ) (k n s : ℕ), l[k]? = some n → s < n → partOf l ((l.take k).sum + s) = (k, s)
  | [], k, n, s, h, _ => by simp at h
  | m :: l, 0, n, s, h, hs => by
    simp only [List.getElem?_cons_zero, Option.some.injEq] at h; subst h
    simp [partOf, hs]
  | m :: l, k + 1, n, s, h, hs => by
    simp only [List.getElem?_cons_succ] at h
    have := partOf_eq l k n s h hs
    rw [show ((m :: l).take (k + 1)).sum + s = m + ((l.take k).sum + s) by simp; omega, partOf, if_neg (by omega),
      Nat.add_sub_cancel_left, this]

omit [Field K] [LinearOrder K] in
theorem layersIn_eq (subs : List (List K)) (k : ℕ) :
    layersIn subs k = ((subs.map fun ts => ts.length - 1).take k).sum := by
  simp [layersIn, List.map_take]

omit [Field K] [LinearOrder K] in
theorem partOf_layer {subs : List (List K)} {k : ℕ} {ts : List K} (h : subs[k]? = some ts) {s : ℕ}
    (hs : s < ts.length - 1) : partOf (subs.map fun ts => ts.length - 1) (layersIn subs k + s) = (k, s) := by
  rw [layersIn_eq]
  exact partOf_eq _ k (ts.length - 1) s (by rw [List.getElem?_map, h]; rfl) hs

theorem slabU_used {flip : Bool} {key : String} {N : ℕ} {cells : List (ℕ × List ℕ)} {base : Dict String (DArr ℤ)} {a b : List (V3 K)}
    {ts : List K} {names : ℕ → String} {table : List (String × Int)} {layer item : ℕ} {q : UMesh K}
    (h : SlabU flip key N cells base a b ts names table layer item q) (h2 : 2 ≤ ts.length) {j s : ℕ}
    (hj : NodeOf cells j) (hs : s < ts.length) : UsedPoint q.cells (s * N + j) := by
  obtain ⟨⟨t, conn⟩, hm, hx⟩ := hj
  obtain ⟨c, hc⟩ := List.getElem?_of_mem hm
  by_cases hl : s < ts.length - 1
  · obtain ⟨t', cell, e1, e2⟩ := h.cell c s t conn hl hc
    exact ⟨_, List.mem_of_getElem? e1, (prismOver_ids_mem e2 _).2 ⟨j, hx, .inl rfl⟩⟩
  · obtain ⟨t', cell, e1, e2⟩ := h.cell c (s - 1) t conn (by omega) hc
    refine ⟨_, List.mem_of_getElem? e1, (prismOver_ids_mem e2 _).2 ⟨j, hx, .inr ?_⟩⟩
    rw [show s - 1 + 1 = s by omega]

/-- Slabs merged and cleaned are layers. -/
theorem layeredU_of_slabs {R : V3 K → V3 K → Prop} {o : VtkOracle K} (ho : AppendsAll o.order) (hc : Cleans R o.clean)
    {flip : Bool} {key : String} (hkey : key ≠ "CellGroup" ∧ key ≠ "vtkGhostType")
    {N : ℕ} {cells : List (ℕ × List ℕ)} (hids : ∀ tc ∈ cells, ∀ x ∈ tc.2, x < N) {base : Dict String (DArr ℤ)}
    {surfs : List (List (V3 K))} {subs : List (List K)} {names : List (ℕ → String)} {qs : List (UMesh K)}
    (hne : qs ≠ []) (hsubs : subs.length = qs.length) (hnames : names.length = qs.length)
    (hsurf : ∀ l ∈ surfs, l.length = N) (h01 : ∀ ts ∈ subs, fromZeroToOne ts)
    {groups : Dict String Int} (hd : DenseTable groups)
    (hslab : ∀ (k : ℕ) q, qs[k]? = some q → ∃ a b ts name, surfs[k]? = some a ∧ surfs[k + 1]? = some b ∧
      subs[k]? = some ts ∧ names[k]? = some name ∧
      SlabU flip key N cells base a b ts name groups (layersIn subs k) k q) :
    ∃ m M table pos node, mergeU o qs = .ok m ∧ cleanU o m groups = .ok (M, table) ∧
      LayeredU R flip key N cells base surfs subs names M table pos node := by
  have hslabs : ∀ q ∈ qs, ∃ k a b ts name, SlabU flip key N cells base a b ts name groups (layersIn subs k) k q := by
    intro q hq
    obtain ⟨k, hk⟩ := List.getElem?_of_mem hq
    obtain ⟨a, b, ts, name, _, _, _, _, h⟩ := hslab k q hk
    exact ⟨k, a, b, ts, name, h⟩
  obtain ⟨m, M, table, posB, nd, h1, h2, hj, h3, h4, h5, w, h6, h7, h8, h9⟩ := mergeClean_ok ho hc qs hne
    (fun q hq => by obtain ⟨k, a, b, ts, name, h⟩ := hslabs q hq; exact h.arrays.2)
    (fun q hq key v hv => by
      obtain ⟨k, a, b, ts, name, h⟩ := hslabs q hq; exact h.arrays.1 _ (Dict.get?_mem hv)) hd
    (fun q hq => by
      obtain ⟨k, a, b, ts, name, h⟩ := hslabs q hq
      obtain ⟨_, _, _, g, _, _, _, g1, g2⟩ := h.data
      refine ⟨g, g1, fun x hx => ?_⟩
      obtain ⟨i, hi⟩ := List.getElem?_of_mem hx
      have hlt := (List.getElem?_eq_some_iff.1 hi).1
      rw [show g.vals.length = q.cells.length from h.arrays.1 _ (Dict.get?_mem g1), h.size] at hlt
      obtain ⟨c, s, hc, hs, rfl⟩ := index_inv hlt
      obtain ⟨_, _, _, v, v1, v2⟩ := g2 c s hc hs
      rw [hi] at v1; cases v1
      exact ⟨_, v2⟩)
  have hq : ∀ (k : ℕ) ts, subs[k]? = some ts → ∃ q a b name, qs[k]? = some q ∧ surfs[k]? = some a ∧
      surfs[k + 1]? = some b ∧ names[k]? = some name ∧
      SlabU flip key N cells base a b ts name groups (layersIn subs k) k q := by
    intro k ts hk
    have hk' : k < qs.length := by rw [← hsubs]; exact (List.getElem?_eq_some_iff.1 hk).1
    obtain ⟨a, b, ts', name, e1, e2, e3, e4, e5⟩ := hslab k _ (List.getElem?_eq_getElem hk')
    rw [hk] at e3; cases e3
    exact ⟨_, a, b, name, List.getElem?_eq_getElem hk', e1, e2, e4, e5⟩
  have hts2 : ∀ (k : ℕ) ts, subs[k]? = some ts → 2 ≤ ts.length := fun k ts h => (h01 ts (List.mem_of_getElem? h)).1
  set sizes := subs.map fun ts => ts.length - 1 with hsizes
  set n := cells.length with hn
  let pos : ℕ → ℕ → ℕ := fun L c => posB (partOf sizes L).1 (c + n * (partOf sizes L).2)
  let top := subs.length - 1
  let node : ℕ → ℕ → ℕ := fun L j =>
    if L < sizes.sum then nd (partOf sizes L).1 ((partOf sizes L).2 * N + j)
    else nd top ((sizes.getD top 0) * N + j)
  have hpos : ∀ (k : ℕ) ts s c, subs[k]? = some ts → s < ts.length - 1 →
      pos (layersIn subs k + s) c = posB k (c + n * s) := by
    intro k ts s c hk hs
    simp only [pos, hsizes, partOf_layer hk hs]
  have hlt : ∀ (k : ℕ) ts, subs[k]? = some ts → layersIn subs k + (ts.length - 1) ≤ sizes.sum := by
    intro k ts hk; have := layersIn_le hk; omega
  -- interfaces
  have hnode : ∀ (k : ℕ) ts s j, subs[k]? = some ts → s < ts.length → NodeOf cells j →
      node (layersIn subs k + s) j = nd k (s * N + j) := by
    intro k ts s j hk hs hj'
    have hk' := (List.getElem?_eq_some_iff.1 hk).1
    have h2 := hts2 k ts hk
    by_cases hl : s < ts.length - 1
    · have := hlt k ts hk
      simp only [node]
      rw [if_pos (by omega), partOf_layer hk hl]
    · have hse : s = ts.length - 1 := by omega
      by_cases hlast : k + 1 < subs.length
      · have hk1 : subs[k + 1]? = some subs[k + 1] := List.getElem?_eq_getElem hlast
        have h2' := hts2 _ _ hk1
        have hle := hlt _ _ hk1
        have hL : layersIn subs k + s = layersIn subs (k + 1) + 0 := by rw [layersIn_succ hk]; omega
        rw [hL]
        simp only [node]
        rw [if_pos (by omega), partOf_layer hk1 (by omega)]
        obtain ⟨q, a, b, _, q1, q2, q3, _, q4⟩ := hq k ts hk
        obtain ⟨q', b', c', _, q1', q2', q3', _, q4'⟩ := hq (k + 1) _ hk1
        rw [q3] at q2'; cases q2'
        have hjN : j < N := by obtain ⟨tc, m1, m2⟩ := hj'; exact hids tc m1 j m2
        have la := hsurf a (List.mem_of_getElem? q2)
        have lb := hsurf b (List.mem_of_getElem? q3)
        have lc := hsurf c' (List.mem_of_getElem? q3')
        have hy : b[j]? = some b[j] := List.getElem?_eq_getElem (by omega)
        refine hj.same (k + 1) k q' q (0 * N + j) (s * N + j) b[j] q1' q1 (slabU_used q4' h2' hj' (by omega))
          (slabU_used q4 h2 hj' hs) ?_ ?_
        · rw [q4'.nodes j 0 0 b[j] c'[j] (h01 _ (List.mem_of_getElem? hk1)).2.1 hy
            (List.getElem?_eq_getElem (by omega)), between_zero]
        · rw [q4.nodes j s 1 a[j] b[j] (by rw [hse]; exact (h01 _ (List.mem_of_getElem? hk)).2.2)
            (List.getElem?_eq_getElem (by omega)) hy, between_one]
      · have htop : k = top := by omega
        have hL : layersIn subs k + s = sizes.sum := by
          rw [hse, ← layersIn_succ hk, layersIn_eq, ← hsizes, List.take_of_length_le (by simp [hsizes]; omega)]
        rw [hL]
        simp only [node, lt_irrefl, if_false]
        rw [← htop, hsizes, List.getD_eq_getElem?_getD, List.getElem?_map, hk, hse]
        rfl
  have hpart : ∀ L, L < sizes.sum → ∃ k ts s, subs[k]? = some ts ∧ s < ts.length - 1 ∧ L = layersIn subs k + s := by
    intro L hL
    obtain ⟨k, ts, s, e1, e2, e3⟩ := exists_part subs L hL
    exact ⟨k, ts, s, e1, e2, e3⟩
  refine ⟨m, M, table, pos, node, h1, h2, ?_, ?_, ?_, ?_, ?_, h3, ?_, ?_, ?_, ?_⟩
  · rw [hj.size]
    have : qs.map (fun q => q.cells.length) = sizes.map (n * ·) := by
      apply List.ext_getElem?
      intro k
      simp only [List.getElem?_map, hsizes]
      cases hk : subs[k]? with
      | none =>
        have : qs[k]? = none := by
          rw [List.getElem?_eq_none_iff] at hk ⊢; omega
        simp [this]
      | some ts =>
        obtain ⟨q, _, _, _, q1, _, _, _, q4⟩ := hq k ts hk
        simp [q1, q4.size, hn]
    rw [this, List.sum_map_mul_left, List.map_id', Nat.mul_comm]
  · intro i hi
    obtain ⟨k, q, c, e1, e2, rfl⟩ := hj.cover i hi
    obtain ⟨a, b, ts, name, f1, f2, f3, f4, f5⟩ := hslab k q e1
    rw [f5.size] at e2
    obtain ⟨c', s, g1, g2, rfl⟩ := index_inv e2
    have := hlt k ts f3
    exact ⟨layersIn subs k + s, c', lt_of_lt_of_le (Nat.add_lt_add_left g2 _) this, g1, hpos k ts s c' f3 g2⟩
  · intro L L' c c' hL hL' hc hc' he
    obtain ⟨k, ts, s, e1, e2, rfl⟩ := hpart L hL
    obtain ⟨k', ts', s', e1', e2', rfl⟩ := hpart L' hL'
    rw [hpos k ts s c e1 e2, hpos k' ts' s' c' e1' e2'] at he
    obtain ⟨q, _, _, _, q1, _, _, _, q4⟩ := hq k ts e1
    obtain ⟨q', _, _, _, q1', _, _, _, q4'⟩ := hq k' ts' e1'
    obtain ⟨rfl, hcc⟩ := hj.inj k k' q q' _ _ q1 q1' (by rw [q4.size]; exact index_lt hc e2)
      (by rw [q4'.size]; exact index_lt hc' e2') he
    change c < n at hc
    change c' < n at hc'
    have hm := congrArg (· % n) hcc
    have hdv := congrArg (· / n) hcc
    simp only [Nat.add_mul_mod_self_left, Nat.mod_eq_of_lt hc, Nat.mod_eq_of_lt hc'] at hm
    simp only [Nat.add_mul_div_left _ _ (show 0 < n by omega), Nat.div_eq_of_lt hc, Nat.div_eq_of_lt hc',
      Nat.zero_add] at hdv
    exact ⟨by rw [hdv], hm⟩
  · intro L c t conn hL hcell
    obtain ⟨k, ts, s, e1, e2, rfl⟩ := hpart L hL
    obtain ⟨q, _, _, _, q1, _, _, _, q4⟩ := hq k ts e1
    obtain ⟨t', cell, g1, g2⟩ := q4.cell c s t conn e2 hcell
    refine ⟨t', _, prismOver_shift (m := layersIn subs k) g2, ?_⟩
    rw [hpos k ts s c e1 e2, hj.cell k q _ t' cell q1 g1, renamed_renamed]
    congr 2
    refine renamed_congr fun id hid => ?_
    obtain ⟨x, hx, hid⟩ := (prismOver_ids_mem g2 id).1 hid
    have hxN := hids _ (List.mem_of_getElem? hcell) x hx
    have hxN' : x < N := hxN
    have hxn : NodeOf cells x := ⟨_, List.mem_of_getElem? hcell, hx⟩
    have key : ∀ s', s' < ts.length → id = s' * N + x →
        nd k id = node ((layersIn subs k * N + id) / N) ((layersIn subs k * N + id) % N) := by
      rintro s' hs' rfl
      rw [show layersIn subs k * N + (s' * N + x) = x + N * (layersIn subs k + s') by ring,
        Nat.add_mul_div_left _ _ (by omega), Nat.add_mul_mod_self_left, Nat.div_eq_of_lt hxN', Nat.mod_eq_of_lt hxN',
        Nat.zero_add, hnode k ts s' x e1 hs' hxn]
    rcases hid with e | e
    · exact key s (by omega) e
    · exact key (s + 1) (by omega) e
  · intro k a b ts ha hb hts j s t x y hj' ht hx hy
    obtain ⟨q, a', b', _, q1, q2, q3, _, q4⟩ := hq k ts hts
    rw [ha] at q2; cases q2
    rw [hb] at q3; cases q3
    have hs := (List.getElem?_eq_some_iff.1 ht).1
    rw [hnode k ts s j hts hs hj']
    exact hj.point k q _ _ q1 (slabU_used q4 (hts2 k ts hts) hj' hs) (q4.nodes j s t x y ht hx hy)
  · have hall : ∀ kk, (∀ (k : ℕ) (a b : List (V3 K)) (ts : List K) name (q : UMesh K), SlabU flip key N cells base a b ts name groups (layersIn subs k) k q →
        ∃ v, Dict.get? q.cellData kk = some v) → ∀ q ∈ qs, ∃ v, Dict.get? q.cellData kk = some v := by
      intro kk h q hq'
      obtain ⟨k, a, b, ts, name, hs⟩ := hslabs q hq'
      exact h k a b ts name q hs
    obtain ⟨wl, l1, l2⟩ := h4 "LayerId" (by decide) (by decide) (hall _ fun k a b ts name q h => by
      obtain ⟨l, _, _, _, e, _⟩ := h.data; exact ⟨l, e⟩)
    obtain ⟨wc, c1, c2⟩ := h4 "ColumnId" (by decide) (by decide) (hall _ fun k a b ts name q h => by
      obtain ⟨_, l, _, _, _, e, _⟩ := h.data; exact ⟨l, e⟩)
    obtain ⟨wi, i1, i2⟩ := h4 key hkey.2 hkey.1 (hall _ fun k a b ts name q h => by
      obtain ⟨_, _, l, _, _, _, e, _⟩ := h.data; exact ⟨l, e⟩)
    refine ⟨wl, wc, wi, w, l1, c1, i1, h6, h7, h8, ?_⟩
    intro k ts name hts hnm c s hc' hs
    obtain ⟨q, a', b', name', q1, q2, q3, q5, q4⟩ := hq k ts hts
    rw [hnm] at q5; cases q5
    obtain ⟨la, co, it, gr, d1, d2, d3, d4, d5⟩ := q4.data
    obtain ⟨f1, f2, f3, f4⟩ := d5 c s hc' hs
    have hin : c + n * s < q.cells.length := by rw [q4.size]; exact index_lt hc' hs
    rw [hpos k ts s c hts hs]
    exact ⟨by rw [l2 k q la _ q1 d1 hin, f1], by rw [c2 k q co _ q1 d2 hin, f2], by rw [i2 k q it _ q1 d3 hin, f3],
      h9 k q gr _ _ q1 d4 hin f4⟩
  · intro k a b ts ha hb hts c s t conn hcell hs
    obtain ⟨q, a', b', name', q1, q2, q3, q5, q4⟩ := hq k ts hts
    rw [ha] at q2; cases q2
    rw [hb] at q3; cases q3
    obtain ⟨g, g1, g2⟩ := q4.hidden
    have hc' : c < n := (List.getElem?_eq_some_iff.1 hcell).1
    have hin : c + n * s < q.cells.length := by rw [q4.size]; exact index_lt hc' hs
    have hgh := h5 (fun q hq' => by
      obtain ⟨k, a, b, ts, name, hs⟩ := hslabs q hq'
      obtain ⟨g, g1, _⟩ := hs.hidden
      exact ⟨g, g1⟩) k q _ q1 hin
    rw [hpos k ts s c hts hs, hgh]
    simp only [ghostOf, g1, List.getD_eq_getElem?_getD]
    obtain ⟨r1, r2⟩ := g2 c s t conn hs hcell
    exact ⟨fun h => by rw [r1 h]; rfl, fun h => by rw [r2 h]; rfl⟩
  · intro nm v hv hnm
    have hnm' := hnm
    simp only [ownArrays, List.mem_cons, List.not_mem_nil, or_false, not_or] at hnm'
    obtain ⟨w', w1, w2⟩ := h4 nm hnm'.2.2.2.2 hnm'.2.2.2.1 (fun q hq' => by
      obtain ⟨k, a, b, ts, name, hs⟩ := hslabs q hq'
      obtain ⟨g, g1, _⟩ := hs.carried nm v hv hnm
      exact ⟨g, g1⟩)
    refine ⟨w', w1, ?_⟩
    intro k ts hts c s hc' hs
    obtain ⟨q, a', b', name', q1, q2, q3, q5, q4⟩ := hq k ts hts
    obtain ⟨g, g1, g2⟩ := q4.carried nm v hv hnm
    have hin : c + n * s < q.cells.length := by rw [q4.size]; exact index_lt hc' hs
    rw [hpos k ts s c hts hs, w2 k q g _ q1 g1 hin, g2 c s hc' hs]
  · intro k k' a b ts a' b' ts' ha hb hts ha' hb' hts' j j' s s' t t' x y x' y' hj1 hj2 ht ht' hx hy hx' hy' he
    obtain ⟨q, _, _, _, q1, q2, q3, _, q4⟩ := hq k ts hts
    rw [ha] at q2; cases q2
    rw [hb] at q3; cases q3
    obtain ⟨q', _, _, _, p1, p2, p3, _, p4⟩ := hq k' ts' hts'
    rw [ha'] at p2; cases p2
    rw [hb'] at p3; cases p3
    have hs := (List.getElem?_eq_some_iff.1 ht).1
    have hs' := (List.getElem?_eq_some_iff.1 ht').1
    rw [hnode k ts s j hts hs hj1, hnode k' ts' s' j' hts' hs' hj2]
    refine hj.same k k' q q' _ _ (between t x y) q1 p1 (slabU_used q4 (hts2 k ts hts) hj1 hs)
      (slabU_used p4 (hts2 k' ts' hts') hj2 hs') (q4.nodes j s t x y ht hx hy) ?_
    rw [he]
    exact p4.nodes j' s' t' x' y' ht' hx' hy'

/-- The whole generation, for any kind of mesh whose extrusion is as it should be. -/
theorem assembleU_ok {τ ρ : Type _} {R : V3 K → V3 K → Prop} {vtk : VtkOracle K} (ho : AppendsAll vtk.order)
    (hc : Cleans R vtk.clean) (kit : UKit K τ ρ) {ignore : List String} {dflt key : String}
    (hkey : key ≠ "LayerId" ∧ key ≠ "ColumnId" ∧ key ≠ "CellGroup" ∧ key ≠ "vtkGhostType") {flip : Bool} {N : ℕ}
    {cells : List (ℕ × List ℕ)} (hids : ∀ tc ∈ cells, ∀ x ∈ tc.2, x < N) (hpos : 0 < cells.length) {base : Dict String (DArr ℤ)}
    (perc : ρ → List K) (a b : TItem K τ ρ) (rest : List (TItem K τ ρ))
    (hsurf : ∀ it ∈ a :: b :: rest, it.mesh.points.length = N ∧ (kit.labels it.mesh).nCells = cells.length ∧
      ∀ x, (kit.labels it.mesh).cellGroup = some x → x.length = (kit.labels it.mesh).nCells)
    (hopt : ∀ it ∈ b :: rest, it.transition = false ∧ ∃ o, it.opts = some o ∧ fromZeroToOne (perc o.sub))
    (hext : ∀ (k : ℕ) x y o arr, (a :: b :: rest)[k]? = some x → (b :: rest)[k]? = some y → y.opts = some o →
      arr.length = cells.length → ∃ p, kit.extrude (kit.withGroup x.mesh arr) y.mesh o.sub = .ok p ∧
        BetweenU flip N cells base x.mesh.points y.mesh.points (perc o.sub) arr p) :
    ((∀ it ∈ b :: rest, ∀ o, it.opts = some o → Acceptable cells.length o.group) →
      ∃ r, assembleU kit vtk ignore dflt key (a :: b :: rest) = .ok r) ∧
    ∀ M table, assembleU kit vtk ignore dflt key (a :: b :: rest) = .ok (M, table) →
      ∃ subs names pos node, subs.length = rest.length + 1 ∧ names.length = rest.length + 1 ∧
        (∀ (k : ℕ) x y, (a :: b :: rest)[k]? = some x → (b :: rest)[k]? = some y → ∃ o name, y.opts = some o ∧
          subs[k]? = some (perc o.sub) ∧ names[k]? = some name ∧
          Labels ignore dflt cells.length (kit.labels x.mesh).cellGroup (kit.labels x.mesh).table o.group name) ∧
        LayeredU R flip key N cells base ((a :: b :: rest).map fun it => it.mesh.points) subs names M table pos
          node := by
  have hext' : ∀ (k : ℕ) x y o, (a :: b :: rest)[k]? = some x → (b :: rest)[k]? = some y → y.opts = some o →
      ∀ arr p, arr.length = (kit.labels x.mesh).nCells →
        kit.extrude (kit.withGroup x.mesh arr) y.mesh o.sub = .ok p →
        BetweenU flip N cells base x.mesh.points y.mesh.points (perc o.sub) arr p := by
    intro k x y o hx hy hoo arr p harr hp
    rw [(hsurf x (List.mem_of_getElem? hx)).2.1] at harr
    obtain ⟨p', hp', hb⟩ := hext k x y o arr hx hy hoo harr
    rw [hp] at hp'; cases hp'
    exact hb
  have main : ∀ qs groups, submeshesU kit ignore dflt key a (b :: rest) [] 0 0 = .ok (qs, groups) →
      ∃ M table, assembleU kit vtk ignore dflt key (a :: b :: rest) = .ok (M, table) ∧
      ∃ subs names pos node, subs.length = rest.length + 1 ∧ names.length = rest.length + 1 ∧
        (∀ (k : ℕ) x y, (a :: b :: rest)[k]? = some x → (b :: rest)[k]? = some y → ∃ o name, y.opts = some o ∧
          subs[k]? = some (perc o.sub) ∧ names[k]? = some name ∧
          Labels ignore dflt cells.length (kit.labels x.mesh).cellGroup (kit.labels x.mesh).table o.group name) ∧
        LayeredU R flip key N cells base ((a :: b :: rest).map fun it => it.mesh.points) subs names M table pos
          node := by
    intro qs groups h
    obtain ⟨h1, _, h3, nsubs, h4, h5⟩ := submeshesU_ok kit ⟨hkey.1, hkey.2.1, hkey.2.2.1⟩ (b :: rest) a [] groups 0 0
      qs (fun it hit => (hsurf it hit).2.2)
      (fun k x y o hx hy hoo => ⟨fun arr p harr _ hp => by
          have hb := hext' k x y o hx hy hoo arr p harr hp
          obtain ⟨_, hn, _⟩ := hsurf x (List.mem_of_getElem? hx)
          exact ⟨hb.arrays, by omega, _, by rw [hn]; exact hb.size⟩,
        fun arr p _ ht _ => by
          have := (hopt y (List.mem_of_getElem? hy)).1
          rw [ht] at this; cases this⟩)
      ⟨by simp, by simp⟩ h
    -- positions and names
    let dx : TItem K τ ρ → List K := fun y => (y.opts.map fun o => perc o.sub).getD []
    have hblock : ∀ (k : ℕ) y, (b :: rest)[k]? = some y → ∃ name : ℕ → String, ∃ x o q,
        (a :: b :: rest)[k]? = some x ∧ y.opts = some o ∧ qs[k]? = some q ∧ nsubs[k]? = some ((perc o.sub).length - 1) ∧
        Labels ignore dflt cells.length (kit.labels x.mesh).cellGroup (kit.labels x.mesh).table o.group name ∧
        SlabU flip key N cells base x.mesh.points y.mesh.points (perc o.sub) name groups ((nsubs.take k).sum) k q := by
      intro k y hy
      obtain ⟨x, o, ns, arr, name, p, q, e1, e2, e3, e4, e5⟩ := h5 k y hy
      obtain ⟨_, hn, _⟩ := hsurf x (List.mem_of_getElem? e1)
      have ht := (hopt y (List.mem_of_getElem? hy)).1
      have hb := hext' k x y o e1 hy e2 arr p e5.size (e5.plain ht).1
      obtain ⟨f1, f2⟩ := slabU_of_block hkey e5 ht hn hpos hb
      refine ⟨name, x, o, q, e1, e2, e4, by rw [← f1]; exact e3, by rw [← hn]; exact e5.labels, ?_⟩
      simpa using f2
    choose nm hnm using fun (k : Fin (b :: rest).length) =>
      hblock k _ (List.getElem?_eq_getElem k.2)
    let subs := (b :: rest).map dx
    let names := List.ofFn nm
    have hsubs : ∀ (k : ℕ) y o, (b :: rest)[k]? = some y → y.opts = some o → subs[k]? = some (perc o.sub) := by
      intro k y o hy hoo
      simp only [subs, List.getElem?_map, hy, Option.map_some, dx, hoo, Option.getD_some]
    have hnames : ∀ (k : ℕ) (hk : k < (b :: rest).length), names[k]? = some (nm ⟨k, hk⟩) := by
      intro k hk
      simp only [names, List.getElem?_ofFn, hk, dif_pos]
    have hsz : nsubs = subs.map fun ts => ts.length - 1 := by
      apply List.ext_getElem?
      intro k
      rw [List.getElem?_map]
      by_cases hk : k < (b :: rest).length
      · obtain ⟨x, o, q, e1, e2, e3, e4, _⟩ := hnm ⟨k, hk⟩
        rw [e4, hsubs k _ o (List.getElem?_eq_getElem hk) e2]; rfl
      · rw [List.getElem?_eq_none (by omega), List.getElem?_eq_none (by simp only [subs, List.length_map]; omega)]; rfl
    obtain ⟨m, M, table, pos, node, m1, m2, m3⟩ := layeredU_of_slabs ho hc (flip := flip) (key := key)
      ⟨hkey.2.2.1, hkey.2.2.2⟩ hids (base := base) (surfs := (a :: b :: rest).map fun it => it.mesh.points)
      (subs := subs) (names := names) (qs := qs) (by intro e; rw [e] at h3; simp at h3)
      (by simp only [subs, List.length_map]; omega) (by simp only [names, List.length_ofFn]; omega)
      (by intro l hl; obtain ⟨it, hit, rfl⟩ := List.mem_map.1 hl; exact (hsurf it hit).1)
      (by
        intro ts hts
        obtain ⟨it, hit, rfl⟩ := List.mem_map.1 hts
        obtain ⟨_, o, e1, e2⟩ := hopt it hit
        simp only [dx, e1, Option.map_some, Option.getD_some]
        exact e2) h1
      (by
        intro k q hk
        have hk' : k < (b :: rest).length := by rw [← h3]; exact (List.getElem?_eq_some_iff.1 hk).1
        obtain ⟨x, o, q', e1, e2, e3, e4, e5, e6⟩ := hnm ⟨k, hk'⟩
        simp only at e1 e2 e3 e4 e6
        rw [hk] at e3; cases e3
        refine ⟨x.mesh.points, (b :: rest)[k].mesh.points, perc o.sub, nm ⟨k, hk'⟩, ?_, ?_,
          hsubs k _ o (List.getElem?_eq_getElem hk') e2, hnames k hk', ?_⟩
        · rw [List.getElem?_map, e1]; rfl
        · rw [List.getElem?_map, List.getElem?_cons_succ, List.getElem?_eq_getElem hk']; rfl
        · rw [layersIn_eq, ← hsz]; exact e6)
    refine ⟨M, table, by simp only [assembleU, h, m1, m2], subs, names, pos, node,
      by simp [subs], by simp [names], ?_, m3⟩
    intro k x y hx hy
    have hk' := (List.getElem?_eq_some_iff.1 hy).1
    obtain ⟨x', o, q', e1, e2, e3, e4, e5, e6⟩ := hnm ⟨k, hk'⟩
    simp only at e1 e2
    rw [hx] at e1; cases e1
    rw [List.getElem?_eq_getElem hk'] at hy; cases hy
    exact ⟨o, nm ⟨k, hk'⟩, e2, hsubs k _ o (List.getElem?_eq_getElem hk') e2, hnames k hk', e5⟩
  constructor
  · intro hacc
    obtain ⟨r, hr⟩ := submeshesU_total kit (ignore := ignore) (dflt := dflt) (key := key)
      ⟨hkey.1, hkey.2.1, hkey.2.2.1⟩ (b :: rest) a [] 0 0 (fun it hit => (hsurf it hit).2.2)
      (by
        intro k x y hx hy
        have hy' := List.mem_of_getElem? hy
        obtain ⟨ht, o, hoo, _⟩ := hopt y hy'
        obtain ⟨_, hn, _⟩ := hsurf x (List.mem_of_getElem? hx)
        refine ⟨o, hoo, ht, by rw [hn]; exact hacc y hy' o hoo, fun arr harr => ?_⟩
        obtain ⟨p, hp, hb⟩ := hext k x y o arr hx hy hoo (by rw [harr, hn])
        exact ⟨p, hp, hb.arrays, by omega, _, by rw [hn]; exact hb.size⟩) ⟨by simp, by simp⟩
    obtain ⟨M, table, h, _⟩ := main r.1 r.2 hr
    exact ⟨_, h⟩
  · intro M table h
    have h' := h
    simp only [assembleU] at h'
    split at h'
    · cases h'
    rename_i qs groups hs
    obtain ⟨M', table', e1, e2⟩ := main qs groups hs
    rw [h] at e1; cases e1
    exact e2

end

end Gridder
