import Verif.Props.StackT

/-!
# C103, C104: what a transition does to hidden cells and to masks
-/

namespace Gridder
open Spec

section
variable {K τ ρ : Type _}

theorem filterMap_get_none (b : Dict String (DArr ℤ)) (key : String) : ∀ d : Dict String (DArr ℤ),
    Dict.get? d key = none ∨ Dict.get? b key = none →
    Dict.get? (d.filterMap fun kv => (Dict.get? b kv.1).map fun w => (kv.1, (⟨kv.2.vector, kv.2.vals ++ w.vals⟩ : DArr ℤ)))
      key = none
  | [], _ => rfl
  | (k, x) :: d, h => by
    rw [List.filterMap_cons]
    by_cases hk : k = key
    · subst hk
      rcases h with h | h
      · simp [Dict.get?] at h
      · simp only [h, Option.map_none]
        exact filterMap_get_none b k d (.inr h)
    · have h' : Dict.get? d key = none ∨ Dict.get? b key = none := by
        rcases h with h | h
        · simp only [Dict.get?, if_neg hk] at h; exact .inl h
        · exact .inr h
      cases hb : Dict.get? b k with
      | none => simp only [Option.map_none]; exact filterMap_get_none b key d h'
      | some w => simp only [Option.map_some, Dict.get?, if_neg hk]; exact filterMap_get_none b key d h'

/-- An array that one of the meshes lacks is lost. -/
theorem appendAll_get_none (key : String) : ∀ (l : List (UMesh K)) (a : UMesh K),
    (∃ q ∈ a :: l, Dict.get? q.cellData key = none) → Dict.get? (appendAll a l).cellData key = none
  | [], a, ⟨q, hq, h⟩ => by
    simp only [List.mem_singleton] at hq
    subst hq; exact h
  | b :: l, a, ⟨q, hq, h⟩ => by
    have : appendAll a (b :: l) = appendAll (append2 a b) l := rfl
    rw [this]
    refine appendAll_get_none key l _ ?_
    simp only [List.mem_cons] at hq
    rcases hq with rfl | rfl | hq
    · exact ⟨_, List.mem_cons_self, filterMap_get_none _ key _ (.inl h)⟩
    · exact ⟨_, List.mem_cons_self, filterMap_get_none _ key _ (.inr h)⟩
    · exact ⟨q, by simp [hq], h⟩

theorem mergeU_get_none {vtk : VtkOracle K} (ho : AppendsAll vtk.order) {key : String} {qs : List (UMesh K)} {m : UMesh K}
    (h : mergeU vtk qs = .ok m) (hq : ∃ q ∈ qs, Dict.get? q.cellData key = none) : Dict.get? m.cellData key = none := by
  match qs, h, hq with
  | [q], h, ⟨q', hq, hn⟩ =>
    simp only [List.mem_singleton] at hq
    subst hq
    cases h; exact hn
  | q :: q' :: rest, h, ⟨r, hr, hn⟩ =>
    simp only [mergeU] at h
    obtain ⟨k, hk⟩ := List.getElem?_of_mem hr
    have hlt := (List.getElem?_eq_some_iff.1 hk).1
    have hmem : r ∈ (vtk.order (rest.length + 2)).filterMap fun k => (q :: q' :: rest)[k]? := by
      refine List.mem_filterMap.2 ⟨k, ?_, hk⟩
      rw [(ho _).mem_iff, List.mem_range]
      simp only [List.length_cons] at hlt; omega
    split at h
    · cases h
    · rename_i p ps hp
      rw [hp] at hmem
      cases h
      exact appendAll_get_none key ps p ⟨r, hmem, hn⟩

theorem setArray_get_ne {n : ℕ} {d d' : Dict String (DArr ℤ)} {k key : String} {v : DArr ℤ} (hk : k ≠ key)
    (h : setArray n d k v = .ok d') : Dict.get? d' key = Dict.get? d key := by
  simp only [setArray] at h
  split at h
  · cases h; rw [Dict.get?_set, if_neg hk]
  · cases h

theorem labelU_get_ne {key name : String} {nA : Option ℕ} {nl i ns : ℕ} {p q : UMesh K}
    (h : labelU key nA nl i p = .ok (q, ns)) (h1 : name ≠ key) (h2 : name ≠ "LayerId") (h3 : name ≠ "ColumnId") :
    Dict.get? q.cellData name = Dict.get? p.cellData name := by
  simp only [labelU] at h
  split at h
  · cases h
  split at h
  · cases h
  rename_i cd1 e1
  split at h
  · cases h
  rename_i cd2 e2
  split at h
  · cases h
  rename_i cd3 e3
  obtain ⟨rfl, -⟩ := Prod.mk.inj (Except.ok.inj h)
  simp only
  rw [setArray_get_ne h1.symm e3, setArray_get_ne h2.symm e2, setArray_get_ne h3.symm e1]

/-- The part of a transition has no ghost array if the triangles have none. -/
theorem submeshesU_ghost (kit : UKit K τ ρ) {ignore : List String} {dflt key : String} (hkey : key ≠ "vtkGhostType")
    (htri : ∀ a b p, kit.transition a b = .ok p → Dict.get? p.cellData "vtkGhostType" = none) :
    ∀ (rest : List (TItem K τ ρ)) (a : TItem K τ ρ) (groups : Dict String Int) (nl i : ℕ) (qs : List (UMesh K))
      (groups' : Dict String Int), submeshesU kit ignore dflt key a rest groups nl i = .ok (qs, groups') →
      (∃ y ∈ rest, y.transition = true) → ∃ q ∈ qs, Dict.get? q.cellData "vtkGhostType" = none := by
  intro rest
  induction rest with
  | nil => rintro a groups nl i qs groups' _ ⟨y, hy, _⟩; simp at hy
  | cons b rest ih =>
    rintro a groups nl i qs groups' h ⟨y, hy, ht⟩
    simp only [submeshesU] at h
    split at h
    · cases h
    split at h
    · cases h
    rename_i opts _ _ p g1 hsub
    split at h
    · cases h
    rename_i q ns hlab
    split at h
    · cases h
    rename_i qs' g2 hrec
    obtain ⟨rfl, rfl⟩ := Prod.mk.inj (Except.ok.inj h)
    simp only [List.mem_cons] at hy
    rcases hy with rfl | hy
    · refine ⟨q, by simp, ?_⟩
      rw [labelU_get_ne hlab hkey.symm (by decide) (by decide)]
      simp only [submeshU] at hsub
      split at hsub
      · cases hsub
      rw [if_pos ht] at hsub
      split at hsub
      · cases hsub
      rename_i p0 hp0
      simp only [groupTransition] at hsub
      split at hsub
      · cases hsub
      split at hsub
      · cases hsub
      rename_i cd hset
      obtain ⟨rfl, -⟩ := Prod.mk.inj (Except.ok.inj hsub)
      simp only
      rw [setArray_get_ne (by decide) hset]
      exact htri _ _ _ hp0
    · obtain ⟨q', m1, m2⟩ := ih b _ _ _ qs' _ hrec ⟨y, hy, ht⟩
      exact ⟨q', by simp [m1], m2⟩

theorem cleanU_ghost {vtk : VtkOracle K} {m M : UMesh K} {t table : Dict String Int}
    (h : cleanU vtk m t = .ok (M, table)) (hn : Dict.get? m.cellData "vtkGhostType" = none) :
    Dict.get? M.cellData "vtkGhostType" = none := by
  have hd : dropGhost m.cellData = m.cellData := by simp only [dropGhost, hn]
  simp only [cleanU, hd] at h
  split at h
  · obtain ⟨rfl, -⟩ := Prod.mk.inj (Except.ok.inj h); exact hn
  · split at h
    · cases h
    · obtain ⟨rfl, -⟩ := Prod.mk.inj (Except.ok.inj h)
      simp only
      rw [Dict.get?_set, if_neg (by decide)]
      exact hn

/-- A mask of a group argument has to fit the mesh. -/
theorem groupLoop_mask (mesh : LMesh) : ∀ (l : List (String × Sel)) (st st' : List Int × Dict String Int),
    groupLoop mesh l st = .ok st' → ∀ key m, (key, Sel.mask m) ∈ l → m.length = st.1.length
  | [], _, _, _, _, _, hm => by simp at hm
  | kv :: l, st, st', h, key, m, hm => by
    simp only [groupLoop] at h
    split at h
    · cases h
    rename_i st1 h1
    simp only [groupStep] at h1
    split at h1
    · cases h1
    rename_i mask hmask
    split at h1
    · cases h1
    rename_i arr harr
    cases h1
    obtain ⟨a1, a2, _⟩ := assign_ok harr
    simp only [List.mem_cons] at hm
    rcases hm with hm | hm
    · subst hm
      simp only [selMask, Except.ok.injEq] at hmask
      subst hmask
      by_cases hneg : (parseKey key).1
      · have := a2 (m.map (!·)) (by simp [hneg, NpMask.invert])
        simpa using this
      · exact a2 m (by simp [hneg])
    · rw [groupLoop_mask mesh l _ _ h key m hm]; exact a1

theorem initGroupArray_mask {ignore : List String} {dflt : String} {mesh : LMesh} {groups : Dict String Int}
    {d : List (String × Sel)} {r : List Int × Dict String Int} {arg : Option String}
    (hlab : ∀ c, mesh.cellGroup = some c → c.length = mesh.nCells)
    (h : initGroupArray ignore dflt mesh groups (.dict d) arg = .ok r) {key : String} {m : List Bool}
    (hm : (key, Sel.mask m) ∈ d) : m.length = mesh.nCells := by
  simp only [initGroupArray, groupItems] at h
  split at h
  · cases h
  rename_i st hst
  rw [groupLoop_mask _ _ _ _ hst key m hm]
  simp only [copyLabels]
  split
  · rename_i data table hd _
    rw [tableLoop_length _ _ _ _ (by rw [List.length_replicate, hlab _ hd]), hlab _ hd]
  · simp

/-- A mask given for a transition has to fit both the mesh below and the triangles. -/
theorem submeshesU_mask (kit : UKit K τ ρ) {ignore : List String} {dflt key : String}
    (htri : ∀ a b p, kit.transition a b = .ok p → Arrays p.cells.length p.cellData) :
    ∀ (rest : List (TItem K τ ρ)) (a : TItem K τ ρ) (groups : Dict String Int) (nl i : ℕ)
      (r : List (UMesh K) × Dict String Int), submeshesU kit ignore dflt key a rest groups nl i = .ok r →
      (∀ it ∈ a :: rest, ∀ c, (kit.labels it.mesh).cellGroup = some c → c.length = (kit.labels it.mesh).nCells) →
      ∀ (k : ℕ) x y o d name m, (a :: rest)[k]? = some x → rest[k]? = some y → y.transition = true → y.opts = some o →
        o.group = .dict d → (name, Sel.mask m) ∈ d → m.length = (kit.labels x.mesh).nCells ∧
        ∃ arr p, kit.transition (kit.withGroup x.mesh arr) y.mesh = .ok p ∧ m.length = p.cells.length := by
  intro rest
  induction rest with
  | nil => intro a groups nl i r _ _ k x y o d name m _ hy; simp at hy
  | cons b rest ih =>
    intro a groups nl i r h hlab k x y o d name m hx hy ht ho hd hm
    simp only [submeshesU] at h
    split at h
    · cases h
    rename_i opts hopts
    split at h
    · cases h
    rename_i p g1 hsub
    split at h
    · cases h
    rename_i q ns _
    split at h
    · cases h
    rename_i qs' g2 hrec
    cases k with
    | succ k =>
      exact ih b _ _ _ _ hrec (fun it hit => hlab it (List.mem_cons_of_mem _ hit)) k x y o d name m
        (by simpa using hx) (by simpa using hy) ht ho hd hm
    | zero =>
      simp only [List.getElem?_cons_zero, Option.some.injEq] at hx hy
      subst hx hy
      rw [ho] at hopts; cases hopts
      simp only [submeshU, hd] at hsub
      split at hsub
      · cases hsub
      rename_i arr g0 hinit
      rw [if_pos ht] at hsub
      split at hsub
      · cases hsub
      rename_i p0 hp0
      refine ⟨initGroupArray_mask (hlab a (by simp)) hinit hm, arr, p0, hp0, ?_⟩
      simp only [groupTransition] at hsub
      split at hsub
      · cases hsub
      rename_i arr2 g3 hinit2
      have hA := htri _ _ _ hp0
      exact initGroupArray_mask (by
        intro c hc
        simp only [groupCodes, Option.map_eq_some_iff] at hc
        obtain ⟨g, hg, rfl⟩ := hc
        exact hA.1 _ (Dict.get?_mem hg)) hinit2 hm

end

/-- **C103, stacks with transitions (general form).** Once a stack contains a transition and the triangles come without
ghost flags, the generated mesh has no ghost flags at all: `pv.merge` keeps the arrays that all parts have. -/
theorem C103_transition_unflagged {vtk : VtkOracle ℝ} (ho : AppendsAll vtk.order) (quad : ℤ → ℤ)
    (area : Arr3 (V3 ℝ) → List ℝ) (tri : List (V3 ℝ) → Py (UMesh ℝ))
    (htri : ∀ pts p, tri pts = .ok p → Dict.get? p.cellData "vtkGhostType" = none) (ignore : List String)
    (dflt : String) (s : Stack ℝ LineTopo (Opts (Resolution ℝ × Option String)))
    (ht : ∃ it ∈ s.items.tail, it.transition = true) (M : UMesh ℝ) (table : List (String × Int))
    (s' : Stack ℝ LineTopo (Opts (Resolution ℝ × Option String)))
    (h : stack2DT quad area tri vtk ignore dflt s = .ok ((M, table), s')) :
    ∀ c, ghostOf M.cellData c = 0 := by
  obtain ⟨a, rest, i1, i2, i3, _, i5⟩ := generate_inv h
  obtain ⟨e1, e2⟩ := cutFrom_same i2
  have htr : ∃ y ∈ (s'.items.map fun it => (⟨it.mesh, it.opts, it.transition⟩ :
      TItem ℝ LineTopo (Resolution ℝ × Option String))).tail, y.transition = true := by
    obtain ⟨it, hit, ht⟩ := ht
    obtain ⟨k, hk⟩ := List.getElem?_of_mem hit
    rw [List.getElem?_tail, i1] at hk
    obtain ⟨y, hy, sy⟩ := e2 _ _ hk
    refine ⟨⟨y.mesh, y.opts, y.transition⟩, ?_, by simp only; rw [sy.transition, ht]⟩
    refine List.mem_of_getElem? (i := k) ?_
    rw [List.getElem?_tail, List.getElem?_map, hy]; rfl
  have hg : Dict.get? M.cellData "vtkGhostType" = none := by
    generalize hI : (s'.items.map fun it => (⟨it.mesh, it.opts, it.transition⟩ :
      TItem ℝ LineTopo (Resolution ℝ × Option String))) = I at i3 htr
    match I, i3, htr with
    | [], i3, _ => cases i3
    | [_], i3, _ => cases i3
    | x :: y :: l, i3, htr =>
      simp only [assembleU] at i3
      split at i3
      · cases i3
      rename_i qs groups hsub
      split at i3
      · cases i3
      rename_i m hm
      refine cleanU_ghost i3 (mergeU_get_none ho hm ?_)
      exact submeshesU_ghost _ (by decide) (fun a b p hp => htri _ p hp) _ _ _ _ _ _ _ hsub htr
  intro c
  simp only [ghostOf, hg]

/-- **C104.** A mask among the groups of the first item after `set_transition` has to have as many entries as the line
below has segments, and as many as there are triangles: the groups are applied to both. -/
theorem C104_mask_both {quad : ℤ → ℤ} {area : Arr3 (V3 ℝ) → List ℝ} {tri : List (V3 ℝ) → Py (UMesh ℝ)}
    (htri : ∀ pts p, tri pts = .ok p → Arrays p.cells.length p.cellData) {vtk : VtkOracle ℝ} {ignore : List String}
    {dflt : String} {s : Stack ℝ LineTopo (Opts (Resolution ℝ × Option String))}
    {r : (UMesh ℝ × Dict String Int)} {s' : Stack ℝ LineTopo (Opts (Resolution ℝ × Option String))}
    (h : stack2DT quad area tri vtk ignore dflt s = .ok (r, s'))
    (hl : ∀ it ∈ s'.items, StackLine it.mesh.points.length it.mesh)
    {k : ℕ} {x y : Item ℝ LineTopo (Opts (Resolution ℝ × Option String))} (hx : s'.items[k]? = some x)
    (hy : s'.items[k + 1]? = some y) (ht : y.transition = true) {w : Opts (Resolution ℝ × Option String)}
    (hw : y.opts = some w) {d : List (String × Sel)} (hd : w.group = .dict d) {name : String} {m : List Bool}
    (hm : (name, Sel.mask m) ∈ d) :
    m.length = x.mesh.points.length - 1 ∧
      ∃ p, tri (x.mesh.points ++ y.mesh.points.reverse) = .ok p ∧ m.length = p.cells.length := by
  obtain ⟨_, _, _, _, i3, _⟩ := generate_inv h
  match hI : s'.items, i3 with
  | [], i3 => cases i3
  | [_], i3 => cases i3
  | a :: b :: l, i3 =>
    set tit : Item ℝ LineTopo (Opts (Resolution ℝ × Option String)) →
      TItem ℝ LineTopo (Resolution ℝ × Option String) := fun it => ⟨it.mesh, it.opts, it.transition⟩ with htit
    change assembleU _ _ _ _ _ (tit a :: tit b :: l.map tit) = _ at i3
    simp only [assembleU] at i3
    split at i3
    · cases i3
    rename_i qs groups hsub
    rw [hI] at hx hy
    have hmap : ∀ (k : ℕ) z, (a :: b :: l)[k]? = some z → (tit a :: tit b :: l.map tit)[k]? = some (tit z) := by
      intro k z hz
      rw [← List.map_cons, ← List.map_cons, List.getElem?_map, hz]; rfl
    obtain ⟨h1, _, p, h2, h3⟩ := submeshesU_mask _ (fun a b p hp => htri _ p hp) _ _ _ _ _ _ hsub
      (by
        intro it hit c hc
        rw [← List.map_cons, ← List.map_cons] at hit
        obtain ⟨it', m1, rfl⟩ := List.mem_map.1 hit
        simp only [lineKitU, groupCodes, Option.map_eq_some_iff] at hc
        obtain ⟨g, hg, rfl⟩ := hc
        exact (hl it' (by rw [hI]; exact m1)).clean.cdLen _ (Dict.get?_mem hg))
      k (tit x) (tit y) w d name m (hmap k x hx) (by have := hmap _ _ hy; simpa using this) ht hw hd hm
    exact ⟨h1, p, h2, h3⟩

/-! ## a stack -/

/-- A triangulation of an outline: the fan around its first point. -/
def fanTri (pts : List (V3 ℝ)) : Py (UMesh ℝ) :=
  if pts.length < 3 then .error .valueError
  else .ok ⟨pts, (List.range (pts.length - 2)).map fun i => (5, .nodes [0, i + 1, i + 2]), []⟩

theorem fanTri_ok : KeepsOutline fanTri ∧ (∀ pts p, fanTri pts = .ok p → Arrays p.cells.length p.cellData ∧
    Dict.get? p.cellData "vtkGhostType" = none ∧ p.cells.length = pts.length - 2) ∧
    ∀ pts : List (V3 ℝ), 4 ≤ pts.length → ∃ p, fanTri pts = .ok p := by
  refine ⟨?_, ?_, ?_⟩
  · intro pts p hp x hx
    simp only [fanTri] at hp
    split at hp
    · cases hp
    rename_i hlen
    cases hp
    obtain ⟨j, hj⟩ := List.getElem?_of_mem hx
    have hjl := (List.getElem?_eq_some_iff.1 hj).1
    refine ⟨j, ⟨(5, .nodes [0, min (j - 1) (pts.length - 3) + 1, min (j - 1) (pts.length - 3) + 2]),
      List.mem_map.2 ⟨min (j - 1) (pts.length - 3), List.mem_range.2 (by omega), rfl⟩, ?_⟩, hj⟩
    simp only [Cell.ids, List.mem_cons, List.not_mem_nil, or_false]
    omega
  · intro pts p hp
    simp only [fanTri] at hp
    split at hp
    · cases hp
    cases hp
    simp [Arrays, Dict.get?]
  · intro pts h
    exact ⟨_, by rw [fanTri, if_neg (by omega)]⟩

/-- A line of two points. -/
def lineTwo : Surf ℝ LineTopo := ⟨[![0, 0, 0], ![2, 0, 0]], [0, 1], [], [], none⟩

theorem lineTwo_ok : StackLine 2 lineTwo := by
  refine ⟨⟨rfl, by simp [lineTwo], by simp [lineTwo], by simp [lineTwo], by simp [lineTwo], by simp [lineTwo]⟩, rfl,
    by simp [lineTwo]⟩

/-- Two items at height 0, then a transition to a coarser line at height 5 with the given groups. -/
def collapsedCalls (group : GroupArg) : List (Call ℝ LineTopo (Opts (Resolution ℝ × Option String))) :=
  [.add (.scalar 0) none ⟨(.int 1, none), .none⟩ 0 0, .add (.scalar 0) none ⟨(.int 1, none), .none⟩ 0 0,
    .setTransition lineTwo, .add (.callable fun _ => .ok (.inl 5)) none ⟨(.int 1, none), group⟩ 0 0]

theorem collapsed_run (o : InterpOracle ℝ) (group : GroupArg) :
    ∃ s, (Stack.new (lineX ℝ) 2 true).run o (collapsedCalls group) = .ok s ∧
      s.items.map (fun it => it.mesh.points) = [[![0, 0, 0], ![1, 0, 0], ![2, 0, 0]], [![0, 0, 0], ![1, 0, 0], ![2, 0, 0]],
        [![0, 0, 5], ![2, 0, 5]]] ∧ s.items.map (fun it => it.transition) = [false, false, true] ∧
      s.axis = 2 ∧ s.bottomUp = true ∧ (∀ it ∈ s.items, it.thickness = 0) ∧
      s.items.map (fun it => it.opts) = [none, some ⟨(.int 1, none), .none⟩, some ⟨(.int 1, none), group⟩] ∧
      s.items.map (fun it => it.mesh.topo) = [(lineX ℝ).topo, (lineX ℝ).topo, lineTwo.topo] := by
  have e1 : ∀ a b : ℝ, Function.update ![a, b, 0] 2 0 = ![a, b, 0] := by
    intro a b; funext i; fin_cases i <;> simp
  have e2 : ∀ a b : ℝ, Function.update ![a, b, 0] 2 5 = ![a, b, 5] := by
    intro a b; funext i; fin_cases i <;> simp
  refine ⟨_, rfl, ?_, rfl, rfl, rfl, ?_, rfl, rfl⟩
  · simp [Stack.new, Stack.setTransition, lineX, lineTwo, setCoord, e1, e2]
  · simp [Stack.new, Stack.setTransition]

theorem collapsed_lines (group : GroupArg) (m : Surf ℝ LineTopo) (hm : Call.setTransition m ∈ collapsedCalls group) :
    StackLine m.points.length m := by
  simp only [collapsedCalls, List.mem_cons, reduceCtorEq, Call.setTransition.injEq, List.not_mem_nil, or_false,
    false_or] at hm
  subst hm
  exact lineTwo_ok

theorem collapsed_res (group : GroupArg) : ∀ w ∈ (planned false (collapsedCalls group)).tail, w.2 = false →
    ∃ ts, resolutionToPerc w.1.sub.1 w.1.sub.2 = .ok ts ∧ fromZeroToOne ts := by
  intro w hw _
  have : w.1.sub = (.int 1, none) := by
    simp only [collapsedCalls, planned, List.tail_cons, List.mem_cons, List.not_mem_nil, or_false] at hw
    rcases hw with rfl | rfl <;> rfl
  rw [this]
  obtain ⟨p, h1, h2, _⟩ := C11_integer_resolution (1 : ℤ) none (.inl rfl)
  refine ⟨p, h1, ?_, h2.first, ?_⟩
  · rw [h2.size]; omega
  · rw [h2.size]; exact h2.last

/-- The cut pass leaves these items as they are. -/
theorem collapsed_cut {o : InterpOracle ℝ} {group : GroupArg} {s : Stack ℝ LineTopo (Opts (Resolution ℝ × Option String))}
    (hs : (Stack.new (lineX ℝ) 2 true).run o (collapsedCalls group) = .ok s) :
    ∃ a b c, s.items = [a, b, c] ∧ cutFrom s.axis s.bottomUp a [b, c] = .ok s.items ∧ a.mesh.points = b.mesh.points ∧
      b.mesh.points = [![0, 0, 0], ![1, 0, 0], ![2, 0, 0]] ∧ c.mesh.points = [![0, 0, 5], ![2, 0, 5]] ∧
      c.transition = true := by
  obtain ⟨s0, h0, h1, h2, h3, h4, h5, _⟩ := collapsed_run o group
  obtain rfl : s0 = s := Except.ok.inj (h0.symm.trans hs)
  obtain ⟨a, b, c, hi⟩ : ∃ a b c, s0.items = [a, b, c] := by
    have := congrArg List.length h1
    simp only [List.length_map, List.length_cons, List.length_nil] at this
    exact List.length_eq_three.1 this
  rw [hi] at h1 h2 h5
  simp only [List.map_cons, List.map_nil, List.cons.injEq, and_true] at h1 h2
  obtain ⟨p1, p2, p3⟩ := h1
  obtain ⟨_, _, t3⟩ := h2
  refine ⟨a, b, c, hi, ?_, by rw [p1, p2], p2, p3, t3⟩
  rw [hi, h3, h4]
  refine cutFrom_id ?_
  rw [List.isChain_cons_cons, List.isChain_cons_cons]
  refine ⟨.inr ⟨by rw [p1, p2], ?_⟩, .inl t3, List.isChain_singleton _⟩
  intro j p q hp hq
  rw [p1] at hp; rw [p2] at hq
  rw [hp] at hq; cases hq
  have : b.thickness = 0 := h5 b (by simp)
  simp [shiftAt, this]

/-- **C103 refuted for stacks with transitions.** Two items coincide, so that all cells between them have zero area, but
no cell of the mesh is flagged as hidden.  (Without the transition they are, `C103_stack2d_partial`.) -/
theorem C103_transition_refuted (quad : ℤ → ℤ) {area : Arr3 (V3 ℝ) → List ℝ}
    (harea : ∀ x, (area x).length = count (cells x.d)) (o : InterpOracle ℝ) :
    ∃ s M table s' x y, (Stack.new (lineX ℝ) 2 true).run o (collapsedCalls .none) = .ok s ∧
      stack2DT quad area fanTri exactVtk [] "default" s = .ok ((M, table), s') ∧
      s'.items[0]? = some x ∧ s'.items[1]? = some y ∧ x.mesh.points = y.mesh.points ∧ y.transition = false ∧
      2 < M.cells.length ∧ ∀ c, ghostOf M.cellData c = 0 := by
  obtain ⟨s, hs, _, hT, _⟩ := collapsed_run o .none
  obtain ⟨a, b, c, hi, hcut, hab, hb, hc, ht⟩ := collapsed_cut hs
  have hC := C104_transition_partial quad exactVtk_ok.1 exactVtk_ok.2 harea fanTri_ok.1
    (fun pts p hp => (fanTri_ok.2.1 pts p hp).1) [] "default" o (lineX ℝ) lineX_ok 2 (by decide) true
    (collapsedCalls .none) (collapsed_lines .none) (collapsed_res .none) s hs
  obtain ⟨⟨⟨M, table⟩, s'⟩, hr⟩ := hC.1 (by simp [collapsedCalls, planned])
    (by simp [collapsedCalls, NoScalarAfter, NotScalar])
    (by
      intro k x w _ hw
      have hg : w.1.group = .none := by
        have := List.mem_of_getElem? hw
        simp only [collapsedCalls, planned, List.mem_cons, List.not_mem_nil, or_false] at this
        rcases this with rfl | rfl | rfl <;> rfl
      rw [hg]
      simp [Acceptable, entries])
    fanTri_ok.2.2
  have hsame : s'.items = s.items := by
    obtain ⟨a', rest, i1, i2, _⟩ := generate_inv hr
    rw [hi] at i1
    obtain ⟨rfl, rfl⟩ := List.cons.inj i1
    rw [hcut] at i2
    exact (Except.ok.inj i2).symm
  obtain ⟨_, _, subs, sizes, names, pos, node, n1, n2, n3, n4, n5⟩ := hC.2 M table s' hr
  have hsz : 3 ≤ M.cells.length := by
    rw [n5.size]
    rw [hsame, hi] at n2 n5
    have hlen : 1 < sizes.length := by simp at n2; omega
    have h1 := List.getElem?_eq_getElem hlen
    obtain ⟨p, p1, p2, _⟩ := n5.triangles 1 b.mesh.points c.mesh.points _ rfl rfl
      (by
        obtain ⟨_, _, _, h3⟩ := n4 1 b c (⟨(.int 1, none), .none⟩, true) (by rw [hsame, hi]; rfl)
          (by rw [hsame, hi]; rfl) rfl
        exact (h3 rfl).1) h1
    have := (fanTri_ok.2.1 _ p p1).2.2
    rw [hb, hc] at this
    simp only [List.length_append, List.length_cons, List.length_nil, List.length_reverse] at this
    have hmem := List.single_le_sum (fun _ _ => Nat.zero_le _) sizes[1] (List.getElem_mem hlen)
    omega
  refine ⟨s, M, table, s', a, b, hs, hr, by rw [hsame, hi]; rfl, by rw [hsame, hi]; rfl, hab, ?_, by omega, ?_⟩
  · rw [hi] at hT
    simp only [List.map_cons, List.cons.injEq] at hT
    exact hT.2.1
  · refine C103_transition_unflagged exactVtk_ok.1 quad area fanTri (fun pts p hp => (fanTri_ok.2.1 pts p hp).2.1) []
      "default" s ⟨c, by rw [hi]; simp, ht⟩ M table s' hr

/-- **C104 refuted for masks.** No mask works as a group of the transition between the lines of 3 and 2 points: its cells
are 3 triangles, but the mask is also applied to the 2 segments below.  (A mask for all the cells of the item works for
the other items, C96, and a name works here.) -/
theorem C104_mask_refuted (quad : ℤ → ℤ) (area : Arr3 (V3 ℝ) → List ℝ) (o : InterpOracle ℝ) (vtk : VtkOracle ℝ)
    (name : String) (m : List Bool) :
    ∃ s, (Stack.new (lineX ℝ) 2 true).run o (collapsedCalls (.dict [(name, .mask m)])) = .ok s ∧
      ∀ r, stack2DT quad area fanTri vtk [] "default" s ≠ .ok r := by
  obtain ⟨s, hs, _, _, _, _, _, hopt, htop⟩ := collapsed_run o (.dict [(name, .mask m)])
  refine ⟨s, hs, ?_⟩
  rintro ⟨r, s'⟩ hr
  obtain ⟨a, b, c, hi, hcut, hab, hb, hc, ht⟩ := collapsed_cut hs
  have hsame : s'.items = s.items := by
    obtain ⟨a', rest, i1, i2, _⟩ := generate_inv hr
    rw [hi] at i1
    obtain ⟨rfl, rfl⟩ := List.cons.inj i1
    rw [hcut] at i2
    exact (Except.ok.inj i2).symm
  rw [hi] at hopt htop
  simp only [List.map_cons, List.map_nil, List.cons.injEq, and_true] at hopt htop
  obtain ⟨_, _, o3⟩ := hopt
  obtain ⟨t1, t2, t3⟩ := htop
  have hX : ∀ it : Item ℝ LineTopo (Opts (Resolution ℝ × Option String)), it.mesh.topo = (lineX ℝ).topo →
      it.mesh.points = [![0, 0, 0], ![1, 0, 0], ![2, 0, 0]] → StackLine it.mesh.points.length it.mesh := by
    intro it e1 e2
    obtain ⟨⟨ps, tp⟩, _, _, _, _⟩ := it
    simp only at e1 e2
    subst e1 e2
    exact lineX_ok
  have hY : StackLine c.mesh.points.length c.mesh := by
    obtain ⟨⟨ps, tp⟩, _, _, _, _⟩ := c
    simp only at t3 hc
    subst t3 hc
    exact ⟨⟨rfl, by simp, by simp [lineTwo], by simp [lineTwo], by simp [lineTwo], by simp [lineTwo]⟩, rfl,
      by simp [lineTwo]⟩
  obtain ⟨e1, p, e2, e3⟩ := C104_mask_both (fun pts p hp => (fanTri_ok.2.1 pts p hp).1) hr
    (by
      intro it hit
      rw [hsame, hi] at hit
      simp only [List.mem_cons, List.not_mem_nil, or_false] at hit
      rcases hit with rfl | rfl | rfl
      · exact hX _ t1 (by rw [hab, hb])
      · exact hX _ t2 hb
      · exact hY)
    (k := 1) (x := b) (y := c) (by rw [hsame, hi]; rfl) (by rw [hsame, hi]; rfl) ht o3 rfl
    (List.mem_singleton.2 rfl)
  have := (fanTri_ok.2.1 _ p e2).2.2
  rw [hb, hc] at this
  rw [hb] at e1
  simp at this e1
  omega

/-- A stack along x: the line along y with two segments, one item with two sublayers, then a transition to a line of one
segment (its outline triangulated by hand). -/
def transitionX : Py ((UMesh ℚ × Dict String Int) × Stack ℚ LineTopo (Opts (List ℚ))) :=
  match (Stack.new lineY 0 true).run noInterp
      [.add (.scalar 0) none ⟨[0, 1], .none⟩ 0 0, .add (.scalar 2) none ⟨[0, 1 / 2, 1], .none⟩ 0 0,
        .setTransition ⟨[![0, 0, 0], ![0, 2, 0]], [0, 1], [], [], none⟩,
        .add (.callable fun _ => .ok (.inl 3)) none ⟨[0, 1], .none⟩ 0 0] with
  | .error e => .error e
  | .ok s => s.generateU (lineKitU (fun _ => 9) (fun a b ts => generateSurfaceCore unitCells a b (stackPlane 0) ts)
      fun pts => .ok ⟨pts, [(5, .nodes [0, 1, 4]), (5, .nodes [1, 3, 4]), (5, .nodes [1, 2, 3])], []⟩)
      ⟨List.range, fun pts _ => (pts, id)⟩ [] "default"

/-- **C104 (refuted along x).** The cell over the second sublayer of the first segment (its nodes have x from 1 to 2 and y
from 0 to 1) has LayerId 0 and ColumnId 1, those of the cell over the first sublayer of the second segment. -/
theorem C104_axis0_refuted :
    (transitionX.toOption.bind fun r => r.1.1.cells[(1 : ℕ)]?.map fun c => match c.2 with
      | .nodes l => l.map fun i => r.1.1.points[i]?.map fun p => (p 0, p 1, p 2)
      | .polyhedron _ => []) = some [some (1, 0, 0), some (2, 0, 0), some (2, 1, 0), some (1, 1, 0)] ∧
    (transitionX.toOption.bind fun r => (Dict.get? r.1.1.cellData "LayerId").map fun v => v.vals) =
      some [0, 0, 1, 1, 2, 2, 2] ∧
    (transitionX.toOption.bind fun r => (Dict.get? r.1.1.cellData "ColumnId").map fun v => v.vals) =
      some [0, 1, 0, 1, -1, -1, -1] := by
  refine ⟨?_, ?_, ?_⟩ <;> decide +kernel

end Gridder
