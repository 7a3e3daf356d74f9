import Verif.Props.Remap

/-!
# C09, C10: MeshMerge
-/

namespace Gridder
open Spec
variable {γ : Type _}

namespace Spec

/-- The name of cell `i` of a mesh to merge: its own label unless ignored, else the item's group, else
the default group of the object. -/
def mergedName (ignore : List String) (dflt : String) (codes : Option (List Int))
    (table : Option (List (String × Int))) (group : Option String) (i : Nat) : String :=
  (baseLabel (fun k => decide (k ∉ ignore)) codes table i).getD (defaultName dflt group)

/-- The cells of a list of items with their names. -/
def mergedCells (ignore : List String) (dflt : String) (items : List (MergeItem γ)) :
    List (γ × Option String) :=
  items.flatMap fun it => it.cells.zipIdx.map fun p =>
    (p.1, some (mergedName ignore dflt it.cellGroup it.table it.group p.2))

end Spec

theorem initGroupArray_none_ok (ignore : List String) (dflt : String) (mesh : LMesh)
    (groups : Dict String Int) (dg : Option String) :
    ∃ r, initGroupArray ignore dflt mesh groups .none dg = .ok r := by
  simp [initGroupArray, groupItems, groupLoop]

/-- Codes given to one item, as names. -/
theorem item_names {ignore : List String} {dflt : String} {it : MergeItem γ}
    {groups groups' : Dict String Int} {arr : List Int}
    (hlen : ∀ d, it.cellGroup = some d → d.length = it.cells.length) (hg : DenseTable groups)
    (h : initGroupArray ignore dflt it.lmesh groups .none it.group = .ok (arr, groups'))
    {final : Dict String Int} (hf : groups' <+: final) (hfd : DenseTable final) :
    (it.cells.zip arr).map (fun gc => (gc.1, nameOf final gc.2))
      = it.cells.zipIdx.map fun p =>
          (p.1, some (mergedName ignore dflt it.cellGroup it.table it.group p.2)) := by
  obtain ⟨_, _, _, sels, hs, hinv⟩ := initGroupArray_inv (mesh := it.lmesh) hlen hg h
  simp only [entries] at hs
  cases hs
  have hl : arr.length = it.cells.length := hinv.len
  apply List.ext_getElem
  · simp [hl]
  · intro i h1 h2
    simp only [List.length_map, List.length_zipIdx] at h2
    obtain ⟨c, c1, c2⟩ := hinv.cell i h2
    simp only at c1 c2
    have hi : i < arr.length := by omega
    rw [List.getElem?_eq_getElem hi] at c1
    simp only [Option.some.injEq] at c1
    simp only [List.getElem_map, List.getElem_zip, List.getElem_zipIdx, Prod.mk.injEq, true_and,
      Nat.zero_add]
    rw [nameOf_inj hfd.inj]
    have := Dict.get?_mem (Dict.get?_prefix hf c2)
    rw [c1]
    simpa [mergedName, lastSelecting, MergeItem.lmesh, chooseDefault_eq] using this

theorem mergeLoop_spec {append : List (γ × Int) → List (γ × Int) → List (γ × Int)}
    (happ : ∀ a b, (append a b).Perm (a ++ b))
    (ignore : List String) (dflt : String) (items : List (MergeItem γ))
    (hlen : ∀ it ∈ items, ∀ d, it.cellGroup = some d → d.length = it.cells.length)
    (acc : Option (List (γ × Int))) (groups : Dict String Int) (hg : DenseTable groups)
    (hacc : ∀ m, acc = some m → ∀ c ∈ m.map Prod.snd, ∃ s, (s, c) ∈ groups) :
    ∃ m groups' its, mergeLoop append ignore dflt items acc groups = .ok (m, groups', its) ∧
      DenseTable groups' ∧ groups <+: groups' ∧
      (∀ c ∈ (m.getD []).map Prod.snd, ∃ s, (s, c) ∈ groups') ∧
      ((m.getD []).map fun gc => (gc.1, nameOf groups' gc.2)).Perm
        (((acc.getD []).map fun gc => (gc.1, nameOf groups' gc.2))
          ++ mergedCells ignore dflt items) := by
  induction items generalizing acc groups with
  | nil =>
    refine ⟨acc, groups, [], rfl, hg, List.prefix_rfl, ?_, by simp [mergedCells]⟩
    cases acc with
    | none => simp
    | some m => exact hacc m rfl
  | cons it rest ih =>
    obtain ⟨⟨arr, g1⟩, h1⟩ := initGroupArray_none_ok ignore dflt it.lmesh groups it.group
    have hlit := hlen it (by simp)
    obtain ⟨a1, a2, a3, a4, _⟩ := C02_every_cell_has_a_group (mesh := it.lmesh) hlit hg h1
    have hcov1 : ∀ c ∈ (it.cells.zip arr).map Prod.snd, ∃ s, (s, c) ∈ g1 := by
      intro c hc
      obtain ⟨⟨x, c'⟩, hx, rfl⟩ := List.mem_map.1 hc
      have hca := List.of_mem_zip hx
      obtain ⟨i, hi⟩ := List.mem_iff_getElem?.1 hca.2
      have hil : i < it.cells.length := by
        have := (List.getElem?_eq_some_iff.1 hi).1
        have h' : arr.length = it.cells.length := a1
        omega
      obtain ⟨s, c'', e1, e2⟩ := a4 i hil
      rw [hi] at e1
      simp only [Option.some.injEq] at e1
      exact ⟨s, by simp only; rw [e1]; exact e2⟩
    have key : ∀ acc1 : List (γ × Int), (acc1.Perm ((acc.getD []) ++ it.cells.zip arr)) →
        (∀ m g' its, mergeLoop append ignore dflt rest (some acc1) g1 = .ok (m, g', its) →
          mergeLoop append ignore dflt (it :: rest) acc groups
            = .ok (m, g', { it with cellGroup := some arr } :: its)) →
        ∃ m groups' its, mergeLoop append ignore dflt (it :: rest) acc groups = .ok (m, groups', its) ∧
          DenseTable groups' ∧ groups <+: groups' ∧
          (∀ c ∈ (m.getD []).map Prod.snd, ∃ s, (s, c) ∈ groups') ∧
          ((m.getD []).map fun gc => (gc.1, nameOf groups' gc.2)).Perm
            (((acc.getD []).map fun gc => (gc.1, nameOf groups' gc.2))
              ++ mergedCells ignore dflt (it :: rest)) := by
      intro acc1 hperm hrun
      obtain ⟨m, g', its, r1, r2, r3, r4, r5⟩ := ih (fun it h => hlen it (by simp [h])) (some acc1) g1 a2
        (by
          rintro _ ⟨⟩ c hc
          have := (hperm.map Prod.snd).mem_iff.1 hc
          rw [List.map_append, List.mem_append] at this
          rcases this with h | h
          · cases acc with
            | none => simp at h
            | some m0 =>
              obtain ⟨s, hs⟩ := hacc m0 rfl c h
              exact ⟨s, a3.subset hs⟩
          · exact hcov1 c h)
      refine ⟨m, g', _, hrun m g' its r1, r2, a3.trans r3, r4, ?_⟩
      refine r5.trans ?_
      simp only [Option.getD_some]
      have hname := item_names (final := g') hlit hg h1 r3 r2
      have h5 := hperm.map fun gc : γ × Int => (gc.1, nameOf g' gc.2)
      rw [List.map_append, hname] at h5
      refine (h5.append_right _).trans ?_
      rw [List.append_assoc]
      exact List.Perm.of_eq (by simp [mergedCells])
    cases acc with
    | none =>
      exact key (it.cells.zip arr) (by simp)
        (by intro m g' its hr; simp only [mergeLoop, h1, hr])
    | some m0 =>
      exact key (append m0 (it.cells.zip arr)) (by simpa using happ m0 _)
        (by intro m g' its hr; simp only [mergeLoop, h1, hr])

/-- **C09.** `MeshMerge.generate_mesh` on at least one item succeeds; as a collection (`append`, i.e.
`pv.merge`, may order the blocks as it likes) its cells with the names read from the resulting table
are exactly the cells of the items with their own names: own label unless ignored, else the item's
group, else the default; and the table is dense and has no unused name.  With no item it raises
`ValueError`. -/
theorem C09_merge_keeps_labels {append : List (γ × Int) → List (γ × Int) → List (γ × Int)}
    (happ : ∀ a b, (append a b).Perm (a ++ b))
    (ignore : List String) (dflt : String) (items : List (MergeItem γ))
    (hlen : ∀ it ∈ items, ∀ d, it.cellGroup = some d → d.length = it.cells.length) :
    (items = [] → mergeGenerate append ignore dflt items = .error .valueError) ∧
    (items ≠ [] → ∃ out table items',
      mergeGenerate append ignore dflt items = .ok ((out, table), items') ∧
      DenseTable table ∧ (∀ kv ∈ table, ∃ gc ∈ out, gc.2 = kv.2) ∧
      (out.map fun gc => (gc.1, nameOf table gc.2)).Perm (mergedCells ignore dflt items)) := by
  constructor
  · rintro rfl; rfl
  · intro hne
    obtain ⟨m, groups, its, r1, r2, _, r4, r5⟩ := mergeLoop_spec happ ignore dflt items hlen none []
      DenseTable.nil (by simp)
    obtain ⟨data', table', c1, c2, c3, c4, c5⟩ := C08_clean r2 r4
    have hrun : mergeGenerate append ignore dflt items
        = .ok ((((m.getD []).map Prod.fst).zip data', table'), its) := by
      simp only [mergeGenerate, hne, if_false, r1, c1]
    have hl : data'.length = (m.getD []).length := by simpa using c3.1.symm
    have hnames : ((((m.getD []).map Prod.fst).zip data').map fun gc => (gc.1, nameOf table' gc.2))
        = (m.getD []).map fun gc => (gc.1, nameOf groups gc.2) := by
      apply List.ext_getElem
      · simp [hl]
      · intro i h1 h2
        simp only [List.length_map] at h2
        simp only [List.getElem_map, List.getElem_zip, Prod.mk.injEq, true_and]
        have hid : i < data'.length := by omega
        obtain ⟨s, hs⟩ := r4 ((m.getD [])[i].2) (List.mem_map_of_mem (f := Prod.snd) (List.getElem_mem _))
        rw [(nameOf_inj r2.inj).2 hs]
        obtain ⟨c, d1, d2⟩ := (c3.2 i s).1 ⟨_, by simp [h2], hs⟩
        rw [List.getElem?_eq_getElem hid] at d1
        simp only [Option.some.injEq] at d1
        rw [d1]
        exact (nameOf_inj c2.inj).2 d2
    refine ⟨_, table', its, hrun, c2, ?_, ?_⟩
    · rintro ⟨s, c⟩ hk
      have hs : s ∈ table'.map Prod.fst := List.mem_map_of_mem (f := Prod.fst) hk
      rw [c4] at hs
      obtain ⟨⟨s', c0⟩, h0, rfl⟩ := List.mem_map.1 hs
      have h0' := List.mem_filter.1 h0
      have hc0 : c0 ∈ (m.getD []).map Prod.snd := by simpa using h0'.2
      obtain ⟨i, hi⟩ := List.mem_iff_getElem?.1 hc0
      obtain ⟨c', e1, e2⟩ := (c3.2 i s').1 ⟨c0, hi, h0'.1⟩
      have : c' = c := c2.inj.code_unique e2 hk
      subst this
      have hid := (List.getElem?_eq_some_iff.1 e1).1
      have him : i < ((m.getD []).map Prod.fst).length := by simp; omega
      refine ⟨(((m.getD []).map Prod.fst)[i], data'[i]), ?_, ?_⟩
      · rw [List.mem_iff_getElem]
        exact ⟨i, by simp; omega, by simp⟩
      · have := (List.getElem?_eq_some_iff.1 e1).2
        simpa using this
    · rw [hnames]
      simpa using r5

/-- Two items using the same integer for different names, one unlabelled item, one ignored label. -/
example : mergeGenerate (γ := String) (· ++ ·) ["junk"] "default"
    [⟨["a", "b"], some [0, 1], some [("sand", 0), ("clay", 1)], none⟩,
     ⟨["c", "d"], some [0, 7], some [("rock", 0), ("junk", 7)], some "filler"⟩,
     ⟨["e"], none, none, none⟩]
    = .ok (([("a", 0), ("b", 1), ("c", 2), ("d", 3), ("e", 4)],
        [("sand", 0), ("clay", 1), ("rock", 2), ("filler", 3), ("default", 4)]),
      [⟨["a", "b"], some [0, 1], some [("sand", 0), ("clay", 1)], none⟩,
       ⟨["c", "d"], some [2, 3], some [("rock", 0), ("junk", 7)], some "filler"⟩,
       ⟨["e"], some [4], none, none⟩]) := by rfl

/-! ## C10 -/

/-- **C10 is false in general**: with one item labelled {A: 0} and one labelled {B: 0}, the second
call renames the cell called B to "default". -/
theorem C10_second_call_refuted :
    ∃ (items items' items'' : List (MergeItem String)) (out₁ out₂ : List (String × Int))
      (table₁ table₂ : Dict String Int),
      mergeGenerate (· ++ ·) [] "default" items = .ok ((out₁, table₁), items') ∧
      mergeGenerate (· ++ ·) [] "default" items' = .ok ((out₂, table₂), items'') ∧
      (out₁.map fun gc => (gc.1, nameOf table₁ gc.2)) = [("a", some "A"), ("b", some "B")] ∧
      (out₂.map fun gc => (gc.1, nameOf table₂ gc.2)) = [("a", some "A"), ("b", some "default")] := by
  refine ⟨[⟨["a"], some [0], some [("A", 0)], none⟩, ⟨["b"], some [0], some [("B", 0)], none⟩],
    [⟨["a"], some [0], some [("A", 0)], none⟩, ⟨["b"], some [1], some [("B", 0)], none⟩],
    [⟨["a"], some [0], some [("A", 0)], none⟩, ⟨["b"], some [2], some [("B", 0)], none⟩],
    [("a", 0), ("b", 1)], [("a", 0), ("b", 1)], [("A", 0), ("B", 1)], [("A", 0), ("default", 1)],
    by rfl, by rfl, by rfl, by rfl⟩

/-- The item is unlabelled, or labelled by the dense table `T` with all its codes in it. -/
def SharesTable (T : Dict String Int) (it : MergeItem γ) : Prop :=
  it.table = none ∨ (it.table = some T ∧ ∃ d, it.cellGroup = some d ∧ d.length = it.cells.length ∧
    ∀ c ∈ d, ∃ s, (s, c) ∈ T)

/-- One item: writing the new codes back does not change what a second call computes. -/
theorem item_stable {ignore : List String} {dflt : String} {it : MergeItem γ} {T : Dict String Int}
    (hT : DenseTable T) (hig : ∀ kv ∈ T, kv.1 ∉ ignore) (hit : SharesTable T it)
    {groups groups' : Dict String Int} (hg : DenseTable groups)
    (hgr : it.table = none ∨ groups = [] ∨ T <+: groups) {arr : List Int}
    (h : initGroupArray ignore dflt it.lmesh groups .none it.group = .ok (arr, groups')) :
    initGroupArray ignore dflt ({ it with cellGroup := some arr } : MergeItem γ).lmesh groups .none
      it.group = .ok (arr, groups') ∧ (it.table = none ∨ T <+: groups') := by
  rcases hit with ht | ⟨ht, d, hd, hdl, hcov⟩
  · refine ⟨?_, Or.inl ht⟩
    rw [← h]
    have hc : copyLabels ignore ({ it with cellGroup := some arr } : MergeItem γ).lmesh
        (List.replicate it.cells.length (-1), groups)
        = copyLabels ignore it.lmesh (List.replicate it.cells.length (-1), groups) := by
      unfold copyLabels MergeItem.lmesh
      simp only [ht]
      cases it.cellGroup <;> rfl
    simp only [initGroupArray, groupItems, groupLoop]
    have hn : ({ it with cellGroup := some arr } : MergeItem γ).lmesh.nCells = it.cells.length := rfl
    have hn' : it.lmesh.nCells = it.cells.length := rfl
    rw [hn, hn', hc]
  · have hgr' : groups = [] ∨ T <+: groups := by
      rcases hgr with h0 | h0
      · rw [ht] at h0; simp at h0
      · exact h0
    obtain ⟨p1, p2, p3⟩ := C04_name_selection_partial (mesh := it.lmesh) hd hdl ht hT hcov hig hg hgr'
      (by simp [entries]) h
    have hal : arr.length = d.length := by
      have := (C02_every_cell_has_a_group (mesh := it.lmesh)
        (by rintro d' hd'; rw [show it.lmesh.cellGroup = some d from hd] at hd'; cases hd'; exact hdl)
        hg h).1
      rw [hdl]; exact this
    have harr : arr = d := by
      apply List.ext_getElem hal
      intro i h1 h2
      obtain ⟨c, c1, c2⟩ := p3 i (show i < it.cells.length by rw [← hdl]; exact h2)
      obtain ⟨s, hs⟩ := hcov d[i] (List.getElem_mem _)
      have hb : baseName (fun _ => true) T d i = some s :=
        (baseName_eq_some hT.inj).2 ⟨d[i], by simp [h2], hs⟩
      simp only [entries, List.map_nil, lastSelecting, List.reverse_nil, List.find?_nil,
        Option.map_none, Option.getD_none, hb, Option.getD_some] at c2
      have : c = d[i] := p2.inj.code_unique c2 (p1.subset hs)
      rw [List.getElem?_eq_getElem h1] at c1
      simp only [Option.some.injEq] at c1
      rw [c1, this]
    refine ⟨?_, Or.inr p1⟩
    rw [← h]
    have : ({ it with cellGroup := some arr } : MergeItem γ) = it := by
      cases it; simp_all
    rw [this]

theorem mergeLoop_stable {append : List (γ × Int) → List (γ × Int) → List (γ × Int)}
    {ignore : List String} {dflt : String} {T : Dict String Int}
    (hT : DenseTable T) (hig : ∀ kv ∈ T, kv.1 ∉ ignore) (items : List (MergeItem γ))
    (hit : ∀ it ∈ items, SharesTable T it)
    (hlen : ∀ it ∈ items, ∀ d, it.cellGroup = some d → d.length = it.cells.length)
    {acc : Option (List (γ × Int))} {groups : Dict String Int} (hg : DenseTable groups)
    (hgr : (∀ it ∈ items, it.table = none) ∨ T <+: groups)
    {m groups' its} (h : mergeLoop append ignore dflt items acc groups = .ok (m, groups', its)) :
    mergeLoop append ignore dflt its acc groups = .ok (m, groups', its) := by
  induction items generalizing acc groups m groups' its with
  | nil =>
    simp only [mergeLoop, Except.ok.injEq, Prod.mk.injEq] at h
    obtain ⟨rfl, rfl, rfl⟩ := h
    rfl
  | cons it rest ih =>
    simp only [mergeLoop] at h
    split at h
    · simp at h
    · rename_i arr g1 hinit
      split at h
      · simp at h
      · rename_i m1 g2 its1 hrest
        simp only [Except.ok.injEq, Prod.mk.injEq] at h
        obtain ⟨rfl, rfl, rfl⟩ := h
        have hgr1 : it.table = none ∨ groups = [] ∨ T <+: groups := by
          rcases hgr with h0 | h0
          · exact Or.inl (h0 it (by simp))
          · exact Or.inr (Or.inr h0)
        obtain ⟨s1, s2⟩ := item_stable hT hig (hit it (by simp)) hg hgr1 hinit
        obtain ⟨_, a2, a3, _⟩ := C02_every_cell_has_a_group (mesh := it.lmesh)
          (hlen it (by simp)) hg hinit
        have hr := ih (fun it h => hit it (by simp [h])) (fun it h => hlen it (by simp [h])) a2 (by
          rcases hgr with h0 | h0
          · exact Or.inl fun it h => h0 it (by simp [h])
          · exact Or.inr (h0.trans a3)) hrest
        simp only [mergeLoop, s1, hr]

/-- **C10 (partial).** A second call gives the same result when no item is labelled, or when the first
item is labelled by a table numbered 0, 1, 2, ... (none of it ignored) and every other item either
shares this table or is unlabelled.  Missing: any other labelling (`C10_second_call_refuted`). -/
theorem C10_second_call_partial {append : List (γ × Int) → List (γ × Int) → List (γ × Int)}
    {ignore : List String} {dflt : String} {T : Dict String Int}
    (hT : DenseTable T) (hig : ∀ kv ∈ T, kv.1 ∉ ignore) (items : List (MergeItem γ))
    (hit : ∀ it ∈ items, SharesTable T it)
    (hlen : ∀ it ∈ items, ∀ d, it.cellGroup = some d → d.length = it.cells.length)
    (hhead : (∀ it ∈ items, it.table = none) ∨ (∀ it, items.head? = some it → it.table = some T))
    {r items'} (h : mergeGenerate append ignore dflt items = .ok (r, items')) :
    mergeGenerate append ignore dflt items' = .ok (r, items') := by
  simp only [mergeGenerate] at h
  split at h
  · simp at h
  · rename_i hne
    split at h
    · simp at h
    · rename_i m groups its hloop
      have hstab : mergeLoop append ignore dflt its none [] = .ok (m, groups, its) := by
        rcases hhead with h0 | h0
        · exact mergeLoop_stable hT hig items hit hlen DenseTable.nil (Or.inl h0) hloop
        · cases items with
          | nil => exact absurd rfl hne
          | cons it rest =>
            have ht := h0 it rfl
            simp only [mergeLoop] at hloop
            split at hloop
            · simp at hloop
            · rename_i arr g1 hinit
              split at hloop
              · simp at hloop
              · rename_i m1 g2 its1 hrest
                simp only [Except.ok.injEq, Prod.mk.injEq] at hloop
                obtain ⟨rfl, rfl, rfl⟩ := hloop
                obtain ⟨s1, s2⟩ := item_stable hT hig (hit it (by simp)) DenseTable.nil
                  (Or.inr (Or.inl rfl)) hinit
                have hpre : T <+: g1 := by
                  rcases s2 with s2 | s2
                  · rw [ht] at s2; simp at s2
                  · exact s2
                obtain ⟨_, a2, _⟩ := C02_every_cell_has_a_group (mesh := it.lmesh)
                  (hlen it (by simp)) DenseTable.nil hinit
                have hr := mergeLoop_stable hT hig rest (fun it h => hit it (by simp [h]))
                  (fun it h => hlen it (by simp [h])) a2 (Or.inr hpre) hrest
                simp only [mergeLoop, s1, hr]
      have hitsne : its ≠ [] := by
        rintro rfl
        cases items with
        | nil => exact hne rfl
        | cons it rest =>
          simp only [mergeLoop] at hloop
          split at hloop
          · simp at hloop
          · split at hloop <;> simp at hloop
      split at h
      · simp at h
      · rename_i data table hclean
        simp only [Except.ok.injEq, Prod.mk.injEq] at h
        obtain ⟨rfl, rfl⟩ := h
        simp only [mergeGenerate, hitsne, if_false, hstab, hclean]

/-- Hypotheses of `C10_second_call_partial` are met: shared table, then an unlabelled item. -/
example : SharesTable (γ := String) [("A", 0), ("B", 1)] ⟨["a", "b"], some [1, 0], some [("A", 0), ("B", 1)], none⟩
    ∧ SharesTable (γ := String) [("A", 0), ("B", 1)] ⟨["c"], none, none, some "C"⟩ := by
  refine ⟨Or.inr ⟨rfl, [1, 0], rfl, rfl, ?_⟩, Or.inl rfl⟩
  intro c hc
  simp at hc
  rcases hc with rfl | rfl
  · exact ⟨"B", by simp⟩
  · exact ⟨"A", by simp⟩

end Gridder
