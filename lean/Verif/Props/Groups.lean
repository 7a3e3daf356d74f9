import Verif.Lemmas.Groups
import Mathlib.Data.List.Induction

/-!
# C01-C05: group numbering and group assignment
-/

namespace Gridder
open Spec

/-! ## C01 -/

/-- The dictionary after a history of group requests on an empty dictionary. -/
def requestAll (reqs : List String) : Dict String Int :=
  reqs.foldl (fun g k => (getGroupNumber k g).2) []

theorem requestAll_snoc (reqs : List String) (k : String) :
    requestAll (reqs ++ [k]) = (getGroupNumber k (requestAll reqs)).2 := by
  simp [requestAll]

theorem requestAll_append_prefix (reqs more : List String) (h : DenseTable (requestAll reqs)) :
    DenseTable (requestAll (reqs ++ more)) ∧ requestAll reqs <+: requestAll (reqs ++ more) := by
  induction more using List.reverseRecOn with
  | nil => simpa using h
  | append_singleton l a ih =>
    rw [← List.append_assoc, requestAll_snoc]
    obtain ⟨h1, h2, _⟩ := getGroupNumber_spec ih.1 a
    exact ⟨h1, ih.2.trans h2⟩

/-- **C01.** After any history of requests the names are numbered 0, 1, 2, ... ; exactly the
requested names are in the table; they are in order of first request; later requests only append;
and the number returned for the last request is the one stored for it. -/
theorem C01_group_numbers (reqs more : List String) :
    DenseTable (requestAll reqs) ∧
    (∀ s, s ∈ (requestAll reqs).map Prod.fst ↔ s ∈ reqs) ∧
    ((requestAll reqs).map Prod.fst).Pairwise (fun a b => reqs.idxOf a < reqs.idxOf b) ∧
    requestAll reqs <+: requestAll (reqs ++ more) ∧
    ∀ k, (k, (getGroupNumber k (requestAll reqs)).1) ∈ requestAll (reqs ++ [k]) := by
  have hd : ∀ r, DenseTable (requestAll r) := by
    intro r
    simpa using (requestAll_append_prefix [] r DenseTable.nil).1
  have hmem : ∀ r s, s ∈ (requestAll r).map Prod.fst ↔ s ∈ r := by
    intro r
    induction r using List.reverseRecOn with
    | nil => simp [requestAll]
    | append_singleton l a ih =>
      intro s
      rw [requestAll_snoc]
      unfold getGroupNumber
      split
      · rename_i v hv
        have : a ∈ (requestAll l).map Prod.fst :=
          List.mem_map_of_mem (f := Prod.fst) (Dict.get?_mem hv)
        rw [ih] at this
        simp only [ih, List.mem_append, List.mem_singleton]
        constructor
        · exact Or.inl
        · rintro (h | rfl)
          · exact h
          · exact this
      · simp only [List.map_append, List.mem_append, ih]
        simp
  refine ⟨hd reqs, hmem reqs, ?_, (requestAll_append_prefix reqs more (hd reqs)).2, ?_⟩
  · induction reqs using List.reverseRecOn with
    | nil => simp [requestAll]
    | append_singleton l a ih =>
      have hstep : ((requestAll l).map Prod.fst).Pairwise
          (fun x y => (l ++ [a]).idxOf x < (l ++ [a]).idxOf y) := by
        refine List.Pairwise.imp_of_mem ?_ ih
        intro x y hx hy hxy
        rw [hmem] at hx hy
        rwa [List.idxOf_append_of_mem hx, List.idxOf_append_of_mem hy]
      rw [requestAll_snoc]
      unfold getGroupNumber
      split
      · exact hstep
      · rename_i hn
        have hna : a ∉ l := fun h => (Dict.get?_none.1 hn) ((hmem l a).2 h)
        simp only [List.map_append, List.map_cons, List.map_nil]
        rw [List.pairwise_append]
        refine ⟨hstep, by simp, ?_⟩
        intro x hx y hy
        rw [hmem] at hx
        simp only [List.mem_singleton] at hy
        subst hy
        rw [List.idxOf_append_of_mem hx, List.idxOf_append_of_notMem hna]
        have := List.idxOf_lt_length_of_mem hx
        simp; omega
  · intro k
    rw [requestAll_snoc]
    exact Dict.get?_mem (getGroupNumber_spec (hd reqs) k).2.2

example : requestAll ["rock", "soil", "rock", "water"] = [("rock", 0), ("soil", 1), ("water", 2)] := by
  decide

/-! ## C02, C03 -/

/-- Shape of a successful call. -/
theorem initGroupArray_inv {ignore : List String} {dflt : String} {mesh : LMesh}
    {groups : Dict String Int} {group : GroupArg} {dg : Option String}
    {arr : List Int} {groups' : Dict String Int}
    (hdata : ∀ d, mesh.cellGroup = some d → d.length = mesh.nCells) (hg : DenseTable groups)
    (h : initGroupArray ignore dflt mesh groups group dg = .ok (arr, groups')) :
    let st := copyLabels ignore mesh (List.replicate mesh.nCells (-1), groups)
    let base := baseLabel (fun k => decide (k ∉ ignore)) mesh.cellGroup mesh.table
    groups <+: st.2 ∧ st.2 <+: groups' ∧ DenseTable st.2 ∧
    ∃ sels : List (String × (Nat → Bool)),
      List.Forall₂ (fun kv e => e.1 = (parseKey kv.1).2 ∧ ∃ g mask,
        selMask mesh g kv.2 = .ok mask ∧ st.2 <+: g ∧ g <+: groups' ∧
        (∀ b, mask = .bool b → b.length = mesh.nCells) ∧
        e.2 = maskSel mesh.nCells (if (parseKey kv.1).1 then mask.invert else mask))
        (entries mesh.nCells group) sels ∧
      GInv mesh.nCells (arr, groups') (fun i =>
        some (((lastSelecting sels i).or (base i)).getD (chooseDefault dflt dg))) := by
  intro st base
  have hst : GInv mesh.nCells st base ∧ groups <+: st.2 := by
    have h0 := GInv.init mesh.nCells hg
    simp only [st, base, copyLabels, baseLabel]
    cases hc : mesh.cellGroup with
    | none => exact ⟨h0, List.prefix_rfl⟩
    | some d =>
      cases ht : mesh.table with
      | none => exact ⟨h0, List.prefix_rfl⟩
      | some t =>
        obtain ⟨r1, r2⟩ := tableLoop_spec ignore d (hdata d hc) t h0
        exact ⟨r1.congr (by simp [baseLabel]), r2⟩
  simp only [initGroupArray] at h
  split at h
  · simp at h
  · rename_i st' hst'
    simp only [Except.ok.injEq] at h
    rw [groupItems_eq] at hst'
    obtain ⟨p1, sels, hf, hinv⟩ := groupLoop_spec mesh _ hst.1 hst'
    obtain ⟨q1, q2⟩ := fillDefault_spec (chooseDefault dflt dg) hinv
    rw [h] at q1 q2
    refine ⟨hst.2, p1.trans q2, hst.1.dense, sels, hf.imp ?_, q1⟩
    rintro x y ⟨e1, g, m, e2, e3, e4, e5, e6⟩
    exact ⟨e1, g, m, e2, e3, e4.trans q2, e5, e6⟩

/-- **C02.** A successful group assignment gives one code per cell, every code is the number of a
name in the resulting table, and the table is a dense extension of the previous one. -/
theorem C02_every_cell_has_a_group {ignore : List String} {dflt : String} {mesh : LMesh}
    {groups : Dict String Int} {group : GroupArg} {dg : Option String}
    {arr : List Int} {groups' : Dict String Int}
    (hdata : ∀ d, mesh.cellGroup = some d → d.length = mesh.nCells) (hg : DenseTable groups)
    (h : initGroupArray ignore dflt mesh groups group dg = .ok (arr, groups')) :
    arr.length = mesh.nCells ∧ DenseTable groups' ∧ groups <+: groups' ∧
      (∀ i, i < mesh.nCells → ∃ s, CellNamed groups' arr i s) ∧ (-1 : Int) ∉ arr := by
  obtain ⟨h1, h2, _, sels, _, hinv⟩ := initGroupArray_inv hdata hg h
  have hcell : ∀ i, i < mesh.nCells → ∃ s, CellNamed groups' arr i s := by
    intro i hi
    obtain ⟨c, a, b⟩ := hinv.cell i hi
    exact ⟨_, c, a, Dict.get?_mem b⟩
  refine ⟨hinv.len, hinv.dense, h1.trans h2, hcell, ?_⟩
  intro hm
  obtain ⟨i, hi⟩ := List.mem_iff_getElem?.1 hm
  have hl : i < mesh.nCells := by
    have := (List.getElem?_eq_some_iff.1 hi).1
    have := hinv.len
    simp only at this
    omega
  obtain ⟨s, c, a, b⟩ := hcell i hl
  rw [hi] at a
  have := (hinv.dense.code_lt b).1
  simp at a
  omega

/-- **C02**, size-only form (used for Voronoi items): all cells get the same valid group. -/
theorem C02_size_only {dflt : String} {n : Nat} {groups : Dict String Int} {dg : Option String}
    (hg : DenseTable groups) :
    (initGroupArraySize dflt n groups dg).1.length = n ∧
    DenseTable (initGroupArraySize dflt n groups dg).2 ∧
    groups <+: (initGroupArraySize dflt n groups dg).2 ∧
    ∀ i, i < n → CellNamed (initGroupArraySize dflt n groups dg).2
      (initGroupArraySize dflt n groups dg).1 i
      (defaultName dflt dg) := by
  obtain ⟨h1, h2⟩ := fillDefault_spec (chooseDefault dflt dg) (GInv.init n hg)
  refine ⟨h1.len, h1.dense, h2, ?_⟩
  intro i hi
  obtain ⟨c, a, b⟩ := h1.cell i hi
  refine ⟨c, a, ?_⟩
  have := Dict.get?_mem b
  simpa [initGroupArraySize, chooseDefault_eq] using this

/-- **C02**, rejected input: an entry whose array is neither boolean nor integer raises, whatever
comes before or after it. -/
theorem C02_bad_mask_rejected (ignore : List String) (dflt : String) (mesh : LMesh)
    (groups : Dict String Int) (d : List (String × Sel)) (k : String) (hk : (k, Sel.other) ∈ d)
    (dg : Option String) : ∃ e, initGroupArray ignore dflt mesh groups (.dict d) dg = .error e := by
  have hl : ∀ st, ∃ e, groupLoop mesh d st = .error e := by
    induction d with
    | nil => simp at hk
    | cons a d ih =>
      intro st
      simp only [groupLoop]
      cases hs : groupStep mesh st a with
      | error e => exact ⟨e, rfl⟩
      | ok st1 =>
        rcases List.mem_cons.1 hk with rfl | hk
        · simp [groupStep, selMask] at hs
        · exact ih hk st1
  obtain ⟨e, he⟩ := hl (copyLabels ignore mesh (List.replicate mesh.nCells (-1), groups))
  exact ⟨e, by simp only [initGroupArray, groupItems, he]⟩

/-- **C03.** Precedence.  `sels` lists, entry by entry, the key (without tilde) and the cells that
entry selects; entries given by mask, indices or callable select what they are documented to select
(complemented for a tilde key, callables returning indices excepted, see C05; entries given by name
are the subject of C04).  Then every cell is called: the last entry selecting it, else its label in
the base mesh unless ignored, else the default group. -/
theorem C03_group_precedence {ignore : List String} {dflt : String} {mesh : LMesh}
    {groups : Dict String Int} {group : GroupArg} {dg : Option String}
    {arr : List Int} {groups' : Dict String Int}
    (hdata : ∀ d, mesh.cellGroup = some d → d.length = mesh.nCells) (hg : DenseTable groups)
    (h : initGroupArray ignore dflt mesh groups group dg = .ok (arr, groups')) :
    ∃ sels : List (String × (Nat → Bool)),
      List.Forall₂ (fun kv e => e.1 = bare kv.1 ∧
          (byName kv.2 = false → negatedCallIdx kv = false → ∀ label i, i < mesh.nCells →
            e.2 i = entrySelects mesh.nCells label kv i))
        (entries mesh.nCells group) sels ∧
      ∀ i, i < mesh.nCells → CellNamed groups' arr i
        (((lastSelecting sels i).or
          (baseLabel (fun k => decide (k ∉ ignore)) mesh.cellGroup mesh.table i)).getD
            (defaultName dflt dg)) := by
  obtain ⟨h1, h2, _, sels, hf, hinv⟩ := initGroupArray_inv hdata hg h
  refine ⟨sels, hf.imp ?_, ?_⟩
  · rintro kv e ⟨e1, g, m, e2, e3, e4, e5, e6⟩
    refine ⟨by rw [e1, parseKey_eq], ?_⟩
    intro hn hc label i hi
    rw [e6]
    exact entry_mask e2 e5 hc hi (selMask_direct label e2 hn i hi)
  · intro i hi
    obtain ⟨c, a, b⟩ := hinv.cell i hi
    refine ⟨c, a, ?_⟩
    have := Dict.get?_mem b
    simpa [chooseDefault_eq] using this

/-- Overlapping masks on a labelled mesh with an ignored label: cells 0..4. -/
example : initGroupArray ["B"] "default" ⟨5, some [3, 3, 8, 8, 3], some [("A", 3), ("B", 8)]⟩ []
    (.dict [("X", .mask [true, false, true, false, false]), ("Y", .idx [-1, 0])]) none
    = .ok ([2, 0, 1, 3, 2], [("A", 0), ("X", 1), ("Y", 2), ("default", 3)]) := by decide

/-! ## C04 -/

theorem tableLoop_groups {ignore : List String} {data : List Int} {t : Dict String Int}
    (hig : ∀ kv ∈ t, kv.1 ∉ ignore) (st : List Int × Dict String Int) :
    (tableLoop ignore data t st).2 = t.foldl (fun g kv => (getGroupNumber kv.1 g).2) st.2 := by
  induction t generalizing st with
  | nil => rfl
  | cons kv t ih =>
    have h1 : kv.1 ∉ ignore := hig kv (by simp)
    simp only [tableLoop, h1, if_false, List.foldl_cons]
    rw [ih (fun kv h => hig kv (by simp [h]))]

theorem register_dense {done t : Dict String Int} (h : DenseTable (done ++ t)) :
    t.foldl (fun g kv => (getGroupNumber kv.1 g).2) done = done ++ t := by
  induction t generalizing done with
  | nil => simp
  | cons kv t ih =>
    simp only [List.foldl_cons]
    have hk : Dict.get? done kv.1 = none := by
      rw [Dict.get?_none]
      have := h.1
      simp only [List.map_append, List.map_cons, List.nodup_append] at this
      intro hc
      exact this.2.2 _ hc _ (by simp) rfl
    have hc : kv.2 = (done.length : Int) := by
      have := h.getElem done.length (by simp)
      simpa using this
    have : (getGroupNumber kv.1 done).2 = done ++ [kv] := by
      simp only [getGroupNumber, hk]
      rw [← hc]
    rw [this, ih (by simpa using h)]
    simp

theorem register_known {g t : Dict String Int} (h : ∀ kv ∈ t, (Dict.get? g kv.1).isSome) :
    t.foldl (fun g kv => (getGroupNumber kv.1 g).2) g = g := by
  induction t generalizing g with
  | nil => rfl
  | cons kv t ih =>
    have h1 := h kv (by simp)
    obtain ⟨v, hv⟩ := Option.isSome_iff_exists.1 h1
    simp only [List.foldl_cons, getGroupNumber, hv]
    exact ih (fun kv h' => h kv (by simp [h']))

/-- **C04 (partial).** If the base mesh numbers its labels 0, 1, 2, ... in table order, ignores none
of them, and the numbers handed out so far are either none or start with that table, then group
entries by name (and all others) mean what they are documented to mean.  The condition is
re-established for the next call.  What is missing: base meshes with any other numbering, or with
ignored labels, for which the claim is false (`C04_name_selection_refuted`). -/
theorem C04_name_selection_partial {ignore : List String} {dflt : String} {mesh : LMesh}
    {groups : Dict String Int} {group : GroupArg} {dg : Option String}
    {arr : List Int} {groups' : Dict String Int} {data : List Int} {table : Dict String Int}
    (hdata : mesh.cellGroup = some data) (hlen : data.length = mesh.nCells)
    (htable : mesh.table = some table) (hdense : DenseTable table)
    (hcodes : ∀ c ∈ data, ∃ s, (s, c) ∈ table) (hig : ∀ kv ∈ table, kv.1 ∉ ignore)
    (hg : DenseTable groups) (hgr : groups = [] ∨ table <+: groups)
    (hcall : ∀ kv ∈ entries mesh.nCells group, negatedCallIdx kv = false)
    (h : initGroupArray ignore dflt mesh groups group dg = .ok (arr, groups')) :
    table <+: groups' ∧ DenseTable groups' ∧
    ∀ i, i < mesh.nCells → CellNamed groups' arr i
      ((lastSelecting ((entries mesh.nCells group).map fun kv =>
            (bare kv.1, entrySelects mesh.nCells (baseName (fun _ => true) table data) kv)) i).getD
        ((baseName (fun _ => true) table data i).getD
          (defaultName dflt dg))) := by
  obtain ⟨h1, h2, hst, sels, hf, hinv⟩ := initGroupArray_inv
    (by rw [hdata]; rintro d ⟨⟩; exact hlen) hg h
  have hpre : table <+: (copyLabels ignore mesh (List.replicate mesh.nCells (-1), groups)).2 := by
    simp only [copyLabels, hdata, htable]
    rw [tableLoop_groups hig]
    rcases hgr with rfl | hp
    · rw [register_dense (by simpa using hdense)]
      simp
    · rw [register_known]
      · exact hp
      · intro kv hkv
        obtain ⟨k, v⟩ := kv
        simp [Dict.get?_prefix hp (Dict.mem_get? hdense.1 hkv)]
  have agree : ∀ g, DenseTable g → table <+: g → NamesAgree mesh data table g := by
    intro g hgd hgp
    exact ⟨hdata, hlen, hgd, hdense.inj,
      fun kv hkv => Dict.get?_prefix hgp (Dict.mem_get? hdense.1 (by simpa using hkv)), hcodes⟩
  have hdpre : ∀ {a b : Dict String Int}, a <+: b → DenseTable b → DenseTable a := by
    intro a b hab hb
    obtain ⟨t, rfl⟩ := hab
    refine ⟨?_, ?_⟩
    · have := hb.1
      simp only [List.map_append, List.nodup_append] at this
      exact this.1
    · apply List.ext_getElem
      · simp
      · intro i h1 h2
        have hi : i < a.length := by simpa using h1
        have := hb.getElem i (by simp; omega)
        rw [List.getElem_append_left hi] at this
        simpa using this
  have hlast : ∀ i, i < mesh.nCells → ∀ (l : List (String × Sel)) (sels : List (String × (Nat → Bool))),
      (∀ kv ∈ l, negatedCallIdx kv = false) →
      List.Forall₂ (fun kv e => e.1 = (parseKey kv.1).2 ∧ ∃ g mask,
        selMask mesh g kv.2 = .ok mask ∧
        (copyLabels ignore mesh (List.replicate mesh.nCells (-1), groups)).2 <+: g ∧ g <+: groups' ∧
        (∀ b, mask = .bool b → b.length = mesh.nCells) ∧
        e.2 = maskSel mesh.nCells (if (parseKey kv.1).1 then mask.invert else mask)) l sels →
      lastSelecting sels i = lastSelecting (l.map fun kv =>
        (bare kv.1, entrySelects mesh.nCells (baseName (fun _ => true) table data) kv)) i := by
    intro i hi l sels hl hff
    induction hff with
    | nil => rfl
    | @cons kv e l sels hkv hrest ih =>
      obtain ⟨e1, g, m, e2, e3, e4, e5, e6⟩ := hkv
      have ih := ih (fun kv h => hl kv (by simp [h]))
      have hE : e.2 i = entrySelects mesh.nCells (baseName (fun _ => true) table data) kv i := by
        rw [e6]
        refine entry_mask e2 e5 (hl kv (by simp)) hi ?_
        exact selMask_named (agree g (hdpre e4 hinv.dense) (hpre.trans e3)) e2 i hi
      unfold lastSelecting at ih ⊢
      rw [List.map_cons, find?_reverse_cons, find?_reverse_cons, Option.map_or, Option.map_or, ih]
      congr 1
      simp only [hE]
      split
      · simp [e1, parseKey_eq]
      · rfl
  refine ⟨hpre.trans h2, hinv.dense, ?_⟩
  intro i hi
  obtain ⟨c, a, b⟩ := hinv.cell i hi
  refine ⟨c, a, ?_⟩
  have hm := Dict.get?_mem b
  have hb : baseName (fun k => decide (k ∉ ignore)) table data i
      = baseName (fun _ => true) table data i := by
    unfold baseName
    congr 1
    apply find?_congr'
    intro kv hkv
    simp [hig kv (by simpa using hkv)]
  rw [← hlast i hi _ sels hcall hf]
  simp only [baseLabel, hdata, htable, hb] at hm
  rw [chooseDefault_eq] at hm
  cases hls : lastSelecting sels i <;> simpa [hls] using hm

/-- The hypotheses of `C04_name_selection_partial` are met by an ordinary labelled mesh. -/
example : initGroupArray [] "default" ⟨4, some [0, 1, 0, 2], some [("A", 0), ("B", 1), ("C", 2)]⟩ []
    (.dict [("X", .name "A"), ("~Y", .names ["A", "B"])]) none
    = .ok ([3, 1, 3, 4], [("A", 0), ("B", 1), ("C", 2), ("X", 3), ("Y", 4)]) := by decide

/-- **C04 is false in general**: with labels numbered A = 1, B = 0, the entry {"X": "A"} relabels the
cells called B and leaves those called A. -/
theorem C04_name_selection_refuted :
    ∃ (mesh : LMesh) (data : List Int) (table : Dict String Int) (arr : List Int)
      (groups' : Dict String Int),
      mesh.cellGroup = some data ∧ mesh.table = some table ∧ data.length = mesh.nCells ∧
      InjTable table ∧
      initGroupArray [] "default" mesh [] (.dict [("X", .name "A")]) none = .ok (arr, groups') ∧
      CellNamed table data 0 "A" ∧ CellNamed groups' arr 0 "A" ∧ ¬ CellNamed groups' arr 0 "X" ∧
      CellNamed table data 1 "B" ∧ CellNamed groups' arr 1 "X" := by
  refine ⟨⟨2, some [1, 0], some [("A", 1), ("B", 0)]⟩, [1, 0], [("A", 1), ("B", 0)],
    [0, 2], [("A", 0), ("B", 1), ("X", 2)], rfl, rfl, rfl, ?_, by decide, ?_, ?_, ?_, ?_, ?_⟩
  · unfold InjTable; decide
  · exact ⟨1, rfl, by decide⟩
  · exact ⟨0, rfl, by decide⟩
  · rintro ⟨c, h1, h2⟩
    simp at h1
    subst h1
    revert h2
    decide
  · exact ⟨0, rfl, by decide⟩
  · exact ⟨2, rfl, by decide⟩

/-- **C04 is also false when a label is ignored**: the entry {"X": "B"} on a mesh labelled A, B with
A ignored relabels the cells called A. -/
theorem C04_ignored_refuted :
    ∃ (mesh : LMesh) (data : List Int) (table : Dict String Int) (arr : List Int)
      (groups' : Dict String Int),
      mesh.cellGroup = some data ∧ mesh.table = some table ∧ DenseTable table ∧
      initGroupArray ["A"] "default" mesh [] (.dict [("X", .name "B")]) none = .ok (arr, groups') ∧
      CellNamed table data 1 "B" ∧ ¬ CellNamed groups' arr 1 "X" ∧
      CellNamed table data 0 "A" ∧ CellNamed groups' arr 0 "X" := by
  refine ⟨⟨2, some [0, 1], some [("A", 0), ("B", 1)]⟩, [0, 1], [("A", 0), ("B", 1)],
    [1, 0], [("B", 0), ("X", 1)], rfl, rfl, ?_, by decide, ?_, ?_, ?_, ?_⟩
  · unfold DenseTable; decide
  · exact ⟨1, rfl, by decide⟩
  · rintro ⟨c, h1, h2⟩
    simp at h1
    subst h1
    revert h2
    decide
  · exact ⟨0, rfl, by decide⟩
  · exact ⟨1, rfl, by decide⟩

/-! ## C05 -/

theorem negated_tilde (k : String) : negated ("~" ++ k) = true ∧ bare ("~" ++ k) = k := by
  have h : negated ("~" ++ k) = true := by simp [negated]
  exact ⟨h, by simp [bare, h]⟩

/-- **C05 (partial).** For every kind of selection except a callable returning indices, the entry
`"~k": sel` is accepted exactly when `"k": sel` is, and then gives the name `k` to exactly the cells
to which the other does not (`k` being neither a label already in use nor the default).  What is
missing: callables returning indices, for which the claim is false (`C05_complement_refuted`). -/
theorem C05_complement_partial (ignore : List String) (dflt : String) (mesh : LMesh)
    (groups : Dict String Int) (dg : Option String) (k : String) (sel : Sel)
    (hdata : ∀ d, mesh.cellGroup = some d → d.length = mesh.nCells) (hg : DenseTable groups)
    (hk : negated k = false) (hsel : ∀ ix, sel ≠ .callIdx ix)
    (hbase : ∀ i, baseLabel (fun k => decide (k ∉ ignore)) mesh.cellGroup mesh.table i ≠ some k)
    (hdflt : (defaultName dflt dg) ≠ k) :
    ((∃ r, initGroupArray ignore dflt mesh groups (.dict [(k, sel)]) dg = .ok r) ↔
     (∃ r, initGroupArray ignore dflt mesh groups (.dict [("~" ++ k, sel)]) dg = .ok r)) ∧
    ∀ a₁ g₁ a₂ g₂,
      initGroupArray ignore dflt mesh groups (.dict [(k, sel)]) dg = .ok (a₁, g₁) →
      initGroupArray ignore dflt mesh groups (.dict [("~" ++ k, sel)]) dg = .ok (a₂, g₂) →
      ∀ i, i < mesh.nCells → (CellNamed g₁ a₁ i k ↔ ¬ CellNamed g₂ a₂ i k) := by
  obtain ⟨hn1, hn2⟩ := negated_tilde k
  have hb : bare k = k := by simp [bare, hk]
  have hlen : (copyLabels ignore mesh (List.replicate mesh.nCells (-1), groups)).1.length
      = mesh.nCells := by
    simp only [copyLabels]
    cases hc : mesh.cellGroup with
    | none => simp
    | some d =>
      cases ht : mesh.table with
      | none => simp
      | some t => exact (tableLoop_spec ignore d (hdata d hc) t (GInv.init mesh.nCells hg)).1.len
  generalize hst : copyLabels ignore mesh (List.replicate mesh.nCells (-1), groups) = st at hlen
  constructor
  · simp only [initGroupArray, groupItems, groupLoop, groupStep, parseKey_eq, hk, hb, hn1, hn2, hst]
    cases hm : selMask mesh st.2 sel with
    | error e => simp
    | ok mask =>
      obtain ⟨b, rfl⟩ := selMask_bool hm hsel
      simp only [NpMask.invert, NpMask.assign, assignBool]
      by_cases hl : b.length = st.1.length <;> simp [hl]
  · intro a₁ g₁ a₂ g₂ h1 h2 i hi
    -- the two runs write the same mask, resp. its complement
    have key : ∀ key a g, bare key = k →
        initGroupArray ignore dflt mesh groups (.dict [(key, sel)]) dg = .ok (a, g) →
        ∃ b : List Bool, selMask mesh st.2 sel = .ok (.bool b) ∧ b.length = mesh.nCells ∧
          (CellNamed g a i k ↔ maskSel mesh.nCells
            (if negated key then (NpMask.bool b).invert else .bool b) i = true) := by
      intro key a g hkey hrun
      obtain ⟨p1, p2, hd0, sels, hf, hinv⟩ := initGroupArray_inv hdata hg hrun
      simp only [initGroupArray, groupItems, groupLoop, hst] at hrun
      simp only [entries] at hf
      obtain ⟨e, l2, he, hnil, rfl⟩ := List.forall₂_cons_left_iff.1 hf
      cases hnil
      cases hm : selMask mesh st.2 sel with
      | error e => simp [groupStep, hm] at hrun
      | ok mask =>
        obtain ⟨b, rfl⟩ := selMask_bool hm hsel
        refine ⟨b, rfl, ?_⟩
        simp only [groupStep, hm, parseKey_eq, hkey] at hrun
        cases harr : NpMask.assign st.1 (if negated key = true then (NpMask.bool b).invert
            else NpMask.bool b) (getGroupNumber k st.2).1 with
        | error e => simp [harr] at hrun
        | ok arr =>
            simp only [harr, Except.ok.injEq] at hrun
            obtain ⟨x1, x2, x3⟩ := assign_ok harr
            rw [hlen] at x1 x2 x3
            have hbl : b.length = mesh.nCells := by
              by_cases hneg : negated key
              · have := x2 (b.map (!·)) (by simp [hneg, NpMask.invert])
                simpa using this
              · exact x2 b (by simp [hneg])
            refine ⟨hbl, ?_⟩
            have hg0 : GInv mesh.nCells st
                (baseLabel (fun k => decide (k ∉ ignore)) mesh.cellGroup mesh.table) := by
              rw [← hst]
              have h0 := GInv.init mesh.nCells hg
              simp only [copyLabels, baseLabel]
              cases hc : mesh.cellGroup with
              | none => exact h0
              | some d =>
                cases ht : mesh.table with
                | none => exact h0
                | some t => exact (tableLoop_spec ignore d (hdata d hc) t h0).1.congr (by simp [baseLabel])
            have hw := hg0.write k _ x1 x3
            obtain ⟨q1, _⟩ := fillDefault_spec (chooseDefault dflt dg) hw
            rw [hrun] at q1
            obtain ⟨c, c1, c2⟩ := q1.cell i hi
            simp only at c1 c2
            generalize maskSel mesh.nCells
              (if negated key = true then (NpMask.bool b).invert else NpMask.bool b) i = bit at c2 ⊢
            cases bit with
            | true =>
              simp only [if_true, Option.getD_some] at c2
              simp only [iff_true]
              exact ⟨c, c1, Dict.get?_mem c2⟩
            | false =>
              simp only [Bool.false_eq_true, if_false, iff_false] at c2 ⊢
              rintro ⟨c', d1, d2⟩
              rw [c1] at d1
              simp only [Option.some.injEq] at d1
              subst d1
              have := q1.dense.inj.name_unique d2 (Dict.get?_mem c2)
              revert this
              cases hbn : baseLabel (fun k => decide (k ∉ ignore)) mesh.cellGroup mesh.table i with
              | none =>
                simp only [Option.getD_none]
                intro e
                apply hdflt
                rw [e, chooseDefault_eq]
              | some s =>
                simp only [Option.getD_some]
                intro e
                subst e
                exact hbase i hbn
    obtain ⟨b, m1, l1, r1⟩ := key k a₁ g₁ hb h1
    obtain ⟨b', m2, l2, r2⟩ := key ("~" ++ k) a₂ g₂ hn2 h2
    rw [m1] at m2
    simp only [Except.ok.injEq, NpMask.bool.injEq] at m2
    subst m2
    rw [r1, r2]
    simp only [hk, hn1, if_true, Bool.false_eq_true, if_false]
    rw [maskSel_invert_bool l1 hi]
    cases maskSel mesh.nCells (NpMask.bool b) i <;> simp

example : initGroupArray [] "default" ⟨3, none, none⟩ [] (.dict [("~X", .idx [0])]) none
    = .ok ([1, 0, 0], [("X", 0), ("default", 1)]) := by decide

/-- **C05 is false for a callable returning indices**: on three cells, `"X": f` with `f` returning the
indices [0] selects cell 0 only, and `"~X": f` selects cell 2 only, so cell 1 is in neither. -/
theorem C05_complement_refuted :
    ∃ a₁ g₁ a₂ g₂,
      initGroupArray [] "default" ⟨3, none, none⟩ [] (.dict [("X", .callIdx [0])]) none = .ok (a₁, g₁) ∧
      initGroupArray [] "default" ⟨3, none, none⟩ [] (.dict [("~X", .callIdx [0])]) none = .ok (a₂, g₂) ∧
      ¬ CellNamed g₁ a₁ 1 "X" ∧ ¬ CellNamed g₂ a₂ 1 "X" := by
  refine ⟨[0, 1, 1], [("X", 0), ("default", 1)], [1, 1, 0], [("X", 0), ("default", 1)],
    by decide, by decide, ?_, ?_⟩ <;>
  · rintro ⟨c, h1, h2⟩
    simp at h1
    subst h1
    revert h2
    decide

end Gridder
