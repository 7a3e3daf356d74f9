import Verif.Lemmas.Remap
import Verif.Props.Groups

/-!
# C06-C10: remapping, clean-up and MeshMerge
-/

namespace Gridder
open Spec

/-! ## C06 -/

/-- `remap_categorical_data`, complete description of a call whose keys are known and stand for
different old values: new array, and membership in the new label table. -/
theorem remapCategorical_spec {m : CatData} {mapping : List (MapKey × Int)}
    (hint : m.isInt = true) (hinj : InjTable (m.labels.getD []))
    (hkeys : ∀ kv ∈ mapping, (oldCode (m.labels.getD []) kv.1).isSome)
    (hnd : ((pairsOf (m.labels.getD []) mapping).map Prod.fst).Nodup) :
    ∃ m', remapCategorical m mapping = .ok m' ∧ m'.isInt = true ∧
      m'.data = m.data.map (substitute (pairsOf (m.labels.getD []) mapping)) ∧
      ((m.labels.getD []) = [] → m'.labels = m.labels) ∧
      ((m.labels.getD []) ≠ [] → ∃ t, m'.labels = some t ∧ (t.map Prod.fst).Nodup ∧
        (t.Pairwise fun a b => a.2 ≤ b.2) ∧
        ∀ s w, (s, w) ∈ t ↔ ∃ v, (s, v) ∈ m.labels.getD [] ∧ v ∈ m.data ∧
          (v, w) ∈ pairsOf (m.labels.getD []) mapping) := by
  generalize hL : m.labels.getD [] = labels at *
  obtain ⟨st, h1, h2⟩ := remapLoop_spec hinj mapping (RInv.init m.data hinj) hkeys (by simpa using hnd)
  simp only [List.nil_append] at h2
  have hkeq := h2.keys_eq
  have hlab : labels = [] ↔ st.labels = [] := by
    rw [← List.map_eq_nil_iff (f := Prod.fst), ← hkeq, List.map_eq_nil_iff]
  have hrun : remapCategorical m mapping = if st.labels = [] then .ok { m with data := st.remapped }
      else .ok { m with
        data := st.remapped
        labels := some (sortByValue (st.unused.foldl Dict.pop st.labels)) } := by
    simp only [remapCategorical, hint, hL, h1]
    simp
  have hnds : (st.labels.map Prod.fst).Nodup := by rw [hkeq]; exact hinj.1
  by_cases he : st.labels = []
  · refine ⟨{ m with data := st.remapped }, by rw [hrun, if_pos he], hint, h2.data_eq, fun _ => rfl, fun hne => absurd (hlab.2 he) hne⟩
  · refine ⟨{ m with data := st.remapped, labels := some (sortByValue (st.unused.foldl Dict.pop st.labels)) },
      by rw [hrun, if_neg he], hint, h2.data_eq, fun h => absurd (hlab.1 h) he, fun _ => ?_⟩
    obtain ⟨p1, p2⟩ := sortByValue_spec (st.unused.foldl Dict.pop st.labels)
    have hfold := Dict.foldl_pop hnds st.unused
    refine ⟨_, rfl, ?_, p2, ?_⟩
    · refine (p1.map Prod.fst).nodup_iff.2 ?_
      rw [hfold]
      exact hnds.sublist (List.Sublist.map _ List.filter_sublist)
    · intro s w
      rw [p1.mem_iff, hfold, List.mem_filter, Dict.mem_iff_get? hnds]
      simp only [decide_eq_true_eq]
      constructor
      · rintro ⟨g1, g2⟩
        have hs : s ∈ labels.map Prod.fst := by
          rw [← hkeq]; exact List.mem_map_of_mem (f := Prod.fst) (Dict.get?_mem g1)
        obtain ⟨⟨s', v⟩, hv, rfl⟩ := List.mem_map.1 hs
        simp only at g1 g2 hs
        have hnu := (h2.unused s').not.1 g2
        simp only [hs, true_and, not_forall, not_not] at hnu
        obtain ⟨v', hv', hd, hp⟩ := hnu
        have : v' = v := hinj.code_unique hv' hv
        subst this
        have hg := h2.label s' v' hv
        rw [g1] at hg
        simp only [hd, if_true, Option.some.injEq] at hg
        refine ⟨v', hv, hd, ?_⟩
        obtain ⟨⟨a, b⟩, hab, he2⟩ := List.mem_map.1 hp
        simp only at he2
        subst he2
        have : substitute (pairsOf labels mapping) a = b := by
          unfold substitute
          cases hf : (pairsOf labels mapping).find? (fun p => p.1 == a) with
          | none =>
            rw [List.find?_eq_none] at hf
            have := hf _ hab
            simp at this
          | some p =>
            have q1 := List.find?_some hf
            have q2 := List.mem_of_find?_eq_some hf
            simp only [beq_iff_eq] at q1
            have : p = (a, b) := List.inj_on_of_nodup_map hnd q2 hab q1
            simp [this]
        rw [hg, this]
        exact hab
      · rintro ⟨v, hv, hd, hp⟩
        have hg := h2.label s v hv
        have : substitute (pairsOf labels mapping) v = w := by
          unfold substitute
          cases hf : (pairsOf labels mapping).find? (fun p => p.1 == v) with
          | none =>
            rw [List.find?_eq_none] at hf
            have := hf _ hp
            simp at this
          | some p =>
            have q1 := List.find?_some hf
            have q2 := List.mem_of_find?_eq_some hf
            simp only [beq_iff_eq] at q1
            have : p = (v, w) := List.inj_on_of_nodup_map hnd q2 hp q1
            simp [this]
        rw [this] at hg
        refine ⟨by simpa [hd] using hg, ?_⟩
        rw [h2.unused s]
        rintro ⟨_, hh⟩
        exact hh v hv ⟨hd, List.mem_map_of_mem (f := Prod.fst) hp⟩

/-- **C06.** Simultaneous substitution: with keys that are known labels or integers and stand for
different old values, each entry of the result is the new value given for its old value, or the old
value if the mapping does not mention it. -/
theorem C06_simultaneous_substitution {m : CatData} {mapping : List (MapKey × Int)}
    (hint : m.isInt = true) (hinj : InjTable (m.labels.getD []))
    (hkeys : ∀ kv ∈ mapping, (oldCode (m.labels.getD []) kv.1).isSome)
    (hnd : ((pairsOf (m.labels.getD []) mapping).map Prod.fst).Nodup) :
    ∃ m', remapCategorical m mapping = .ok m' ∧ m'.data.length = m.data.length ∧
      ∀ (i : Nat) (x : Int), m.data[i]? = some x →
        (∀ k w, (k, w) ∈ mapping → oldCode (m.labels.getD []) k = some x → m'.data[i]? = some w) ∧
        ((∀ k w, (k, w) ∈ mapping → oldCode (m.labels.getD []) k ≠ some x) → m'.data[i]? = some x) := by
  obtain ⟨m', h1, _, h2, _⟩ := remapCategorical_spec hint hinj hkeys hnd
  refine ⟨m', h1, by simp [h2], ?_⟩
  intro i x hx
  simp only [h2, List.getElem?_map, hx, Option.map_some, Option.some.injEq]
  constructor
  · intro k w hkw hk
    have hp : (x, w) ∈ pairsOf (m.labels.getD []) mapping := by
      simp only [pairsOf, List.mem_filterMap]
      exact ⟨(k, w), hkw, by simp [hk]⟩
    unfold substitute
    cases hf : (pairsOf (m.labels.getD []) mapping).find? (fun p => p.1 == x) with
    | none =>
      rw [List.find?_eq_none] at hf
      have := hf _ hp
      simp at this
    | some p =>
      have q1 := List.find?_some hf
      have q2 := List.mem_of_find?_eq_some hf
      simp only [beq_iff_eq] at q1
      have : p = (x, w) := List.inj_on_of_nodup_map hnd q2 hp q1
      simp [this]
  · intro hno
    apply substitute_of_notMem
    intro hm
    obtain ⟨⟨a, b⟩, hab, rfl⟩ := List.mem_map.1 hm
    simp only [pairsOf, List.mem_filterMap, Option.map_eq_some_iff, Prod.mk.injEq] at hab
    obtain ⟨⟨k, w⟩, hkw, a', ha', rfl, rfl⟩ := hab
    exact hno k w hkw ha'

/-- **C06**, rejected inputs: data that is not of integer type, or an unknown label, raises
`ValueError`. -/
theorem C06_rejected (m : CatData) (mapping : List (MapKey × Int)) :
    (m.isInt = false → remapCategorical m mapping = .error .valueError) ∧
    (m.labels.getD [] = [] → (∃ s w, (MapKey.str s, w) ∈ mapping) →
      remapCategorical m mapping = .error .valueError) := by
  constructor
  · intro h; simp [remapCategorical, h]
  · rintro hl ⟨s, w, hs⟩
    cases hi : m.isInt with
    | false => simp [remapCategorical, hi]
    | true =>
      have : ∀ (mp : List (MapKey × Int)) (st : RemapSt), st.labels = [] → (MapKey.str s, w) ∈ mp →
          remapLoop m.data (Dict.invert ([] : Dict String Int)) mp st = .error .valueError := by
        intro mp
        induction mp with
        | nil => simp
        | cons kv mp ih =>
          intro st hst hmem
          obtain ⟨k, v⟩ := kv
          cases k with
          | str s' => simp [remapLoop, remapStep, remapVid, hst, Dict.get?]
          | int c =>
            have hmem' : (MapKey.str s, w) ∈ mp := by simpa using hmem
            simp only [remapLoop, remapStep, remapVid]
            by_cases hc : c ∈ m.data
            · simp only [hc, if_true, remapKey]
              have : Dict.get? (Dict.invert ([] : Dict String Int)) c = none := rfl
              simp only [this]
              exact ih _ hst hmem'
            · simp only [hc, if_false]
              exact ih _ hst hmem'
      simp only [remapCategorical, hi, hl]
      rw [this mapping ⟨m.data, [], Dict.keys []⟩ rfl hs]
      simp

/-- A swap: hypotheses met and result as claimed. -/
example : remapCategorical ⟨true, [0, 1, 2, 0], some [("A", 0), ("B", 1), ("C", 2)]⟩
    [(.str "A", 1), (.int 1, 0), (.str "C", 2)]
    = .ok ⟨true, [1, 0, 2, 1], some [("B", 0), ("A", 1), ("C", 2)]⟩ := by decide

/-- Why keys must stand for different old values: the integer 0 and the label "A" (= 0) both being
keys, the second one is looked up after the first has renumbered "A" to 5, so the cell called "B" is
hit as well. -/
example : remapCategorical ⟨true, [0, 5], some [("A", 0), ("B", 5)]⟩ [(.int 0, 5), (.str "A", 7)]
    = .ok ⟨true, [5, 7], some [("A", 7)]⟩ := by decide

/-! ## C07 -/

/-- Reading labels back: on a one-to-one table covering all codes `get_cell_group` returns the name
of every cell, otherwise it raises `KeyError`. -/
theorem getCellGroup_spec {data : List Int} {table : Dict String Int} (hinj : InjTable table) :
    ((∀ c ∈ data, ∃ s, (s, c) ∈ table) → ∃ l, getCellGroup data table = .ok l ∧
      l.length = data.length ∧ ∀ i s, l[i]? = some s ↔ CellNamed table data i s) ∧
    ((∃ c ∈ data, ∀ s, (s, c) ∉ table) → getCellGroup data table = .error .keyError) := by
  constructor
  · intro hcov
    have hf : ∀ c ∈ data, Dict.get? (Dict.invert table) c
        = some ((Dict.get? (Dict.invert table) c).getD "") := by
      intro c hc
      obtain ⟨s, hs⟩ := hcov c hc
      rw [(get?_invert_inj hinj).2 hs]
      rfl
    refine ⟨_, readLabels_spec hf, by simp, ?_⟩
    intro i s
    simp only [List.getElem?_map, CellNamed]
    cases hd : data[i]? with
    | none => simp
    | some c =>
      have hc : c ∈ data := List.mem_of_getElem? hd
      have := hf c hc
      simp only [Option.map_some, Option.some.injEq, exists_eq_left']
      rw [← get?_invert_inj hinj]
      constructor
      · intro e; rw [this, e]
      · intro e; rw [e]; rfl
  · rintro ⟨c, hc, hno⟩
    refine readLabels_error hc ?_
    cases h : Dict.get? (Dict.invert table) c with
    | none => rfl
    | some s => exact absurd ((get?_invert_inj hinj).1 h) (hno s)

/-- **C07 (partial).** If the mapping covers every value in use and keeps values distinct, the
remapped mesh has the same name for every cell, and `get_cell_group` returns the same list before and
after.  Missing: mappings covering only part of the values in use, for which the claim is false
(`C07_partial_mapping_refuted`). -/
theorem C07_labels_preserved_partial {data : List Int} {labels : Dict String Int}
    {mapping : List (MapKey × Int)} (hne : labels ≠ []) (hinj : InjTable labels)
    (hcov : ∀ c ∈ data, ∃ s, (s, c) ∈ labels)
    (hkeys : ∀ kv ∈ mapping, (oldCode labels kv.1).isSome)
    (hnd : ((pairsOf labels mapping).map Prod.fst).Nodup)
    (hnew : ((pairsOf labels mapping).map Prod.snd).Nodup)
    (hall : ∀ c ∈ data, c ∈ (pairsOf labels mapping).map Prod.fst) :
    ∃ data' labels', remapCategorical ⟨true, data, some labels⟩ mapping
        = .ok ⟨true, data', some labels'⟩ ∧ InjTable labels' ∧
      SameNames labels data labels' data' ∧
      (∀ s, s ∈ labels'.map Prod.fst ↔ ∃ c ∈ data, (s, c) ∈ labels) ∧
      ∃ l, getCellGroup data labels = .ok l ∧ getCellGroup data' labels' = .ok l := by
  obtain ⟨m', h1, hi, h2, _, h3⟩ := remapCategorical_spec (m := ⟨true, data, some labels⟩) rfl
    (by simpa using hinj) (by simpa using hkeys) (by simpa using hnd)
  simp only [Option.getD_some] at h2 h3
  obtain ⟨t, ht, hk, _, hmem⟩ := h3 hne
  obtain ⟨isInt', data', labels''⟩ := m'
  simp only at ht hi h2
  subst ht hi h2
  have hsub : ∀ v w, (v, w) ∈ pairsOf labels mapping → substitute (pairsOf labels mapping) v = w := by
    intro v w hp
    unfold substitute
    cases hf : (pairsOf labels mapping).find? (fun p => p.1 == v) with
    | none =>
      rw [List.find?_eq_none] at hf
      have := hf _ hp
      simp at this
    | some p =>
      have q1 := List.find?_some hf
      have q2 := List.mem_of_find?_eq_some hf
      simp only [beq_iff_eq] at q1
      have : p = (v, w) := List.inj_on_of_nodup_map hnd q2 hp q1
      simp [this]
  have hinj' : InjTable t := by
    refine ⟨hk, ?_⟩
    refine List.Nodup.map_on ?_ (List.Nodup.of_map _ hk)
    rintro ⟨s, w⟩ hs ⟨s', w'⟩ hs' e
    simp only at e
    subst e
    obtain ⟨v, a1, a2, a3⟩ := (hmem s w).1 hs
    obtain ⟨v', b1, b2, b3⟩ := (hmem s' w).1 hs'
    have : v = v' := congrArg Prod.fst (List.inj_on_of_nodup_map hnew a3 b3 rfl)
    subst this
    rw [hinj.name_unique a1 b1]
  have hsame : SameNames labels data t (data.map (substitute (pairsOf labels mapping))) := by
    refine ⟨by simp, ?_⟩
    intro i s
    unfold CellNamed
    simp only [List.getElem?_map]
    cases hd : data[i]? with
    | none => simp
    | some c =>
      have hc : c ∈ data := List.mem_of_getElem? hd
      obtain ⟨⟨c', w⟩, hp, hcc⟩ := List.mem_map.1 (hall c hc)
      simp only at hcc
      subst hcc
      simp only [Option.some.injEq, exists_eq_left', Option.map_some]
      rw [hsub _ _ hp, hmem s w]
      constructor
      · intro h; exact ⟨c', h, hc, hp⟩
      · rintro ⟨v, a1, _, a3⟩
        have : v = c' := congrArg Prod.fst (List.inj_on_of_nodup_map hnew a3 hp rfl)
        rwa [← this]
  refine ⟨_, t, h1, hinj', hsame, ?_, ?_⟩
  · intro s
    rw [List.mem_map]
    constructor
    · rintro ⟨⟨s, w⟩, hs, rfl⟩
      obtain ⟨v, a1, a2, _⟩ := (hmem s w).1 hs
      exact ⟨v, a2, a1⟩
    · rintro ⟨c, hc, hsc⟩
      obtain ⟨⟨c', w⟩, hp, hcc⟩ := List.mem_map.1 (hall c hc)
      simp only at hcc
      subst hcc
      exact ⟨(s, w), (hmem s w).2 ⟨c', hsc, hc, hp⟩, rfl⟩
  · obtain ⟨l, a1, a2, a3⟩ := (getCellGroup_spec hinj).1 hcov
    obtain ⟨l', b1, b2, b3⟩ := (getCellGroup_spec (data := data.map (substitute (pairsOf labels mapping)))
      hinj').1 (by
        intro c' hc'
        obtain ⟨i, hi⟩ := List.mem_iff_getElem?.1 hc'
        have hi0 : i < data.length := by
          have := (List.getElem?_eq_some_iff.1 hi).1; simpa using this
        obtain ⟨s, hs⟩ := hcov data[i] (List.getElem_mem _)
        have := (hsame.2 i s).1 ⟨data[i], by simp, hs⟩
        obtain ⟨c'', e1, e2⟩ := this
        rw [hi] at e1
        simp only [Option.some.injEq] at e1
        exact ⟨s, by rw [e1]; exact e2⟩)
    refine ⟨l, a1, ?_⟩
    rw [b1]
    congr 1
    apply List.ext_getElem?
    intro i
    cases hli : l[i]? with
    | some s => exact (b3 i s).2 ((hsame.2 i s).1 ((a3 i s).1 hli))
    | none =>
      rw [List.getElem?_eq_none_iff] at hli ⊢
      simp only [List.length_map] at b2
      omega

example : remapCategorical ⟨true, [0, 4, 0], some [("A", 0), ("B", 4), ("C", 9)]⟩
    [(.str "A", 4), (.str "B", 0)] = .ok ⟨true, [4, 0, 4], some [("B", 0), ("A", 4)]⟩ := by decide

/-- **C07 is false for a mapping covering part of the labels**: remapping only A on a mesh labelled A
and B keeps the cells of B but removes B from the table, and reading the labels raises `KeyError`. -/
theorem C07_partial_mapping_refuted :
    ∃ (data : List Int) (labels : Dict String Int) (mapping : List (MapKey × Int)) (data' : List Int)
      (labels' : Dict String Int),
      InjTable labels ∧ remapCategorical ⟨true, data, some labels⟩ mapping
        = .ok ⟨true, data', some labels'⟩ ∧
      getCellGroup data labels = .ok ["A", "B"] ∧ getCellGroup data' labels' = .error .keyError := by
  refine ⟨[0, 1], [("A", 0), ("B", 1)], [(.str "A", 7)], [7, 1], [("A", 7)], ?_, by decide, by decide,
    by decide⟩
  unfold InjTable; decide

/-! ## C08 -/

theorem enumerate_pairs {table : Dict String Int} (hinj : InjTable table) (sub : Dict String Int)
    (hsub : sub.Sublist table) :
    pairsOf table ((Dict.keys sub).zipIdx.map fun kv => (MapKey.str kv.1, (kv.2 : Int)))
      = sub.zipIdx.map fun p => (p.1.2, (p.2 : Int)) := by
  have : ∀ (l : Dict String Int) (k : Nat), (∀ kv ∈ l, kv ∈ table) →
      pairsOf table (((Dict.keys l).zipIdx k).map fun kv => (MapKey.str kv.1, (kv.2 : Int)))
        = (l.zipIdx k).map fun p => (p.1.2, (p.2 : Int)) := by
    intro l
    induction l with
    | nil => intro k _; rfl
    | cons a l ih =>
      intro k hmem
      have ha : Dict.get? table a.1 = some a.2 := Dict.mem_get? hinj.1 (by simpa using hmem a (by simp))
      have := ih (k + 1) (fun kv h => hmem kv (by simp [h]))
      simp only [Dict.keys, List.map_cons, List.zipIdx_cons, pairsOf, List.filterMap_cons, oldCode,
        ← get?_eq_find?, ha,
        Option.map_some] at this ⊢
      rw [this]
  exact this sub 0 (fun kv h => hsub.subset h)

/-- **C08.** On a dense table covering all codes, dropping unused groups succeeds, keeps the name of
every cell, keeps exactly the used names in their order, and numbers them 0, 1, 2, ... -/
theorem C08_clean {data : List Int} {table : Dict String Int} (hd : DenseTable table)
    (hcov : ∀ c ∈ data, ∃ s, (s, c) ∈ table) :
    ∃ data' table', cleanGroups data table = .ok (data', table') ∧ DenseTable table' ∧
      SameNames table data table' data' ∧
      table'.map Prod.fst = (table.filter fun kv => decide (kv.2 ∈ data)).map Prod.fst ∧
      (∀ c ∈ data', ∃ s, (s, c) ∈ table') := by
  by_cases hall : table.all (fun kv => decide (kv.2 ∈ data)) = true
  · refine ⟨data, table, by simp only [cleanGroups, hall, if_true], hd, ⟨rfl, fun _ _ => Iff.rfl⟩, ?_, hcov⟩
    rw [List.filter_eq_self.2]
    intro kv hkv
    exact List.all_eq_true.1 hall kv hkv
  · set used := table.filter (fun kv => decide (kv.2 ∈ data)) with hused
    have hsubl : used.Sublist table := List.filter_sublist
    have hpairs := enumerate_pairs hd.inj used hsubl
    have hne : table ≠ [] := by rintro rfl; simp at hall
    have hfst : ((used.zipIdx.map fun p => (p.1.2, (p.2 : Int))).map Prod.fst) = used.map Prod.snd := by
      rw [List.map_map, show (Prod.fst ∘ fun p : (String × Int) × Nat => (p.1.2, (p.2 : Int)))
        = (fun x => x.2) ∘ Prod.fst from rfl, ← List.map_map, List.zipIdx_map_fst]
    have hsnd : ((used.zipIdx.map fun p => (p.1.2, (p.2 : Int))).map Prod.snd)
        = (List.range used.length).map Int.ofNat := by
      rw [List.map_map, show (Prod.snd ∘ fun p : (String × Int) × Nat => (p.1.2, (p.2 : Int)))
        = Int.ofNat ∘ Prod.snd from rfl, ← List.map_map, List.zipIdx_map_snd, List.range_eq_range']
    have hnd1 : (used.map Prod.snd).Nodup := hd.inj.2.sublist (hsubl.map _)
    have hnd2 : ((List.range used.length).map Int.ofNat).Nodup :=
      List.Nodup.map (fun a b => by simp [Int.ofNat_inj]) List.nodup_range
    obtain ⟨data', labels', r1, r2, r3, r4, _⟩ := C07_labels_preserved_partial (data := data)
      (labels := table)
      (mapping := (Dict.keys used).zipIdx.map fun kv => (MapKey.str kv.1, (kv.2 : Int)))
      hne hd.inj hcov (by
        intro kv hkv
        obtain ⟨⟨s, j⟩, hs, rfl⟩ := List.mem_map.1 hkv
        have : s ∈ Dict.keys used := by
          have := List.mem_map_of_mem (f := Prod.fst) hs
          rwa [List.zipIdx_map_fst] at this
        obtain ⟨⟨s, c⟩, hc, rfl⟩ := List.mem_map.1 this
        have : Dict.get? table s = some c := Dict.mem_get? hd.1 (hsubl.subset hc)
        simp [oldCode, ← get?_eq_find?, this])
      (by rw [hpairs, hfst]; exact hnd1) (by rw [hpairs, hsnd]; exact hnd2)
      (by
        intro c hc
        obtain ⟨s, hs⟩ := hcov c hc
        rw [hpairs, hfst]
        exact List.mem_map.2 ⟨(s, c), by simp [hused, hs, hc], rfl⟩)
    -- identify the new table exactly
    obtain ⟨m', q1, _, _, _, q3⟩ := remapCategorical_spec (m := ⟨true, data, some table⟩)
      (mapping := (Dict.keys used).zipIdx.map fun kv => (MapKey.str kv.1, (kv.2 : Int))) rfl
      (by simpa using hd.inj) (by
        intro kv hkv
        obtain ⟨⟨s, j⟩, hs, rfl⟩ := List.mem_map.1 hkv
        have : s ∈ Dict.keys used := by
          have := List.mem_map_of_mem (f := Prod.fst) hs
          rwa [List.zipIdx_map_fst] at this
        obtain ⟨⟨s, c⟩, hc, rfl⟩ := List.mem_map.1 this
        have : Dict.get? table s = some c := Dict.mem_get? hd.1 (hsubl.subset hc)
        simp [oldCode, ← get?_eq_find?, this])
      (by simp only [Option.getD_some]; rw [hpairs, hfst]; exact hnd1)
    simp only [Option.getD_some] at q3
    obtain ⟨t, ht, hk, hsorted, hmem⟩ := q3 hne
    rw [r1] at q1
    simp only [Except.ok.injEq] at q1
    subst q1
    simp only [Option.some.injEq] at ht
    subst ht
    set target : Dict String Int := used.zipIdx.map fun p => (p.1.1, (p.2 : Int)) with htarget
    have htf : target.map Prod.fst = used.map Prod.fst := by
      rw [htarget, List.map_map, show (Prod.fst ∘ fun p : (String × Int) × Nat => (p.1.1, (p.2 : Int)))
        = (fun x => x.1) ∘ Prod.fst from rfl, ← List.map_map, List.zipIdx_map_fst]
    have hts : target.map Prod.snd = (List.range used.length).map Int.ofNat := by
      rw [htarget, List.map_map, show (Prod.snd ∘ fun p : (String × Int) × Nat => (p.1.1, (p.2 : Int)))
        = Int.ofNat ∘ Prod.snd from rfl, ← List.map_map, List.zipIdx_map_snd, List.range_eq_range']
    have hmem' : ∀ kv, kv ∈ labels' ↔ kv ∈ target := by
      rintro ⟨s, w⟩
      rw [hmem s w, hpairs, htarget]
      simp only [List.mem_map, Prod.mk.injEq, Prod.exists]
      constructor
      · rintro ⟨v, hv, hvd, s', c', j, hj, rfl, rfl⟩
        have hin : (s', c') ∈ table := by
          have := List.mem_map_of_mem (f := Prod.fst) hj
          rw [List.zipIdx_map_fst] at this
          exact hsubl.subset this
        have : s' = s := hd.inj.name_unique hin hv
        subst this
        exact ⟨s', c', j, hj, rfl, rfl⟩
      · rintro ⟨s', c', j, hj, rfl, rfl⟩
        have hin : (s', c') ∈ used := by
          have := List.mem_map_of_mem (f := Prod.fst) hj
          rwa [List.zipIdx_map_fst] at this
        have hin' := List.mem_filter.1 hin
        exact ⟨c', hin'.1, by simpa using hin'.2, s', c', j, hj, rfl, rfl⟩
    have htn : (target.map Prod.fst).Nodup := by
      rw [htf]; exact hd.1.sublist (hsubl.map _)
    have hperm : labels'.Perm target := by
      rw [List.perm_ext_iff_of_nodup (List.Nodup.of_map _ hk) (List.Nodup.of_map _ htn)]
      exact hmem'
    have hstrict : target.Pairwise fun a b => a.2 < b.2 := by
      have : (target.map Prod.snd).Pairwise (· < ·) := by
        rw [hts, List.pairwise_map]
        refine List.Pairwise.imp ?_ List.pairwise_lt_range
        intro a b h
        simpa using h
      exact List.pairwise_map.1 this
    have hEq : labels' = target := by
      refine hperm.eq_of_pairwise ?_ hsorted (hstrict.imp fun h => Int.le_of_lt h)
      rintro ⟨a1, a2⟩ ⟨b1, b2⟩ ha hb h1 h2
      have h12 : a2 = b2 := Int.le_antisymm h1 h2
      subst h12
      rw [r2.name_unique ha ((hmem' _).2 hb)]
    refine ⟨data', labels', ?_, ?_, r3, ?_, ?_⟩
    · simp only [cleanGroups, hall, Bool.false_eq_true, if_false]
      rw [r1]
      rfl
    · refine ⟨hk, ?_⟩
      rw [hEq, hts]
      congr 2
      simp [htarget]
    · rw [hEq, htf]
    · intro c hc
      obtain ⟨i, hi⟩ := List.mem_iff_getElem?.1 hc
      have hi0 : i < data.length := by
        have := (List.getElem?_eq_some_iff.1 hi).1
        rw [r3.1]; exact this
      obtain ⟨s, hs⟩ := hcov data[i] (List.getElem_mem _)
      obtain ⟨c'', e1, e2⟩ := (r3.2 i s).1 ⟨data[i], by simp, hs⟩
      rw [hi] at e1
      simp only [Option.some.injEq] at e1
      exact ⟨s, by rw [e1]; exact e2⟩

/-- **C08**, labels read back: `get_cell_group` works on the cleaned mesh and returns the same names
as on the mesh before cleaning. -/
theorem C08_get_cell_group {data : List Int} {table : Dict String Int} (hd : DenseTable table)
    (hcov : ∀ c ∈ data, ∃ s, (s, c) ∈ table) {data' : List Int} {table' : Dict String Int}
    (h : cleanGroups data table = .ok (data', table')) :
    ∃ l, getCellGroup data table = .ok l ∧ getCellGroup data' table' = .ok l := by
  obtain ⟨d, t, h1, h2, h3, _, h5⟩ := C08_clean hd hcov
  rw [h] at h1
  simp only [Except.ok.injEq, Prod.mk.injEq] at h1
  obtain ⟨rfl, rfl⟩ := h1
  obtain ⟨l, a1, a2, a3⟩ := (getCellGroup_spec hd.inj).1 hcov
  obtain ⟨l', b1, b2, b3⟩ := (getCellGroup_spec h2.inj).1 h5
  refine ⟨l, a1, ?_⟩
  rw [b1]
  congr 1
  apply List.ext_getElem?
  intro i
  cases hli : l[i]? with
  | some s => exact (b3 i s).2 ((h3.2 i s).1 ((a3 i s).1 hli))
  | none =>
    rw [List.getElem?_eq_none_iff] at hli ⊢
    have := h3.1
    omega

example : cleanGroups [3, 1, 3] [("A", 0), ("B", 1), ("C", 2), ("D", 3)]
    = .ok ([1, 0, 1], [("B", 0), ("D", 1)]) := by decide

end Gridder
