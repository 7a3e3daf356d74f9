import Verif.Lemmas.Groups

namespace Gridder
open Spec

theorem Spec.InjTable.code_unique {t : List (String × Int)} (h : InjTable t) {s : String} {c c' : Int}
    (h1 : (s, c) ∈ t) (h2 : (s, c') ∈ t) : c = c' :=
  congrArg Prod.snd (List.inj_on_of_nodup_map h.1 h1 h2 rfl)

namespace Dict
variable {κ ν : Type _} [DecidableEq κ]

theorem set_keys {d : Dict κ ν} {k : κ} {v : ν} (h : k ∈ d.map Prod.fst) :
    (set d k v).map Prod.fst = d.map Prod.fst := by
  induction d with
  | nil => simp at h
  | cons a d ih =>
    obtain ⟨a, b⟩ := a
    simp only [set]
    split
    · simp
    · rename_i hne
      simp only [List.map_cons, List.mem_cons] at h ⊢
      rcases h with h | h
      · exact absurd h.symm hne
      · rw [ih h]

theorem mem_iff_get? {d : Dict κ ν} (hd : (d.map Prod.fst).Nodup) {k : κ} {v : ν} :
    (k, v) ∈ d ↔ get? d k = some v :=
  ⟨mem_get? hd, get?_mem⟩

theorem pop_eq_filter {d : Dict κ ν} (hd : (d.map Prod.fst).Nodup) (k : κ) :
    pop d k = d.filter (fun kv => decide (kv.1 ≠ k)) := by
  induction d with
  | nil => rfl
  | cons a d ih =>
    obtain ⟨a, b⟩ := a
    simp only [List.map_cons, List.nodup_cons] at hd
    simp only [pop]
    split
    · subst_vars
      rw [List.filter_cons_of_neg (by simp), eq_comm, List.filter_eq_self]
      intro kv hkv
      simp only [ne_eq, decide_not, Bool.not_eq_eq_eq_not, Bool.not_true, decide_eq_false_iff_not]
      intro e
      exact hd.1 (e ▸ List.mem_map_of_mem (f := Prod.fst) hkv)
    · rename_i hne
      rw [List.filter_cons_of_pos (by simpa using hne), ih hd.2]

theorem foldl_pop {d : Dict κ ν} (hd : (d.map Prod.fst).Nodup) (l : List κ) :
    l.foldl pop d = d.filter (fun kv => decide (kv.1 ∉ l)) := by
  induction l generalizing d with
  | nil => simp
  | cons k l ih =>
    simp only [List.foldl_cons]
    rw [pop_eq_filter hd, ih (hd.sublist (List.Sublist.map _ List.filter_sublist)), List.filter_filter]
    apply List.filter_congr
    intro kv _
    simp only [List.mem_cons, not_or, Bool.decide_and, ne_eq]
    exact Bool.and_comm _ _

/-- `{v: k ...}`: looking up a code finds the last entry with that code. -/
theorem get?_invert {κ ν : Type _} [DecidableEq ν] (d : Dict κ ν) (c : ν) :
    get? (invert d) c = (d.reverse.find? fun kv => kv.2 == c).map Prod.fst := by
  unfold invert
  have : ∀ (acc : Dict ν κ), get? (d.foldl (fun m kv => set m kv.2 kv.1) acc) c
      = ((d.reverse.find? fun kv => kv.2 == c).map Prod.fst).or (get? acc c) := by
    induction d with
    | nil => simp
    | cons kv d ih =>
      intro acc
      rw [List.foldl_cons, ih, get?_set, find?_reverse_cons]
      cases List.find? _ d.reverse with
      | some x => simp
      | none => by_cases h : kv.2 = c <;> simp [h]
  rw [this]
  simp [get?]

end Dict

theorem get?_invert_inj {t : Dict String Int} (h : InjTable t) {s : String} {c : Int} :
    Dict.get? (Dict.invert t) c = some s ↔ (s, c) ∈ t := by
  rw [Dict.get?_invert]
  constructor
  · intro hf
    obtain ⟨kv, h1, rfl⟩ := Option.map_eq_some_iff.1 hf
    have h2 := List.find?_some h1
    have h3 := List.mem_of_find?_eq_some h1
    simp only [beq_iff_eq] at h2
    simpa [← h2] using h3
  · intro hm
    cases hf : List.find? (fun kv => kv.2 == c) t.reverse with
    | none =>
      rw [List.find?_eq_none] at hf
      have := hf (s, c) (by simpa using hm)
      simp at this
    | some kv =>
      have h2 := List.find?_some hf
      have h3 := List.mem_of_find?_eq_some hf
      simp only [beq_iff_eq, List.mem_reverse] at h2 h3
      have h3' : (kv.1, c) ∈ t := by rw [← h2]; exact h3
      simp [h.name_unique h3' hm]

theorem nameOf_inj {t : Dict String Int} (h : InjTable t) {s : String} {c : Int} :
    nameOf t c = some s ↔ (s, c) ∈ t := by
  unfold nameOf
  constructor
  · intro hf
    obtain ⟨kv, h1, rfl⟩ := Option.map_eq_some_iff.1 hf
    have h2 := List.find?_some h1
    have h3 := List.mem_of_find?_eq_some h1
    simp only [beq_iff_eq] at h2
    rw [← h2]; exact h3
  · intro hm
    cases hf : List.find? (fun kv => kv.2 == c) t with
    | none =>
      rw [List.find?_eq_none] at hf
      have := hf (s, c) hm
      simp at this
    | some kv =>
      have h2 := List.find?_some hf
      have h3 := List.mem_of_find?_eq_some hf
      simp only [beq_iff_eq] at h2
      have h3' : (kv.1, c) ∈ t := by rw [← h2]; exact h3
      simp [h.name_unique h3' hm]

/-! ## get_cell_group -/

theorem readLabels_spec {inv : Dict Int String} {data : List Int} {f : Int → String}
    (h : ∀ c ∈ data, Dict.get? inv c = some (f c)) : readLabels inv data = .ok (data.map f) := by
  induction data with
  | nil => rfl
  | cons c l ih =>
    simp only [readLabels, Dict.get, h c (by simp), ih (fun c hc => h c (by simp [hc])),
      List.map_cons]

theorem readLabels_error {inv : Dict Int String} {data : List Int} {c : Int} (hc : c ∈ data)
    (h : Dict.get? inv c = none) : readLabels inv data = .error .keyError := by
  induction data with
  | nil => simp at hc
  | cons x l ih =>
    simp only [readLabels, Dict.get]
    cases hx : Dict.get? inv x with
    | none => rfl
    | some s =>
      rcases List.mem_cons.1 hc with rfl | hc
      · rw [h] at hx; simp at hx
      · simp only [ih hc]

/-! ## sorting by value -/

theorem insertByValue_perm (kv : String × Int) (l : Dict String Int) :
    (insertByValue kv l).Perm (kv :: l) := by
  induction l with
  | nil => exact List.Perm.refl _
  | cons a l ih =>
    simp only [insertByValue]
    split
    · exact List.Perm.refl _
    · exact (ih.cons a).trans (List.Perm.swap _ _ _)

theorem insertByValue_sorted {kv : String × Int} {l : Dict String Int}
    (h : l.Pairwise fun a b => a.2 ≤ b.2) :
    (insertByValue kv l).Pairwise fun a b => a.2 ≤ b.2 := by
  induction l with
  | nil => simp [insertByValue]
  | cons a l ih =>
    simp only [List.pairwise_cons] at h
    simp only [insertByValue]
    split
    · simp only [List.pairwise_cons, List.mem_cons]
      refine ⟨?_, h.1, h.2⟩
      rintro b (rfl | hb)
      · omega
      · have := h.1 b hb; omega
    · simp only [List.pairwise_cons]
      refine ⟨?_, ih h.2⟩
      intro b hb
      rcases List.mem_cons.1 ((insertByValue_perm kv l).mem_iff.1 hb) with rfl | hb
      · omega
      · exact h.1 b hb

theorem sortByValue_spec (d : Dict String Int) :
    (sortByValue d).Perm d ∧ (sortByValue d).Pairwise fun a b => a.2 ≤ b.2 := by
  unfold sortByValue
  have : ∀ acc : Dict String Int, (acc.Pairwise fun a b => a.2 ≤ b.2) →
      (d.foldl (fun acc kv => insertByValue kv acc) acc).Perm (d ++ acc) ∧
      (d.foldl (fun acc kv => insertByValue kv acc) acc).Pairwise fun a b => a.2 ≤ b.2 := by
    induction d with
    | nil => intro acc h; exact ⟨List.Perm.refl _, h⟩
    | cons kv d ih =>
      intro acc h
      obtain ⟨h1, h2⟩ := ih _ (insertByValue_sorted (kv := kv) h)
      refine ⟨h1.trans ?_, h2⟩
      exact ((insertByValue_perm kv acc).append_left d).trans List.perm_middle
  simpa using this [] List.Pairwise.nil

/-! ## the remapping loop -/

theorem get?_eq_find? (t : Dict String Int) (s : String) :
    Dict.get? t s = (t.find? fun kv => kv.1 == s).map Prod.snd := by
  induction t with
  | nil => rfl
  | cons a t ih =>
    obtain ⟨a, b⟩ := a
    simp only [Dict.get?, List.find?_cons]
    by_cases h : a = s
    · simp [h]
    · have : (a == s) = false := by simpa using h
      simp [h, ih, this]

/-- State of the loop after the entries `done` of the mapping have been treated. -/
structure RInv (data : List Int) (labels : Dict String Int) (done : List (Int × Int))
    (st : RemapSt) : Prop where
  data_eq : st.remapped = data.map (substitute done)
  keys_eq : st.labels.map Prod.fst = labels.map Prod.fst
  label : ∀ s v, (s, v) ∈ labels →
    Dict.get? st.labels s = some (if v ∈ data then substitute done v else v)
  unused : ∀ s, s ∈ st.unused ↔
    s ∈ labels.map Prod.fst ∧ ∀ v, (s, v) ∈ labels → ¬ (v ∈ data ∧ v ∈ done.map Prod.fst)

theorem substitute_append {done : List (Int × Int)} {c w : Int} (hc : c ∉ done.map Prod.fst) (x : Int) :
    substitute (done ++ [(c, w)]) x = if x = c then w else substitute done x := by
  unfold substitute
  rw [List.find?_append]
  by_cases hx : x = c
  · subst hx
    have : done.find? (fun p => p.1 == x) = none := by
      rw [List.find?_eq_none]
      intro p hp
      simp only [beq_iff_eq]
      intro e
      exact hc (e ▸ List.mem_map_of_mem (f := Prod.fst) hp)
    simp [this]
  · cases done.find? (fun p => p.1 == x) with
    | some p => simp [hx]
    | none => simp [Ne.symm hx, hx]

theorem substitute_of_notMem {done : List (Int × Int)} {c : Int} (hc : c ∉ done.map Prod.fst) :
    substitute done c = c := by
  unfold substitute
  have : done.find? (fun p => p.1 == c) = none := by
    rw [List.find?_eq_none]
    intro p hp
    simp only [beq_iff_eq]
    intro e
    exact hc (e ▸ List.mem_map_of_mem (f := Prod.fst) hp)
  simp [this]

theorem remapStep_spec {data : List Int} {labels : Dict String Int} (hl : InjTable labels)
    {done : List (Int × Int)} {st : RemapSt} (h : RInv data labels done st)
    {kv : MapKey × Int} {c : Int} (hc : oldCode labels kv.1 = some c) (hnew : c ∉ done.map Prod.fst) :
    ∃ st', remapStep data (Dict.invert labels) st kv = .ok st' ∧
      RInv data labels (done ++ [(c, kv.2)]) st' := by
  have hvid : remapVid st.labels kv.1 = .ok c := by
    obtain ⟨k, w⟩ := kv
    cases k with
    | int i => simp only [oldCode, Option.some.injEq] at hc; simp [remapVid, hc]
    | str s =>
      simp only [oldCode, ← get?_eq_find?] at hc
      have := h.label s c (Dict.get?_mem hc)
      rw [substitute_of_notMem hnew] at this
      simp only [ite_self] at this
      simp [remapVid, this]
  simp only [remapStep, hvid]
  by_cases hin : c ∈ data
  · simp only [hin, if_true]
    have hdata : List.zipWith (fun r x => if x = c then kv.2 else r) st.remapped data
        = data.map (substitute (done ++ [(c, kv.2)])) := by
      rw [h.data_eq, List.zipWith_map_left, List.zipWith_self]
      apply List.map_congr_left
      intro x _
      rw [substitute_append hnew]
    -- the label (if any) attached to the code
    have hkey : remapKey (Dict.invert labels) kv.1 c = Dict.get? (Dict.invert labels) c := by
      obtain ⟨k, w⟩ := kv
      cases k with
      | int i => rfl
      | str s =>
        simp only [oldCode, ← get?_eq_find?] at hc
        exact ((get?_invert_inj hl).2 (Dict.get?_mem hc)).symm
    rw [hkey]
    cases hk : Dict.get? (Dict.invert labels) c with
    | none =>
      refine ⟨_, rfl, ⟨hdata, h.keys_eq, ?_, ?_⟩⟩
      · intro s v hsv
        have hvc : v ≠ c := by
          rintro rfl
          have := (get?_invert_inj hl).2 hsv
          simp [this] at hk
        rw [h.label s v hsv, substitute_append hnew]
        simp [hvc]
      · intro s
        rw [h.unused s]
        refine and_congr_right fun _ => forall_congr' fun v => imp_congr_right fun hsv => ?_
        have hvc : v ≠ c := by
          rintro rfl
          have := (get?_invert_inj hl).2 hsv
          simp [this] at hk
        simp [hvc]
    | some key =>
      have hkc : (key, c) ∈ labels := (get?_invert_inj hl).1 hk
      have hkm : key ∈ st.labels.map Prod.fst := by
        rw [h.keys_eq]; exact List.mem_map_of_mem (f := Prod.fst) hkc
      refine ⟨_, rfl, ⟨hdata, ?_, ?_, ?_⟩⟩
      · rw [Dict.set_keys hkm, h.keys_eq]
      · intro s v hsv
        simp only
        rw [Dict.get?_set]
        split
        · subst_vars
          have : v = c := hl.code_unique hsv hkc
          subst this
          simp [hin, substitute_append hnew]
        · rename_i hne
          have hvc : v ≠ c := by
            rintro rfl
            exact hne (hl.name_unique hkc hsv)
          rw [h.label s v hsv, substitute_append hnew]
          simp [hvc]
      · intro s
        simp only [List.mem_filter, decide_eq_true_eq, h.unused s]
        constructor
        · rintro ⟨⟨h1, h2⟩, h3⟩
          refine ⟨h1, fun v hsv => ?_⟩
          have hvc : v ≠ c := by
            rintro rfl
            exact h3 (hl.name_unique hsv hkc)
          simpa [hvc] using h2 v hsv
        · rintro ⟨h1, h2⟩
          refine ⟨⟨h1, fun v hsv hh => h2 v hsv ⟨hh.1, ?_⟩⟩, ?_⟩
          · simp only [List.map_append, List.mem_append]
            exact Or.inl hh.2
          · rintro rfl
            exact h2 c hkc ⟨hin, by simp⟩
  · simp only [hin, if_false]
    refine ⟨st, rfl, ⟨?_, h.keys_eq, ?_, ?_⟩⟩
    · rw [h.data_eq]
      apply List.map_congr_left
      intro x hx
      rw [substitute_append hnew]
      have : x ≠ c := by rintro rfl; exact hin hx
      simp [this]
    · intro s v hsv
      rw [h.label s v hsv]
      by_cases hv : v ∈ data
      · have : v ≠ c := by rintro rfl; exact hin hv
        simp [hv, substitute_append hnew, this]
      · simp [hv]
    · intro s
      rw [h.unused s]
      refine and_congr_right fun _ => forall_congr' fun v => imp_congr_right fun hsv => ?_
      simp only [List.map_append, List.mem_append, List.map_cons, List.map_nil, List.mem_singleton]
      constructor
      · rintro hh ⟨a, b | rfl⟩
        · exact hh ⟨a, b⟩
        · exact hin a
      · rintro hh ⟨a, b⟩
        exact hh ⟨a, Or.inl b⟩

theorem remapLoop_spec {data : List Int} {labels : Dict String Int} (hl : InjTable labels)
    (mapping : List (MapKey × Int)) {done : List (Int × Int)} {st : RemapSt}
    (h : RInv data labels done st)
    (hkeys : ∀ kv ∈ mapping, (oldCode labels kv.1).isSome)
    (hnd : ((done ++ pairsOf labels mapping).map Prod.fst).Nodup) :
    ∃ st', remapLoop data (Dict.invert labels) mapping st = .ok st' ∧
      RInv data labels (done ++ pairsOf labels mapping) st' := by
  induction mapping generalizing done st with
  | nil => exact ⟨st, rfl, by simpa [pairsOf] using h⟩
  | cons kv mapping ih =>
    obtain ⟨c, hc⟩ := Option.isSome_iff_exists.1 (hkeys kv (by simp))
    have hp : pairsOf labels (kv :: mapping) = (c, kv.2) :: pairsOf labels mapping := by
      simp [pairsOf, hc]
    rw [hp] at hnd ⊢
    have hnew : c ∉ done.map Prod.fst := by
      simp only [List.map_append, List.map_cons, List.nodup_append] at hnd
      intro hmem
      exact hnd.2.2 _ hmem _ (by simp) rfl
    obtain ⟨st1, h1, h2⟩ := remapStep_spec hl h hc hnew
    have := ih h2 (fun kv hkv => hkeys kv (by simp [hkv])) (by simpa using hnd)
    obtain ⟨st2, h3, h4⟩ := this
    refine ⟨st2, by simp only [remapLoop, h1, h3], by simpa using h4⟩

theorem RInv.init (data : List Int) {labels : Dict String Int} (hl : InjTable labels) :
    RInv data labels [] ⟨data, labels, Dict.keys labels⟩ := by
  have hs : ∀ x, substitute [] x = x := fun _ => rfl
  refine ⟨by simp [funext hs], rfl, ?_, ?_⟩
  · intro s v hsv
    simp [hs, Dict.mem_get? hl.1 hsv]
  · intro s
    simp [Dict.keys]

end Gridder
