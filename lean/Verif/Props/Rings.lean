import Verif.Model.Average
import Verif.Lemmas.Groups
import Verif.Props.Average
import Mathlib.Data.List.Basic

/-! # C51: boundary polygons and their holes -/

namespace Gridder

theorem mem_orderedPairs {n i j : ℕ} : (i, j) ∈ orderedPairs n ↔ i < n ∧ j < n ∧ j ≠ i := by
  unfold orderedPairs
  simp only [List.mem_flatMap, List.mem_range, List.mem_map, List.mem_filter, Prod.mk.injEq,
    decide_eq_true_eq]
  constructor
  · rintro ⟨a, ha, b, ⟨hb, hne⟩, rfl, rfl⟩; exact ⟨ha, hb, hne⟩
  · rintro ⟨h1, h2, h3⟩; exact ⟨i, h1, j, ⟨h2, h3⟩, rfl, rfl⟩

/-- Invariant of the loop: every hole is within its ring, and holes are distinct rings. -/
structure HolesInv (within : ℕ → ℕ → Bool) (n : ℕ) (d : Dict ℕ ℕ) : Prop where
  nodup : d.keys.Nodup
  within : ∀ kv ∈ d, within kv.2 kv.1 = true ∧ kv.1 < n ∧ kv.2 < n ∧ kv.1 ≠ kv.2

theorem Dict.set_new {d : Dict ℕ ℕ} {k v : ℕ} (h : d.get? k = none) : d.set k v = d ++ [(k, v)] := by
  induction d with
  | nil => rfl
  | cons e d ih =>
    obtain ⟨a, b⟩ := e
    simp only [Dict.get?] at h
    split at h
    · cases h
    · rename_i hne
      simp only [Dict.set, if_neg hne, ih h, List.cons_append]

theorem holeStep_eq (within : ℕ → ℕ → Bool) (d : Dict ℕ ℕ) (p : ℕ × ℕ) :
    holeStep within d p = d ∨ (holeStep within d p = d ++ [(p.2, p.1)] ∧ within p.1 p.2 = true ∧
      d.get? p.1 = none ∧ d.get? p.2 = none) := by
  unfold holeStep
  split
  · exact Or.inl rfl
  · rename_i h
    push Not at h
    simp only [ne_eq, Bool.not_eq_true, Option.isSome_eq_false_iff, Option.isNone_iff_eq_none] at h
    split
    · rename_i hw
      exact Or.inr ⟨Dict.set_new h.2, hw, h.1, h.2⟩
    · exact Or.inl rfl

theorem findHoles_inv (within : ℕ → ℕ → Bool) (n : ℕ) : HolesInv within n (findHoles within n) := by
  have : ∀ (ps : List (ℕ × ℕ)) (d : Dict ℕ ℕ), (∀ p ∈ ps, p ∈ orderedPairs n) → HolesInv within n d →
      HolesInv within n (ps.foldl (holeStep within) d) := by
    intro ps
    induction ps with
    | nil => intro d _ h; exact h
    | cons p ps ih =>
      intro d hp h
      rw [List.foldl_cons]
      apply ih _ (fun q hq => hp q (by simp [hq]))
      rcases holeStep_eq within d p with he | ⟨he, hw, h1, h2⟩
      · rw [he]; exact h
      · rw [he]
        obtain ⟨i, j⟩ := p
        obtain ⟨hi, hj, hne⟩ := mem_orderedPairs.1 (hp (i, j) (by simp))
        refine ⟨?_, ?_⟩
        · unfold Dict.keys
          rw [List.map_append, List.nodup_append]
          refine ⟨h.nodup, by simp, ?_⟩
          intro a ha b hb hab
          simp only [List.map_cons, List.map_nil, List.mem_singleton] at hb
          subst hb hab
          exact Dict.get?_none.1 h2 ha
        · intro kv hkv
          rw [List.mem_append, List.mem_singleton] at hkv
          rcases hkv with hkv | rfl
          · exact h.within kv hkv
          · exact ⟨hw, hj, hi, hne⟩
  exact this _ [] (fun _ h => h) ⟨by simp [Dict.keys], by simp⟩

/-- Appending the holes: group `v` gets the keys with value `v`, in order. -/
theorem append_holes (d : Dict ℕ ℕ) (ps : List (List ℕ)) :
    (d.foldl (fun ps kv => ps.modify kv.2 (· ++ [kv.1])) ps).length = ps.length ∧
    ∀ v < ps.length, (d.foldl (fun ps kv => ps.modify kv.2 (· ++ [kv.1])) ps).getD v [] =
      ps.getD v [] ++ (d.filter (·.2 = v)).map Prod.fst := by
  induction d generalizing ps with
  | nil => simp
  | cons kv d ih =>
    obtain ⟨h1, h2⟩ := ih (ps.modify kv.2 (· ++ [kv.1]))
    rw [List.length_modify] at h1 h2
    refine ⟨h1, ?_⟩
    intro v hv
    rw [List.foldl_cons, h2 v hv, getD_modify]
    by_cases h : kv.2 = v
    · rw [if_pos ⟨h, hv⟩, List.filter_cons_of_pos (by simpa using h)]; simp
    · rw [if_neg (by simp [h]), List.filter_cons_of_neg (by simpa using h)]

theorem list_eq_map_getD {α : Type*} (l : List α) (d : α) {n : ℕ} (h : l.length = n) :
    l = (List.range n).map fun v => l.getD v d := by
  subst h
  apply List.ext_getElem
  · simp
  · intro i h1 h2
    simp [List.getD_eq_getElem?_getD, h1]

/-- The groups, in one formula. -/
theorem ringGroups_eq (within : ℕ → ℕ → Bool) (n : ℕ) : ringGroups within n =
    ((List.range n).map fun v => (if ((findHoles within n).get? v).isSome then [] else [v]) ++
      ((findHoles within n).filter (·.2 = v)).map Prod.fst).filter (· ≠ []) := by
  unfold ringGroups
  simp only
  congr 1
  obtain ⟨h1, h2⟩ := append_holes (findHoles within n)
    ((List.range n).map fun i => if ((findHoles within n).get? i).isSome then [] else [i])
  rw [List.length_map, List.length_range] at h1 h2
  conv_lhs => rw [list_eq_map_getD _ [] h1]
  apply List.map_congr_left
  intro v hv
  rw [List.mem_range] at hv
  rw [h2 v hv]
  congr 1
  simp [List.getD_eq_getElem?_getD, hv]

theorem flatten_filter_ne {α : Type*} [DecidableEq α] (l : List (List α)) : (l.filter (· ≠ [])).flatten = l.flatten := by
  induction l with
  | nil => rfl
  | cons a l ih =>
    by_cases h : a = []
    · subst h; simpa using ih
    · rw [List.filter_cons_of_pos (by simpa using h), List.flatten_cons, List.flatten_cons, ih]

theorem sum_indicator (l : List ℕ) (a : ℕ) : (l.map fun v => if v = a then 1 else 0).sum = l.count a := by
  induction l with
  | nil => rfl
  | cons b l ih =>
    rw [List.map_cons, List.sum_cons, ih, List.count_cons]
    by_cases h : b = a <;> simp [h, Nat.add_comm]

/-- **C51**: every boundary ring is in exactly one group, exactly once. -/
theorem C51_every_ring_once (within : ℕ → ℕ → Bool) (n : ℕ) :
    (ringGroups within n).flatten.Perm (List.range n) := by
  have hinv := findHoles_inv within n
  rw [ringGroups_eq, flatten_filter_ne]
  generalize findHoles within n = d at hinv
  rw [List.perm_iff_count]
  intro a
  rw [List.count_flatten, List.map_map]
  have hc : ∀ v, List.count a ((if (d.get? v).isSome then [] else [v]) ++ (d.filter (·.2 = v)).map Prod.fst) =
      (if v = a ∧ d.get? a = none then 1 else 0) + (if d.get? a = some v then 1 else 0) := by
    intro v
    rw [List.count_append]
    congr 1
    · cases hv : d.get? v with
      | some w =>
        simp only [Option.isSome_some, if_true, List.count_nil]
        rw [if_neg]
        rintro ⟨rfl, h⟩
        rw [hv] at h
        cases h
      | none =>
        by_cases hva : v = a
        · subst hva; simp [hv]
        · simp [hva]
    · by_cases h : d.get? a = some v
      · rw [if_pos h]
        apply List.count_eq_one_of_mem
        · exact (List.Nodup.sublist ((List.filter_sublist).map _) hinv.nodup)
        · exact List.mem_map.2 ⟨(a, v), List.mem_filter.2 ⟨Dict.get?_mem h, by simp⟩, rfl⟩
      · rw [if_neg h]
        apply List.count_eq_zero_of_not_mem
        intro hm
        obtain ⟨kv, hkv, rfl⟩ := List.mem_map.1 hm
        obtain ⟨h1, h2⟩ := List.mem_filter.1 hkv
        apply h
        simp only [decide_eq_true_eq] at h2
        rw [← h2]
        exact Dict.mem_get? hinv.nodup h1
  have hone : ∀ m : ℕ, m < n → List.count m (List.range n) = 1 := fun m hm =>
    List.count_eq_one_of_mem List.nodup_range (List.mem_range.2 hm)
  simp only [Function.comp_def, hc]
  cases ha : d.get? a with
  | none =>
    simp only [and_true, reduceCtorEq, if_false, Nat.add_zero]
    exact sum_indicator _ _
  | some w =>
    obtain ⟨-, h1, h2, -⟩ := hinv.within _ (Dict.get?_mem ha)
    simp only [reduceCtorEq, and_false, if_false, Nat.zero_add, Option.some.injEq, eq_comm (a := w)]
    rw [sum_indicator, hone w h2, hone a h1]

/-- All rings of a group, except ring number `v`, are inside ring `v`, which belongs to the group unless it is
itself a hole. -/
theorem C51_group_members (within : ℕ → ℕ → Bool) (n : ℕ) (g : List ℕ) (hg : g ∈ ringGroups within n) :
    ∃ v js, v < n ∧ (∀ j ∈ js, within v j = true) ∧ (g = v :: js ∨ g = js ∧ ∃ k < n, within k v = true) := by
  have hinv := findHoles_inv within n
  rw [ringGroups_eq, List.mem_filter, List.mem_map] at hg
  obtain ⟨⟨v, hv, rfl⟩, -⟩ := hg
  rw [List.mem_range] at hv
  refine ⟨v, ((findHoles within n).filter (·.2 = v)).map Prod.fst, hv, ?_, ?_⟩
  · intro j hj
    obtain ⟨kv, hkv, rfl⟩ := List.mem_map.1 hj
    obtain ⟨h1, h2⟩ := List.mem_filter.1 hkv
    simp only [decide_eq_true_eq] at h2
    rw [← h2]
    exact (hinv.within kv h1).1
  · cases h : (findHoles within n).get? v with
    | none => left; simp
    | some w =>
      right
      obtain ⟨h1, -, h2, -⟩ := hinv.within _ (Dict.get?_mem h)
      exact ⟨by simp, w, h2, h1⟩

theorem findHoles_complete {within : ℕ → ℕ → Bool} {n : ℕ}
    (hn : ∀ i j k, i < n → j < n → k < n → ¬ (within i j = true ∧ within j k = true)) {i j : ℕ} (hi : i < n)
    (hj : j < n) (hne : j ≠ i) (hw : within i j = true) : (findHoles within n).get? j ≠ none := by
  have key : ∀ (ps : List (ℕ × ℕ)) (d : Dict ℕ ℕ), (∀ p ∈ ps, p ∈ orderedPairs n) →
      (∀ kv ∈ d, within kv.2 kv.1 = true ∧ kv.2 < n) → ((i, j) ∈ ps ∨ d.get? j ≠ none) →
      (ps.foldl (holeStep within) d).get? j ≠ none := by
    intro ps
    induction ps with
    | nil => intro d _ _ h; simpa using h
    | cons p ps ih =>
      intro d hp hd h
      rw [List.foldl_cons]
      have hd' : ∀ kv ∈ holeStep within d p, within kv.2 kv.1 = true ∧ kv.2 < n := by
        rcases holeStep_eq within d p with he | ⟨he, hw, -, -⟩
        · rw [he]; exact hd
        · rw [he]
          intro kv hkv
          rw [List.mem_append, List.mem_singleton] at hkv
          rcases hkv with hkv | rfl
          · exact hd kv hkv
          · exact ⟨hw, (mem_orderedPairs.1 (hp p (by simp))).1⟩
      have hkeep : d.get? j ≠ none → (holeStep within d p).get? j ≠ none := by
        intro h
        rcases holeStep_eq within d p with he | ⟨he, -, -, -⟩
        · rw [he]; exact h
        · rw [he, Dict.get?_append]
          cases hj : d.get? j with
          | none => exact absurd hj h
          | some _ => simp
      refine ih _ (fun q hq => hp q (by simp [hq])) hd' ?_
      rcases h with h | h
      · rcases List.mem_cons.1 h with rfl | h
        · right
          unfold holeStep
          have h1 : d.get? i = none := by
            cases hdi : d.get? i with
            | none => rfl
            | some w =>
              obtain ⟨a1, a2⟩ := hd _ (Dict.get?_mem hdi)
              exact absurd ⟨a1, hw⟩ (hn w i j a2 hi hj)
          simp only [h1, hw]
          cases h2 : d.get? j with
          | none => simp [Dict.get?_set]
          | some w => simp [h2]
        · exact Or.inl h
      · exact Or.inr (hkeep h)
  exact key _ _ (fun _ h => h) (by simp) (Or.inl (mem_orderedPairs.2 ⟨hi, hj, hne⟩))

/-- **C51** for families of rings without islands (no ring inside a hole): the first ring of each group is a
shell, the others are exactly the rings it contains, and every ring that is in no other one starts a group. -/
theorem C51_shells_partial (within : ℕ → ℕ → Bool) (n : ℕ)
    (hn : ∀ i j k, i < n → j < n → k < n → ¬ (within i j = true ∧ within j k = true))
    (hlam : ∀ i i' j, i < n → i' < n → j < n → within i j = true → within i' j = true →
      i = i' ∨ within i i' = true ∨ within i' i = true) :
    (∀ g ∈ ringGroups within n, ∃ i js, g = i :: js ∧ i < n ∧ (∀ k < n, within k i = false) ∧
      ∀ j, j ∈ js ↔ j < n ∧ within i j = true) ∧
    (∀ i < n, (∀ k < n, within k i = false) → ∃ js, i :: js ∈ ringGroups within n) := by
  have hinv := findHoles_inv within n
  have hirr : ∀ i < n, within i i = false := by
    intro i hi
    rw [← Bool.not_eq_true]
    exact fun h => hn i i i hi hi hi ⟨h, h⟩
  have hhole : ∀ v < n, (findHoles within n).get? v = none ↔ ∀ k < n, within k v = false := by
    intro v hv
    constructor
    · intro h k hk
      rw [← Bool.not_eq_true]
      intro hw
      refine findHoles_complete hn hk hv ?_ hw h
      rintro rfl
      rw [hirr v hv] at hw
      cases hw
    · intro h
      cases hd : (findHoles within n).get? v with
      | none => rfl
      | some w =>
        obtain ⟨h1, -, h2, -⟩ := hinv.within _ (Dict.get?_mem hd)
        rw [h w h2] at h1
        cases h1
  rw [ringGroups_eq]
  refine ⟨?_, ?_⟩
  · intro g hg
    rw [List.mem_filter, List.mem_map] at hg
    obtain ⟨⟨v, hv, rfl⟩, hne⟩ := hg
    rw [List.mem_range] at hv
    cases hd : (findHoles within n).get? v with
    | some w =>
      exfalso
      rw [hd] at hne
      simp only [Option.isSome_some, if_true, List.nil_append, decide_eq_true_eq, ne_eq,
        List.map_eq_nil_iff] at hne
      obtain ⟨kv, hkv⟩ := List.exists_mem_of_ne_nil _ hne
      obtain ⟨h1, h2⟩ := List.mem_filter.1 hkv
      simp only [decide_eq_true_eq] at h2
      obtain ⟨a1, a2, a3, -⟩ := hinv.within kv h1
      obtain ⟨b1, -, b3, -⟩ := hinv.within _ (Dict.get?_mem hd)
      rw [h2] at a1
      exact hn w v kv.1 b3 hv a2 ⟨b1, a1⟩
    | none =>
      refine ⟨v, ((findHoles within n).filter (·.2 = v)).map Prod.fst, by simp, hv, (hhole v hv).1 hd, ?_⟩
      intro j
      constructor
      · intro hj
        obtain ⟨kv, hkv, rfl⟩ := List.mem_map.1 hj
        obtain ⟨h1, h2⟩ := List.mem_filter.1 hkv
        simp only [decide_eq_true_eq] at h2
        obtain ⟨a1, a2, -, -⟩ := hinv.within kv h1
        rw [← h2]
        exact ⟨a2, a1⟩
      · rintro ⟨hj, hw⟩
        cases hdj : (findHoles within n).get? j with
        | none =>
          have := (hhole j hj).1 hdj v hv
          rw [hw] at this
          cases this
        | some w =>
          have hm := Dict.get?_mem hdj
          obtain ⟨a1, -, a3, -⟩ := hinv.within _ hm
          have : w = v := by
            rcases hlam w v j a3 hv hj a1 hw with h | h | h
            · exact h
            · exact absurd ⟨h, hw⟩ (hn w v j a3 hv hj)
            · exact absurd ⟨h, a1⟩ (hn v w j hv a3 hj)
          subst this
          exact List.mem_map.2 ⟨(j, w), List.mem_filter.2 ⟨hm, by simp⟩, rfl⟩
  · intro i hi hk
    have := (hhole i hi).2 hk
    refine ⟨((findHoles within n).filter (·.2 = i)).map Prod.fst, ?_⟩
    rw [List.mem_filter, List.mem_map]
    refine ⟨⟨i, List.mem_range.2 hi, by simp [this]⟩, by simp⟩

/-- Two shells, the second with two holes. -/
example : ringGroups (fun i j => (i, j) ∈ [(2, 0), (2, 3)]) 4 = [[1], [2, 0, 3]] := by decide +kernel

/-- The claim is false with islands: ring 1 contains ring 0, which contains rings 2 and 3 (side by side).
Rings 2 and 3 are returned as one group, although neither contains the other. -/
theorem C51_islands_refuted :
    let within : ℕ → ℕ → Bool := fun i j => (i, j) ∈ [(1, 0), (1, 2), (1, 3), (0, 2), (0, 3)]
    ringGroups within 4 = [[2, 3], [1, 0]] ∧ within 2 3 = false := by decide +kernel

end Gridder
