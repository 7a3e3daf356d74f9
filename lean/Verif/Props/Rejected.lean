import Verif.Props.StackMesh

/-!
# C133: which group selections are rejected, and how
-/

namespace Gridder
open Spec

namespace Spec

/-- The index `x` designates no entry of an array of length `n`. -/
def OutOfRange (n : ℕ) (x : ℤ) : Prop := x < -(n : ℤ) ∨ (n : ℤ) ≤ x

/-- The names that can be used to select cells in a dictionary entry: those numbered before, the labels of the mesh that
are not ignored, and the keys of the entries before. -/
def NameKnown (ignore : List String) (codes : Option (List ℤ)) (table : Option (List (String × ℤ)))
    (before : List (String × ℤ)) (entriesBefore : List (String × Sel)) (s : String) : Prop :=
  (∃ kv ∈ before, kv.1 = s) ∨ (codes ≠ none ∧ ∃ t, table = some t ∧ ∃ kv ∈ t, kv.1 = s ∧ s ∉ ignore) ∨
    ∃ kv ∈ entriesBefore, bare kv.1 = s

/-- The selection cannot be applied to a mesh of `n` cells with the group codes `codes`, for the reason `e`. -/
def Misfit (n : ℕ) (codes : Option (List ℤ)) (known : String → Prop) (complement : Bool) : Sel → Err → Prop
  | .mask m, e | .callMask m, e => e = .indexError ∧ m.length ≠ n
  | .idx ix, e => e = .indexError ∧ ∃ x ∈ ix, OutOfRange n x
  | .callIdx ix, e => e = .indexError ∧ ∃ x ∈ ix, OutOfRange n (if complement then -x - 1 else x)
  | .name s, e => e = .keyError ∧ (codes = none ∨ ¬ known (bare s))
  | .names l, e => e = .keyError ∧ ∃ s ∈ l, codes = none ∨ ¬ known (bare s)
  | .other, e => e = .valueError

end Spec

theorem assignInt_result {α : Type _} (v : α) : ∀ (ix : List Int) (arr : List α),
    (∃ out, assignInt arr ix v = .ok out ∧ out.length = arr.length ∧ ∀ x ∈ ix, ¬ OutOfRange arr.length x) ∨
    (assignInt arr ix v = .error .indexError ∧ ∃ x ∈ ix, OutOfRange arr.length x)
  | [], arr => .inl ⟨arr, rfl, rfl, by simp⟩
  | x :: ix, arr => by
    by_cases hx : OutOfRange arr.length x
    · right
      refine ⟨?_, x, by simp, hx⟩
      have : normIdx arr.length x = none := by
        unfold normIdx
        rcases hx with h | h <;> split_ifs <;> first | rfl | omega
      simp only [assignInt, this]
    · have : ∃ j, normIdx arr.length x = some j := by
        simp only [OutOfRange, not_or, not_lt, not_le] at hx
        unfold normIdx
        split_ifs <;> first | exact ⟨_, rfl⟩ | omega
      obtain ⟨j, hj⟩ := this
      have hl : (arr.set j v).length = arr.length := List.length_set
      rcases assignInt_result v ix (arr.set j v) with ⟨out, h1, h2, h3⟩ | ⟨h1, y, hy, h2⟩
      · left
        rw [hl] at h2 h3
        exact ⟨out, by simp only [assignInt, hj]; exact h1, h2, List.forall_mem_cons.2 ⟨hx, h3⟩⟩
      · right
        rw [hl] at h2
        exact ⟨by simp only [assignInt, hj]; exact h1, y, List.mem_cons_of_mem _ hy, h2⟩

theorem nameMask_result (mesh : LMesh) (hdata : ∀ x, mesh.cellGroup = some x → x.length = mesh.nCells)
    (groups : Dict String Int) (s : String) :
    (∃ m, nameMask mesh groups s = .ok m ∧ m.length = mesh.nCells ∧ mesh.cellGroup ≠ none ∧ bare s ∈ groups.map Prod.fst) ∨
    (nameMask mesh groups s = .error .keyError ∧ (mesh.cellGroup = none ∨ bare s ∉ groups.map Prod.fst)) := by
  unfold nameMask
  cases hc : mesh.cellGroup with
  | none => exact .inr ⟨rfl, .inl rfl⟩
  | some data =>
    simp only [parseKey_eq]
    cases hg : Dict.get? groups (bare s) with
    | none => exact .inr ⟨rfl, .inr (Dict.get?_none.1 hg)⟩
    | some c =>
      refine .inl ⟨_, rfl, by simp [hdata _ hc], by simp, ?_⟩
      by_contra hcon
      rw [Dict.get?_none.2 hcon] at hg
      cases hg

theorem namesMask_result (mesh : LMesh) (hdata : ∀ x, mesh.cellGroup = some x → x.length = mesh.nCells)
    (groups : Dict String Int) : ∀ (l : List String) (acc : List Bool), acc.length = mesh.nCells →
    (∃ m, namesMask mesh groups l acc = .ok m ∧ m.length = mesh.nCells ∧
      ∀ s ∈ l, mesh.cellGroup ≠ none ∧ bare s ∈ groups.map Prod.fst) ∨
    (namesMask mesh groups l acc = .error .keyError ∧ ∃ s ∈ l, mesh.cellGroup = none ∨ bare s ∉ groups.map Prod.fst)
  | [], acc, h => .inl ⟨acc, rfl, h, by simp⟩
  | s :: l, acc, h => by
    rcases nameMask_result mesh hdata groups s with ⟨m, h1, h2, h3⟩ | ⟨h1, h2⟩
    · rcases namesMask_result mesh hdata groups l (List.zipWith (· || ·) acc m) (by simp [h, h2]) with
        ⟨m', g1, g2, g3⟩ | ⟨g1, s', hs', g2⟩
      · exact .inl ⟨m', by simp only [namesMask, h1]; exact g1, g2, List.forall_mem_cons.2 ⟨h3, g3⟩⟩
      · exact .inr ⟨by simp only [namesMask, h1]; exact g1, s', List.mem_cons_of_mem _ hs', g2⟩
    · exact .inr ⟨by simp only [namesMask, h1], s, by simp, h2⟩

theorem groupNumber_names (k : String) (groups : Dict String Int) (s : String) :
    s ∈ (getGroupNumber k groups).2.map Prod.fst ↔ s ∈ groups.map Prod.fst ∨ k = s := by
  unfold getGroupNumber
  cases h : Dict.get? groups k with
  | none => simp [eq_comm]
  | some v =>
    have : k ∈ groups.map Prod.fst := by
      by_contra hc
      rw [Dict.get?_none.2 hc] at h
      cases h
    constructor
    · exact .inl
    · rintro (h | rfl)
      · exact h
      · exact this

/-- One entry is applied, or rejected for the reason `Misfit` gives. -/
theorem groupStep_result (mesh : LMesh) (hdata : ∀ x, mesh.cellGroup = some x → x.length = mesh.nCells)
    (st : List Int × Dict String Int) (hst : st.1.length = mesh.nCells) (kv : String × Sel) :
    (∃ st', groupStep mesh st kv = .ok st' ∧ st'.1.length = mesh.nCells ∧
      (∀ s, s ∈ st'.2.map Prod.fst ↔ s ∈ st.2.map Prod.fst ∨ bare kv.1 = s) ∧
      ∀ e, ¬ Misfit mesh.nCells mesh.cellGroup (· ∈ st.2.map Prod.fst) (negated kv.1) kv.2 e) ∨
    (∃ e, groupStep mesh st kv = .error e ∧
      ∀ e', Misfit mesh.nCells mesh.cellGroup (· ∈ st.2.map Prod.fst) (negated kv.1) kv.2 e' ↔ e' = e) := by
  obtain ⟨k, sel⟩ := kv
  have hbool : ∀ m : List Bool, selMask mesh st.2 sel = .ok (.bool m) →
      (m.length = mesh.nCells → ∃ st', groupStep mesh st (k, sel) = .ok st' ∧ st'.1.length = mesh.nCells ∧
        (∀ s, s ∈ st'.2.map Prod.fst ↔ s ∈ st.2.map Prod.fst ∨ bare k = s)) ∧
      (m.length ≠ mesh.nCells → groupStep mesh st (k, sel) = .error .indexError) := by
    intro m hm
    have hinv : ∀ b : Bool, ∃ m', (if b then (NpMask.bool m).invert else .bool m) = .bool m' ∧ m'.length = m.length := by
      intro b; cases b
      · exact ⟨m, rfl, rfl⟩
      · exact ⟨m.map (!·), rfl, by simp⟩
    obtain ⟨m', h1, h2⟩ := hinv (parseKey k).1
    constructor
    · intro hl
      refine ⟨(List.zipWith (fun a b => if b then (getGroupNumber (parseKey k).2 st.2).1 else a) st.1 m',
        (getGroupNumber (parseKey k).2 st.2).2), ?_, by simp [hst, h2, hl], ?_⟩
      · simp only [groupStep, hm, h1, NpMask.assign, assignBool]
        rw [if_pos (by rw [h2, hl, hst])]
      · intro s
        simp only [parseKey_eq]
        exact groupNumber_names _ _ s
    · intro hl
      simp only [groupStep, hm, h1, NpMask.assign, assignBool]
      rw [if_neg (by rw [h2, hst]; exact hl)]
  have herr : ∀ e, selMask mesh st.2 sel = .error e → groupStep mesh st (k, sel) = .error e := by
    intro e he
    simp only [groupStep, he]
  cases sel with
  | mask m | callMask m =>
    obtain ⟨h1, h2⟩ := hbool m rfl
    by_cases hl : m.length = mesh.nCells
    · obtain ⟨st', a, b, c⟩ := h1 hl
      exact .inl ⟨st', a, b, c, fun e h => h.2 hl⟩
    · exact .inr ⟨_, h2 hl, fun e' => ⟨fun h => h.1, fun h => ⟨h, hl⟩⟩⟩
  | idx ix =>
    rcases assignInt_result true ix (List.replicate mesh.nCells false) with ⟨out, g1, g2, g3⟩ | ⟨g1, x, hx, g2⟩
    · rw [List.length_replicate] at g2 g3
      obtain ⟨st', a, b, c⟩ := (hbool out (by simp only [selMask, g1])).1 g2
      refine .inl ⟨st', a, b, c, fun e h => ?_⟩
      obtain ⟨_, x, hx, h⟩ := h
      exact g3 x hx h
    · rw [List.length_replicate] at g2
      exact .inr ⟨_, herr _ (by simp only [selMask, g1]), fun e' => ⟨fun h => h.1, fun h => ⟨h, x, hx, g2⟩⟩⟩
  | callIdx ix =>
    set ix' := if negated k then ix.map (fun x => -x - 1) else ix with hix
    have hmem : (∃ x ∈ ix', OutOfRange mesh.nCells x) ↔
        ∃ x ∈ ix, OutOfRange mesh.nCells (if negated k then -x - 1 else x) := by
      rw [hix]; split_ifs <;> simp
    have hstep : groupStep mesh st (k, .callIdx ix) =
        match assignInt st.1 ix' (getGroupNumber (bare k) st.2).1 with
        | .error e => .error e
        | .ok arr => .ok (arr, (getGroupNumber (bare k) st.2).2) := by
      simp only [groupStep, selMask, parseKey_eq, hix]
      by_cases hk : negated k = true <;> simp only [hk, if_true, NpMask.invert, NpMask.assign] <;> rfl
    rcases assignInt_result (getGroupNumber (bare k) st.2).1 ix' st.1 with ⟨out, g1, g2, g3⟩ | ⟨g1, g2⟩
    · rw [hst] at g2 g3
      refine .inl ⟨_, by rw [hstep, g1], g2, groupNumber_names _ _, fun e h => ?_⟩
      obtain ⟨x, hx, h⟩ := hmem.2 h.2
      exact g3 x hx h
    · rw [hst] at g2
      exact .inr ⟨.indexError, by rw [hstep, g1], fun e' => ⟨fun h => h.1, fun h => ⟨h, hmem.1 g2⟩⟩⟩
  | name s =>
    rcases nameMask_result mesh hdata st.2 s with ⟨m, g1, g2, g3, g4⟩ | ⟨g1, g2⟩
    · obtain ⟨st', a, b, c⟩ := (hbool m (by simp only [selMask, g1])).1 g2
      exact .inl ⟨st', a, b, c, fun e h => h.2.elim g3 fun h => h g4⟩
    · exact .inr ⟨_, herr _ (by simp only [selMask, g1]), fun e' => ⟨fun h => h.1, fun h => ⟨h, g2⟩⟩⟩
  | names l =>
    rcases namesMask_result mesh hdata st.2 l (List.replicate mesh.nCells false) (by simp) with
      ⟨m, g1, g2, g3⟩ | ⟨g1, g2⟩
    · obtain ⟨st', a, b, c⟩ := (hbool m (by simp only [selMask, g1])).1 g2
      refine .inl ⟨st', a, b, c, fun e h => ?_⟩
      obtain ⟨_, s, hs, h⟩ := h
      exact h.elim (g3 s hs).1 fun h => h (g3 s hs).2
    · exact .inr ⟨_, herr _ (by simp only [selMask, g1]), fun e' => ⟨fun h => h.1, fun h => ⟨h, g2⟩⟩⟩
  | other => exact .inr ⟨_, herr _ rfl, fun e' => Iff.rfl⟩

theorem groupLoop_result (mesh : LMesh) (hdata : ∀ x, mesh.cellGroup = some x → x.length = mesh.nCells) :
    ∀ (l : List (String × Sel)) (st : List Int × Dict String Int), st.1.length = mesh.nCells →
    ∀ e, groupLoop mesh l st = .error e ↔ ∃ pre kv post, l = pre ++ kv :: post ∧
      Misfit mesh.nCells mesh.cellGroup (fun s => s ∈ st.2.map Prod.fst ∨ ∃ x ∈ pre, bare x.1 = s) (negated kv.1) kv.2 e ∧
      ∀ pre' kv' post', pre = pre' ++ kv' :: post' → ∀ e',
        ¬ Misfit mesh.nCells mesh.cellGroup (fun s => s ∈ st.2.map Prod.fst ∨ ∃ x ∈ pre', bare x.1 = s)
          (negated kv'.1) kv'.2 e'
  | [], st, _, e => by simp [groupLoop]
  | kv :: l, st, hst, e => by
    have hk0 : (fun s => s ∈ st.2.map Prod.fst ∨ ∃ x ∈ ([] : List (String × Sel)), bare x.1 = s) =
        (· ∈ st.2.map Prod.fst) := by funext s; simp
    rcases groupStep_result mesh hdata st hst kv with ⟨st', h1, h2, h3, h4⟩ | ⟨e0, h1, h2⟩
    · simp only [groupLoop, h1]
      rw [groupLoop_result mesh hdata l st' h2 e]
      have hkn : ∀ pre : List (String × Sel), (fun s => s ∈ st'.2.map Prod.fst ∨ ∃ x ∈ pre, bare x.1 = s) =
          fun s => s ∈ st.2.map Prod.fst ∨ ∃ x ∈ kv :: pre, bare x.1 = s := by
        intro pre; funext s
        simp only [h3, List.mem_cons, exists_eq_or_imp, or_assoc]
      simp only [hkn]
      constructor
      · rintro ⟨pre, kv', post, rfl, g1, g2⟩
        refine ⟨kv :: pre, kv', post, rfl, g1, ?_⟩
        intro pre' kv'' post' he e'
        cases pre' with
        | nil =>
          rw [hk0]
          obtain ⟨rfl, _⟩ := List.cons.inj he
          exact h4 e'
        | cons a pre' =>
          obtain ⟨rfl, he'⟩ := List.cons.inj he
          exact g2 pre' kv'' post' he' e'
      · rintro ⟨pre, kv', post, hl, g1, g2⟩
        cases pre with
        | nil =>
          obtain ⟨rfl, _⟩ := List.cons.inj hl
          rw [hk0] at g1
          exact absurd g1 (h4 e)
        | cons a pre =>
          obtain ⟨rfl, rfl⟩ := List.cons.inj hl
          exact ⟨pre, kv', post, rfl, g1, fun pre' kv'' post' he => g2 (kv :: pre') kv'' post' (by rw [he]; rfl)⟩
    · simp only [groupLoop, h1]
      constructor
      · intro h
        obtain rfl := Except.error.inj h
        refine ⟨[], kv, l, rfl, ?_, by simp⟩
        rw [hk0]
        exact (h2 _).2 rfl
      · rintro ⟨pre, kv', post, hl, g1, g2⟩
        cases pre with
        | nil =>
          obtain ⟨rfl, _⟩ := List.cons.inj hl
          rw [hk0] at g1
          rw [(h2 e).1 g1]
        | cons a pre =>
          obtain ⟨rfl, rfl⟩ := List.cons.inj hl
          have := g2 [] kv pre rfl e0
          rw [hk0] at this
          exact absurd ((h2 e0).2 rfl) this

theorem tableLoop_names (ignore : List String) (data : List Int) : ∀ (t : Dict String Int)
    (st : List Int × Dict String Int) (s : String), s ∈ (tableLoop ignore data t st).2.map Prod.fst ↔
      s ∈ st.2.map Prod.fst ∨ ∃ kv ∈ t, kv.1 = s ∧ s ∉ ignore
  | [], st, s => by simp [tableLoop]
  | (k, v) :: t, st, s => by
    simp only [tableLoop]
    split_ifs with hk
    · rw [tableLoop_names ignore data t st s]
      simp only [List.mem_cons, exists_eq_or_imp]
      constructor
      · rintro (h | h)
        · exact .inl h
        · exact .inr (.inr h)
      · rintro (h | ⟨rfl, h⟩ | h)
        · exact .inl h
        · exact absurd hk h
        · exact .inr h
    · rw [tableLoop_names ignore data t _ s]
      simp only [groupNumber_names, List.mem_cons, exists_eq_or_imp, or_assoc]
      constructor
      · rintro (h | rfl | h)
        · exact .inl h
        · exact .inr (.inl ⟨rfl, hk⟩)
        · exact .inr (.inr h)
      · rintro (h | ⟨rfl, _⟩ | h)
        · exact .inl h
        · exact .inr (.inl rfl)
        · exact .inr (.inr h)

/-- **C133.** Groups are assigned to the cells of a mesh unless an entry of the group argument does not fit it: a mask of
another size or an index out of range raises IndexError, an array of another kind ValueError, a name KeyError if the mesh
has no groups or the name is neither a label of the mesh that is not ignored, nor numbered before, nor the key of an entry
before.  The first such entry decides. -/
theorem C133_rejected (ignore : List String) (dflt : String) (mesh : LMesh)
    (hdata : ∀ x, mesh.cellGroup = some x → x.length = mesh.nCells) (groups : Dict String Int) (group : GroupArg)
    (dg : Option String) (e : Err) :
    initGroupArray ignore dflt mesh groups group dg = .error e ↔
      ∃ pre kv post, entries mesh.nCells group = pre ++ kv :: post ∧
        Misfit mesh.nCells mesh.cellGroup (NameKnown ignore mesh.cellGroup mesh.table groups pre) (negated kv.1) kv.2 e ∧
        ∀ pre' kv' post', pre = pre' ++ kv' :: post' → ∀ e', ¬ Misfit mesh.nCells mesh.cellGroup
          (NameKnown ignore mesh.cellGroup mesh.table groups pre') (negated kv'.1) kv'.2 e' := by
  have hl : (copyLabels ignore mesh (List.replicate mesh.nCells (-1), groups)).1.length = mesh.nCells := by
    simp only [copyLabels]
    split
    · rename_i data table hd ht
      rw [← hdata _ hd]
      exact tableLoop_length _ _ _ _ (by simp)
    · simp
  have hk : ∀ s, s ∈ (copyLabels ignore mesh (List.replicate mesh.nCells (-1), groups)).2.map Prod.fst ↔
      (∃ kv ∈ groups, kv.1 = s) ∨ (mesh.cellGroup ≠ none ∧ ∃ t, mesh.table = some t ∧ ∃ kv ∈ t, kv.1 = s ∧ s ∉ ignore) := by
    intro s
    simp only [copyLabels]
    cases hc : mesh.cellGroup with
    | none => simp
    | some data =>
      cases ht : mesh.table with
      | none => simp
      | some t =>
        simp only [tableLoop_names]
        simp only [List.mem_map, Option.some.injEq, exists_eq_left', ne_eq, reduceCtorEq,
          not_false_eq_true, true_and]
  have hknown : ∀ pre : List (String × Sel), (fun s => s ∈ (copyLabels ignore mesh
      (List.replicate mesh.nCells (-1), groups)).2.map Prod.fst ∨ ∃ x ∈ pre, bare x.1 = s) =
      NameKnown ignore mesh.cellGroup mesh.table groups pre := by
    intro pre; funext s
    simp only [hk, NameKnown, or_assoc]
  have hmain := groupLoop_result mesh hdata (groupItems mesh.nCells group) _ hl e
  simp only [hknown, groupItems_eq] at hmain
  rw [← hmain]
  simp only [initGroupArray, groupItems_eq]
  cases groupLoop mesh (entries mesh.nCells group) (copyLabels ignore mesh (List.replicate mesh.nCells (-1), groups)) with
  | error e' => exact Iff.rfl
  | ok st => simp

/-- Concrete cases: a mask of the wrong size after an entry that fits; an index out of range; the complement of an index
returned by a callable; an array of floats; a name that is ignored; names that are keys of an entry before. -/
example : let mesh : LMesh := ⟨3, some [0, 1, 1], some [("A", 0), ("B", 1)]⟩
    (initGroupArray [] "default" mesh [] (.dict [("X", .idx [-3]), ("Y", .mask [true])]) none = .error .indexError) ∧
    (initGroupArray [] "default" mesh [] (.dict [("X", .idx [3])]) none = .error .indexError) ∧
    (initGroupArray [] "default" mesh [] (.dict [("~X", .callIdx [3])]) none = .error .indexError) ∧
    (initGroupArray [] "default" mesh [] (.dict [("X", .other), ("Y", .idx [3])]) none = .error .valueError) ∧
    (initGroupArray ["B"] "default" mesh [] (.dict [("X", .name "~B")]) none = .error .keyError) ∧
    (initGroupArray [] "default" mesh [] (.dict [("X", .name "Y"), ("Y", .idx [0])]) none = .error .keyError) ∧
    (initGroupArray [] "default" mesh [] (.dict [("Y", .idx [0]), ("X", .names ["Y", "A"])]) none).isOk = true := by
  exact ⟨by decide, by decide, by decide, by decide, by decide, by decide, by decide⟩

end Gridder
