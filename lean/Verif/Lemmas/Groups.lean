import Verif.Model.Groups
import Verif.Spec.Selection
import Mathlib.Data.List.Nodup
import Mathlib.Data.List.Forall2

namespace Gridder
open Spec

/-! ## dictionaries -/
namespace Dict
variable {κ ν : Type _} [DecidableEq κ]

theorem get?_mem {d : Dict κ ν} {k : κ} {v : ν} (h : get? d k = some v) : (k, v) ∈ d := by
  induction d with
  | nil => simp [get?] at h
  | cons a d ih =>
    obtain ⟨a, b⟩ := a
    simp only [get?] at h
    split at h
    · simp_all
    · exact List.mem_cons_of_mem _ (ih h)

theorem get?_none {d : Dict κ ν} {k : κ} : get? d k = none ↔ k ∉ d.map Prod.fst := by
  induction d with
  | nil => simp [get?]
  | cons a d ih =>
    obtain ⟨a, b⟩ := a
    simp only [get?]
    split
    · simp_all
    · rename_i hne
      simp only [ih, List.map_cons, List.mem_cons, not_or]
      exact ⟨fun h => ⟨fun e => hne e.symm, h⟩, fun h => h.2⟩

theorem get?_append (d e : Dict κ ν) (k : κ) :
    get? (d ++ e) k = (get? d k).or (get? e k) := by
  induction d with
  | nil => simp [get?]
  | cons a d ih =>
    obtain ⟨a, b⟩ := a
    simp only [List.cons_append, get?]
    split <;> simp_all

theorem mem_get? {d : Dict κ ν} (hd : (d.map Prod.fst).Nodup) {k : κ} {v : ν} (h : (k, v) ∈ d) :
    get? d k = some v := by
  induction d with
  | nil => simp at h
  | cons a d ih =>
    obtain ⟨a, b⟩ := a
    simp only [List.map_cons, List.nodup_cons] at hd
    simp only [get?]
    rcases List.mem_cons.1 h with h | h
    · simp_all
    · split
      · subst_vars; exact absurd (List.mem_map_of_mem (f := Prod.fst) h) hd.1
      · exact ih hd.2 h

theorem get?_prefix {d e : Dict κ ν} (h : d <+: e) {k : κ} {v : ν} (hk : get? d k = some v) :
    get? e k = some v := by
  obtain ⟨t, rfl⟩ := h
  simp [get?_append, hk]

theorem get?_set (d : Dict κ ν) (k k' : κ) (v : ν) :
    get? (set d k v) k' = if k = k' then some v else get? d k' := by
  induction d with
  | nil => simp [set, get?]
  | cons a d ih =>
    obtain ⟨a, b⟩ := a
    simp only [set]
    split
    · subst_vars; simp only [get?]; split <;> simp_all
    · simp only [get?, ih]
      split
      · subst_vars; split <;> simp_all
      · rfl

end Dict

/-! ## group numbers -/

theorem Spec.DenseTable.nil : DenseTable [] := by simp [DenseTable]

theorem Spec.DenseTable.getElem {t : List (String × Int)} (h : DenseTable t) (i : Nat) (hi : i < t.length) :
    t[i].2 = (i : Int) := by
  have := congrArg (fun l => l[i]?) h.2
  simpa [hi] using this

theorem Spec.DenseTable.code_lt {t : List (String × Int)} (h : DenseTable t) {s : String} {c : Int}
    (hm : (s, c) ∈ t) : 0 ≤ c ∧ c < t.length := by
  obtain ⟨i, hi, he⟩ := List.mem_iff_getElem.1 hm
  have := h.getElem i hi
  rw [he] at this
  simp at this
  omega

theorem Spec.DenseTable.inj {t : List (String × Int)} (h : DenseTable t) : InjTable t := by
  refine ⟨h.1, ?_⟩
  rw [h.2]
  exact List.Nodup.map (fun a b => by simp [Int.ofNat_inj]) List.nodup_range

theorem Spec.InjTable.name_unique {t : List (String × Int)} (h : InjTable t) {s s' : String} {c : Int}
    (h1 : (s, c) ∈ t) (h2 : (s', c) ∈ t) : s = s' := by
  have := List.inj_on_of_nodup_map h.2 h1 h2 rfl
  exact congrArg Prod.fst this

theorem getGroupNumber_spec {g : Dict String Int} (hg : DenseTable g) (k : String) :
    DenseTable (getGroupNumber k g).2 ∧ g <+: (getGroupNumber k g).2 ∧
      Dict.get? (getGroupNumber k g).2 k = some (getGroupNumber k g).1 := by
  unfold getGroupNumber
  split
  · rename_i v hv; exact ⟨hg, List.prefix_rfl, hv⟩
  · rename_i hn
    refine ⟨⟨?_, ?_⟩, List.prefix_append _ _, ?_⟩
    · simp only [List.map_append, List.map_cons, List.map_nil]
      rw [List.nodup_append]
      refine ⟨hg.1, by simp, ?_⟩
      intro a ha b hb
      simp at hb
      subst hb
      intro e
      subst e
      exact Dict.get?_none.1 hn ha
    · simp only [List.map_append, hg.2, List.length_append, List.map_cons, List.map_nil,
        List.length_cons, List.length_nil]
      rw [List.range_succ]
      simp
    · simp [Dict.get?_append, hn, Dict.get?]

/-! ## masks -/

/-- The positions `< n` a numpy index array designates. -/
def maskSel (n : Nat) : NpMask → Nat → Bool
  | .bool m, i => m[i]? == some true
  | .int ix, i => ix.any fun x => normIdx n x == some i

theorem normIdx_eq (n : Nat) (x : Int) (i : Nat) :
    (normIdx n x == some i) = Designates n x i := by
  unfold normIdx Designates
  rw [Bool.eq_iff_iff]
  split
  · simp; omega
  · split
    · simp; omega
    · simp; omega

theorem normIdx_lt {n : Nat} {x : Int} {i : Nat} (h : normIdx n x = some i) : i < n := by
  unfold normIdx at h
  split at h
  · simp at h; omega
  · split at h
    · simp at h; omega
    · simp at h

theorem assignInt_ok {α : Type _} {arr arr' : List α} {ix : List Int} {v : α}
    (h : assignInt arr ix v = .ok arr') :
    arr'.length = arr.length ∧ (∀ x ∈ ix, ∃ j, normIdx arr.length x = some j) ∧
      ∀ i, i < arr.length → arr'[i]? = if maskSel arr.length (.int ix) i then some v else arr[i]? := by
  induction ix generalizing arr with
  | nil => simp only [assignInt, Except.ok.injEq] at h; subst h; simp [maskSel]
  | cons x ix ih =>
    simp only [assignInt] at h
    split at h
    · rename_i j hj
      obtain ⟨h1, h2, h3⟩ := ih h
      simp only [List.length_set] at h1 h2 h3
      refine ⟨h1, ?_, ?_⟩
      · intro y hy
        rcases List.mem_cons.1 hy with rfl | hy
        · exact ⟨j, hj⟩
        · exact h2 y hy
      · intro i hi
        rw [h3 i hi]
        have hjl := normIdx_lt hj
        simp only [maskSel, List.any_cons, hj]
        by_cases hij : j = i
        · subst hij; simp [hjl]
        · have : (some j == some i) = false := by simpa using hij
          simp [this, hij]
    · simp at h

theorem assignBool_ok {α : Type _} {arr arr' : List α} {m : List Bool} {v : α}
    (h : assignBool arr m v = .ok arr') :
    m.length = arr.length ∧ arr'.length = arr.length ∧
      ∀ i, i < arr.length → arr'[i]? = if maskSel arr.length (.bool m) i then some v else arr[i]? := by
  unfold assignBool at h
  split at h
  · rename_i hl
    simp only [Except.ok.injEq] at h
    subst h
    refine ⟨hl, by simp [hl], ?_⟩
    intro i hi
    have hm : i < m.length := by omega
    simp only [maskSel, List.getElem?_zipWith, List.getElem?_eq_getElem hi,
      List.getElem?_eq_getElem hm]
    cases m[i] <;> simp
  · simp at h

theorem assign_ok {α : Type _} {arr arr' : List α} {m : NpMask} {v : α}
    (h : m.assign arr v = .ok arr') :
    arr'.length = arr.length ∧ (∀ b, m = .bool b → b.length = arr.length) ∧
      ∀ i, i < arr.length → arr'[i]? = if maskSel arr.length m i then some v else arr[i]? := by
  cases m with
  | bool m =>
    obtain ⟨h1, h2, h3⟩ := assignBool_ok h
    exact ⟨h2, by rintro b ⟨⟩; exact h1, h3⟩
  | int ix =>
    obtain ⟨h1, _, h3⟩ := assignInt_ok h
    exact ⟨h1, by simp, h3⟩

/-! ## the state of `_initialize_group_array` -/

/-- Cell `i` is called `want i` (or is still unassigned). -/
structure GInv (n : Nat) (st : List Int × Dict String Int) (want : Nat → Option String) : Prop where
  len : st.1.length = n
  dense : DenseTable st.2
  cell : ∀ i, i < n → match want i with
    | none => st.1[i]? = some (-1)
    | some s => ∃ c, st.1[i]? = some c ∧ Dict.get? st.2 s = some c

theorem GInv.init (n : Nat) {g : Dict String Int} (hg : DenseTable g) :
    GInv n (List.replicate n (-1), g) (fun _ => none) :=
  ⟨by simp, hg, by intro i hi; simp [hi]⟩

/-- Overwriting the cells of a selection with a (possibly new) group. -/
theorem GInv.write {n : Nat} {st : List Int × Dict String Int} {want : Nat → Option String}
    (h : GInv n st want) (k : String) {arr : List Int} (sel : Nat → Bool)
    (hl : arr.length = n)
    (ha : ∀ i, i < n → arr[i]? = if sel i then some (getGroupNumber k st.2).1 else st.1[i]?) :
    GInv n (arr, (getGroupNumber k st.2).2) (fun i => if sel i then some k else want i) := by
  obtain ⟨hd, hp, hk⟩ := getGroupNumber_spec h.dense k
  refine ⟨hl, hd, ?_⟩
  intro i hi
  have hai := ha i hi
  by_cases hs : sel i
  · simp only [hs, if_true] at hai ⊢
    exact ⟨_, hai, hk⟩
  · simp only [hs] at hai ⊢
    have hc := h.cell i hi
    cases hw : want i with
    | none => simp only [hw] at hc; simpa [hai] using hc
    | some s =>
      simp only [hw] at hc
      obtain ⟨c, h1, h2⟩ := hc
      exact ⟨c, by simpa [hai] using h1, Dict.get?_prefix hp h2⟩

theorem GInv.congr {n : Nat} {st : List Int × Dict String Int} {w w' : Nat → Option String}
    (h : GInv n st w) (he : ∀ i, i < n → w i = w' i) : GInv n st w' :=
  ⟨h.len, h.dense, fun i hi => by rw [← he i hi]; exact h.cell i hi⟩

theorem find?_reverse_cons {α : Type _} (p : α → Bool) (a : α) (l : List α) :
    (a :: l).reverse.find? p = (l.reverse.find? p).or (if p a then some a else none) := by
  simp [List.find?_append, List.find?_cons]
  cases p a <;> simp

theorem tableLoop_spec (ignore : List String) (data : List Int) {n : Nat} (hn : data.length = n)
    (t : Dict String Int) {st : List Int × Dict String Int} {want : Nat → Option String}
    (h : GInv n st want) :
    GInv n (tableLoop ignore data t st)
        (fun i => (baseName (fun k => decide (k ∉ ignore)) t data i).or (want i)) ∧
      st.2 <+: (tableLoop ignore data t st).2 := by
  induction t generalizing st want with
  | nil => exact ⟨by simpa [tableLoop, baseName] using h, List.prefix_rfl⟩
  | cons kv t ih =>
    obtain ⟨k, v⟩ := kv
    simp only [tableLoop]
    split
    · rename_i hk
      refine ⟨(ih h).1.congr ?_, (ih h).2⟩
      intro i _
      simp only [baseName, find?_reverse_cons]
      simp [hk]
    · rename_i hk
      have hw := h.write k (arr := List.zipWith
        (fun a x => if x = v then (getGroupNumber k st.2).1 else a) st.1 data)
        (fun i => data[i]? == some v) (by simp [h.len, hn]) (by
          intro i hi
          have h1 : i < st.1.length := by rw [h.len]; exact hi
          have h2 : i < data.length := by omega
          simp only [List.getElem?_zipWith, List.getElem?_eq_getElem h1, List.getElem?_eq_getElem h2]
          by_cases e : data[i] = v <;> simp [e])
      obtain ⟨r1, r2⟩ := ih hw
      refine ⟨r1.congr ?_, (getGroupNumber_spec h.dense k).2.1.trans r2⟩
      intro i _
      simp only [baseName, find?_reverse_cons]
      simp only [hk, not_false_eq_true, decide_true, Bool.true_and]
      cases List.find? _ t.reverse with
      | some x => simp
      | none => cases hd : (data[i]? == some v) <;> simp

theorem groupLoop_spec (mesh : LMesh) {n : Nat} (items : List (String × Sel))
    {st st' : List Int × Dict String Int} {want : Nat → Option String} (h : GInv n st want)
    (hok : groupLoop mesh items st = .ok st') :
    st.2 <+: st'.2 ∧ ∃ sels : List (String × (Nat → Bool)),
      List.Forall₂ (fun kv e => e.1 = (parseKey kv.1).2 ∧ ∃ g mask,
        selMask mesh g kv.2 = .ok mask ∧ st.2 <+: g ∧ g <+: st'.2 ∧
        (∀ b, mask = .bool b → b.length = n) ∧
        e.2 = maskSel n (if (parseKey kv.1).1 then mask.invert else mask)) items sels ∧
      GInv n st' (fun i => (lastSelecting sels i).or (want i)) := by
  induction items generalizing st want with
  | nil =>
    simp only [groupLoop, Except.ok.injEq] at hok
    subst hok
    exact ⟨List.prefix_rfl, [], List.Forall₂.nil, by simpa [lastSelecting] using h⟩
  | cons kv items ih =>
    simp only [groupLoop] at hok
    split at hok
    · simp at hok
    · rename_i st1 hst1
      simp only [groupStep] at hst1
      split at hst1
      · simp at hst1
      · rename_i mask hmask
        split at hst1
        · simp at hst1
        · rename_i arr harr
          simp only [Except.ok.injEq] at hst1
          subst hst1
          obtain ⟨a1, a2, a3⟩ := assign_ok harr
          rw [h.len] at a1 a2 a3
          have hw := h.write (parseKey kv.1).2 (arr := arr) _ a1 a3
          obtain ⟨p1, sels, hf, hinv⟩ := ih hw hok
          have p0 := (getGroupNumber_spec h.dense (parseKey kv.1).2).2.1
          refine ⟨p0.trans p1, ((parseKey kv.1).2, maskSel n (if (parseKey kv.1).1 then mask.invert else mask)) :: sels,
            List.Forall₂.cons ⟨rfl, st.2, mask, hmask, List.prefix_rfl, p0.trans p1, ?_, rfl⟩ ?_, ?_⟩
          · intro b hb
            subst hb
            by_cases hneg : (parseKey kv.1).1
            · have := a2 (b.map (!·)) (by simp [hneg, NpMask.invert])
              simpa using this
            · exact a2 b (by simp [hneg])
          · refine hf.imp ?_
            rintro x y ⟨e1, g, m, e2, e3, e4, e5, e6⟩
            exact ⟨e1, g, m, e2, p0.trans e3, e4, e5, e6⟩
          · refine hinv.congr ?_
            intro i _
            simp only [lastSelecting, find?_reverse_cons]
            cases List.find? _ sels.reverse with
            | some x => simp
            | none =>
              generalize maskSel n (if (parseKey kv.1).1 = true then mask.invert else mask) = f
              by_cases hfi : f i = true <;> simp [hfi]

theorem fillDefault_spec {n : Nat} (dflt : String) {st : List Int × Dict String Int}
    {want : Nat → Option String} (h : GInv n st want) :
    GInv n (fillDefault dflt st) (fun i => some ((want i).getD dflt)) ∧
      st.2 <+: (fillDefault dflt st).2 := by
  have hne : ∀ i, i < n → ∀ s, want i = some s → st.1[i]? ≠ some (-1) := by
    intro i hi s hs
    have := h.cell i hi
    simp only [hs] at this
    obtain ⟨c, h1, h2⟩ := this
    have := (h.dense.code_lt (Dict.get?_mem h2)).1
    rw [h1]
    simp; omega
  unfold fillDefault
  split
  · have hw := h.write dflt (arr := st.1.map fun a => if a = -1 then (getGroupNumber dflt st.2).1 else a)
      (fun i => st.1[i]? == some (-1)) (by simp [h.len]) (by
        intro i hi
        have h1 : i < st.1.length := by rw [h.len]; exact hi
        simp only [List.getElem?_map, List.getElem?_eq_getElem h1, Option.map_some]
        by_cases e : st.1[i] = -1 <;> simp [e])
    refine ⟨hw.congr ?_, (getGroupNumber_spec h.dense dflt).2.1⟩
    intro i hi
    have hc := h.cell i hi
    cases hwi : want i with
    | none => simp only [hwi] at hc; simp [hc]
    | some s =>
      have := hne i hi s hwi
      simp [this]
  · rename_i hno
    refine ⟨h.congr ?_, List.prefix_rfl⟩
    intro i hi
    have hc := h.cell i hi
    cases hwi : want i with
    | none =>
      simp only [hwi] at hc
      exact absurd (List.mem_of_getElem? hc) hno
    | some s => simp

/-! ## selections -/

theorem parseKey_eq (k : String) : parseKey k = (negated k, bare k) := by
  unfold parseKey bare negated
  split
  · rename_i r h
    simp [h]
  · rename_i h
    have : (k.toList.head? == some '~') = false := by
      cases hk : k.toList with
      | nil => simp
      | cons a l =>
        simp only [List.head?_cons, beq_eq_false_iff_ne, ne_eq, Option.some.injEq]
        intro e
        exact h l (by rw [hk, e])
    simp [this]

theorem maskSel_invert_bool {n : Nat} {m : List Bool} (hm : m.length = n) {i : Nat} (hi : i < n) :
    maskSel n (NpMask.bool m).invert i = !(maskSel n (.bool m) i) := by
  have : i < m.length := by omega
  simp only [NpMask.invert, maskSel, List.getElem?_map, List.getElem?_eq_getElem this]
  cases m[i] <;> simp

theorem assignInt_mask {n : Nat} {ix : List Int} {m : List Bool}
    (h : assignInt (List.replicate n false) ix true = .ok m) :
    m.length = n ∧ ∀ i, i < n → maskSel n (.bool m) i = ix.any fun x => Designates n x i := by
  obtain ⟨h1, _, h3⟩ := assignInt_ok h
  simp only [List.length_replicate] at h1 h3
  refine ⟨h1, ?_⟩
  intro i hi
  have := h3 i hi
  simp only [maskSel, normIdx_eq] at this ⊢
  rw [this]
  cases ix.any (fun x => Designates n x i) <;> simp [hi]

/-- What a successful selection by mask, indices or callable selects. -/
theorem selMask_direct {mesh : LMesh} {g : Dict String Int} {sel : Sel} {mask : NpMask}
    (label : Nat → Option String)
    (h : selMask mesh g sel = .ok mask) (hname : byName sel = false) (i : Nat) (hi : i < mesh.nCells) :
    maskSel mesh.nCells mask i = selects mesh.nCells label sel i := by
  cases sel with
  | callMask m => simp only [selMask, Except.ok.injEq] at h; subst h; rfl
  | mask m => simp only [selMask, Except.ok.injEq] at h; subst h; rfl
  | callIdx ix =>
    simp only [selMask, Except.ok.injEq] at h; subst h
    simp only [maskSel, selects, normIdx_eq]
  | idx ix =>
    simp only [selMask] at h
    split at h
    · rename_i m hm
      simp only [Except.ok.injEq] at h
      subst h
      exact (assignInt_mask hm).2 i hi
    · simp at h
  | name s => simp [byName] at hname
  | names l => simp [byName] at hname
  | other => simp [selMask] at h

theorem selMask_bool {mesh : LMesh} {g : Dict String Int} {sel : Sel} {mask : NpMask}
    (h : selMask mesh g sel = .ok mask) (hc : ∀ ix, sel ≠ .callIdx ix) : ∃ b, mask = .bool b := by
  cases sel with
  | callIdx ix => exact absurd rfl (hc ix)
  | callMask m => simp only [selMask, Except.ok.injEq] at h; exact ⟨m, h.symm⟩
  | mask m => simp only [selMask, Except.ok.injEq] at h; exact ⟨m, h.symm⟩
  | idx ix => simp only [selMask] at h; split at h <;> simp at h; exact ⟨_, h.symm⟩
  | name s => simp only [selMask] at h; split at h <;> simp at h; exact ⟨_, h.symm⟩
  | names l => simp only [selMask] at h; split at h <;> simp at h; exact ⟨_, h.symm⟩
  | other => simp [selMask] at h

/-- The base mesh is labelled by `data` and `table`, its names have the numbers `g` gives them, and
every code of the array is in the table. -/
structure NamesAgree (mesh : LMesh) (data : List Int) (table g : Dict String Int) : Prop where
  data_eq : mesh.cellGroup = some data
  len : data.length = mesh.nCells
  dense : DenseTable g
  inj : InjTable table
  sub : ∀ kv ∈ table, Dict.get? g kv.1 = some kv.2
  total : ∀ c ∈ data, ∃ s, (s, c) ∈ table

theorem baseName_eq_some {table : Dict String Int} (h : InjTable table) {data : List Int} {i : Nat}
    {s : String} :
    baseName (fun _ => true) table data i = some s ↔ CellNamed table data i s := by
  unfold baseName CellNamed
  constructor
  · intro hf
    simp only [Bool.true_and, Option.map_eq_some_iff] at hf
    obtain ⟨kv, h1, rfl⟩ := hf
    have h2 := List.find?_some h1
    have h3 := List.mem_of_find?_eq_some h1
    simp only [List.mem_reverse] at h3
    exact ⟨kv.2, by simpa using h2, h3⟩
  · rintro ⟨c, h1, h2⟩
    simp only [Bool.true_and, Option.map_eq_some_iff]
    cases hf : List.find? (fun kv => data[i]? == some kv.2) table.reverse with
    | none =>
      rw [List.find?_eq_none] at hf
      have := hf (s, c) (by simpa using h2)
      simp [h1] at this
    | some kv =>
      refine ⟨kv, rfl, ?_⟩
      have h3 := List.find?_some hf
      have h4 := List.mem_of_find?_eq_some hf
      simp only [List.mem_reverse] at h4
      rw [h1] at h3
      simp only [beq_iff_eq, Option.some.injEq] at h3
      exact h.name_unique (h3 ▸ h4) h2

theorem nameMask_spec {mesh : LMesh} {data : List Int} {table g : Dict String Int}
    (H : NamesAgree mesh data table g) {s : String} {m : List Bool}
    (h : nameMask mesh g s = .ok m) :
    m.length = mesh.nCells ∧ ∀ i, i < mesh.nCells →
      m[i]? = some ((baseName (fun _ => true) table data i == some (bare s)) != negated s) := by
  simp only [nameMask, H.data_eq] at h
  split at h
  · simp at h
  · rename_i c hc
    simp only [Except.ok.injEq] at h
    subst h
    refine ⟨by simp [H.len], ?_⟩
    intro i hi
    have hi' : i < data.length := by rw [H.len]; exact hi
    simp only [List.getElem?_map, List.getElem?_eq_getElem hi', Option.map_some, Option.some.injEq]
    rw [parseKey_eq] at hc ⊢
    simp only at hc ⊢
    have key : (baseName (fun _ => true) table data i == some (bare s)) = (data[i] == c) := by
      rw [Bool.eq_iff_iff, beq_iff_eq, beq_iff_eq, baseName_eq_some H.inj]
      unfold CellNamed
      simp only [List.getElem?_eq_getElem hi', Option.some.injEq, exists_eq_left']
      constructor
      · intro hm
        have := H.sub _ hm
        simp only at this
        rw [hc] at this
        simpa using this.symm
      · intro e
        obtain ⟨s', hs'⟩ := H.total data[i] (List.getElem_mem _)
        have h5 := H.sub _ hs'
        simp only at h5
        have h6 := Dict.get?_mem h5
        have h7 := Dict.get?_mem hc
        rw [e] at h6
        rw [H.dense.inj.name_unique h7 h6]
        exact hs'
    rw [key]
    cases negated s <;> simp [bne]

theorem namesMask_spec {mesh : LMesh} {data : List Int} {table g : Dict String Int}
    (H : NamesAgree mesh data table g) {l : List String} {acc m : List Bool}
    (hacc : acc.length = mesh.nCells)
    (h : namesMask mesh g l acc = .ok m) :
    m.length = mesh.nCells ∧ ∀ i, i < mesh.nCells →
      (m[i]? == some true) = ((acc[i]? == some true) ||
        l.any fun s => (baseName (fun _ => true) table data i == some (bare s)) != negated s) := by
  induction l generalizing acc with
  | nil => simp only [namesMask, Except.ok.injEq] at h; subst h; simp [hacc]
  | cons s l ih =>
    simp only [namesMask] at h
    split at h
    · simp at h
    · rename_i m' hm'
      obtain ⟨a1, a2⟩ := nameMask_spec H hm'
      obtain ⟨b1, b2⟩ := ih (acc := List.zipWith (· || ·) acc m') (by simp [hacc, a1]) h
      refine ⟨b1, ?_⟩
      intro i hi
      have h1 : i < acc.length := by omega
      rw [b2 i hi]
      simp only [List.getElem?_zipWith, List.getElem?_eq_getElem h1, a2 i hi, List.any_cons]
      rw [← Bool.or_assoc]
      congr 1
      simp

theorem selMask_named {mesh : LMesh} {data : List Int} {table g : Dict String Int}
    (H : NamesAgree mesh data table g) {sel : Sel} {mask : NpMask}
    (h : selMask mesh g sel = .ok mask) (i : Nat) (hi : i < mesh.nCells) :
    maskSel mesh.nCells mask i =
      selects mesh.nCells (baseName (fun _ => true) table data) sel i := by
  by_cases hn : byName sel = false
  · exact selMask_direct _ h hn i hi
  · cases sel with
    | name s =>
      simp only [selMask] at h
      split at h
      · rename_i m hm
        simp only [Except.ok.injEq] at h
        subst h
        simp only [maskSel, selects, (nameMask_spec H hm).2 i hi]
        simp
      · simp at h
    | names l =>
      simp only [selMask] at h
      split at h
      · rename_i m hm
        simp only [Except.ok.injEq] at h
        subst h
        have := (namesMask_spec H (by simp) hm).2 i hi
        simp only [maskSel, selects, this]
        simp [hi]
      · simp at h
    | _ => simp [byName] at hn

/-- Selection of a whole dictionary entry, tilde included. -/
theorem entry_mask {mesh : LMesh} {n : Nat} {mask : NpMask} {kv : String × Sel}
    {g : Dict String Int} {label : Nat → Option String}
    (h : selMask mesh g kv.2 = .ok mask) (hb : ∀ b, mask = .bool b → b.length = n)
    (hnc : negatedCallIdx kv = false) {i : Nat} (hi : i < n)
    (hs : maskSel n mask i = selects n label kv.2 i) :
    maskSel n (if (parseKey kv.1).1 then mask.invert else mask) i = entrySelects n label kv i := by
  unfold entrySelects
  rw [parseKey_eq]
  by_cases hneg : negated kv.1
  · simp only [hneg, if_true]
    have : ∃ b, mask = .bool b := by
      apply selMask_bool h
      intro ix hix
      simp [negatedCallIdx, hix, hneg] at hnc
    obtain ⟨b, rfl⟩ := this
    rw [maskSel_invert_bool (hb b rfl) hi, hs]
    simp
  · simp [hneg, hs]

theorem groupItems_eq (n : Nat) (g : GroupArg) : groupItems n g = entries n g := by
  cases g <;> rfl

theorem chooseDefault_eq (d : String) (dg : Option String) : chooseDefault d dg = defaultName d dg := by
  cases dg <;> rfl

theorem find?_congr' {α : Type _} {p q : α → Bool} {l : List α} (h : ∀ a ∈ l, p a = q a) :
    l.find? p = l.find? q := by
  induction l with
  | nil => rfl
  | cons a l ih =>
    simp only [List.find?_cons, h a (by simp), ih (fun b hb => h b (by simp [hb]))]

end Gridder
