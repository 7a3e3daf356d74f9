import Verif.Props.VolumeS
import Mathlib.Tactic.Positivity

/-!
# C18: merging structured grids
-/

namespace Gridder
open Spec

variable {K : Type _} [Field K] [LinearOrder K] {δ : Type _} [Inhabited δ]

namespace Spec

/-- numpy's default closeness test. -/
def Close (x y : Fin 3 → K) : Prop := ∀ ax, |x ax - y ax| ≤ 1 / 10 ^ 8 + 1 / 10 ^ 5 * |y ax|

/-- The last layer of `a` along `axis` coincides (up to numpy's tolerance) with the first one of
`b`. -/
def Facing (axis : Fin 3) (a b : SGrid K δ) : Prop :=
  ∀ i, InShape a.nodes.d i →
    Close (a.nodes.get (Function.update i axis (a.nodes.d axis - 1)))
      (b.nodes.get (Function.update i axis 0))

/-- Each grid faces the next one. -/
def FacingChain (axis : Fin 3) : List (SGrid K δ) → Prop
  | a :: b :: rest => Facing axis a b ∧ FacingChain axis (b :: rest)
  | _ => True

/-- A grid with at least one cell along the axis and scalar cell arrays of the right size. -/
structure Piece (axis : Fin 3) (p : SGrid K δ) : Prop where
  along : 2 ≤ p.nodes.d axis
  across : ∀ ax, 1 ≤ p.nodes.d ax
  size : ∀ kv ∈ p.cellData, kv.2.vals.length = count (cells p.nodes.d) ∧ kv.2.vector = false
  keys : (p.cellData.map Prod.fst).Nodup

/-- Number of cells along the axis before the k-th piece. -/
def offset (axis : Fin 3) (pieces : List (SGrid K δ)) (k : ℕ) : ℕ :=
  ((pieces.take k).map fun p => p.nodes.d axis - 1).sum

/-- `M` is the pieces glued along `axis`. -/
structure Glued (axis : Fin 3) (pieces : List (SGrid K δ)) (M : SGrid K δ) : Prop where
  along : M.nodes.d axis = 1 + (pieces.map fun p => p.nodes.d axis - 1).sum
  across : ∀ p ∈ pieces, ∀ ax, ax ≠ axis → M.nodes.d ax = p.nodes.d ax
  /-- nodes of a piece are nodes of `M`; the first layer of a later piece is represented by the
  last layer of the piece before it -/
  nodes : ∀ k p, pieces[k]? = some p → ∀ i, InShape p.nodes.d i → (k = 0 ∨ 0 < i axis) →
    M.nodes.get (Function.update i axis (offset axis pieces k + i axis)) = p.nodes.get i
  /-- the arrays are those common to all pieces -/
  keys : ∀ key, (Dict.get? M.cellData key).isSome ↔
    ∀ p ∈ pieces, (Dict.get? p.cellData key).isSome
  /-- each cell of a piece has the same data in `M` -/
  data : ∀ k p, pieces[k]? = some p → ∀ key v w, Dict.get? p.cellData key = some v →
    Dict.get? M.cellData key = some w → ∀ i, InShape (cells p.nodes.d) i →
      w.vals[vtkId (cells M.nodes.d) (Function.update i axis (offset axis pieces k + i axis))]? =
        v.vals[vtkId (cells p.nodes.d) i]?

end Spec

theorem closeV3_iff (a b : V3 K) : closeV3 a b = true ↔ Close a b := by
  simp [closeV3, isClose, Close]

theorem interfaceClose_iff (axis : Fin 3) (a b : SGrid K δ) (h : ∀ ax, 1 ≤ a.nodes.d ax) :
    interfaceClose axis a.nodes b.nodes = true ↔ Facing axis a b := by
  simp only [interfaceClose, List.all_eq_true, List.mem_range, closeV3_iff, sizeOfShape_eq]
  constructor
  · intro H i hi
    have hin : InShape (Function.update a.nodes.d axis 1) (Function.update i axis 0) :=
      inShape_update hi (by omega)
    have := H (vtkId (Function.update a.nodes.d axis 1) (Function.update i axis 0)) (vtkId_lt hin)
    rwa [unflat_vtkId hin, Function.update_idem, Function.update_idem] at this
  · intro H c hc
    obtain ⟨h1, h2⟩ := vtkId_unflat hc
    apply H
    intro ax
    have := h2 ax
    by_cases hax : ax = axis
    · subst hax; simp at this; have := h ax; omega
    · simpa [Function.update_of_ne hax] using this

/-- The array `mergeArray` computes. -/
def glueArray (axis : Fin 3) (da db : Ix) (va vb : DArr δ) : DArr δ :=
  ⟨false, (Arr3.mk (Function.update (cells da) axis (cells da axis + cells db axis)) fun i =>
      if i axis < cells da axis then va.vals.getD (flatF (cells da) i) default
      else vb.vals.getD (flatF (cells db) (Function.update i axis (i axis - cells da axis)))
        default).ravelF⟩

theorem cells_across {da db : Ix} {axis : Fin 3} (h : ∀ ax, ax ≠ axis → da ax = db ax) :
    ∀ ax, ax ≠ axis → cells da ax = cells db ax := by
  intro ax hax; simp [cells, h ax hax]

theorem mergeArray_ok {da db : Ix} {axis : Fin 3} (h : ∀ ax, ax ≠ axis → da ax = db ax)
    {va vb : DArr δ} (ha : va.vals.length = count (cells da)) (hb : vb.vals.length = count (cells db))
    (sa : va.vector = false) (sb : vb.vector = false) :
    mergeArray axis da db va vb = .ok (glueArray axis da db va vb) := by
  simp only [mergeArray, sa, sb, reshapeF, ha, hb, cellShape_eq, sizeOfShape_eq, if_true,
    Arr3.concat]
  rw [if_neg (by simp)]
  rw [if_pos (cells_across h)]
  rfl

theorem glueArray_length (axis : Fin 3) (da db : Ix) (va vb : DArr δ) :
    (glueArray axis da db va vb).vals.length =
      count (Function.update (cells da) axis (cells da axis + cells db axis)) := by
  simp only [glueArray, ravelF_length]

theorem glueArray_left {da db : Ix} {axis : Fin 3} {va vb : DArr δ}
    (ha : va.vals.length = count (cells da)) {i : Ix} (hi : InShape (cells da) i) :
    (glueArray axis da db va vb).vals[vtkId
      (Function.update (cells da) axis (cells da axis + cells db axis)) i]? =
      va.vals[vtkId (cells da) i]? := by
  have hin : InShape (Function.update (cells da) axis (cells da axis + cells db axis)) i := by
    intro ax
    have := hi ax
    by_cases hax : ax = axis
    · subst hax; simp; omega
    · simpa [Function.update_of_ne hax] using this
  simp only [glueArray]
  refine (ravelF_get (Arr3.mk (Function.update (cells da) axis (cells da axis + cells db axis)) _)
    hin).trans ?_
  simp only
  rw [if_pos (hi axis), flatF_eq, List.getD_eq_getElem?_getD,
    List.getElem?_eq_getElem (by rw [ha]; exact vtkId_lt hi)]
  simp

theorem glueArray_right {da db : Ix} {axis : Fin 3} {va vb : DArr δ}
    (h : ∀ ax, ax ≠ axis → da ax = db ax)
    (hb : vb.vals.length = count (cells db)) {i : Ix} (hi : InShape (cells db) i) :
    (glueArray axis da db va vb).vals[vtkId
      (Function.update (cells da) axis (cells da axis + cells db axis))
      (Function.update i axis (cells da axis + i axis))]? =
      vb.vals[vtkId (cells db) i]? := by
  have hin : InShape (Function.update (cells da) axis (cells da axis + cells db axis))
      (Function.update i axis (cells da axis + i axis)) := by
    intro ax
    have := hi ax
    by_cases hax : ax = axis
    · subst hax; simp; omega
    · simpa [Function.update_of_ne hax, cells_across h ax hax] using this
  simp only [glueArray]
  refine (ravelF_get (Arr3.mk (Function.update (cells da) axis (cells da axis + cells db axis)) _)
    hin).trans ?_
  simp only
  rw [if_neg (by simp), flatF_eq, List.getD_eq_getElem?_getD]
  simp only [Function.update_self, Function.update_idem, Nat.add_sub_cancel_left,
    Function.update_eq_self]
  rw [List.getElem?_eq_getElem (by rw [hb]; exact vtkId_lt hi)]
  simp

theorem Dict.set_keys_nodup {κ ν : Type _} [DecidableEq κ] {d : Dict κ ν} {k : κ} {v : ν}
    (h : (d.map Prod.fst).Nodup) : ((Dict.set d k v).map Prod.fst).Nodup := by
  induction d with
  | nil => simp [Dict.set]
  | cons a d ih =>
    obtain ⟨a, b⟩ := a
    simp only [List.map_cons, List.nodup_cons] at h
    simp only [Dict.set]
    split
    · simpa using h
    · rename_i hk
      simp only [List.map_cons, List.nodup_cons]
      refine ⟨?_, ih h.2⟩
      rw [← Dict.get?_eq_none, Dict.get?_set, if_neg (Ne.symm hk), Dict.get?_eq_none]
      exact h.1

theorem Dict.get?_of_mem {κ ν : Type _} [DecidableEq κ] {d : Dict κ ν} {k : κ} {v : ν}
    (h : (d.map Prod.fst).Nodup) (hm : (k, v) ∈ d) : Dict.get? d k = some v := by
  induction d with
  | nil => simp at hm
  | cons a d ih =>
    obtain ⟨a, b⟩ := a
    simp only [List.map_cons, List.nodup_cons] at h
    simp only [Dict.get?]
    rcases List.mem_cons.1 hm with hm | hm
    · cases hm; simp
    · rw [if_neg, ih h.2 hm]
      rintro rfl
      exact h.1 (List.mem_map.2 ⟨(a, v), hm, rfl⟩)

/-- The loop over arrays succeeds and glues exactly the common ones. -/
theorem mergeArrays_ok {da db : Ix} {axis : Fin 3} (h : ∀ ax, ax ≠ axis → da ax = db ax)
    (cb : Dict String (DArr δ))
    (hb : ∀ kv ∈ cb, kv.2.vals.length = count (cells db) ∧ kv.2.vector = false) :
    ∀ (ca acc : Dict String (DArr δ)), (ca.map Prod.fst).Nodup →
      (∀ kv ∈ ca, kv.2.vals.length = count (cells da) ∧ kv.2.vector = false) →
      ∃ out, mergeArrays axis da db
          (count (Function.update (cells da) axis (cells da axis + cells db axis))) cb ca acc =
            .ok out ∧
        ((acc.map Prod.fst).Nodup → (out.map Prod.fst).Nodup) ∧
        ∀ k, Dict.get? out k = match Dict.get? ca k, Dict.get? cb k with
          | some va, some vb => some (glueArray axis da db va vb)
          | _, _ => Dict.get? acc k := by
  intro ca
  induction ca with
  | nil => intro acc _ _; exact ⟨acc, rfl, id, fun k => by simp [Dict.get?]⟩
  | cons a ca ih =>
    obtain ⟨a, va⟩ := a
    intro acc hu hca
    simp only [List.map_cons, List.nodup_cons] at hu
    obtain ⟨la, sa⟩ := hca (a, va) (by simp)
    simp only [mergeArrays]
    cases hg : Dict.get? cb a with
    | none =>
      obtain ⟨out, ho, hn, hk⟩ := ih acc hu.2 (fun kv hkv => hca kv (List.mem_cons_of_mem _ hkv))
      refine ⟨out, ho, hn, fun k => ?_⟩
      rw [hk k]
      simp only [Dict.get?]
      by_cases hak : a = k
      · subst hak
        rw [Dict.get?_eq_none.2 hu.1, hg]
        simp
      · simp [hak]
    | some vb =>
      obtain ⟨lb, sb⟩ := hb (a, vb) (Dict.get?_mem hg)
      simp only [mergeArray_ok h la lb sa sb, setArray, glueArray_length, if_true]
      obtain ⟨out, ho, hn, hk⟩ := ih (Dict.set acc a (glueArray axis da db va vb)) hu.2
        (fun kv hkv => hca kv (List.mem_cons_of_mem _ hkv))
      refine ⟨out, ho, fun hacc => hn (Dict.set_keys_nodup hacc), fun k => ?_⟩
      rw [hk k]
      simp only [Dict.get?]
      by_cases hak : a = k
      · subst hak
        rw [Dict.get?_eq_none.2 hu.1, hg]
        simp [Dict.get?_set]
      · simp only [hak, if_false]
        cases Dict.get? ca k <;> cases Dict.get? cb k <;> simp [Dict.get?_set, hak]

/-- One merge step in terms of index functions. -/
theorem merge2_ok {axis : Fin 3} {a b : SGrid K δ} (ha : Piece axis a) (hb : Piece axis b)
    (h : ∀ ax, ax ≠ axis → a.nodes.d ax = b.nodes.d ax) (hf : Facing axis a b) :
    ∃ M, merge2 axis a b = .ok M ∧ Piece axis M ∧
      M.nodes.d = Function.update a.nodes.d axis (a.nodes.d axis + (b.nodes.d axis - 1)) ∧
      (∀ i, M.nodes.get i = if i axis < a.nodes.d axis then a.nodes.get i
        else b.nodes.get (Function.update i axis (i axis - a.nodes.d axis + 1))) ∧
      cells M.nodes.d =
        Function.update (cells a.nodes.d) axis (cells a.nodes.d axis + cells b.nodes.d axis) ∧
      ∀ k, Dict.get? M.cellData k = match Dict.get? a.cellData k, Dict.get? b.cellData k with
        | some va, some vb => some (glueArray axis a.nodes.d b.nodes.d va vb)
        | _, _ => none := by
  have hcells : cells (Function.update a.nodes.d axis (a.nodes.d axis + (b.nodes.d axis - 1))) =
      Function.update (cells a.nodes.d) axis (cells a.nodes.d axis + cells b.nodes.d axis) := by
    funext ax
    have h1 := ha.along
    have h2 := hb.along
    by_cases hax : ax = axis
    · subst hax; simp only [cells, Function.update_self]
      rw [if_neg (by omega), if_neg (by omega), if_neg (by omega)]; omega
    · simp [cells, Function.update_of_ne hax]
  obtain ⟨out, ho, hn, hk⟩ := mergeArrays_ok h b.cellData hb.size a.cellData [] ha.keys ha.size
  have hcond : ∀ ax, ax ≠ axis → a.nodes.d ax = (b.nodes.tailAxis axis).d ax := by
    intro ax hax; simp [Arr3.tailAxis, Function.update_of_ne hax, h ax hax]
  have hcomm : ∀ k, Dict.get? out k = match Dict.get? a.cellData k, Dict.get? b.cellData k with
        | some va, some vb => some (glueArray axis a.nodes.d b.nodes.d va vb)
        | _, _ => none := by
    intro k
    rw [hk k]
    cases Dict.get? a.cellData k <;> cases Dict.get? b.cellData k <;> simp [Dict.get?]
  refine ⟨⟨⟨Function.update a.nodes.d axis (a.nodes.d axis + (b.nodes.d axis - 1)),
    fun i => if i axis < a.nodes.d axis then a.nodes.get i
        else b.nodes.get (Function.update i axis (i axis - a.nodes.d axis + 1))⟩, [], out⟩,
    ?_, ?_, rfl, fun i => rfl, hcells, hcomm⟩
  · simp only [merge2]
    rw [if_neg (by simpa using h), if_neg (by rw [(interfaceClose_iff axis a b ha.across).2 hf]; simp)]
    simp only [Arr3.concat]
    rw [if_pos hcond]
    simp only [Arr3.tailAxis, Function.update_self, sizeOfShape_eq, cellShape_eq, hcells, ho,
      Function.update_idem]
  · refine ⟨?_, ?_, ?_, hn (by simp)⟩
    · have := ha.along; simp; omega
    · intro ax
      by_cases hax : ax = axis
      · subst hax; have := ha.along; simp; omega
      · simpa [Function.update_of_ne hax] using ha.across ax
    · rintro ⟨k, v⟩ hkv
      have := Dict.get?_of_mem (hn (by simp)) hkv
      rw [hcomm k] at this
      split at this
      · cases this
        exact ⟨by rw [glueArray_length]; simp only [hcells], rfl⟩
      · cases this

theorem merge2_error {axis : Fin 3} {a b : SGrid K δ} (ha : ∀ ax, 1 ≤ a.nodes.d ax)
    (h : ¬ (∀ ax, ax ≠ axis → a.nodes.d ax = b.nodes.d ax) ∨ ¬ Facing axis a b) :
    merge2 axis a b = .error .valueError := by
  simp only [merge2]
  by_cases h1 : ∀ ax, ax ≠ axis → a.nodes.d ax = b.nodes.d ax
  · rw [if_neg (not_not.2 h1)]
    rw [if_pos]
    rcases h with h | h
    · exact absurd h1 h
    · rw [← interfaceClose_iff axis a b ha] at h
      simpa using h
  · rw [if_pos h1]

theorem offset_append_left {axis : Fin 3} {l : List (SGrid K δ)} {b : SGrid K δ} {k : ℕ}
    (hk : k ≤ l.length) : offset axis (l ++ [b]) k = offset axis l k := by
  simp [offset, List.take_append_of_le_length hk]

theorem offset_length {axis : Fin 3} (l r : List (SGrid K δ)) :
    offset axis (l ++ r) l.length = (l.map fun p => p.nodes.d axis - 1).sum := by
  simp [offset]

theorem offset_le {axis : Fin 3} {l : List (SGrid K δ)} {k : ℕ} {p : SGrid K δ}
    (hk : l[k]? = some p) :
    offset axis l k + (p.nodes.d axis - 1) ≤ (l.map fun p => p.nodes.d axis - 1).sum := by
  induction l generalizing k with
  | nil => simp at hk
  | cons a l ih =>
    cases k with
    | zero => simp only [List.getElem?_cons_zero, Option.some.injEq] at hk; subst hk; simp [offset]
    | succ k =>
      simp only [List.getElem?_cons_succ] at hk
      have := ih hk
      simp only [offset, List.take_succ_cons, List.map_cons, List.sum_cons] at this ⊢
      omega

/-- Gluing one more piece. -/
theorem Spec.Glued.snoc {axis : Fin 3} {l : List (SGrid K δ)} {A b M : SGrid K δ}
    (hl : ∀ p ∈ l, Piece axis p) (hA : Piece axis A) (hb : Piece axis b) (hg : Glued axis l A)
    (h : ∀ ax, ax ≠ axis → A.nodes.d ax = b.nodes.d ax)
    (hd : M.nodes.d = Function.update A.nodes.d axis (A.nodes.d axis + (b.nodes.d axis - 1)))
    (hn : ∀ i, M.nodes.get i = if i axis < A.nodes.d axis then A.nodes.get i
        else b.nodes.get (Function.update i axis (i axis - A.nodes.d axis + 1)))
    (hc : cells M.nodes.d =
        Function.update (cells A.nodes.d) axis (cells A.nodes.d axis + cells b.nodes.d axis))
    (hk : ∀ k, Dict.get? M.cellData k = match Dict.get? A.cellData k, Dict.get? b.cellData k with
        | some va, some vb => some (glueArray axis A.nodes.d b.nodes.d va vb)
        | _, _ => none) :
    Glued axis (l ++ [b]) M := by
  have hAlong := hA.along
  have hbalong := hb.along
  have hca : cells A.nodes.d axis = A.nodes.d axis - 1 := by
    simp only [cells]; rw [if_neg (by omega)]
  refine ⟨?_, ?_, ?_, ?_, ?_⟩
  · rw [hd]; simp only [Function.update_self, List.map_append, List.sum_append, List.map_cons,
      List.map_nil, List.sum_cons, List.sum_nil]
    rw [hg.along]; omega
  · intro p hp ax hax
    rw [hd, Function.update_of_ne hax]
    rcases List.mem_append.1 hp with hp | hp
    · exact hg.across p hp ax hax
    · simp only [List.mem_singleton] at hp; subst hp; exact h ax hax
  · intro k p hp i hi h0
    by_cases hkl : k < l.length
    · rw [List.getElem?_append_left hkl] at hp
      rw [offset_append_left (by omega), hn]
      have h1 := offset_le (axis := axis) hp
      have h2 := hg.along
      have h3 := hi axis
      simp only [Function.update_self]
      rw [if_pos (by omega)]
      exact hg.nodes k p hp i hi h0
    · have hkl' : k = l.length := by
        have := (List.getElem?_eq_some_iff.1 hp).1
        simp at this; omega
      subst hkl'
      simp at hp; subst hp
      rw [offset_length, hn]
      have h2 := hg.along
      have h3 := hi axis
      simp only [Function.update_self]
      rcases h0 with h0 | h0
      · -- `l` is empty: then `A` has a single layer, excluded
        have : l = [] := List.length_eq_zero_iff.1 h0
        subst this
        simp at h2; omega
      · rw [if_neg (by omega), Function.update_idem]
        congr 1
        rw [show (List.map (fun p => p.nodes.d axis - 1) l).sum + i axis - A.nodes.d axis + 1 = i axis
          by omega]
        simp
  · intro key
    rw [hk key]
    have hkeys := hg.keys key
    constructor
    · intro hs p hp
      split at hs
      · rename_i va vb h1 h2
        rcases List.mem_append.1 hp with hp | hp
        · exact (hkeys.1 (by rw [h1]; rfl)) p hp
        · simp only [List.mem_singleton] at hp; subst hp; rw [h2]; rfl
      · simp at hs
    · intro hs
      have h1 := hkeys.2 fun p hp => hs p (List.mem_append_left _ hp)
      have h2 := hs b (by simp)
      obtain ⟨va, hva⟩ := Option.isSome_iff_exists.1 h1
      obtain ⟨vb, hvb⟩ := Option.isSome_iff_exists.1 h2
      rw [hva, hvb]; rfl
  · intro k p hp key v w hv hw i hi
    rw [hk key] at hw
    split at hw
    · rename_i va vb h1 h2
      cases hw
      rw [hc]
      have la := (hA.size (key, va) (Dict.get?_mem h1)).1
      have lb := (hb.size (key, vb) (Dict.get?_mem h2)).1
      by_cases hkl : k < l.length
      · rw [List.getElem?_append_left hkl] at hp
        rw [offset_append_left (by omega)]
        have h3 := offset_le (axis := axis) hp
        have h4 := hg.along
        have hin : InShape (cells A.nodes.d)
            (Function.update i axis (offset axis l k + i axis)) := by
          intro ax
          have h5 := hi ax
          by_cases hax : ax = axis
          · subst hax
            have hpd := (hl p (List.mem_of_getElem? hp)).along
            have : cells p.nodes.d ax = p.nodes.d ax - 1 := by
              simp only [cells]; rw [if_neg (by omega)]
            simp only [Function.update_self]; omega
          · rw [Function.update_of_ne hax]
            have := hg.across p (List.mem_of_getElem? hp) ax hax
            simp only [cells] at h5 ⊢; rw [this]; exact h5
        rw [glueArray_left la hin]
        exact hg.data k p hp key v va hv h1 i hi
      · have hkl' : k = l.length := by
          have := (List.getElem?_eq_some_iff.1 hp).1
          simp at this; omega
        subst hkl'
        simp at hp; subst hp
        rw [hv] at h2; cases h2
        rw [offset_length]
        have h4 := hg.along
        rw [show (List.map (fun p => p.nodes.d axis - 1) l).sum = cells A.nodes.d axis by omega]
        exact glueArray_right h lb hi
    · cases hw

theorem Spec.Glued.single {axis : Fin 3} {a : SGrid K δ} (ha : Piece axis a) :
    Glued axis [a] a := by
  have h2 := ha.along
  refine ⟨by simp; omega, by simp, ?_, by simp, ?_⟩
  · intro k p hp i hi _
    cases k with
    | zero =>
      simp only [List.getElem?_cons_zero, Option.some.injEq] at hp; subst hp
      simp [offset]
    | succ k => simp at hp
  · intro k p hp key v w hv hw i hi
    cases k with
    | zero =>
      simp only [List.getElem?_cons_zero, Option.some.injEq] at hp; subst hp
      rw [hv] at hw; cases hw
      simp [offset]
    | succ k => simp at hp

/-- The last layer of the glued grid is the last layer of the last piece. -/
theorem facing_last {axis : Fin 3} {l : List (SGrid K δ)} {q A b : SGrid K δ}
    (hq : Piece axis q) (hg : Glued axis (l ++ [q]) A) :
    Facing axis A b ↔ Facing axis q b := by
  have hqa := hq.along
  have hal := hg.along
  have hac := hg.across q (by simp)
  have hl : (l ++ [q])[l.length]? = some q := by simp
  simp only [List.map_append, List.sum_append, List.map_cons, List.map_nil, List.sum_cons,
    List.sum_nil] at hal
  have key : ∀ i, (∀ ax, ax ≠ axis → i ax < q.nodes.d ax) →
      A.nodes.get (Function.update i axis (A.nodes.d axis - 1)) =
        q.nodes.get (Function.update i axis (q.nodes.d axis - 1)) := by
    intro i hi
    have := hg.nodes l.length q hl (Function.update i axis (q.nodes.d axis - 1))
      (by
        intro ax
        by_cases hax : ax = axis
        · subst hax; simp; omega
        · simpa [Function.update_of_ne hax] using hi ax hax)
      (Or.inr (by simp; omega))
    rw [offset_length] at this
    simp only [Function.update_self, Function.update_idem] at this
    rw [← this]
    congr 2
    omega
  constructor
  · intro H i hi
    have hi' : InShape A.nodes.d i := by
      intro ax
      have := hi ax
      by_cases hax : ax = axis
      · subst hax; omega
      · rw [hac ax hax]; exact this
    have := H i hi'
    rwa [key i fun ax _ => hi ax] at this
  · intro H i hi
    have hi' : InShape q.nodes.d (Function.update i axis 0) := by
      intro ax
      have := hi ax
      by_cases hax : ax = axis
      · subst hax; simp; omega
      · rw [Function.update_of_ne hax, ← hac ax hax]; exact this
    have := H _ hi'
    rw [Function.update_idem, Function.update_idem] at this
    rwa [key i fun ax hax => by rw [← hac ax hax]; exact hi ax]

theorem mergeFold_glued {axis : Fin 3} :
    ∀ (rest : List (SGrid K δ)) (l : List (SGrid K δ)) (q A : SGrid K δ),
      (∀ p ∈ l, Piece axis p) → Piece axis q → Piece axis A → Glued axis (l ++ [q]) A →
      (∀ p ∈ rest, Piece axis p) → (∀ p ∈ rest, ∀ ax, ax ≠ axis → q.nodes.d ax = p.nodes.d ax) →
      (FacingChain axis (q :: rest) →
        ∃ M, mergeFold axis A rest = .ok M ∧ Glued axis (l ++ [q] ++ rest) M) ∧
      (¬ FacingChain axis (q :: rest) → mergeFold axis A rest = .error .valueError) := by
  intro rest
  induction rest with
  | nil =>
    intro l q A _ _ _ hg _ _
    refine ⟨fun _ => ⟨A, rfl, by simpa using hg⟩, fun h => ?_⟩
    exact absurd trivial h
  | cons b rest ih =>
    intro l q A hl hq hA hg hr hac
    have hb := hr b (by simp)
    have hAq := hg.across q (by simp)
    have hAb : ∀ ax, ax ≠ axis → A.nodes.d ax = b.nodes.d ax := fun ax hax =>
      (hAq ax hax).trans (hac b (by simp) ax hax)
    have hfl := facing_last (b := b) hq hg
    have hlq : ∀ p ∈ l ++ [q], Piece axis p := by
      intro p hp
      rcases List.mem_append.1 hp with hp | hp
      · exact hl p hp
      · simp only [List.mem_singleton] at hp; subst hp; exact hq
    by_cases hf : Facing axis q b
    · obtain ⟨M, hM, hMp, hd, hn, hc, hk⟩ := merge2_ok hA hb hAb (hfl.2 hf)
      have hg' := Spec.Glued.snoc hlq hA hb hg hAb hd hn hc hk
      have hqb := hac b (by simp)
      obtain ⟨h1, h2⟩ := ih (l ++ [q]) b M hlq hb hMp hg'
        (fun p hp => hr p (List.mem_cons_of_mem _ hp))
        (fun p hp ax hax => (hqb ax hax).symm.trans (hac p (List.mem_cons_of_mem _ hp) ax hax))
      simp only [mergeFold, hM]
      constructor
      · intro hch
        obtain ⟨M', hM', hG⟩ := h1 hch.2
        exact ⟨M', hM', by simpa [List.append_assoc] using hG⟩
      · intro hch
        exact h2 fun hc2 => hch ⟨hf, hc2⟩
    · have herr := merge2_error (axis := axis) (b := b) hA.across
        (Or.inr fun h => hf (hfl.1 h))
      refine ⟨fun h => absurd h.1 hf, fun _ => ?_⟩
      simp only [mergeFold, herr]

/-- **C18 (partial).** Merging two or more structured grids of the same cross-section along an axis
succeeds exactly when each grid's last layer coincides with the next grid's first layer; the result
is the grids glued together: its size along the axis is the sum minus the shared layers, its nodes
are the nodes of the pieces, its arrays are the arrays common to all pieces, and every cell has the
data it had in its piece.  Grids of different cross-section and a missing axis are rejected.
Missing: vector cell arrays, on which the call raises (`C18_vector_data_refuted`), and pieces that
are flat along the axis. -/
theorem C18_structured_merge_partial (axis : Fin 3) (a b : SGrid K δ) (rest : List (SGrid K δ))
    (hp : ∀ p ∈ a :: b :: rest, Piece axis p) :
    ((∀ p ∈ b :: rest, ∀ ax, ax ≠ axis → a.nodes.d ax = p.nodes.d ax) →
      FacingChain axis (a :: b :: rest) →
      ∃ M, mergeStructured (some axis) (a :: b :: rest) = .ok M ∧
        Glued axis (a :: b :: rest) M) ∧
    ((∀ p ∈ b :: rest, ∀ ax, ax ≠ axis → a.nodes.d ax = p.nodes.d ax) →
      ¬ FacingChain axis (a :: b :: rest) →
      mergeStructured (some axis) (a :: b :: rest) = .error .valueError) ∧
    (¬ (∀ ax, ax ≠ axis → a.nodes.d ax = b.nodes.d ax) →
      mergeStructured (some axis) (a :: b :: rest) = .error .valueError) ∧
    mergeStructured none (a :: b :: rest) = .error .valueError := by
  have ha := hp a (by simp)
  refine ⟨fun hac hf => ?_, fun hac hf => ?_, fun h => ?_, rfl⟩
  · have := (mergeFold_glued (b :: rest) [] a a (by simp) ha ha
      (by simpa using Spec.Glued.single ha)
      (fun p hp' => hp p (List.mem_cons_of_mem _ hp')) hac).1 hf
    simpa [mergeStructured] using this
  · have := (mergeFold_glued (b :: rest) [] a a (by simp) ha ha
      (by simpa using Spec.Glued.single ha)
      (fun p hp' => hp p (List.mem_cons_of_mem _ hp')) hac).2 hf
    simpa [mergeStructured] using this
  · have herr := merge2_error (axis := axis) (b := b) ha.across (Or.inl h)
    simp only [mergeStructured, mergeFold, herr]

/-- A box of unit cells with `nx` cells along x starting at `x0`, one along y, flat along z. -/
def stripGrid (x0 : ℚ) (nx : ℕ) (data : DArr ℤ) : SGrid ℚ ℤ :=
  ⟨⟨![nx + 1, 2, 1], fun i => ![x0 + i 0, (i 1 : ℚ), 0]⟩, [], [("g", data)]⟩

/-- Concrete case meeting the hypotheses: two strips with 2 and 3 cells. -/
example : Piece 0 (stripGrid 0 2 ⟨false, [1, 2]⟩) ∧ Piece 0 (stripGrid 2 3 ⟨false, [3, 4, 5]⟩) ∧
    FacingChain 0 [stripGrid 0 2 ⟨false, [1, 2]⟩, stripGrid 2 3 ⟨false, [3, 4, 5]⟩] := by
  refine ⟨⟨by decide, by decide, by decide, by decide⟩, ⟨by decide, by decide, by decide, by decide⟩,
    ⟨?_, trivial⟩⟩
  intro i _ ax
  fin_cases ax <;> simp [stripGrid] <;> positivity

/-- **C18 (refuted).** Two matching strips with vector cell data cannot be merged. -/
theorem C18_vector_data_refuted :
    FacingChain 0 [stripGrid 0 1 ⟨true, [1]⟩, stripGrid 1 1 ⟨true, [2]⟩] ∧
    mergeStructured (some 0) [stripGrid 0 1 ⟨true, [1]⟩, stripGrid 1 1 ⟨true, [2]⟩] =
      .error .valueError := by
  have hf : FacingChain 0 [stripGrid 0 1 ⟨true, [1]⟩, stripGrid 1 1 ⟨true, [2]⟩] := by
    refine ⟨?_, trivial⟩
    intro i _ ax
    fin_cases ax <;> simp [stripGrid] <;> positivity
  refine ⟨hf, ?_⟩
  have hi := (interfaceClose_iff 0 (stripGrid 0 1 ⟨true, [1]⟩) (stripGrid 1 1 ⟨true, [2]⟩)
    (by decide)).2 hf.1
  have hc : Arr3.concat 0 (stripGrid 0 1 ⟨true, [1]⟩).nodes
      ((stripGrid 1 1 ⟨true, [2]⟩).nodes.tailAxis 0) = .ok ⟨_, _⟩ := if_pos (by decide)
  simp only [mergeStructured, mergeFold, merge2]
  rw [if_neg (by decide), if_neg (by rw [hi]; simp)]
  simp only [hc]
  rfl

end Gridder
