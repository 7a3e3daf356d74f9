import Verif.Model.GenerateU
import Verif.Props.Generate

/-!
# Appending and cleaning unstructured meshes
-/

namespace Gridder
open Spec

variable {K : Type _}

namespace Spec

/-- Point `j` is a node of a cell. -/
def UsedPoint (cells : List (ℤ × Cell)) (j : ℕ) : Prop := ∃ c ∈ cells, j ∈ c.2.ids

/-- The cell with its nodes replaced. -/
def Cell.renamed (f : ℕ → ℕ) : Cell → Cell
  | .nodes ids => .nodes (ids.map f)
  | .polyhedron faces => .polyhedron (faces.map fun face => face.map f)

/-- `clean` removes no point that is in use: the point used instead is related to it by `R` (say, within the
tolerance), and coincident points become one. -/
structure Cleans (R : (Fin 3 → K) → (Fin 3 → K) → Prop)
    (clean : List (Fin 3 → K) → List (ℤ × Cell) → List (Fin 3 → K) × (ℕ → ℕ)) : Prop where
  near : ∀ points cells j p, UsedPoint cells j → points[j]? = some p →
    ∃ q, (clean points cells).1[(clean points cells).2 j]? = some q ∧ R q p
  same : ∀ points cells i j p, UsedPoint cells i → UsedPoint cells j → points[i]? = some p → points[j]? = some p →
    (clean points cells).2 i = (clean points cells).2 j

/-- `pv.merge` appends every mesh once. -/
def AppendsAll (order : ℕ → List ℕ) : Prop := ∀ n, (order n).Perm (List.range n)

/-- `M` consists of the cells of the meshes `qs`: cell `c` of mesh `k` is cell `pos k c`, and its nodes `j` are the
points `node k j`. -/
structure Joined (R : (Fin 3 → K) → (Fin 3 → K) → Prop) (qs : List (UMesh K)) (M : UMesh K) (pos node : ℕ → ℕ → ℕ) :
    Prop where
  size : M.cells.length = (qs.map fun q => q.cells.length).sum
  cover : ∀ n, n < M.cells.length → ∃ k q c, qs[k]? = some q ∧ c < q.cells.length ∧ pos k c = n
  inj : ∀ (k k' : ℕ) q q' c c', qs[k]? = some q → qs[k']? = some q' → c < q.cells.length → c' < q'.cells.length →
    pos k c = pos k' c' → k = k' ∧ c = c'
  cell : ∀ (k : ℕ) q (c : ℕ) t cell, qs[k]? = some q → q.cells[c]? = some (t, cell) →
    M.cells[pos k c]? = some (t, cell.renamed (node k))
  point : ∀ (k : ℕ) q j p, qs[k]? = some q → UsedPoint q.cells j → q.points[j]? = some p →
    ∃ p', M.points[node k j]? = some p' ∧ R p' p
  same : ∀ (k k' : ℕ) q q' j j' p, qs[k]? = some q → qs[k']? = some q' → UsedPoint q.cells j → UsedPoint q'.cells j' →
    q.points[j]? = some p → q'.points[j']? = some p → node k j = node k' j'

/-- The values of the cells of the meshes are those of the cells of `M`. -/
def Carries (qs : List (UMesh K)) (pos : ℕ → ℕ → ℕ) (key : String) (w : DArr ℤ) : Prop :=
  ∀ (k : ℕ) q v c, qs[k]? = some q → Dict.get? q.cellData key = some v → c < q.cells.length →
    w.vals[pos k c]? = v.vals[c]?

end Spec

theorem renumber_eq (f : ℕ → ℕ) (c : Cell) : renumber f c = c.renamed f := by cases c <;> rfl

theorem renamed_ids (f : ℕ → ℕ) (c : Cell) : (c.renamed f).ids = c.ids.map f := by
  cases c with
  | nodes ids => rfl
  | polyhedron faces => simp [Cell.renamed, Cell.ids, List.map_flatten]

theorem renamed_renamed (f g : ℕ → ℕ) (c : Cell) : (c.renamed f).renamed g = c.renamed (g ∘ f) := by
  cases c <;> simp [Cell.renamed]

theorem renamed_id (f : ℕ → ℕ) (hf : ∀ x, f x = x) (c : Cell) : c.renamed f = c := by
  obtain rfl : f = id := funext hf
  cases c <;> simp [Cell.renamed]

theorem renamed_congr {f g : ℕ → ℕ} {c : Cell} (h : ∀ x ∈ c.ids, f x = g x) : c.renamed f = c.renamed g := by
  cases c with
  | nodes ids =>
    simp only [Cell.renamed, Cell.nodes.injEq]
    exact List.map_congr_left h
  | polyhedron faces =>
    simp only [Cell.renamed, Cell.polyhedron.injEq]
    refine List.map_congr_left fun face hf => List.map_congr_left fun x hx => h x ?_
    exact List.mem_flatten.2 ⟨face, hf, hx⟩

/-! ## positions in a concatenation -/

section flat
variable {α : Type _}

/-- Where block `k` starts. -/
def startOf (l : List (List α)) (k : ℕ) : ℕ := ((l.take k).map List.length).sum

theorem startOf_succ (a : List α) (l : List (List α)) (k : ℕ) : startOf (a :: l) (k + 1) = a.length + startOf l k := by
  simp [startOf]

theorem flat_get : ∀ (l : List (List α)) (k c : ℕ) (b : List α), l[k]? = some b → c < b.length →
    l.flatten[startOf l k + c]? = b[c]?
  | [], k, c, b, h, _ => by simp at h
  | a :: l, 0, c, b, h, hc => by
    simp only [List.getElem?_cons_zero, Option.some.injEq] at h; subst h
    simp only [startOf, List.take_zero, List.map_nil, List.sum_nil, Nat.zero_add, List.flatten_cons]
    rw [List.getElem?_append_left hc]
  | a :: l, k + 1, c, b, h, hc => by
    simp only [List.getElem?_cons_succ] at h
    rw [startOf_succ, List.flatten_cons, List.getElem?_append_right (by omega),
      show a.length + startOf l k + c - a.length = startOf l k + c by omega]
    exact flat_get l k c b h hc

theorem flat_cover : ∀ (l : List (List α)) (n : ℕ), n < l.flatten.length →
    ∃ k b c, l[k]? = some b ∧ c < b.length ∧ n = startOf l k + c
  | [], n, h => by simp at h
  | a :: l, n, h => by
    by_cases hn : n < a.length
    · exact ⟨0, a, n, rfl, hn, by simp [startOf]⟩
    · obtain ⟨k, b, c, h1, h2, h3⟩ := flat_cover l (n - a.length) (by
        simp only [List.flatten_cons, List.length_append] at h; omega)
      exact ⟨k + 1, b, c, by simpa using h1, h2, by rw [startOf_succ]; omega⟩

theorem flat_inj : ∀ (l : List (List α)) (k k' c c' : ℕ) (b b' : List α), l[k]? = some b → l[k']? = some b' →
    c < b.length → c' < b'.length → startOf l k + c = startOf l k' + c' → k = k' ∧ c = c'
  | [], k, k', c, c', b, b', h, _, _, _, _ => by simp at h
  | a :: l, 0, 0, c, c', b, b', h, h', hc, hc', he => ⟨rfl, by omega⟩
  | a :: l, 0, k' + 1, c, c', b, b', h, h', hc, hc', he => by
    simp only [List.getElem?_cons_zero, Option.some.injEq] at h; subst h
    rw [startOf_succ] at he
    simp [startOf] at he; omega
  | a :: l, k + 1, 0, c, c', b, b', h, h', hc, hc', he => by
    simp only [List.getElem?_cons_zero, Option.some.injEq] at h'; subst h'
    rw [startOf_succ] at he
    simp [startOf] at he; omega
  | a :: l, k + 1, k' + 1, c, c', b, b', h, h', hc, hc', he => by
    rw [startOf_succ, startOf_succ] at he
    obtain ⟨rfl, rfl⟩ := flat_inj l k k' c c' b b' (by simpa using h) (by simpa using h') hc hc' (by omega)
    exact ⟨rfl, rfl⟩

theorem startOf_congr {β : Type _} (l : List (List α)) (l' : List (List β))
    (h : l.map List.length = l'.map List.length) (k : ℕ) : startOf l k = startOf l' k := by
  simp only [startOf, List.map_take, h]

end flat

/-! ## appending -/

/-- The cells of the appended meshes. -/
def shiftedCells : ℕ → List (UMesh K) → List (List (ℤ × Cell))
  | _, [] => []
  | n, q :: l => (q.cells.map fun c => (c.1, renumber (n + ·) c.2)) :: shiftedCells (n + q.points.length) l

theorem shiftedCells_get : ∀ (l : List (UMesh K)) (n k : ℕ) (q : UMesh K), l[k]? = some q →
    (shiftedCells n l)[k]? =
      some (q.cells.map fun c => (c.1, renumber (n + startOf (l.map fun q => q.points) k + ·) c.2))
  | [], n, k, q, h => by simp at h
  | a :: l, n, 0, q, h => by
    simp only [List.getElem?_cons_zero, Option.some.injEq] at h; subst h
    simp [shiftedCells, startOf]
  | a :: l, n, k + 1, q, h => by
    simp only [List.getElem?_cons_succ] at h
    simp only [shiftedCells, List.getElem?_cons_succ, List.map_cons, startOf_succ]
    rw [shiftedCells_get l _ k q h]
    simp only [Nat.add_assoc]

theorem shiftedCells_lengths : ∀ (l : List (UMesh K)) (n : ℕ),
    (shiftedCells n l).map List.length = l.map fun q => q.cells.length
  | [], n => rfl
  | a :: l, n => by simp [shiftedCells, shiftedCells_lengths l]

theorem appendAll_points : ∀ (l : List (UMesh K)) (a : UMesh K),
    (appendAll a l).points = a.points ++ (l.map fun q => q.points).flatten
  | [], a => by simp [appendAll]
  | b :: l, a => by
    have := appendAll_points l (append2 a b)
    simp only [appendAll, List.foldl_cons] at this ⊢
    rw [this]; simp [append2]

theorem appendAll_cells : ∀ (l : List (UMesh K)) (a : UMesh K),
    (appendAll a l).cells = a.cells ++ (shiftedCells a.points.length l).flatten
  | [], a => by simp [appendAll, shiftedCells]
  | b :: l, a => by
    have := appendAll_cells l (append2 a b)
    simp only [appendAll, List.foldl_cons] at this ⊢
    rw [this]; simp [append2, shiftedCells]

theorem append2_get (a b : UMesh K) (key : String) {v w : DArr ℤ} (hv : Dict.get? a.cellData key = some v)
    (hw : Dict.get? b.cellData key = some w) :
    Dict.get? (append2 a b).cellData key = some ⟨v.vector, v.vals ++ w.vals⟩ := by
  simp only [append2]
  generalize a.cellData = d at hv
  induction d with
  | nil => simp [Dict.get?] at hv
  | cons kv d ih =>
    obtain ⟨k, x⟩ := kv
    simp only [Dict.get?] at hv
    by_cases hk : k = key
    · subst hk
      simp only [if_true, Option.some.injEq] at hv; subst hv
      simp [hw, Dict.get?]
    · rw [if_neg hk] at hv
      rw [List.filterMap_cons]
      split
      · exact ih hv
      · rename_i y hy
        cases hb : Dict.get? b.cellData k with
        | none => rw [hb] at hy; simp at hy
        | some z =>
          rw [hb] at hy
          simp only [Option.map_some, Option.some.injEq] at hy
          subst hy
          simp only [Dict.get?, if_neg hk]
          exact ih hv

theorem append2_keys (a b : UMesh K) (h : (a.cellData.map Prod.fst).Nodup) :
    ((append2 a b).cellData.map Prod.fst).Nodup := by
  refine h.sublist ?_
  simp only [append2]
  generalize a.cellData = d
  induction d with
  | nil => simp
  | cons kv d ih =>
    rw [List.filterMap_cons]
    split
    · simpa using ih.cons _
    · rename_i y hy
      cases hb : Dict.get? b.cellData kv.1 with
      | none => rw [hb] at hy; simp at hy
      | some z =>
        rw [hb] at hy
        simp only [Option.map_some, Option.some.injEq] at hy
        subst hy
        simpa using ih

theorem appendAll_keys : ∀ (l : List (UMesh K)) (a : UMesh K), (a.cellData.map Prod.fst).Nodup →
    ((appendAll a l).cellData.map Prod.fst).Nodup
  | [], a, h => h
  | b :: l, a, h => appendAll_keys l (append2 a b) (append2_keys a b h)

/-- The array of a mesh, empty if it has none. -/
def valsOf (key : String) (q : UMesh K) : List ℤ := ((Dict.get? q.cellData key).map fun v => v.vals).getD []

theorem appendAll_get (key : String) : ∀ (l : List (UMesh K)) (a : UMesh K) (v : DArr ℤ),
    Dict.get? a.cellData key = some v → (∀ q ∈ l, ∃ w, Dict.get? q.cellData key = some w) →
    ∃ b, Dict.get? (appendAll a l).cellData key = some ⟨b, v.vals ++ (l.map (valsOf key)).flatten⟩
  | [], a, v, hv, _ => ⟨v.vector, by simp [appendAll, hv]⟩
  | b :: l, a, v, hv, hl => by
    obtain ⟨w, hw⟩ := hl b (by simp)
    obtain ⟨x, hx⟩ := appendAll_get key l (append2 a b) _ (append2_get a b key hv hw)
      (fun q hq => hl q (List.mem_cons_of_mem _ hq))
    refine ⟨x, ?_⟩
    simp only [appendAll, List.foldl_cons] at hx ⊢
    rw [hx]
    simp [valsOf, hw]

theorem filterMap_get {α : Type _} (qs : List α) : ∀ (ord : List ℕ), (∀ k ∈ ord, k < qs.length) → ∀ i k : ℕ,
    ord[i]? = some k → (ord.filterMap fun k => qs[k]?)[i]? = qs[k]?
  | [], _, i, k, h => by simp at h
  | a :: ord, hl, i, k, h => by
    have ha := hl a (by simp)
    rw [List.filterMap_cons, List.getElem?_eq_getElem ha]
    cases i with
    | zero =>
      simp only [List.getElem?_cons_zero, Option.some.injEq] at h; subst h
      simp [List.getElem?_eq_getElem ha]
    | succ i =>
      simp only [List.getElem?_cons_succ] at h ⊢
      exact filterMap_get qs ord (fun k hk => hl k (List.mem_cons_of_mem _ hk)) i k h

theorem filterMap_length {α : Type _} (qs : List α) : ∀ (ord : List ℕ), (∀ k ∈ ord, k < qs.length) →
    (ord.filterMap fun k => qs[k]?).length = ord.length
  | [], _ => rfl
  | a :: ord, hl => by
    have ha := hl a (by simp)
    rw [List.filterMap_cons, List.getElem?_eq_getElem ha]
    simp [filterMap_length qs ord fun k hk => hl k (List.mem_cons_of_mem _ hk)]

/-- What `merge` returns: blocks in the order of the oracle. -/
theorem mergeU_ok {o : VtkOracle K} (ho : AppendsAll o.order) (qs : List (UMesh K)) (hne : qs ≠ [])
    (hkeys : ∀ q ∈ qs, (q.cellData.map Prod.fst).Nodup)
    (hsize : ∀ q ∈ qs, ∀ key v, Dict.get? q.cellData key = some v → v.vals.length = q.cells.length) :
    ∃ (M : UMesh K) (pos start : ℕ → ℕ → ℕ), mergeU o qs = .ok M ∧ (M.cellData.map Prod.fst).Nodup ∧
      M.cells.length = (qs.map fun q => q.cells.length).sum ∧
      (∀ n, n < M.cells.length → ∃ k q c, qs[k]? = some q ∧ c < q.cells.length ∧ pos k c = n) ∧
      (∀ (k k' : ℕ) q q' c c', qs[k]? = some q → qs[k']? = some q' → c < q.cells.length → c' < q'.cells.length →
        pos k c = pos k' c' → k = k' ∧ c = c') ∧
      (∀ (k : ℕ) q (c : ℕ) t cell, qs[k]? = some q → q.cells[c]? = some (t, cell) →
        M.cells[pos k c]? = some (t, cell.renamed (start k))) ∧
      (∀ (k : ℕ) q j p, qs[k]? = some q → q.points[j]? = some p → M.points[start k j]? = some p) ∧
      ∀ key, (∀ q ∈ qs, ∃ v, Dict.get? q.cellData key = some v) →
        ∃ w, Dict.get? M.cellData key = some w ∧ w.vals.length = M.cells.length ∧ Carries qs pos key w := by
  match qs, hne with
  | [q], _ =>
    refine ⟨q, fun _ c => c, fun _ j => j, rfl, hkeys q (by simp), by simp, ?_, ?_, ?_, ?_, ?_⟩
    · intro n hn; exact ⟨0, q, n, rfl, hn, rfl⟩
    · intro k k' q1 q2 c c' h1 h2 _ _ h
      have e1 : k = 0 := by have := (List.getElem?_eq_some_iff.1 h1).1; simp at this; exact this
      have e2 : k' = 0 := by have := (List.getElem?_eq_some_iff.1 h2).1; simp at this; exact this
      exact ⟨by omega, h⟩
    · intro k q1 c t cell h1 h2
      have e1 : k = 0 := by have := (List.getElem?_eq_some_iff.1 h1).1; simp at this; exact this
      subst e1
      simp only [List.getElem?_cons_zero, Option.some.injEq] at h1; subst h1
      rw [h2, renamed_id _ fun _ => rfl]
    · intro k q1 j p h1 h2
      have e1 : k = 0 := by have := (List.getElem?_eq_some_iff.1 h1).1; simp at this; exact this
      subst e1
      simp only [List.getElem?_cons_zero, Option.some.injEq] at h1; subst h1
      exact h2
    · intro key h
      obtain ⟨v, hv⟩ := h q (by simp)
      refine ⟨v, hv, hsize q (by simp) key v hv, ?_⟩
      intro k q1 v1 c h1 h2 _
      have e1 : k = 0 := by have := (List.getElem?_eq_some_iff.1 h1).1; simp at this; exact this
      subst e1
      simp only [List.getElem?_cons_zero, Option.some.injEq] at h1; subst h1
      rw [hv] at h2; cases h2; rfl
  | q0 :: q1 :: rest, _ =>
    set qs := q0 :: q1 :: rest with hqs
    have hlen : rest.length + 2 = qs.length := by simp [hqs]
    set ord := o.order qs.length with hord
    have hperm : ord.Perm (List.range qs.length) := ho _
    have hmem : ∀ k, k ∈ ord ↔ k < qs.length := fun k => by rw [hperm.mem_iff, List.mem_range]
    have hol : ord.length = qs.length := by rw [hperm.length_eq, List.length_range]
    have hnd : ord.Nodup := hperm.nodup_iff.2 List.nodup_range
    set l := ord.filterMap fun k => qs[k]? with hl
    have hll : l.length = qs.length := by rw [hl, filterMap_length qs ord fun k hk => (hmem k).1 hk, hol]
    have hlget : ∀ i k : ℕ, ord[i]? = some k → l[i]? = qs[k]? :=
      filterMap_get qs ord fun k hk => (hmem k).1 hk
    have hidx : ∀ k, k < qs.length → ord[ord.idxOf k]? = some k := by
      intro k hk
      have := List.idxOf_lt_length_of_mem ((hmem k).2 hk)
      rw [List.getElem?_eq_getElem this, List.getElem_idxOf]
    have hlk : ∀ (k : ℕ) q, qs[k]? = some q → l[ord.idxOf k]? = some q := by
      intro k q h
      rw [hlget _ k (hidx k (List.getElem?_eq_some_iff.1 h).1), h]
    have hlmem : ∀ q ∈ l, q ∈ qs := by
      intro q hq
      obtain ⟨i, hi⟩ := List.getElem?_of_mem hq
      have hi' : i < ord.length := by rw [hol, ← hll]; exact (List.getElem?_eq_some_iff.1 hi).1
      rw [hlget i _ (List.getElem?_eq_getElem hi')] at hi
      exact List.mem_of_getElem? hi
    have hlperm : l.Perm qs := by
      have h1 := hperm.filterMap fun k => qs[k]?
      have h2 : (List.range qs.length).filterMap (fun k => qs[k]?) = qs := by
        apply List.ext_getElem?
        intro i
        by_cases hi : i < qs.length
        · exact filterMap_get qs _ (fun k hk => List.mem_range.1 hk) i i (List.getElem?_range hi)
        · rw [List.getElem?_eq_none (by rw [filterMap_length qs _ fun k hk => List.mem_range.1 hk]; simpa using hi),
            List.getElem?_eq_none (by omega)]
      rwa [h2] at h1
    obtain ⟨p, ps, hp⟩ : ∃ p ps, l = p :: ps := by
      cases h : l with
      | nil => rw [h] at hll; simp at hll
      | cons p ps => exact ⟨p, ps, rfl⟩
    have hM : mergeU o qs = .ok (appendAll p ps) := by
      have h0 : mergeU o (q0 :: q1 :: rest) = match (o.order (rest.length + 2)).filterMap fun k => qs[k]? with
        | [] => .error .valueError
        | p :: ps => .ok (appendAll p ps) := rfl
      rw [h0, hlen, ← hord, ← hl, hp]
    have hcells : (appendAll p ps).cells = (shiftedCells 0 l).flatten := by
      rw [appendAll_cells, hp]
      simp only [shiftedCells, List.flatten_cons, Nat.zero_add]
      congr 1
      rw [List.map_congr_left (g := id)]
      · simp
      · intro c _
        simp only [renumber_eq, renamed_id (fun x => x) fun _ => rfl]; rfl
    have hpoints : (appendAll p ps).points = (l.map fun q => q.points).flatten := by
      rw [appendAll_points, hp]; simp
    have hlens : (shiftedCells 0 l).map List.length = l.map fun q => q.cells.length := shiftedCells_lengths l 0
    refine ⟨appendAll p ps, fun k c => startOf (shiftedCells 0 l) (ord.idxOf k) + c,
      fun k j => startOf (l.map fun q => q.points) (ord.idxOf k) + j, hM, ?_, ?_, ?_, ?_, ?_, ?_, ?_⟩
    · exact appendAll_keys ps p (hkeys p (hlmem p (by rw [hp]; simp)))
    · rw [hcells, List.length_flatten, hlens]
      exact (hlperm.map _).sum_eq
    · intro n hn
      rw [hcells] at hn
      obtain ⟨i, b, c, h1, h2, h3⟩ := flat_cover _ n hn
      have hi : i < ord.length := by
        have := (List.getElem?_eq_some_iff.1 h1).1
        have h4 := congrArg List.length hlens
        simp only [List.length_map] at h4
        omega
      have hk : ord[i] < qs.length := (hmem _).1 (List.getElem_mem hi)
      have hq := hlget i _ (List.getElem?_eq_getElem hi)
      rw [List.getElem?_eq_getElem hk] at hq
      refine ⟨ord[i], qs[ord[i]], c, List.getElem?_eq_getElem hk, ?_, ?_⟩
      · have := shiftedCells_get l 0 i _ hq
        rw [h1] at this
        simp only [Option.some.injEq] at this
        rw [this] at h2; simpa using h2
      · simp only
        rw [hnd.idxOf_getElem, h3]
    · intro k k' q q' c c' h1 h2 hc hc' he
      have g1 := shiftedCells_get l 0 _ q (hlk k q h1)
      have g2 := shiftedCells_get l 0 _ q' (hlk k' q' h2)
      obtain ⟨e1, e2⟩ := flat_inj _ _ _ _ _ _ _ g1 g2 (by simpa using hc) (by simpa using hc') he
      refine ⟨?_, e2⟩
      have := hidx k (List.getElem?_eq_some_iff.1 h1).1
      rw [e1, hidx k' (List.getElem?_eq_some_iff.1 h2).1] at this
      exact (Option.some.inj this).symm
    · intro k q c t cell h1 h2
      have g1 := shiftedCells_get l 0 _ q (hlk k q h1)
      have hc := (List.getElem?_eq_some_iff.1 h2).1
      rw [hcells, flat_get _ _ c _ g1 (by simpa using hc), List.getElem?_map, h2]
      simp [renumber_eq]
    · intro k q j x h1 h2
      have hj := (List.getElem?_eq_some_iff.1 h2).1
      rw [hpoints, flat_get _ _ j q.points (by rw [List.getElem?_map, hlk k q h1]; rfl) hj, h2]
    · intro key hk
      have hk' : ∀ q ∈ l, ∃ v, Dict.get? q.cellData key = some v := fun q hq => hk q (hlmem q hq)
      obtain ⟨v, hv⟩ := hk' p (by rw [hp]; simp)
      obtain ⟨b, hb⟩ := appendAll_get key ps p v hv (fun q hq => hk' q (by rw [hp]; simp [hq]))
      have hvals : v.vals ++ (ps.map (valsOf key)).flatten = (l.map (valsOf key)).flatten := by
        rw [hp]; simp [valsOf, hv]
      have hvl : (l.map (valsOf key)).map List.length = l.map fun q => q.cells.length := by
        rw [List.map_map]
        refine List.map_congr_left fun q hq => ?_
        obtain ⟨w, hw⟩ := hk' q hq
        simp only [Function.comp, valsOf, hw, Option.map_some, Option.getD_some]
        exact hsize q (hlmem q hq) key w hw
      refine ⟨_, hb, ?_, ?_⟩
      · simp only [hvals, hcells, List.length_flatten, hvl, hlens]
      · intro k q w c h1 h2 hc
        have hw : valsOf key q = w.vals := by simp [valsOf, h2]
        have hwl := hsize q (List.mem_of_getElem? h1) key w h2
        simp only [hvals]
        rw [startOf_congr _ (l.map (valsOf key)) (by rw [hlens, hvl])]
        exact flat_get _ _ c _ (by rw [List.getElem?_map, hlk k q h1]; simp [hw]) (by omega)

/-! ## cleaning -/

theorem usedPoint_merged {q M : UMesh K} {pos start : ℕ → ℕ}
    (h : ∀ (c : ℕ) t cell, q.cells[c]? = some (t, cell) → M.cells[pos c]? = some (t, cell.renamed start)) {j : ℕ}
    (hj : UsedPoint q.cells j) : UsedPoint M.cells (start j) := by
  obtain ⟨⟨t, cell⟩, hm, hx⟩ := hj
  obtain ⟨c, hc⟩ := List.getElem?_of_mem hm
  refine ⟨_, List.mem_of_getElem? (h c t cell hc), ?_⟩
  simp only [renamed_ids]
  exact List.mem_map_of_mem hx

/-- `merge` and `_clean` of meshes with groups: all of them are in the result, cell by cell. -/
theorem mergeClean_ok {R : V3 K → V3 K → Prop} {o : VtkOracle K} (ho : AppendsAll o.order) (hc : Cleans R o.clean)
    (qs : List (UMesh K)) (hne : qs ≠ []) (hkeys : ∀ q ∈ qs, (q.cellData.map Prod.fst).Nodup)
    (hsize : ∀ q ∈ qs, ∀ key v, Dict.get? q.cellData key = some v → v.vals.length = q.cells.length)
    {groups : Dict String Int} (hd : DenseTable groups)
    (hg : ∀ q ∈ qs, ∃ g, Dict.get? q.cellData "CellGroup" = some g ∧ ∀ c ∈ g.vals, ∃ s, (s, c) ∈ groups) :
    ∃ m M table pos node, mergeU o qs = .ok m ∧ cleanU o m groups = .ok (M, table) ∧ Joined R qs M pos node ∧
      DenseTable table ∧
      (∀ key, key ≠ "vtkGhostType" → key ≠ "CellGroup" → (∀ q ∈ qs, ∃ v, Dict.get? q.cellData key = some v) →
        ∃ w, Dict.get? M.cellData key = some w ∧ Carries qs pos key w) ∧
      ((∀ q ∈ qs, ∃ v, Dict.get? q.cellData "vtkGhostType" = some v) → ∀ (k : ℕ) q c, qs[k]? = some q →
        c < q.cells.length → ghostOf M.cellData (pos k c) = ghostOf q.cellData c) ∧
      ∃ w, Dict.get? M.cellData "CellGroup" = some w ∧ w.vals.length = M.cells.length ∧
        (∀ kv ∈ table, kv.2 ∈ w.vals) ∧
        ∀ (k : ℕ) q g c s, qs[k]? = some q → Dict.get? q.cellData "CellGroup" = some g → c < q.cells.length →
          CellNamed groups g.vals c s → CellNamed table w.vals (pos k c) s := by
  obtain ⟨m, pos, start, h1, h2, h3, h4, h5, h6, h7, h8⟩ := mergeU_ok ho qs hne hkeys hsize
  obtain ⟨w, hw, hwl, hwc⟩ := h8 "CellGroup" fun q hq => by obtain ⟨g, hg, _⟩ := hg q hq; exact ⟨g, hg⟩
  have hcov : ∀ x ∈ w.vals, ∃ s, (s, x) ∈ groups := by
    intro x hx
    obtain ⟨n, hn⟩ := List.getElem?_of_mem hx
    obtain ⟨k, q, c, e1, e2, rfl⟩ := h4 n (by rw [← hwl]; exact (List.getElem?_eq_some_iff.1 hn).1)
    obtain ⟨g, g1, g2⟩ := hg q (List.mem_of_getElem? e1)
    rw [hwc k q g c e1 g1 e2] at hn
    exact g2 x (List.mem_of_getElem? hn)
  obtain ⟨data', table', e1, e2, e3, e4, _⟩ := C08_clean hd hcov
  refine ⟨m, ⟨(o.clean m.points m.cells).1,
      m.cells.map fun x => (x.1, renumber (o.clean m.points m.cells).2 x.2),
      Dict.set (dropGhost m.cellData) "CellGroup" ⟨w.vector, data'⟩⟩, table', pos,
    fun k j => (o.clean m.points m.cells).2 (start k j), h1, ?_, ?_, e2, ?_, ?_, ?_⟩
  · simp only [cleanU, dropGhost_get h2 (k := "CellGroup") (by decide), hw, e1]
  · refine ⟨by simpa using h3, by simpa using h4, h5, ?_, ?_, ?_⟩
    · intro k q c t cell f1 f2
      simp only [List.getElem?_map, h6 k q c t cell f1 f2, Option.map_some, renumber_eq, renamed_renamed]
      rfl
    · intro k q j p f1 f2 f3
      exact hc.near _ _ _ p (usedPoint_merged (fun c t cell => h6 k q c t cell f1) f2) (h7 k q j p f1 f3)
    · intro k k' q q' j j' p f1 f1' f2 f2' f3 f3'
      exact hc.same _ _ _ _ p (usedPoint_merged (fun c t cell => h6 k q c t cell f1) f2)
        (usedPoint_merged (fun c t cell => h6 k' q' c t cell f1') f2') (h7 k q j p f1 f3) (h7 k' q' j' p f1' f3')
  · intro key k1 k2 hall
    obtain ⟨v, v1, _, v3⟩ := h8 key hall
    refine ⟨v, ?_, v3⟩
    simp only
    rw [Dict.get?_set, if_neg (Ne.symm k2), dropGhost_get h2 k1, v1]
  · intro hall k q c f1 f2
    obtain ⟨v, v1, _, v3⟩ := h8 "vtkGhostType" hall
    obtain ⟨u, hu⟩ := hall q (List.mem_of_getElem? f1)
    have : ghostOf (Dict.set (dropGhost m.cellData) "CellGroup" ⟨w.vector, data'⟩) (pos k c) =
        ghostOf (dropGhost m.cellData) (pos k c) := by
      simp only [ghostOf]
      rw [Dict.get?_set, if_neg (by decide)]
    simp only
    rw [this, dropGhost_ghostOf h2]
    simp only [ghostOf, v1, hu, List.getD_eq_getElem?_getD, v3 k q u c f1 hu f2]
  · refine ⟨⟨w.vector, data'⟩, by simp only; rw [Dict.get?_set, if_pos rfl], ?_, ?_, ?_⟩
    · simp only [List.length_map]
      rw [← e3.1, hwl]
    · rintro ⟨s, c⟩ hkv
      have hs : s ∈ table'.map Prod.fst := List.mem_map.2 ⟨_, hkv, rfl⟩
      rw [e4] at hs
      obtain ⟨⟨s', c0⟩, g1, g2⟩ := List.mem_map.1 hs
      simp only at g2; subst g2
      obtain ⟨g3, g4⟩ := List.mem_filter.1 g1
      simp only [decide_eq_true_eq] at g4
      obtain ⟨n, hn⟩ := List.getElem?_of_mem g4
      obtain ⟨c1, l1, l2⟩ := (e3.2 n s').1 ⟨c0, hn, g3⟩
      have : c1 = c := by
        have := Dict.get?_of_mem e2.1 l2
        rw [Dict.get?_of_mem e2.1 hkv] at this; exact (Option.some.inj this).symm
      subst this
      exact List.mem_of_getElem? l1
    · intro k q g c s f1 f2 f3 f4
      refine (e3.2 _ _).1 ?_
      obtain ⟨x, x1, x2⟩ := f4
      exact ⟨x, by rw [hwc k q g c f1 f2 f3]; exact x1, x2⟩

/-! ## the loop over the items -/

section
variable {τ ρ : Type _}

theorem labelU_ok {key : String} (hkey : key ≠ "LayerId" ∧ key ≠ "ColumnId") {nA : Option ℕ} {nl i n ns : ℕ}
    {p : UMesh K} (hp : Arrays p.cells.length p.cellData)
    (hn : (nA = some n ∧ 0 < n ∧ p.cells.length = n * ns) ∨ (nA = none ∧ n = p.cells.length ∧ ns = 1)) :
    ∃ q, labelU key nA nl i p = .ok (q, ns) ∧ q.points = p.points ∧ q.cells = p.cells ∧
      Arrays q.cells.length q.cellData ∧
      Dict.get? q.cellData "LayerId" = some ⟨false, layerIds ns nl n⟩ ∧
      Dict.get? q.cellData "ColumnId" = some ⟨false, columnsU nA (n * ns) ns⟩ ∧
      Dict.get? q.cellData key = some ⟨false, itemIds (n * ns) i⟩ ∧
      (∀ k, k ≠ "LayerId" → k ≠ "ColumnId" → k ≠ key → Dict.get? q.cellData k = Dict.get? p.cellData k) := by
  have hlen : p.cells.length = n * ns := by
    rcases hn with h | ⟨_, rfl, rfl⟩
    · exact h.2.2
    · simp
  have h0 : nA ≠ some 0 := by
    rcases hn with ⟨rfl, h, _⟩ | ⟨rfl, _⟩
    · simp; omega
    · simp
  have hnsub : sublayersU nA p.cells.length = ns := by
    rcases hn with ⟨rfl, h, h'⟩ | ⟨rfl, _, rfl⟩
    · simp [sublayersU, h', Nat.mul_div_cancel_left _ h]
    · rfl
  have hgetD : nA.getD p.cells.length = n := by
    rcases hn with ⟨rfl, _, _⟩ | ⟨rfl, rfl, _⟩ <;> rfl
  have hcol : (columnsU nA (n * ns) ns).length = n * ns := by
    rcases hn with ⟨rfl, _, _⟩ | ⟨rfl, _, _⟩
    · simp [columnsU, columnIds_length]
    · simp [columnsU]
  let cd := Dict.set (Dict.set (Dict.set p.cellData "ColumnId" ⟨false, columnsU nA (n * ns) ns⟩)
    "LayerId" ⟨false, layerIds ns nl n⟩) key ⟨false, itemIds (n * ns) i⟩
  have hnd : (cd.map Prod.fst).Nodup :=
    Dict.set_keys_nodup (Dict.set_keys_nodup (Dict.set_keys_nodup hp.2))
  have hget : ∀ k, Dict.get? cd k = if key = k then some ⟨false, itemIds (n * ns) i⟩
      else if "LayerId" = k then some ⟨false, layerIds ns nl n⟩
      else if "ColumnId" = k then some ⟨false, columnsU nA (n * ns) ns⟩
      else Dict.get? p.cellData k := by
    intro k
    simp only [cd, Dict.get?_set]
  refine ⟨⟨p.points, p.cells, cd⟩, ?_, rfl, rfl, ?_, ?_, ?_, ?_, ?_⟩
  · simp only [labelU, if_neg h0, hgetD]
    rw [hlen] at hnsub; simp only [hlen, hnsub]
    simp only [setArray, hcol, layerIds_length, itemIds, List.length_replicate, if_true]
    rfl
  · refine ⟨?_, hnd⟩
    rintro ⟨k, v⟩ hkv
    have := Dict.get?_of_mem hnd hkv
    rw [hget] at this
    simp only
    split at this
    · cases this; rw [hlen]; simp [itemIds]
    split at this
    · cases this; rw [hlen]; simp [layerIds_length]
    split at this
    · cases this; rw [hlen]; exact hcol
    · exact hp.1 (k, v) (Dict.get?_mem this)
  · simp only; rw [hget]; simp [hkey.1]
  · simp only; rw [hget]; simp [hkey.2]
  · simp only; rw [hget]; simp
  · intro k h1 h2 h3
    simp only; rw [hget]; simp [Ne.symm h1, Ne.symm h2, Ne.symm h3]

end

end Gridder
