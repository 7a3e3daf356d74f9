import Verif.Model.CellOps
import Verif.Props.Lines
import Verif.Props.MeshExtrude
import Verif.Lemmas.Extrude
import Verif.Lemmas.Remap
import Mathlib.Tactic.IntervalCases

/-! # C52-C54: quadratic cells, cells by dimension, ghost cells -/

namespace Gridder

open Spec

/-! ## C52 -/

section quadratic
variable {K : Type*} [Field K]

theorem edgeMiddles_length (pts : List (V3 K)) : (edgeMiddles pts).length = pts.length := by
  simp [edgeMiddles]

theorem edgeMiddles_get (pts : List (V3 K)) {j n : ℕ} (hj : j < pts.length) (hn : pts.length = n) :
    (edgeMiddles pts)[j]? = some fun ax => (1 / 2) *
      (pts[j] ax + (pts[(j + 1) % n]'(hn ▸ Nat.mod_lt _ (by omega))) ax) := by
  subst hn
  have hr : j < (pts.rotate 1).length := by simpa using hj
  unfold edgeMiddles
  rw [List.getElem?_zipWith, List.getElem?_eq_getElem hj, List.getElem?_eq_getElem hr]
  simp [List.getElem_rotate]

/-- What the loop adds: the new node numbers of each cell. -/
theorem quadraticLoop_ok (points : List (V3 K)) : ∀ (cells : List (ℕ × List ℕ)) (n : ℕ)
    (types flat : List ℕ) (more : List (V3 K)),
    quadraticLoop points n cells = .ok (types, flat, more) →
    ∃ new : List (List ℕ),
      readCells (fun t => t == 42) types flat =
        some ((cells.zip new).map fun cn => .nodes (cn.1.2 ++ cn.2)) ∧
      new.length = cells.length ∧ new.flatten = (List.range more.length).map (· + n) ∧
      types.length = cells.length ∧
      ∀ (c : ℕ) (cell : ℕ × List ℕ) (ids : List ℕ), cells[c]? = some cell → new[c]? = some ids →
        (cell.1 = 5 ∧ types[c]? = some 22 ∨ cell.1 = 9 ∧ types[c]? = some 23) ∧
        ∃ pts, gather points cell.2 = .ok pts ∧
          along (List.replicate n 0 ++ more) ids = (edgeMiddles pts).map some := by
  intro cells
  induction cells with
  | nil =>
    intro n types flat more h
    cases h
    exact ⟨[], by simp [readCells]⟩
  | cons cell cells ih =>
    intro n types flat more h
    obtain ⟨t, cids⟩ := cell
    simp only [quadraticLoop] at h
    split at h
    · cases h
    rename_i qt hqt
    split at h
    · cases h
    rename_i pts hpts
    split at h
    · cases h
    rename_i ts fl mo hrest
    cases h
    obtain ⟨new, h1, h2, h3, h4, h5⟩ := ih _ _ _ _ hrest
    have hq : qt ≠ 42 := by
      unfold quadraticType at hqt
      split at hqt
      · cases hqt; decide
      · split at hqt
        · cases hqt; decide
        · cases hqt
    refine ⟨(List.range (edgeMiddles pts).length).map (· + n) :: new, ?_, by simp [h2], ?_,
      by simp [h4], ?_⟩
    · simp only [List.cons_append, readCells, List.zip_cons_cons, List.map_cons]
      have : readCell (qt == 42) ((cids ++ (List.range (edgeMiddles pts).length).map (· + n)).length ::
          ((cids ++ (List.range (edgeMiddles pts).length).map (· + n)) ++ fl)) =
          some (.nodes (cids ++ (List.range (edgeMiddles pts).length).map (· + n)), fl) := by
        simp only [readCell]
        rw [readBlock_self]
        simp [hq]
      rw [this]
      simp only [h1]
    · simp only [List.flatten_cons, h3, List.length_append, List.range_add, List.map_append,
        List.map_map]
      congr 1
      apply List.map_congr_left
      intro a _
      simp only [Function.comp]
      omega
    · intro c cell ids hc hids
      cases c with
      | zero =>
        simp only [List.getElem?_cons_zero, Option.some.injEq] at hc hids
        subst hc hids
        refine ⟨?_, pts, hpts, ?_⟩
        · unfold quadraticType at hqt
          split at hqt
          · cases hqt; left; simp_all
          · split at hqt
            · cases hqt; right; simp_all
            · cases hqt
        · apply List.ext_getElem?
          intro j
          simp only [along, List.map_map, List.getElem?_map]
          rcases Nat.lt_or_ge j (edgeMiddles pts).length with hj | hj
          · rw [List.getElem?_range hj, List.getElem?_eq_getElem hj]
            simp only [Option.map_some, Function.comp]
            rw [List.getElem?_append_right (by simp)]
            simp only [List.length_replicate, Nat.add_sub_cancel]
            rw [List.getElem?_append_left hj, List.getElem?_eq_getElem hj]
          · rw [List.getElem?_eq_none (by simpa using hj), List.getElem?_eq_none hj]
            rfl
      | succ c =>
        simp only [List.getElem?_cons_succ] at hc hids ⊢
        obtain ⟨h6, pts', h7, h8⟩ := h5 c cell ids hc hids
        refine ⟨h6, pts', h7, ?_⟩
        rw [← h8]
        unfold along
        apply List.map_congr_left
        intro i hi
        have hi2 : i ∈ new.flatten := List.mem_flatten.2 ⟨ids, List.mem_of_getElem? hids, hi⟩
        rw [h3] at hi2
        obtain ⟨k, _, hk⟩ := List.mem_map.1 hi2
        rw [List.getElem?_append_right (by simp; omega), List.getElem?_append_right (by simp; omega),
          List.getElem?_append_right (by simp; omega)]
        simp only [List.length_replicate]
        congr 1
        omega

/-- **C52**: if quadraticize returns, the old points come first; cell `c` consists of its own nodes, then
of new nodes of its own (the new nodes, cell after cell, are all the numbers added, in order), the `j`-th
being the middle of edge `j`; triangles and quads become quadratic ones. -/
theorem C52_quadraticize [LinearOrder K] [IsStrictOrderedRing K] (points : List (V3 K)) (cells : List (ℕ × List ℕ))
    (types flat : List ℕ) (pts : List (V3 K))
    (h : quadraticize points cells = .ok (types, flat, pts)) :
    points <+: pts ∧ types.length = cells.length ∧ ∃ new : List (List ℕ),
      readCells (fun t => t == 42) types flat =
        some ((cells.zip new).map fun cn => .nodes (cn.1.2 ++ cn.2)) ∧
      new.length = cells.length ∧
      new.flatten = (List.range (pts.length - points.length)).map (· + points.length) ∧
      ∀ (c t : ℕ) (ids : List ℕ), cells[c]? = some (t, ids) →
        (t = 5 ∧ types[c]? = some 22 ∨ t = 9 ∧ types[c]? = some 23) ∧
        ∃ n, new[c]? = some n ∧ n.length = ids.length ∧
          ∀ (j a b m : ℕ), ids[j]? = some a → ids[(j + 1) % ids.length]? = some b → n[j]? = some m →
            ∃ pa pb pm : V3 K, points[a]? = some pa ∧ points[b]? = some pb ∧ pts[m]? = some pm ∧
              ∀ ax, 2 * pm ax = pa ax + pb ax := by
  unfold quadraticize at h
  split at h
  · cases h
  rename_i ts fl mo hloop
  split at h
  · cases h
  cases h
  obtain ⟨new, h1, h2, h3, h4, h5⟩ := quadraticLoop_ok points _ _ _ _ _ hloop
  refine ⟨List.prefix_append _ _, h4, new, h1, h2, by simpa using h3, ?_⟩
  intro c t ids hc
  have hcl : c < new.length := by rw [h2]; exact (List.getElem?_eq_some_iff.1 hc).1
  obtain ⟨h6, ps, h7, h8⟩ := h5 c (t, ids) new[c] hc (List.getElem?_eq_getElem hcl)
  have hlen : new[c].length = ids.length := by
    have := congrArg List.length h8
    simpa [along, edgeMiddles_length, gather_length h7] using this
  refine ⟨h6, new[c], List.getElem?_eq_getElem hcl, hlen, ?_⟩
  intro j a b m ha hb hm
  have hps := gather_ok_iff.1 h7
  have hpl : ps.length = ids.length := gather_length h7
  have hj : j < ids.length := (List.getElem?_eq_some_iff.1 ha).1
  have hpj : ∀ (i a : ℕ), ids[i]? = some a → points[a]? = ps[i]? := by
    intro i a hi
    have hil : i < ps.length := by rw [hpl]; exact (List.getElem?_eq_some_iff.1 hi).1
    have := congrArg (fun l => l[i]?) hps
    simp only [along, List.getElem?_map, hi, Option.map_some, List.getElem?_eq_getElem hil] at this
    rw [List.getElem?_eq_getElem hil]
    simpa using this.symm
  have hja := hpj j a ha
  have hjb := hpj _ b hb
  have hjl : j < ps.length := by omega
  have hj1 : (j + 1) % ids.length < ps.length := by
    rw [hpl]; exact Nat.mod_lt _ (by omega)
  rw [List.getElem?_eq_getElem hjl] at hja
  rw [List.getElem?_eq_getElem hj1] at hjb
  refine ⟨_, _, fun ax => (1 / 2) * (ps[j] ax + ps[(j + 1) % ids.length] ax), hja, hjb, ?_, ?_⟩
  · have := congrArg (fun l => l[j]?) h8
    simp only [along, List.getElem?_map, hm, Option.map_some] at this
    rw [edgeMiddles_get ps hjl hpl] at this
    simp only [Option.map_some, Option.some.injEq] at this
    have hmn : points.length ≤ m := by
      have hm2 : m ∈ new.flatten :=
        List.mem_flatten.2 ⟨_, List.getElem_mem hcl, List.mem_of_getElem? hm⟩
      rw [h3] at hm2
      obtain ⟨k, _, hk⟩ := List.mem_map.1 hm2
      omega
    rw [← this, List.getElem?_append_right hmn, List.getElem?_append_right (by simpa using hmn)]
    simp
  · intro ax
    have h2 : (2 : K) ≠ 0 := two_ne_zero
    field_simp

/-- It returns for every non-empty mesh of triangles and quads. -/
theorem C52_total (points : List (V3 K)) (cells : List (ℕ × List ℕ)) (hne : cells ≠ [])
    (ht : ∀ c ∈ cells, c.1 = 5 ∨ c.1 = 9) (hi : ∀ c ∈ cells, ∀ i ∈ c.2, i < points.length) :
    ∃ r, quadraticize points cells = .ok r := by
  have : ∀ (cells : List (ℕ × List ℕ)) (n : ℕ), (∀ c ∈ cells, c.1 = 5 ∨ c.1 = 9) →
      (∀ c ∈ cells, ∀ i ∈ c.2, i < points.length) → ∃ r, quadraticLoop points n cells = .ok r := by
    intro cells
    induction cells with
    | nil => intro n _ _; exact ⟨_, rfl⟩
    | cons c cells ih =>
      intro n ht hi
      obtain ⟨t, ids⟩ := c
      obtain ⟨pts, hp⟩ := gather_exists (hi (t, ids) (by simp))
      obtain ⟨r, hr⟩ := ih (n + (edgeMiddles pts).length) (fun c hc => ht c (by simp [hc]))
        (fun c hc => hi c (by simp [hc]))
      have hq : ∃ q, quadraticType t = .ok q := by
        rcases ht (t, ids) (by simp) with h | h <;> simp only at h <;> subst h <;> exact ⟨_, rfl⟩
      obtain ⟨q, hq⟩ := hq
      simp only [quadraticLoop, hq, hp, hr]
      exact ⟨_, rfl⟩
  obtain ⟨⟨a, b, c⟩, hr⟩ := this cells points.length ht hi
  unfold quadraticize
  rw [hr]
  simp only [List.isEmpty_iff, hne, if_false]
  exact ⟨_, rfl⟩

/-- Any other cell is rejected, wherever it is. -/
theorem C52_other_cells_rejected (points : List (V3 K)) (cells : List (ℕ × List ℕ))
    (hi : ∀ c ∈ cells, ∀ i ∈ c.2, i < points.length) (c : ℕ × List ℕ) (hc : c ∈ cells)
    (ht : c.1 ≠ 5 ∧ c.1 ≠ 9) : quadraticize points cells = .error .notImplemented := by
  have : ∀ (cells : List (ℕ × List ℕ)) (n : ℕ), c ∈ cells →
      (∀ c ∈ cells, ∀ i ∈ c.2, i < points.length) →
      quadraticLoop points n cells = .error .notImplemented := by
    intro cells
    induction cells with
    | nil => intro n h; simp at h
    | cons d cells ih =>
      intro n hc hi
      obtain ⟨t, ids⟩ := d
      obtain ⟨pts, hp⟩ := gather_exists (hi (t, ids) (by simp))
      simp only [quadraticLoop, hp]
      by_cases h5 : t = 5 ∨ t = 9
      · have hc' : c ∈ cells := by
          rcases List.mem_cons.1 hc with h | h
          · subst h; simp only at ht; omega
          · exact h
        have := ih (n + (edgeMiddles pts).length) hc' (fun c hc => hi c (by simp [hc]))
        have hq : ∃ q, quadraticType t = .ok q := by
          rcases h5 with h | h <;> subst h <;> exact ⟨_, rfl⟩
        obtain ⟨q, hq⟩ := hq
        rw [hq]
        simp only [this]
      · have : quadraticType t = .error .notImplemented := by
          unfold quadraticType
          rw [if_neg (by tauto), if_neg (by tauto)]
        rw [this]
  unfold quadraticize
  rw [this cells _ hc hi]

/-- A triangle and a quad sharing an edge: the middle of the shared edge is added twice. -/
example : (quadraticize (K := ℚ) [![0, 0, 0], ![2, 0, 0], ![0, 2, 0], ![4, 0, 0], ![4, 4, 0]]
    [(5, [0, 1, 2]), (9, [1, 3, 4, 2])]).toOption.map (fun r => (r.1, r.2.1)) =
    some ([22, 23], [6, 0, 1, 2, 5, 6, 7, 8, 1, 3, 4, 2, 8, 9, 10, 11]) := by
  decide +kernel

example : (quadraticize (K := ℚ) [![0, 0, 0], ![2, 0, 0], ![0, 2, 0], ![4, 0, 0], ![4, 4, 0]]
    [(5, [0, 1, 2]), (9, [1, 3, 4, 2])]).toOption.map (fun r => r.2.2.map fun p => [p 0, p 1]) =
    some [[0, 0], [2, 0], [0, 2], [4, 0], [4, 4], [1, 0], [1, 1], [0, 1], [3, 0], [4, 2], [2, 3],
      [1, 1]] := by
  decide +kernel

end quadratic

/-! ## C54 -/

section extraction
variable {D : Type*}

namespace Dict
variable {κ ν : Type*} [DecidableEq κ]

theorem get?_pop {d : Dict κ ν} (hd : d.keys.Nodup) (k k' : κ) :
    (d.pop k).get? k' = if k' = k then none else d.get? k' := by
  induction d with
  | nil => simp [pop, get?]
  | cons kv d ih =>
    obtain ⟨a, b⟩ := kv
    simp only [keys, List.map_cons, List.nodup_cons] at hd
    simp only [pop]
    by_cases ha : a = k
    · subst ha
      rw [if_pos rfl]
      by_cases hk : k' = a
      · subst hk
        rw [if_pos rfl]
        exact get?_none.2 hd.1
      · rw [if_neg hk]
        simp only [get?]
        rw [if_neg (fun h => hk h.symm)]
    · rw [if_neg ha]
      simp only [get?]
      by_cases hk : a = k'
      · subst hk
        simp [ha]
      · rw [if_neg hk, if_neg hk]
        exact ih hd.2

theorem keys_set_new {d : Dict κ ν} {k : κ} (v : ν) (h : k ∉ d.keys) :
    (d.set k v).keys = d.keys ++ [k] := by
  induction d with
  | nil => simp [set, keys]
  | cons kv d ih =>
    obtain ⟨a, b⟩ := kv
    simp only [keys, List.map_cons, List.mem_cons, not_or] at h
    simp only [set]
    rw [if_neg (fun e => h.1 e.symm)]
    simp only [keys, List.map_cons, List.cons_append]
    congr 1
    exact ih h.2

theorem keys_pop {d : Dict κ ν} (hd : d.keys.Nodup) (k : κ) :
    (d.pop k).keys = d.keys.filter (· ≠ k) := by
  rw [pop_eq_filter hd]
  simp [keys, List.filter_map, Function.comp_def]

end Dict

theorem restored {cd : CellData D} (hnd : cd.keys.Nodup) {ghost : List D}
    (hg : cd.get? ghostKey = some ghost) :
    (∀ k, ((cd.pop ghostKey).set ghostKey ghost).get? k = cd.get? k) ∧
    ((cd.pop ghostKey).set ghostKey ghost).keys.Perm cd.keys := by
  constructor
  · intro k
    rw [Dict.get?_set, Dict.get?_pop hnd]
    by_cases hk : k = ghostKey
    · subst hk; simp [hg]
    · simp [hk]
      intro h; exact absurd h.symm hk
  · have hp := Dict.keys_pop hnd ghostKey
    rw [Dict.keys_set_new _ (by rw [hp]; simp), hp]
    have hmem : ghostKey ∈ cd.keys := by
      by_contra h
      rw [Dict.get?_none.2 h] at hg
      cases hg
    rw [List.perm_iff_count]
    intro a
    rw [List.count_append]
    by_cases ha : a = ghostKey
    · subst ha
      rw [List.count_eq_zero.2 (by simp), List.count_eq_one_of_mem hnd hmem]
      simp
    · rw [List.count_filter (by simpa using ha),
        List.count_eq_zero.2 (show a ∉ [ghostKey] by simpa using ha)]
      rfl

/-- **C54**: whatever the extraction does (return or raise), the input mesh ends up with the same arrays,
of the same values, as before; the extraction sees the other arrays only; if it returns, the result
carries its data and the ghost flags of the extracted cells. -/
theorem C54_extract_cells (vtk : CellData D → Py (List ℕ × CellData D)) (cd : CellData D)
    (hnd : cd.keys.Nodup) :
    (∀ k, (extractCells vtk cd).2.get? k = cd.get? k) ∧
    (extractCells vtk cd).2.keys.Perm cd.keys ∧
    ∃ seen : CellData D, (∀ k, seen.get? k = if k = ghostKey then none else cd.get? k) ∧
      (∀ e, vtk seen = .error e → (extractCells vtk cd).1 = .error e) ∧
      ∀ ids data, (extractCells vtk cd).1 = .ok (ids, data) → ∃ data', vtk seen = .ok (ids, data') ∧
        (∀ k, k ≠ ghostKey → data.get? k = data'.get? k) ∧
        ∀ ghost, cd.get? ghostKey = some ghost →
          ∃ g, data.get? ghostKey = some g ∧ g.map some = along ghost ids := by
  unfold extractCells
  cases hg : cd.get? ghostKey with
  | none =>
    refine ⟨fun _ => rfl, List.Perm.refl _, cd, ?_, fun e h => h, ?_⟩
    · intro k
      by_cases hk : k = ghostKey
      · subst hk; simp [hg]
      · simp [hk]
    · intro ids data h
      exact ⟨data, h, fun _ _ => rfl, by simp⟩
  | some ghost =>
    refine ⟨(restored hnd hg).1, (restored hnd hg).2, cd.pop ghostKey, Dict.get?_pop hnd _, ?_, ?_⟩
    · intro e he
      simp only [he]
    · intro ids data h
      simp only at h
      split at h
      · cases h
      · rename_i ids' data' hv
        split at h
        · cases h
        · rename_i g hgat
          cases h
          refine ⟨data', hv, ?_, ?_⟩
          · intro k hk
            rw [Dict.get?_set, if_neg (fun e => hk e.symm)]
          · intro ghost' h'
            cases h'
            exact ⟨g, by rw [Dict.get?_set, if_pos rfl], gather_ok_iff.1 hgat⟩

/-- A mesh of three cells with ghost flags; the second and third cells are extracted, or VTK raises. -/
example : extractCells (vtkExtract [false, true, true]) [("a", [1, 2, 3]), (ghostKey, [0, 32, 0])] =
    (.ok ([1, 2], [("a", [2, 3]), (ghostKey, [32, 0])]), [("a", [1, 2, 3]), (ghostKey, [0, 32, 0])]) := by
  decide +kernel

example : extractCells (D := ℕ) (fun _ => .error .valueError)
    [(ghostKey, [0, 32, 0]), ("a", [1, 2, 3])] =
    (.error .valueError, [("a", [1, 2, 3]), (ghostKey, [0, 32, 0])]) := by
  decide +kernel

/-! ## C53 -/

namespace Spec

/-- Dimension of the cells of VTK, by type number (`vtkCellType.h`); `none` for the empty cell and numbers
not in use. -/
def vtkDimension (t : ℕ) : Option ℤ :=
  if t ∈ [1, 2] then some 0
  else if t ∈ [3, 4, 21, 35, 51, 60, 68, 75] then some 1
  else if t ∈ [5, 6, 7, 8, 9, 22, 23, 28, 30, 34, 36, 52, 53, 54, 61, 62, 63, 69, 70, 76, 77] then some 2
  else if t ∈ [10, 11, 12, 13, 14, 15, 16, 24, 25, 26, 27, 29, 31, 32, 33, 37, 41, 42, 55, 56, 64, 65, 66,
    67, 71, 72, 73, 74, 78, 79, 80, 81] then some 3
  else none

/-- The cells asked for: those of dimension at least (at most) `n`; the empty ones if asked. -/
def Wanted (upper : Bool) (n : ℤ) (keepEmpty : Bool) (t : ℕ) : Prop :=
  if t = 0 then keepEmpty = true
  else ∃ d, vtkDimension t = some d ∧ if upper then n ≤ d else d ≤ n

end Spec

/-- The table of dimensions is VTK's, except for convex point sets. -/
theorem C53_dimensions {t : ℕ} {d : ℤ} (h : vtkDimension t = some d) (h41 : t ≠ 41) :
    cellDim t = .ok d := by
  have ht : t < 82 := by
    by_contra hge
    have h82 : 82 ≤ t := by omega
    have : vtkDimension t = none := by
      unfold vtkDimension
      rw [if_neg, if_neg, if_neg, if_neg]
      all_goals
        intro hm
        simp only [List.mem_cons, List.not_mem_nil, or_false] at hm
        omega
    rw [this] at h
    cases h
  have key : ∀ t : Fin 82, t.1 ≠ 41 → ∀ d, vtkDimension t.1 = some d →
      dimensionMap[t.1]? = some d := by decide +kernel
  have := key ⟨t, ht⟩ h41 d h
  unfold cellDim
  simp only at this
  rw [this]

/-- Convex point sets are given dimension 0 (they are volumes). -/
theorem C53_convex_point_set_refuted : vtkDimension 41 = some 3 ∧ cellDim 41 = .ok 0 := by
  decide +kernel

theorem cellDims_eq {types : List ℕ} {f : ℕ → ℤ} (h : ∀ t ∈ types, cellDim t = .ok (f t)) :
    cellDims types = .ok (types.map f) := by
  unfold cellDims
  rw [mapPy_ok_iff, List.forall₂_map_right_iff, List.forall₂_same]
  exact h

/-- The mask is the list of wanted cells. -/
theorem dimensionMask_wanted (types : List ℕ)
    (hv : ∀ t ∈ types, t ≠ 41 ∧ (t = 0 ∨ (vtkDimension t).isSome)) (n : ℤ) (upper keepEmpty : Bool)
    (hempty : upper = true ∧ 0 ≤ n ∨ upper = false ∧ (0 ∉ types ∨ keepEmpty = true ∨ n < -1)) :
    ∃ mask, dimensionMask types (some n) (if upper then "upper" else "lower") keepEmpty = .ok mask ∧
      mask.length = types.length ∧
      ∀ i, mask.getD i false = true ↔ ∃ t, types[i]? = some t ∧ Wanted upper n keepEmpty t := by
  have hd : cellDims types = .ok (types.map fun t => (vtkDimension t).getD (-1)) := by
    apply cellDims_eq
    intro t ht
    obtain ⟨h41, h⟩ := hv t ht
    rcases h with rfl | h
    · decide +kernel
    · obtain ⟨d, hd⟩ := Option.isSome_iff_exists.1 h
      rw [C53_dimensions hd h41, hd]
      rfl
  unfold dimensionMask
  simp only [chosenDim, hd]
  rw [if_pos (by cases upper <;> simp)]
  refine ⟨_, rfl, ?_, ?_⟩
  · split <;> simp
  · intro i
    have hi : ∀ (t : ℕ), types[i]? = some t → ∀ b : Bool, (b = true ↔
        (if (if upper then "upper" else "lower") = "upper" then n ≤ (vtkDimension t).getD (-1)
          else (vtkDimension t).getD (-1) ≤ n)) →
        (((if keepEmpty then b || decide (t = 0) else b) = true) ↔ Wanted upper n keepEmpty t) := by
      intro t ht b hb
      have htm := List.mem_of_getElem? ht
      obtain ⟨h41, h⟩ := hv t htm
      unfold Wanted
      by_cases h0 : t = 0
      · subst h0
        have hv0 : vtkDimension 0 = none := by decide +kernel
        rw [if_pos rfl]
        rw [hv0] at hb
        cases keepEmpty with
        | true => simp
        | false =>
          simp only [Bool.false_eq_true, if_false, iff_false]
          intro hbt
          have := hb.1 hbt
          rcases hempty with ⟨rfl, h⟩ | ⟨rfl, h | h | h⟩
          · simp at this; omega
          · exact h htm
          · cases h
          · simp at this; omega
      · rw [if_neg h0]
        obtain ⟨d, hd⟩ := Option.isSome_iff_exists.1 (h.resolve_left h0)
        rw [hd] at hb ⊢
        have : (if keepEmpty then b || decide (t = 0) else b) = b := by
          cases keepEmpty <;> simp [h0]
        rw [this, hb]
        cases upper <;> simp
    cases ht : types[i]? with
    | none =>
      simp only [reduceCtorEq, false_and, exists_false, iff_false]
      have hlen := List.getElem?_eq_none_iff.1 ht
      rw [List.getD_eq_getElem?_getD, List.getElem?_eq_none]
      · simp
      · split <;> simpa using hlen
    | some t =>
      simp only [Option.some.injEq, exists_eq_left']
      rw [← hi t ht (if (if upper then "upper" else "lower") = "upper" then
          decide (n ≤ (vtkDimension t).getD (-1)) else decide ((vtkDimension t).getD (-1) ≤ n))
        (by split <;> simp), List.getD_eq_getElem?_getD]
      cases keepEmpty <;> simp [List.getElem?_zipWith, ht]

theorem pairwise_filter_range (n : ℕ) (p : ℕ → Bool) : ((List.range n).filter p).Pairwise (· < ·) :=
  List.Pairwise.sublist List.filter_sublist List.pairwise_lt_range

/-- Extraction of a mask from consistent data. -/
theorem extract_mask (mask : List Bool) (cd : CellData D) (hnd : cd.keys.Nodup)
    (hcd : ∀ k v, cd.get? k = some v → v.length = mask.length) :
    ∃ ids data, (extractCells (vtkExtract mask) cd).1 = .ok (ids, data) ∧
      ids = (List.range mask.length).filter (fun i => mask.getD i false) ∧
      (∀ k, cd.get? k = none → data.get? k = none) ∧
      ∀ k v, cd.get? k = some v → ∃ w, data.get? k = some w ∧ w.map some = along v ids := by
  have hids : ∀ (v : List D), v.length = mask.length →
      ∃ w, gather v ((List.range mask.length).filter fun i => mask.getD i false) = .ok w := by
    intro v hv
    apply gather_exists
    intro i hi
    rw [hv]
    simpa using (List.mem_filter.1 hi).1
  have hex : ∀ d : CellData D, (∀ kv ∈ d, kv.2.length = mask.length) →
      ∃ data, vtkExtract mask d =
        .ok ((List.range mask.length).filter (fun i => mask.getD i false), data) ∧
        ∀ k, (d.get? k = none → data.get? k = none) ∧ ∀ v, d.get? k = some v → ∃ w,
          data.get? k = some w ∧
          w.map some = along v ((List.range mask.length).filter fun i => mask.getD i false) := by
    intro d hd
    obtain ⟨data, hdata⟩ := mapDict_exists
      (f := fun v => gather v ((List.range mask.length).filter fun i => mask.getD i false))
      (d := d) (fun kv hkv => hids kv.2 (hd kv hkv))
    refine ⟨data, by simp only [vtkExtract, hdata], ?_⟩
    intro k
    obtain ⟨h1, h2⟩ := mapDict_get? hdata k
    refine ⟨h1, ?_⟩
    intro v hv
    obtain ⟨w, hw, hw'⟩ := h2 v hv
    exact ⟨w, hw', gather_ok_iff.1 hw⟩
  have hsize : ∀ kv ∈ cd, kv.2.length = mask.length :=
    fun kv hkv => hcd kv.1 kv.2 (Dict.mem_get? hnd hkv)
  unfold extractCells
  cases hg : cd.get? ghostKey with
  | none =>
    obtain ⟨data, h1, h2⟩ := hex cd hsize
    exact ⟨_, data, h1, rfl, fun k => (h2 k).1, fun k => (h2 k).2⟩
  | some ghost =>
    have hsub : ∀ kv ∈ cd.pop ghostKey, kv.2.length = mask.length := by
      intro kv hkv
      rw [Dict.pop_eq_filter hnd] at hkv
      exact hsize kv (List.mem_filter.1 hkv).1
    obtain ⟨data, h1, h2⟩ := hex _ hsub
    obtain ⟨g, hgat⟩ := hids ghost (hcd _ _ hg)
    refine ⟨_, data.set ghostKey g, by simp only [h1, hgat], rfl, ?_, ?_⟩
    · intro k hk
      have hne : k ≠ ghostKey := by rintro rfl; rw [hg] at hk; cases hk
      rw [Dict.get?_set, if_neg (fun e => hne e.symm)]
      apply (h2 k).1
      rw [Dict.get?_pop hnd, if_neg hne, hk]
    · intro k v hk
      rw [Dict.get?_set]
      by_cases hne : ghostKey = k
      · subst hne
        rw [hg] at hk
        cases hk
        exact ⟨g, by rw [if_pos rfl], gather_ok_iff.1 hgat⟩
      · rw [if_neg hne]
        apply (h2 k).2
        rw [Dict.get?_pop hnd, if_neg (fun e => hne e.symm), hk]

theorem along_range (v : List D) (n : ℕ) (h : v.length = n) : v.map some = along v (List.range n) := by
  subst h
  apply List.ext_getElem?
  intro i
  simp only [along, List.getElem?_map]
  rcases Nat.lt_or_ge i v.length with hi | hi
  · rw [List.getElem?_range hi, List.getElem?_eq_getElem hi]
    simp [hi]
  · rw [List.getElem?_eq_none hi, List.getElem?_eq_none (by simpa using hi)]
    rfl

/-- **C53**, for meshes whose cells are of types with a known dimension and not convex point sets, and
unless 'lower' meets empty cells that were not asked for (see `C53_empty_cells_refuted`): the result has
exactly the cells wanted, in order, with their data. -/
theorem C53_by_dimension_partial (types : List ℕ)
    (hv : ∀ t ∈ types, t ≠ 41 ∧ (t = 0 ∨ (vtkDimension t).isSome)) (cd : CellData D)
    (hnd : cd.keys.Nodup) (hcd : ∀ k v, cd.get? k = some v → v.length = types.length)
    (n : ℤ) (upper keepEmpty : Bool)
    (hempty : upper = true ∧ 0 ≤ n ∨ upper = false ∧ (0 ∉ types ∨ keepEmpty = true ∨ n < -1)) :
    ∃ ids data, cellsByDimension types cd (some n) (if upper then "upper" else "lower") keepEmpty =
        .ok (ids, data) ∧
      ids.Pairwise (· < ·) ∧ (∀ i, i ∈ ids ↔ ∃ t, types[i]? = some t ∧ Wanted upper n keepEmpty t) ∧
      (∀ k, cd.get? k = none → data.get? k = none) ∧
      ∀ k v, cd.get? k = some v → ∃ w, data.get? k = some w ∧ w.map some = along v ids := by
  obtain ⟨mask, h1, h2, h3⟩ := dimensionMask_wanted types hv n upper keepEmpty hempty
  unfold cellsByDimension
  rw [h1]
  simp only
  split
  · rename_i hall
    refine ⟨_, _, rfl, List.pairwise_lt_range, ?_, fun _ h => h, ?_⟩
    · intro i
      rw [← h3, List.mem_range, ← h2]
      constructor
      · intro hi
        have := List.all_eq_true.1 hall _ (List.getElem_mem hi)
        simpa [List.getD_eq_getElem?_getD, hi] using this
      · intro hi
        by_contra hge
        rw [List.getD_eq_getElem?_getD, List.getElem?_eq_none (by omega)] at hi
        simp at hi
    · intro k v hk
      exact ⟨v, hk, along_range v _ (hcd k v hk)⟩
  · obtain ⟨ids, data, h4, h5, h6, h7⟩ := extract_mask mask cd hnd (by rw [h2]; exact hcd)
    refine ⟨ids, data, h4, ?_, ?_, h6, h7⟩
    · rw [h5]; exact pairwise_filter_range _ _
    · intro i
      rw [← h3, h5, List.mem_filter, List.mem_range]
      constructor
      · exact fun h => h.2
      · intro hi
        refine ⟨?_, hi⟩
        by_contra hge
        rw [List.getD_eq_getElem?_getD, List.getElem?_eq_none (by omega)] at hi
        simp at hi

/-- 'lower' `n - 1` and 'upper' `n` share the cells of a mesh without empty cells. -/
theorem C53_partition (types : List ℕ)
    (hv : ∀ t ∈ types, t ≠ 41 ∧ (vtkDimension t).isSome) (cd : CellData D)
    (hnd : cd.keys.Nodup) (hcd : ∀ k v, cd.get? k = some v → v.length = types.length)
    (n : ℤ) (hn : 0 ≤ n) :
    ∃ lo hi dlo dhi, cellsByDimension types cd (some (n - 1)) "lower" false = .ok (lo, dlo) ∧
      cellsByDimension types cd (some n) "upper" false = .ok (hi, dhi) ∧
      (lo ++ hi).Perm (List.range types.length) := by
  have h0 : 0 ∉ types := by
    intro h
    have := (hv 0 h).2
    revert this
    decide +kernel
  have hv' : ∀ t ∈ types, t ≠ 41 ∧ (t = 0 ∨ (vtkDimension t).isSome) :=
    fun t ht => ⟨(hv t ht).1, .inr (hv t ht).2⟩
  obtain ⟨lo, dlo, a1, a2, a3, -⟩ := C53_by_dimension_partial types hv' cd hnd hcd (n - 1) false false
    (.inr ⟨rfl, .inl h0⟩)
  obtain ⟨hi, dhi, b1, b2, b3, -⟩ := C53_by_dimension_partial types hv' cd hnd hcd n true false
    (.inl ⟨rfl, hn⟩)
  refine ⟨lo, hi, dlo, dhi, a1, b1, ?_⟩
  have nd : ∀ {l : List ℕ}, l.Pairwise (· < ·) → l.Nodup := fun h => h.imp (fun h => Nat.ne_of_lt h)
  have hw : ∀ t ∈ types, Wanted true n false t ↔ ¬ Wanted false (n - 1) false t := by
    intro t ht
    have ht0 : t ≠ 0 := by rintro rfl; exact h0 ht
    obtain ⟨d, hd⟩ := Option.isSome_iff_exists.1 (hv t ht).2
    simp only [Wanted, if_neg ht0, hd, Option.some.injEq, exists_eq_left']
    simp
  rw [List.perm_ext_iff_of_nodup]
  · intro i
    rw [List.mem_append, a3, b3, List.mem_range]
    constructor
    · rintro (⟨t, ht, -⟩ | ⟨t, ht, -⟩) <;> exact (List.getElem?_eq_some_iff.1 ht).1
    · intro hi
      by_cases h : Wanted false (n - 1) false types[i]
      · exact .inl ⟨_, List.getElem?_eq_getElem hi, h⟩
      · exact .inr ⟨_, List.getElem?_eq_getElem hi, (hw _ (List.getElem_mem hi)).2 h⟩
  · rw [List.nodup_append]
    refine ⟨nd a2, nd b2, ?_⟩
    intro i hi j hj hij
    subst hij
    obtain ⟨t, ht, h⟩ := (a3 _).1 hi
    obtain ⟨t', ht', h'⟩ := (b3 _).1 hj
    rw [ht] at ht'
    cases ht'
    exact (hw t (List.mem_of_getElem? ht)).1 h' h
  · exact List.nodup_range

/-- Without `ndim`, the highest dimension of the cells is used. -/
theorem C53_default (types : List ℕ) (cd : CellData D) (method : String) (keepEmpty : Bool) (f : ℕ → ℤ)
    (hf : ∀ t ∈ types, cellDim t = .ok (f t)) (hne : types ≠ []) :
    ∃ n, IsGreatest {d | ∃ t ∈ types, f t = d} n ∧
      cellsByDimension types cd none method keepEmpty =
        cellsByDimension types cd (some n) method keepEmpty := by
  have hm : ∀ types : List ℕ, types ≠ [] → (∀ t ∈ types, cellDim t = .ok (f t)) →
      ∃ n, meshDim types = .ok n ∧ IsGreatest {d | ∃ t ∈ types, f t = d} n := by
    intro types
    induction types with
    | nil => intro h; exact absurd rfl h
    | cons t ts ih =>
      intro _ hf
      have ht := hf t (by simp)
      cases ts with
      | nil =>
        refine ⟨f t, by unfold meshDim; rw [ht], ⟨t, by simp, rfl⟩, ?_⟩
        rintro d ⟨t', ht', rfl⟩
        simp only [List.mem_singleton] at ht'
        rw [ht']
      | cons t' ts' =>
        obtain ⟨n, hn, ⟨t1, ht1, hn1⟩, hn2⟩ := ih (by simp) (fun s hs => hf s (by simp_all))
        refine ⟨max (f t) n, ?_, ?_, ?_⟩
        · unfold meshDim
          rw [ht]
          simp only [hn]
        · rcases le_total (f t) n with h | h
          · exact ⟨t1, List.mem_cons_of_mem _ ht1, by rw [max_eq_right h, hn1]⟩
          · exact ⟨t, by simp, by rw [max_eq_left h]⟩
        · rintro d ⟨s, hs, rfl⟩
          rcases List.mem_cons.1 hs with rfl | hs
          · exact le_max_left _ _
          · exact le_trans (hn2 ⟨s, hs, rfl⟩) (le_max_right _ _)
  obtain ⟨n, h1, h2⟩ := hm types hne hf
  refine ⟨n, h2, ?_⟩
  unfold cellsByDimension dimensionMask
  simp only [chosenDim, h1]

/-- Any other method is rejected. -/
theorem C53_method_rejected (types : List ℕ) (cd : CellData D) (n : ℤ) (method : String)
    (keepEmpty : Bool) (h : method ≠ "upper" ∧ method ≠ "lower") :
    cellsByDimension types cd (some n) method keepEmpty = .error .valueError := by
  unfold cellsByDimension dimensionMask
  simp only [chosenDim]
  rw [if_neg (by tauto)]

/-- **C53** is false for empty cells: 'lower' keeps them though `keep_empty_cells` is false. -/
theorem C53_empty_cells_refuted :
    cellsByDimension (D := ℕ) [0, 5, 3] [] (some 1) "lower" false = .ok ([0, 2], []) ∧
    ¬ Wanted false 1 false 0 := by
  refine ⟨by decide +kernel, ?_⟩
  simp [Wanted]

example : cellsByDimension [5, 10, 0, 3, 42] [("a", [1, 2, 3, 4, 5]), (ghostKey, [0, 0, 0, 1, 1])]
    (some 2) "upper" true =
    .ok ([0, 1, 2, 4], [("a", [1, 2, 3, 5]), (ghostKey, [0, 0, 0, 1])]) := by decide +kernel

example : cellsByDimension [5, 10, 3, 42] [("a", [1, 2, 3, 4])] none "upper" false =
    .ok ([1, 3], [("a", [2, 4])]) := by decide +kernel

end extraction

end Gridder
