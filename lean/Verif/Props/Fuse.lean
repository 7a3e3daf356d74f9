import Verif.Props.CellOps

/-! # C71: fusing cells -/

namespace Gridder

open Spec

section
variable {P D : Type*} [DecidableEq P]

theorem foldl_set_length {α : Type*} (l : List ℕ) (b : α) (xs : List α) :
    (l.foldl (fun c j => c.set j b) xs).length = xs.length := by
  induction l generalizing xs with
  | nil => rfl
  | cons j l ih => rw [List.foldl_cons, ih, List.length_set]

theorem foldl_set_get {α : Type*} (l : List ℕ) (b : α) (xs : List α) (i : ℕ) :
    (l.foldl (fun c j => c.set j b) xs)[i]? = if i ∈ l ∧ i < xs.length then some b else xs[i]? := by
  induction l generalizing xs with
  | nil => simp
  | cons j l ih =>
    rw [List.foldl_cons, ih, List.length_set, List.getElem?_set]
    by_cases hi : i < xs.length
    · by_cases hl : i ∈ l
      · simp [hl, hi]
      · by_cases hj : i = j
        · subst hj; simp [hi, hl]
        · simp [hl, hj, Ne.symm hj]
    · have hx : xs[i]? = none := List.getElem?_eq_none (by omega)
      simp only [hi, and_false, if_false, hx]
      split
      · rename_i h; subst h; rw [if_neg hi]
      · rfl

theorem firstPoint_ok {points : List P} {p : P} (h : p ∈ points) :
    ∃ i, firstPoint points p = .ok i ∧ points[i]? = some p := by
  unfold firstPoint
  cases hf : points.findIdx? (· == p) with
  | none =>
    rw [List.findIdx?_eq_none_iff] at hf
    have := hf p h
    simp at this
  | some i =>
    refine ⟨i, rfl, ?_⟩
    rw [List.findIdx?_eq_some_iff_getElem] at hf
    obtain ⟨hi, h1, -⟩ := hf
    rw [List.getElem?_eq_getElem hi]
    simpa using h1

theorem firstPoints_ok {points : List P} {ring : List P} (h : ∀ p ∈ ring, p ∈ points) :
    ∃ ids, mapPy (firstPoint points) ring = .ok ids ∧ along points ids = ring.map some := by
  induction ring with
  | nil => exact ⟨[], rfl, rfl⟩
  | cons p ring ih =>
    obtain ⟨i, h1, h2⟩ := firstPoint_ok (h p (by simp))
    obtain ⟨ids, h3, h4⟩ := ih fun q hq => h q (by simp [hq])
    refine ⟨i :: ids, by simp only [mapPy, h1, h3], ?_⟩
    simp only [along, List.map_cons, h2] at h4 ⊢
    rw [h4]

/-- One group. -/
theorem fuseGroup_ok (points : List P) (dim : List ℕ → ℤ) (outline : List ℕ → Option (List (List P)))
    (i : ℕ) (rest : List ℕ) (s : FuseState) (hl : s.mask.length = s.conn.length)
    (hlt : s.types.length = s.conn.length) (hin : ∀ j ∈ i :: rest, j < s.conn.length)
    (hd : dim (i :: rest) = 2) (ring : List P) (ho : outline (i :: rest) = some [ring])
    (hr : ∀ p ∈ ring, p ∈ points) (hnd : (i :: rest).Nodup) :
    ∃ s', fuseGroup points dim outline (i :: rest) s = .ok s' ∧
      s'.mask.length = s.conn.length ∧ s'.conn.length = s.conn.length ∧
      s'.types.length = s.conn.length ∧
      (∀ j, j ∉ i :: rest → s'.conn[j]? = s.conn[j]? ∧ s'.types[j]? = s.types[j]?) ∧
      (∀ j, s'.mask[j]? = if j ∈ rest then some false else s.mask[j]?) ∧
      s'.types[i]? = some 7 ∧ ∃ n, s'.conn[i]? = some n ∧ along points n = ring.map some := by
  obtain ⟨ids, h1, h2⟩ := firstPoints_ok hr
  have hi := hin i (by simp)
  have hirest : i ∉ rest := (List.nodup_cons.1 hnd).1
  unfold fuseGroup
  rw [if_neg, if_neg (by simpa using hd), ho]
  · simp only [h1]
    refine ⟨_, rfl, ?_, ?_, ?_, ?_, ?_, ?_, ids, ?_, h2⟩
    · simp only [foldl_set_length, List.tail_cons]; exact hl
    · simp [foldl_set_length]
    · simp [foldl_set_length, hlt]
    · intro j hj
      simp only [List.mem_cons, not_or] at hj
      constructor <;>
      · rw [foldl_set_get, if_neg (fun h => hj.2 h.1), List.getElem?_set_ne (Ne.symm hj.1)]
    · intro j
      rw [foldl_set_get, List.tail_cons]
      by_cases hj : j ∈ rest
      · have := hin j (by simp [hj])
        simp [hj, hl, this]
      · simp [hj]
    · rw [foldl_set_get, if_neg (fun h => hirest h.1)]
      simp [hlt, hi, vtkPolygon]
    · rw [foldl_set_get, if_neg (fun h => hirest h.1)]
      simp [hi]
  · simp only [List.any_eq_true, decide_eq_true_eq, not_exists, not_and]
    intro j hj
    have := hin j hj
    omega

theorem fuseLoop_ok (points : List P) (dim : List ℕ → ℤ) (outline : List ℕ → Option (List (List P)))
    (ring : List ℕ → List P) : ∀ (inds : List (List ℕ)) (s : FuseState),
    s.mask.length = s.conn.length → s.types.length = s.conn.length →
    (∀ g ∈ inds, g ≠ []) → inds.flatten.Nodup → (∀ j ∈ inds.flatten, j < s.conn.length) →
    (∀ g ∈ inds, dim g = 2) → (∀ g ∈ inds, outline g = some [ring g]) →
    (∀ g ∈ inds, ∀ p ∈ ring g, p ∈ points) →
    ∃ s', fuseLoop points dim outline inds s = .ok s' ∧
      s'.mask.length = s.conn.length ∧ s'.conn.length = s.conn.length ∧
      s'.types.length = s.conn.length ∧
      (∀ j, j ∉ inds.flatten → s'.conn[j]? = s.conn[j]? ∧ s'.types[j]? = s.types[j]?) ∧
      (∀ j, s'.mask[j]? = if ∃ g ∈ inds, j ∈ g.tail then some false else s.mask[j]?) ∧
      ∀ g ∈ inds, ∀ i, g.head? = some i →
        s'.types[i]? = some 7 ∧ ∃ n, s'.conn[i]? = some n ∧ along points n = (ring g).map some := by
  intro inds
  induction inds with
  | nil =>
    intro s hl hlt _ _ _ _ _ _
    exact ⟨s, rfl, hl, rfl, hlt, by simp, by simp, by simp⟩
  | cons g inds ih =>
    intro s hl hlt hne hnd hin hdim hout hring
    obtain ⟨i, rest, rfl⟩ := List.exists_cons_of_ne_nil (hne g (by simp))
    rw [List.flatten_cons, List.nodup_append] at hnd
    obtain ⟨hnd1, hnd2, hdisj⟩ := hnd
    obtain ⟨s1, a1, a2, a3, a4, a5, a6, a7, n, a8, a9⟩ := fuseGroup_ok points dim outline i rest s hl hlt
      (fun j hj => hin j (by rw [List.flatten_cons]; exact List.mem_append_left _ hj))
      (hdim _ (by simp)) (ring _) (hout _ (by simp)) (hring _ (by simp)) hnd1
    obtain ⟨s2, b1, b2, b3, b4, b5, b6, b7⟩ := ih s1 (by omega) (by omega)
      (fun g hg => hne g (by simp [hg])) hnd2
      (fun j hj => by rw [a3]; exact hin j (by rw [List.flatten_cons]; exact List.mem_append_right _ hj))
      (fun g hg => hdim g (by simp [hg])) (fun g hg => hout g (by simp [hg]))
      (fun g hg => hring g (by simp [hg]))
    refine ⟨s2, by simp only [fuseLoop, a1, b1], by omega, by omega, by omega, ?_, ?_, ?_⟩
    · intro j hj
      rw [List.flatten_cons, List.mem_append, not_or] at hj
      rw [(b5 j hj.2).1, (b5 j hj.2).2]
      exact a5 j hj.1
    · intro j
      rw [b6, a6]
      by_cases h1 : ∃ g ∈ inds, j ∈ g.tail
      · rw [if_pos h1, if_pos]
        obtain ⟨g, hg, hj⟩ := h1
        exact ⟨g, by simp [hg], hj⟩
      · rw [if_neg h1]
        by_cases h2 : j ∈ rest
        · rw [if_pos h2, if_pos]
          exact ⟨i :: rest, by simp, h2⟩
        · rw [if_neg h2, if_neg]
          rintro ⟨g, hg, hj⟩
          rcases List.mem_cons.1 hg with rfl | hg
          · exact h2 hj
          · exact h1 ⟨g, hg, hj⟩
    · intro g hg k hk
      rcases List.mem_cons.1 hg with rfl | hg
      · simp only [List.head?_cons, Option.some.injEq] at hk
        subst hk
        have hni : i ∉ inds.flatten := fun h => hdisj i (by simp) i h rfl
        rw [(b5 i hni).1, (b5 i hni).2]
        exact ⟨a7, n, a8, a9⟩
      · exact b7 g hg k hk

theorem gather_get {α : Type*} {xs ys : List α} {ids : List ℕ} (h : gather xs ids = .ok ys) {j i : ℕ}
    (hj : ids[j]? = some i) : ys[j]? = xs[i]? := by
  have hl : j < ys.length := by rw [gather_length h]; exact (List.getElem?_eq_some_iff.1 hj).1
  have := congrArg (fun l => l[j]?) (gather_ok_iff.1 h)
  simp only [along, List.getElem?_map, hj, Option.map_some, List.getElem?_eq_getElem hl] at this
  rw [List.getElem?_eq_getElem hl]
  simpa using this

/-- **C71**: for disjoint groups of connected 2D cells (each with one outline through points of the
mesh), the result has the cells of the mesh, in order, without those that are in a group but not its
first; the first cell of a group becomes the polygon through the outline, the cells in no group keep
nodes and type; all keep their data. -/
theorem C71_fuse_cells (points : List P) (conn : List (List ℕ)) (types : List ℕ) (cd : CellData D)
    (dim : List ℕ → ℤ) (outline : List ℕ → Option (List (List P))) (inds : List (List ℕ))
    (ring : List ℕ → List P) (htypes : types.length = conn.length) (hnd : cd.keys.Nodup)
    (hcd : ∀ k v, cd.get? k = some v → v.length = conn.length) (hne : inds ≠ [])
    (hgne : ∀ g ∈ inds, g ≠ []) (hdisj : inds.flatten.Nodup)
    (hin : ∀ i ∈ inds.flatten, i < conn.length) (hdim : ∀ g ∈ inds, dim g = 2)
    (hout : ∀ g ∈ inds, outline g = some [ring g]) (hring : ∀ g ∈ inds, ∀ p ∈ ring g, p ∈ points) :
    ∃ (ids : List ℕ) (c : List (List ℕ)) (t : List ℕ) (data : CellData D),
      fuseCells points conn types cd dim outline inds = .ok (c, t, data) ∧
      ids.Pairwise (· < ·) ∧
      (∀ i, i ∈ ids ↔ i < conn.length ∧ ∀ g ∈ inds, i ∉ g.tail) ∧
      c.length = ids.length ∧ t.length = ids.length ∧
      (∀ (j i : ℕ), ids[j]? = some i →
        (i ∉ inds.flatten → c[j]? = conn[i]? ∧ t[j]? = types[i]?) ∧
        ∀ g ∈ inds, g.head? = some i →
          t[j]? = some 7 ∧ ∃ n, c[j]? = some n ∧ along points n = (ring g).map some) ∧
      (∀ k, cd.get? k = none → data.get? k = none) ∧
      ∀ k v, cd.get? k = some v → ∃ w, data.get? k = some w ∧ w.map some = along v ids := by
  obtain ⟨s, a1, a2, a3, a4, a5, a6, a7⟩ := fuseLoop_ok points dim outline ring inds
    ⟨conn, types, List.replicate conn.length true⟩ (by simp) htypes hgne hdisj hin hdim hout hring
  simp only at a2 a3 a4 a5 a6
  obtain ⟨ids, data, b1, b2, b3, b4⟩ := extract_mask s.mask cd hnd (by rw [a2]; exact hcd)
  have hidl : ∀ i ∈ ids, i < conn.length := by
    intro i hi
    rw [b2] at hi
    have := (List.mem_filter.1 hi).1
    rw [a2] at this
    simpa using this
  obtain ⟨c, hc⟩ := gather_exists (xs := s.conn) (ids := ids) (fun i hi => by rw [a3]; exact hidl i hi)
  obtain ⟨t, ht⟩ := gather_exists (xs := s.types) (ids := ids) (fun i hi => by rw [a4]; exact hidl i hi)
  refine ⟨ids, c, t, data, ?_, ?_, ?_, gather_length hc, gather_length ht, ?_, b3, b4⟩
  · unfold fuseCells
    split
    · exact absurd rfl hne
    · simp only [a1, b1, hc, ht]
  · rw [b2]; exact pairwise_filter_range _ _
  · intro i
    rw [b2, List.mem_filter, a2, List.mem_range, List.getD_eq_getElem?_getD, a6]
    constructor
    · rintro ⟨h1, h2⟩
      refine ⟨h1, ?_⟩
      intro g hg hi
      rw [if_pos ⟨g, hg, hi⟩] at h2
      simp at h2
    · rintro ⟨h1, h2⟩
      refine ⟨h1, ?_⟩
      rw [if_neg (by rintro ⟨g, hg, hi⟩; exact h2 g hg hi)]
      simp [h1]
  · intro j i hj
    rw [gather_get hc hj, gather_get ht hj]
    exact ⟨fun hi => a5 i hi, fun g hg hi => a7 g hg i hi⟩

/-- Cells that are not 2D, or whose outline is not a single ring, are rejected. -/
theorem C71_rejected (points : List P) (dim : List ℕ → ℤ) (outline : List ℕ → Option (List (List P)))
    (g : List ℕ) (s : FuseState) (hin : ∀ j ∈ g, j < s.mask.length) :
    (dim g ≠ 2 → fuseGroup points dim outline g s = .error .notImplemented) ∧
    (dim g = 2 → (∀ r, outline g ≠ some [r]) → fuseGroup points dim outline g s = .error .valueError) := by
  have hany : (g.any fun i => decide (s.mask.length ≤ i)) = false := by
    rw [List.any_eq_false]
    intro j hj
    have := hin j hj
    simp
    omega
  constructor
  · intro h
    unfold fuseGroup
    rw [hany]
    simp [h]
  · intro h ho
    unfold fuseGroup
    rw [hany]
    simp only [Bool.false_eq_true, if_false, h, ne_eq, not_true_eq_false]
    cases hg : outline g with
    | none => rfl
    | some rings =>
      match rings with
      | [] => rfl
      | [r] => exact absurd hg (ho r)
      | _ :: _ :: _ => rfl

/-- Five quads in a row; the second and third are fused, and the fifth with the fourth. -/
example : fuseCells (P := ℕ × ℕ)
    [(0, 0), (1, 0), (2, 0), (3, 0), (4, 0), (5, 0), (0, 1), (1, 1), (2, 1), (3, 1), (4, 1), (5, 1)]
    [[0, 1, 7, 6], [1, 2, 8, 7], [2, 3, 9, 8], [3, 4, 10, 9], [4, 5, 11, 10]] [9, 9, 9, 9, 9]
    [("a", [10, 11, 12, 13, 14]), (ghostKey, [0, 1, 0, 0, 0])] (fun _ => 2)
    (fun g => if g = [1, 2] then some [[(1, 0), (2, 0), (3, 0), (3, 1), (2, 1), (1, 1)]]
      else some [[(3, 0), (4, 0), (5, 0), (5, 1), (4, 1), (3, 1)]]) [[1, 2], [4, 3]] =
    .ok ([[0, 1, 7, 6], [1, 2, 3, 9, 8, 7], [3, 4, 5, 11, 10, 9]], [9, 7, 7],
      [("a", [10, 11, 14]), (ghostKey, [0, 1, 0])]) := by decide +kernel

end

end Gridder
