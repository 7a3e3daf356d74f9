import Verif.Model.Geometry
import Verif.Spec.Faces
import Mathlib.Tactic.Common

/-!
# Lemmas on the table of faces
-/

namespace Gridder
open Spec

theorem mem_faceKey {c : List ℕ} {x : ℕ} : x ∈ faceKey c ↔ x ∈ c := by
  simp [faceKey, List.mem_insertionSort]

theorem faceKey_eq_iff {c c' : List ℕ} : faceKey c = faceKey c' ↔ sameNodes c c' = true := by
  simp only [sameNodes, decide_eq_true_eq]
  constructor
  · intro h
    ext x
    simp only [List.mem_toFinset]
    rw [← mem_faceKey, h, mem_faceKey]
  · intro h
    unfold faceKey
    have hp : c.dedup.Perm c'.dedup := by
      rw [List.perm_ext_iff_of_nodup (List.nodup_dedup _) (List.nodup_dedup _)]
      intro x
      have := congrArg (x ∈ ·) h
      simpa using this
    exact List.Perm.eq_of_pairwise (fun a b _ _ h1 h2 => le_antisymm h1 h2)
      (List.pairwise_insertionSort _ _) (List.pairwise_insertionSort _ _)
      ((List.perm_insertionSort _ _).trans (hp.trans (List.perm_insertionSort _ _).symm))

/-- All (cell, face) pairs in the order of the loops, cells numbered from `i`. -/
def flatFaces : ℕ → List (List (List ℕ)) → List (ℕ × List ℕ)
  | _, [] => []
  | i, fs :: cs => fs.map (fun c => (i, c)) ++ flatFaces (i + 1) cs

theorem addCells_flat : ∀ (cells : List (List (List ℕ))) (i : ℕ) (rows : List FaceRow),
    addCells i cells rows = (flatFaces i cells).foldl (fun rows p => addFace p.1 p.2 rows) rows := by
  intro cells
  induction cells with
  | nil => intro i rows; rfl
  | cons c cs ih =>
    intro i rows
    simp only [addCells, flatFaces, List.foldl_append, ih, addCell, List.foldl_map]

theorem mem_flatFaces : ∀ (cells : List (List (List ℕ))) (i j : ℕ) (c : List ℕ),
    (j, c) ∈ flatFaces i cells ↔ ∃ k fs, cells[k]? = some fs ∧ c ∈ fs ∧ j = i + k := by
  intro cells
  induction cells with
  | nil => intro i j c; simp [flatFaces]
  | cons f cs ih =>
    intro i j c
    simp only [flatFaces, List.mem_append, List.mem_map, Prod.mk.injEq, ih]
    constructor
    · rintro (⟨a, ha, rfl, rfl⟩ | ⟨k, fs, h1, h2, rfl⟩)
      · exact ⟨0, f, rfl, ha, rfl⟩
      · exact ⟨k + 1, fs, by simpa using h1, h2, by omega⟩
    · rintro ⟨k, fs, h1, h2, rfl⟩
      cases k with
      | zero => simp at h1; subst h1; exact .inl ⟨c, h2, by simp⟩
      | succ k => exact .inr ⟨k, fs, by simpa using h1, h2, by omega⟩

/-- Owners in terms of the flat list. -/
theorem owners_flat (cells : List (List (List ℕ))) (c : List ℕ) :
    ((flatFaces 0 cells).filter fun p => faceKey p.2 = faceKey c).map (·.1) = owners cells c := by
  unfold owners
  have : ∀ (cells : List (List (List ℕ))) (i : ℕ),
      ((flatFaces i cells).filter fun p => faceKey p.2 = faceKey c).map (·.1) =
      (cells.zipIdx i).flatMap fun x =>
        List.replicate (x.1.countP fun c' => sameNodes c' c) x.2 := by
    intro cells
    induction cells with
    | nil => intro i; rfl
    | cons f cs ih =>
      intro i
      simp only [flatFaces, List.filter_append, List.map_append, List.zipIdx_cons,
        List.flatMap_cons, ih]
      congr 1
      induction f with
      | nil => rfl
      | cons a f ih2 =>
        simp only [List.map_cons, List.filter_cons, List.countP_cons]
        by_cases h : faceKey a = faceKey c
        · have h' := faceKey_eq_iff.1 h
          simp only [h, decide_true, if_true, List.map_cons, ih2, h', List.replicate_succ]
        · have h' : sameNodes a c = false := by
            rw [Bool.eq_false_iff]; exact fun h' => h (faceKey_eq_iff.2 h')
          simp [h, ih2, h']
  exact this cells 0

/-- A face already in the table. -/
theorem addFace_mem {i : ℕ} {c : List ℕ} : ∀ {rows : List FaceRow}, faceKey c ∈ rows.map (·.key) →
    (rows.map (·.key)).Nodup →
    addFace i c rows = rows.map fun r =>
      if r.key = faceKey c then { r with ids := r.ids ++ [i] } else r := by
  intro rows
  induction rows with
  | nil => intro h; simp at h
  | cons r rows ih =>
    intro h hnd
    simp only [List.map_cons, List.nodup_cons] at hnd
    simp only [addFace, List.map_cons]
    split
    · rename_i hk
      congr 1
      have : rows.map (fun r => if r.key = faceKey c then { r with ids := r.ids ++ [i] } else r) =
          rows.map id := by
        apply List.map_congr_left
        intro x hx
        have : x.key ≠ faceKey c := by
          intro hxk
          exact hnd.1 (List.mem_map.2 ⟨x, hx, hxk.trans hk.symm⟩)
        simp [this]
      rw [this, List.map_id]
    · rename_i hk
      congr 1
      apply ih _ hnd.2
      simp only [List.map_cons, List.mem_cons] at h
      rcases h with h | h
      · exact absurd h.symm hk
      · exact h

/-- A new face. -/
theorem addFace_new {i : ℕ} {c : List ℕ} : ∀ {rows : List FaceRow}, faceKey c ∉ rows.map (·.key) →
    addFace i c rows = rows ++ [⟨faceKey c, c, [i]⟩] := by
  intro rows
  induction rows with
  | nil => intro _; rfl
  | cons r rows ih =>
    intro h
    simp only [List.map_cons, List.mem_cons, not_or] at h
    simp only [addFace, Ne.symm h.1, if_false, ih h.2, List.cons_append]

/-- What the table says about the faces seen so far. -/
structure TableInv (L : List (ℕ × List ℕ)) (rows : List FaceRow) : Prop where
  nodup : (rows.map (·.key)).Nodup
  key : ∀ r ∈ rows, r.key = faceKey r.face
  src : ∀ r ∈ rows, ∃ i, (i, r.face) ∈ L
  ids : ∀ r ∈ rows, r.ids = (L.filter fun p => faceKey p.2 = r.key).map (·.1)
  cover : ∀ p ∈ L, faceKey p.2 ∈ rows.map (·.key)

theorem TableInv.nil : TableInv [] [] := ⟨by simp, by simp, by simp, by simp, by simp⟩

theorem TableInv.step {L : List (ℕ × List ℕ)} {rows : List FaceRow} (h : TableInv L rows) (i : ℕ)
    (c : List ℕ) : TableInv (L ++ [(i, c)]) (addFace i c rows) := by
  by_cases hm : faceKey c ∈ rows.map (·.key)
  · rw [addFace_mem hm h.nodup]
    have hkeys : (rows.map fun r =>
        if r.key = faceKey c then { r with ids := r.ids ++ [i] } else r).map (·.key) =
        rows.map (·.key) := by
      rw [List.map_map]
      apply List.map_congr_left
      intro r _
      simp only [Function.comp]; split <;> rfl
    refine ⟨by rw [hkeys]; exact h.nodup, ?_, ?_, ?_, ?_⟩
    · intro r hr
      obtain ⟨r', hr', rfl⟩ := List.mem_map.1 hr
      have := h.key r' hr'
      split <;> exact this
    · intro r hr
      obtain ⟨r', hr', rfl⟩ := List.mem_map.1 hr
      obtain ⟨j, hj⟩ := h.src r' hr'
      refine ⟨j, ?_⟩
      split <;> exact List.mem_append_left _ hj
    · intro r hr
      obtain ⟨r', hr', rfl⟩ := List.mem_map.1 hr
      have := h.ids r' hr'
      by_cases hk : r'.key = faceKey c
      · simp only [hk, if_true, List.filter_append, List.map_append]
        rw [this, hk]; simp
      · simp only [hk, if_false, List.filter_append, List.map_append]
        rw [← this]; simp [Ne.symm hk]
    · intro p hp
      rw [hkeys]
      rcases List.mem_append.1 hp with hp | hp
      · exact h.cover p hp
      · simp only [List.mem_singleton] at hp; subst hp; exact hm
  · rw [addFace_new hm]
    refine ⟨?_, ?_, ?_, ?_, ?_⟩
    · rw [List.map_append, List.nodup_append]
      refine ⟨h.nodup, by simp, ?_⟩
      intro a ha b hb
      simp only [List.map_cons, List.map_nil, List.mem_singleton] at hb
      subst hb
      intro hab; subst hab; exact hm ha
    · intro r hr
      rcases List.mem_append.1 hr with hr | hr
      · exact h.key r hr
      · simp only [List.mem_singleton] at hr; subst hr; rfl
    · intro r hr
      rcases List.mem_append.1 hr with hr | hr
      · obtain ⟨j, hj⟩ := h.src r hr
        exact ⟨j, List.mem_append_left _ hj⟩
      · simp only [List.mem_singleton] at hr; subst hr; exact ⟨i, by simp⟩
    · intro r hr
      rcases List.mem_append.1 hr with hr | hr
      · have hk : faceKey c ≠ r.key := by
          intro hk; exact hm (List.mem_map.2 ⟨r, hr, hk.symm⟩)
        rw [h.ids r hr, List.filter_append]; simp [hk]
      · simp only [List.mem_singleton] at hr; subst hr
        rw [List.filter_append]
        have : L.filter (fun p => decide (faceKey p.2 = faceKey c)) = [] := by
          rw [List.filter_eq_nil_iff]
          intro p hp
          simp only [decide_eq_true_eq]
          intro hk
          exact hm (hk ▸ h.cover p hp)
        simp [this]
    · intro p hp
      rw [List.map_append]
      rcases List.mem_append.1 hp with hp | hp
      · exact List.mem_append_left _ (h.cover p hp)
      · simp only [List.mem_singleton] at hp; subst hp; simp

theorem addCells_inv (cells : List (List (List ℕ))) :
    TableInv (flatFaces 0 cells) (addCells 0 cells []) := by
  rw [addCells_flat]
  have : ∀ (M L : List (ℕ × List ℕ)) (rows : List FaceRow), TableInv L rows →
      TableInv (L ++ M) (M.foldl (fun rows p => addFace p.1 p.2 rows) rows) := by
    intro M
    induction M with
    | nil => intro L rows h; simpa using h
    | cons p M ih =>
      intro L rows h
      have := ih (L ++ [p]) _ (h.step p.1 p.2)
      simpa using this
  simpa using this (flatFaces 0 cells) [] [] TableInv.nil

theorem foldl_max_ge (l : List ℕ) : ∀ m : ℕ, m ≤ l.foldl max m ∧ ∀ x ∈ l, x ≤ l.foldl max m := by
  induction l with
  | nil => intro m; simp
  | cons a l ih =>
    intro m
    obtain ⟨h1, h2⟩ := ih (max m a)
    refine ⟨(le_max_left _ _).trans h1, ?_⟩
    intro x hx
    rcases List.mem_cons.1 hx with rfl | hx
    · exact (le_max_right _ _).trans h1
    · exact h2 x hx

theorem foldl_max_mem (l : List ℕ) : ∀ m : ℕ, l.foldl max m = m ∨ l.foldl max m ∈ l := by
  induction l with
  | nil => intro m; simp
  | cons a l ih =>
    intro m
    simp only [List.foldl_cons]
    rcases ih (max m a) with h | h
    · rcases max_choice m a with hc | hc
      · left; rw [h, hc]
      · right; rw [h, hc]; simp
    · right; exact List.mem_cons_of_mem _ h

/-- The owners are in increasing order. -/
theorem owners_sorted (cells : List (List (List ℕ))) (c : List ℕ) :
    (owners cells c).Pairwise (· ≤ ·) := by
  unfold owners
  have : ∀ (cells : List (List (List ℕ))) (i : ℕ), ((cells.zipIdx i).flatMap fun x =>
        List.replicate (x.1.countP fun c' => sameNodes c' c) x.2).Pairwise (· ≤ ·) ∧
      ∀ y ∈ (cells.zipIdx i).flatMap fun x =>
        List.replicate (x.1.countP fun c' => sameNodes c' c) x.2, i ≤ y := by
    intro cells
    induction cells with
    | nil => intro i; simp
    | cons f cs ih =>
      intro i
      obtain ⟨h1, h2⟩ := ih (i + 1)
      simp only [List.zipIdx_cons, List.flatMap_cons]
      constructor
      · rw [List.pairwise_append]
        refine ⟨?_, h1, ?_⟩
        · rw [List.pairwise_replicate]; right; exact le_refl _
        · intro a ha b hb
          have := List.eq_of_mem_replicate ha
          have := h2 b hb
          omega
      · intro y hy
        rcases List.mem_append.1 hy with hy | hy
        · exact (List.eq_of_mem_replicate hy).ge
        · have := h2 y hy; omega
  exact (this cells 0).1

theorem mem_owners {cells : List (List (List ℕ))} {c : List ℕ} {i : ℕ} : i ∈ owners cells c ↔
    ∃ fs, cells[i]? = some fs ∧ ∃ f ∈ fs, sameNodes f c = true := by
  unfold owners
  simp only [List.mem_flatMap, List.mem_replicate]
  constructor
  · rintro ⟨⟨fs, k⟩, hx, hne, rfl⟩
    rw [List.mem_zipIdx_iff_getElem?] at hx
    obtain ⟨f, hf, h⟩ := List.countP_pos_iff.1 (Nat.pos_of_ne_zero hne)
    exact ⟨fs, hx, f, hf, h⟩
  · rintro ⟨fs, hfs, f, hf, h⟩
    refine ⟨(fs, i), List.mem_zipIdx_iff_getElem?.2 hfs, ?_, rfl⟩
    exact Nat.pos_iff_ne_zero.1 (List.countP_pos_iff.2 ⟨f, hf, h⟩)

theorem sameNodes_symm {a b : List ℕ} (h : sameNodes a b = true) : sameNodes b a = true := by
  simp only [sameNodes, decide_eq_true_eq] at *; exact h.symm

theorem sameNodes_trans {a b c : List ℕ} (h : sameNodes a b = true) (h' : sameNodes b c = true) :
    sameNodes a c = true := by
  simp only [sameNodes, decide_eq_true_eq] at *; exact h.trans h'

theorem sameNodes_refl (a : List ℕ) : sameNodes a a = true := by simp [sameNodes]

theorem owners_congr (cells : List (List (List ℕ))) {c c' : List ℕ} (h : sameNodes c c' = true) :
    owners cells c = owners cells c' := by
  unfold owners sameNodes
  simp only [sameNodes, decide_eq_true_eq] at h
  simp [h]

/-- Without repeated faces, each owner is listed once. -/
theorem owners_strict {cells : List (List (List ℕ))} (h : NoRepeatedFace cells) (c : List ℕ) :
    (owners cells c).Pairwise (· < ·) := by
  unfold owners
  have : ∀ (cells : List (List (List ℕ))) (i : ℕ), NoRepeatedFace cells →
      ((cells.zipIdx i).flatMap fun x =>
        List.replicate (x.1.countP fun c' => sameNodes c' c) x.2).Pairwise (· < ·) ∧
      ∀ y ∈ (cells.zipIdx i).flatMap fun x =>
        List.replicate (x.1.countP fun c' => sameNodes c' c) x.2, i ≤ y := by
    intro cells
    induction cells with
    | nil => intro i _; simp
    | cons f cs ih =>
      intro i hn
      obtain ⟨h1, h2⟩ := ih (i + 1) fun fs hfs => hn fs (by simp [hfs])
      have hf := hn f (by simp)
      have hle : (f.countP fun c' => sameNodes c' c) ≤ 1 := by
        clear * - hf
        induction f with
        | nil => simp
        | cons a f ih =>
          rw [List.pairwise_cons] at hf
          rw [List.countP_cons]
          by_cases ha : sameNodes a c = true
          · have : (f.countP fun c' => sameNodes c' c) = 0 := by
              rw [List.countP_eq_zero]
              intro b hb hbc
              have := hf.1 b hb
              rw [sameNodes_trans ha (sameNodes_symm hbc)] at this
              cases this
            simp [this, ha]
          · simpa [ha] using ih hf.2
      simp only [List.zipIdx_cons, List.flatMap_cons]
      constructor
      · rw [List.pairwise_append]
        refine ⟨?_, h1, ?_⟩
        · rw [List.pairwise_replicate]; left; exact hle
        · intro a ha b hb
          have := List.eq_of_mem_replicate ha
          have := h2 b hb
          omega
      · intro y hy
        rcases List.mem_append.1 hy with hy | hy
        · exact (List.eq_of_mem_replicate hy).ge
        · have := h2 y hy; omega
  exact (this cells 0 h).1

end Gridder
