import Verif.Props.Intersect
import Mathlib.Data.List.Range
import Mathlib.Data.List.Permutation

/-! # C115: a line through the mesh is cut at the faces it crosses -/

namespace Gridder

open Spec

section
variable {P K : Type*} [LinearOrder K]

/-- The answer `o` of a ray cast consists of the intersections `xs`, in some order. -/
def CastIs : Option (List (P × ℕ)) → List (P × ℕ) → Prop
  | none, xs => xs = []
  | some ys, xs => xs ≠ [] ∧ ys.Perm xs

instance [DecidableEq P] (o : Option (List (P × ℕ))) (xs : List (P × ℕ)) : Decidable (CastIs o xs) := by
  cases o <;> unfold CastIs <;> infer_instance

/-- The line with vertices `p 0`, ..., `p n` crosses the faces `face 0`, ..., `face k` of the mesh, at the points
`x 0`, ..., `x k` in this order, `x i` being on segment number `seg i`.  Between `x i` and `x (i + 1)` it is in the
cell `cell i`; the queries answer accordingly. -/
structure PassageCore (q : Queries P K) (m : K) (n k : ℕ) (p x : ℕ → P) (seg : ℕ → ℕ) (cell : ℕ → ℤ)
    (face : ℕ → ℕ) : Prop where
  meets : 0 < k
  seg_mono : ∀ i < k, seg i ≤ seg (i + 1)
  seg_lt : seg k < n
  /-- a segment meets the faces of a cell where the line enters and leaves it -/
  cast : ∀ i < k, ∀ l < n, CastIs (q.cast (cell i) (p l) (p (l + 1)))
    (([i, i + 1].filter fun j => seg j = l).map fun j => (x j, face j))
  /-- the faces between two cells -/
  between : ∀ i, i + 1 < k → (q.faceCells (face (i + 1))).Perm [cell i, cell (i + 1)]
  cell_ne : ∀ i, i + 1 < k → cell i ≠ cell (i + 1)
  inside : ∀ i < k, cell i ≠ -1
  /-- points on a segment are met in the order of their distance -/
  near : ∀ i < k, seg (i + 1) = seg i → q.dist (x i) (x i) < q.dist (x (i + 1)) (x i)
  /-- no point is within the tolerance or the minimum length of the one before it -/
  close_self : ∀ i ≤ k, q.close (x i) (x i) = true
  apart_entry : q.close (p (seg 0)) (x 0) = false
  apart : ∀ i < k, q.close (x i) (x (i + 1)) = false ∧ m ≤ q.dist (x (i + 1)) (x i)
  /-- the line ends elsewhere: neither near a crossing nor in the cells crossed -/
  away : ∀ i < k, m ≤ q.dist (x (i + 1)) (p n)
  not_in : ∀ i, i + 1 < k → q.contains (cell (i + 1)) (p n) = false

/-- The line comes from outside: `x 0` is its entry into the mesh. -/
structure Passage (q : Queries P K) (m : K) (n k : ℕ) (p x : ℕ → P) (seg : ℕ → ℕ) (cell : ℕ → ℤ) (face : ℕ → ℕ) :
    Prop extends PassageCore q m n k p x seg cell face where
  /-- the line does not meet the mesh before `x 0`, and the search finds the first cell -/
  find_none : ∀ l < seg 0, q.find (p l) (p (l + 1)) = none
  find_first : q.find (p (seg 0)) (p (seg 0 + 1)) = some (cell 0)
  near_first : seg 1 = seg 0 → q.dist (x 0) (p (seg 0)) < q.dist (x 1) (p (seg 0))
  apart_before : ∀ l < seg 0, q.close (p l) (p (l + 1)) = false
  long_entry : seg 0 < seg 1 → m ≤ q.dist (x 0) (p (seg 0))
  /-- a line that enters the mesh by its first segment leaves the first cell by the same segment -/
  first : seg 0 = 0 → seg 1 = 0

/-- The line starts in the mesh, in the cell `c`, and leaves it at `x 0` by its first segment. -/
structure FromInside (q : Queries P K) (m : K) (n k : ℕ) (p x : ℕ → P) (seg : ℕ → ℕ) (cell : ℕ → ℤ) (face : ℕ → ℕ)
    (c : ℤ) : Prop extends PassageCore q m n k p x seg cell face where
  first_segment : seg 0 = 0
  find_first : q.find (p 0) (p 1) = some c
  cast_first : q.cast c (p 0) (p 1) = some [(x 0, face 0)]
  first_face : (q.faceCells (face 0)).Perm [c, cell 0]
  first_ne : c ≠ cell 0
  first_inside : c ≠ -1
  long_first : m ≤ q.dist (x 0) (p 0)
  away_first : m ≤ q.dist (x 0) (p n)
  not_in_first : q.contains (cell 0) (p n) = false

variable {q : Queries P K} {m : K} {n k : ℕ} {p x : ℕ → P} {seg : ℕ → ℕ} {cell : ℕ → ℤ} {face : ℕ → ℕ}

/-- The state at vertex `l`, before the entry. -/
def beforeState (p : ℕ → P) (l : ℕ) : March P :=
  ⟨(List.range (l + 1)).map p, List.range l, List.replicate l (-1), none, false, false, 0⟩

/-- The state in the cell `cell j`. -/
def insideState (p x : ℕ → P) (seg : ℕ → ℕ) (cell : ℕ → ℤ) (j : ℕ) : March P :=
  ⟨(List.range (seg 0 + 1)).map p ++ (List.range (j + 1)).map x,
   List.range (seg 0 + 1) ++ (List.range j).map (fun i => seg (i + 1)),
   List.replicate (seg 0 + 1) (-1) ++ (List.range j).map cell, some (cell j), true, false, seg 0 + 1⟩

/-- The state at vertex `l`, after the exit. -/
def outsideState (k : ℕ) (p x : ℕ → P) (seg : ℕ → ℕ) (cell : ℕ → ℤ) (ia : Bool) (l : ℕ) : March P :=
  let after := if ia then [] else List.range' (seg k + 1) (l - seg k)
  ⟨(List.range (seg 0 + 1)).map p ++ (List.range (k + 1)).map x ++ after.map p,
   List.range (seg 0 + 1) ++ (List.range k).map (fun i => seg (i + 1)) ++ after.map (· - 1),
   List.replicate (seg 0 + 1) (-1) ++ (List.range k).map cell ++ after.map (fun _ => -1),
   some (cell (k - 1)), true, true, seg 0 + 1⟩

theorem before_last (p : ℕ → P) (l : ℕ) : (beforeState p l).points.getLast? = some (p l) := by
  simp [beforeState, List.range_succ]

theorem inside_last (p x : ℕ → P) (seg : ℕ → ℕ) (cell : ℕ → ℤ) (j : ℕ) :
    (insideState p x seg cell j).points.getLast? = some (x j) := by
  rw [insideState, List.range_succ (n := j), List.map_append, ← List.append_assoc]
  exact List.getLast?_concat

theorem addPoint_new {q : Queries P K} {m : K} {s : March P} {last a : P} (lid : ℕ) (c : ℤ)
    (hl : s.points.getLast? = some last) (hc : q.close last a = false)
    (hd : s.entered = false ∨ s.exited = true ∨ m ≤ q.dist a last) :
    addPoint q m s a lid c =
      { s with points := s.points ++ [a], lineIds := s.lineIds ++ [lid], cellIds := s.cellIds ++ [c] } := by
  unfold addPoint
  rw [hl]
  simp only
  rw [if_pos ⟨hc, hd⟩]

theorem addPoint_close {q : Queries P K} {m : K} {s : March P} {last a : P} (lid : ℕ) (c : ℤ)
    (hl : s.points.getLast? = some last) (hc : q.close last a = true) : addPoint q m s a lid c = s := by
  unfold addPoint
  rw [hl]
  simp [hc]

/-- How a passage ends: it leaves the mesh at `x k`, and the line goes on outside. -/
structure Leaves (q : Queries P K) (m : K) (n k : ℕ) (p x : ℕ → P) (seg : ℕ → ℕ) (cell : ℕ → ℤ) (face : ℕ → ℕ) :
    Prop where
  last_face : (q.faceCells (face k)).Perm [cell (k - 1), -1]
  apart_exit : q.close (x k) (p (seg k + 1)) = false ∧ m ≤ q.dist (p (seg k + 1)) (x k)
  apart_after : ∀ l, seg k < l → l < n → q.close (p l) (p (l + 1)) = false

theorem seg_le (hp : PassageCore q m n k p x seg cell face) {i j : ℕ} (hij : i ≤ j) (hj : j ≤ k) : seg i ≤ seg j := by
  induction j, hij using Nat.le_induction with
  | base => exact le_rfl
  | succ j _ ih => exact (ih (by omega)).trans (hp.seg_mono j (by omega))

/-- Adding the next crossing. -/
theorem add_crossing (hp : PassageCore q m n k p x seg cell face) {j : ℕ} (hj : j < k) :
    addPoint q m (insideState p x seg cell j) (x (j + 1)) (seg (j + 1)) (cell j) =
      { insideState p x seg cell (j + 1) with cell := some (cell j) } := by
  rw [addPoint_new _ _ (inside_last p x seg cell j) (hp.apart j hj).1 (Or.inr (Or.inr (hp.apart j hj).2))]
  simp [insideState, List.range_succ]

/-- Leaving a cell for the next one. -/
theorem crossExit_next (hp : PassageCore q m n k p x seg cell face) (ia : Bool) {j : ℕ} (hj : j + 1 < k) (il : Bool)
    (hil : il = true → seg (j + 1) + 1 = n) :
    crossExit q m ia (p n) il (insideState p x seg cell j) (seg (j + 1)) (p (seg (j + 1) + 1)) (cell j)
      (x (j + 1), face (j + 1)) = .ok (insideState p x seg cell (j + 1), true) := by
  have hb := hp.between j hj
  have h1 : cell j ∈ q.faceCells (face (j + 1)) := hb.mem_iff.2 (by simp)
  have h2 : (-1 : ℤ) ∉ q.faceCells (face (j + 1)) := by
    intro h
    have := hb.mem_iff.1 h
    simp only [List.mem_cons, List.not_mem_nil, or_false] at this
    rcases this with h | h
    · exact hp.inside j (by omega) h.symm
    · exact hp.inside (j + 1) hj h.symm
  have h3 : (q.faceCells (face (j + 1))).filter (· ≠ cell j) = [cell (j + 1)] := by
    have := hb.filter (fun c => decide (c ≠ cell j))
    simp only [ne_eq, decide_not, List.filter_cons, decide_true, Bool.not_true, Bool.false_eq_true, ↓reduceIte,
      List.filter_nil] at this
    rw [if_pos (by simpa using (hp.cell_ne j hj).symm)] at this
    simpa using List.perm_singleton.1 this
  unfold crossExit
  simp only
  rw [add_crossing hp (by omega), if_neg (not_lt.2 (hp.away j (by omega))), if_neg (by simpa using h1), if_neg h2, h3]
  simp only
  rw [if_neg]
  · rfl
  · rintro ⟨h, h'⟩
    rw [hil h, hp.not_in j hj] at h'
    cases h'

/-- Leaving the mesh. -/
theorem crossExit_out (hp : PassageCore q m n k p x seg cell face) (hl : Leaves q m n k p x seg cell face) (ia : Bool)
    {j : ℕ} (hj : j + 1 = k) (il : Bool) :
    crossExit q m ia (p n) il (insideState p x seg cell j) (seg (j + 1)) (p (seg (j + 1) + 1)) (cell j)
      (x (j + 1), face (j + 1)) = .ok (outsideState k p x seg cell ia (seg k + 1), false) := by
  have hb := hl.last_face
  subst hj
  rw [Nat.add_sub_cancel] at hb
  unfold crossExit
  simp only
  rw [add_crossing hp (by omega), if_neg (not_lt.2 (hp.away j (by omega))),
    if_neg (by simpa using hb.mem_iff.2 (by simp)), if_pos (hb.mem_iff.2 (by simp))]
  cases ia
  · simp only [Bool.false_eq_true, ↓reduceIte]
    rw [addPoint_new (last := x (j + 1)) (s := { insideState p x seg cell (j + 1) with cell := some (cell j) }) _ _ (inside_last p x seg cell (j + 1)) hl.apart_exit.1
      (Or.inr (Or.inr hl.apart_exit.2))]
    simp [insideState, outsideState]
  · simp [insideState, outsideState]

/-- The state after a segment `l`: inside a cell, or the given state if the segment ends the passage. -/
def After (k : ℕ) (p x : ℕ → P) (seg : ℕ → ℕ) (cell : ℕ → ℤ) (S : March P) (l : ℕ) (s : March P) : Prop :=
  (∃ j < k, seg j ≤ l ∧ l < seg (j + 1) ∧ s = insideState p x seg cell j) ∨ (seg k = l ∧ s = S)

theorem cast_some {o : Option (List (P × ℕ))} {xs : List (P × ℕ)} (h : CastIs o xs) (hx : xs ≠ []) :
    ∃ ys, o = some ys ∧ ys.Perm xs := by
  cases o with
  | none => exact absurd h hx
  | some ys => exact ⟨ys, rfl, h.2⟩

theorem cast_none {o : Option (List (P × ℕ))} (h : CastIs o []) : o = none := by
  cases o with
  | none => rfl
  | some ys => exact absurd rfl h.1

theorem cast_one {o : Option (List (P × ℕ))} {a : P × ℕ} (h : CastIs o [a]) : o = some [a] := by
  obtain ⟨ys, rfl, hy⟩ := cast_some h (by simp)
  rw [List.perm_singleton.1 hy]

theorem cast_two {o : Option (List (P × ℕ))} {a b : P × ℕ} (h : CastIs o [a, b]) :
    o = some [a, b] ∨ o = some [b, a] := by
  obtain ⟨ys, rfl, hy⟩ := cast_some h (by simp)
  rcases List.perm_pair.1 hy with rfl | rfl
  · exact Or.inl rfl
  · exact Or.inr rfl

/-- Nearest and farthest of two points. -/
theorem nearFar_lt {q : Queries P K} {last : P} {a b : P × ℕ} (h : q.dist a.1 last < q.dist b.1 last) :
    nearFar q last a b = (a, b) ∧ nearFar q last b a = (a, b) := by
  simp [nearFar, h.le, not_le.2 h]

/-- The end of the body of the inner loop, at the crossing that ends the passage. -/
def EndsWith (q : Queries P K) (m : K) (n k : ℕ) (p x : ℕ → P) (seg : ℕ → ℕ) (cell : ℕ → ℤ) (face : ℕ → ℕ)
    (ia : Bool) (S : March P) : Prop :=
  ∀ j, j + 1 = k → crossExit q m ia (p n) (decide (seg k + 1 = n)) (insideState p x seg cell j) (seg k)
    (p (seg k + 1)) (cell j) (x k, face k) = .ok (S, false)

/-- The inner loop, in the cell `cell j`. -/
theorem loop_inside (hp : PassageCore q m n k p x seg cell face) {ia : Bool} {S : March P}
    (hS : EndsWith q m n k p x seg cell face ia S) {l : ℕ} (hl : l < n) (fuel : ℕ) :
    ∀ j, j < k → k < j + fuel → seg j ≤ l → l ≤ seg (j + 1) →
    ∃ s', marchLoop q m ia (p n) (decide (l + 1 = n)) fuel (insideState p x seg cell j) l (p l) (p (l + 1)) = .ok s' ∧
      After k p x seg cell S l s' := by
  induction fuel with
  | zero => intro j h1 h2; omega
  | succ fuel ih =>
    intro j hj hf h1 h2
    have hc := hp.cast j hj l hl
    have hlast := inside_last p x seg cell j
    rw [marchLoop]
    simp only [show (insideState p x seg cell j).cell = some (cell j) from rfl]
    by_cases hx : seg (j + 1) = l
    · -- the cell is left by this segment
      have key : marchStep q m ia (p n) (decide (l + 1 = n)) (insideState p x seg cell j) l (p l) (p (l + 1)) (cell j) =
          crossExit q m ia (p n) (decide (l + 1 = n)) (insideState p x seg cell j) l (p (l + 1)) (cell j)
            (x (j + 1), face (j + 1)) := by
        by_cases he : seg j = l
        · rw [List.filter_cons_of_pos (by simpa using he), List.filter_cons_of_pos (by simpa using hx)] at hc
          have hnf := nearFar_lt (q := q) (last := x j) (a := (x j, face j)) (b := (x (j + 1), face (j + 1)))
            (hp.near j hj (by omega))
          rcases cast_two hc with hc | hc <;>
          · simp only [marchStep, hc, hlast]
            first | rw [hnf.1] | rw [hnf.2]
            rw [if_neg (by simp [insideState])]
        · rw [List.filter_cons_of_neg (by simpa using he), List.filter_cons_of_pos (by simpa using hx)] at hc
          simp only [marchStep, cast_one hc, hlast]
          rw [if_neg (by simp [insideState]), if_neg (by simp [(hp.apart j hj).1])]
      subst hx
      rw [key]
      by_cases hk : j + 1 = k
      · have hE := hS j hk
        subst hk
        rw [hE]
        exact ⟨S, rfl, Or.inr ⟨rfl, rfl⟩⟩
      · rw [crossExit_next hp ia (by omega) _ (by simp)]
        exact ih (j + 1) (by omega) (by omega) le_rfl (hp.seg_mono _ (by omega))
    · refine ⟨insideState p x seg cell j, ?_, Or.inl ⟨j, hj, h1, by omega, rfl⟩⟩
      by_cases he : seg j = l
      · rw [List.filter_cons_of_pos (by simpa using he), List.filter_cons_of_neg (by simpa using hx)] at hc
        simp only [marchStep, cast_one hc, hlast]
        rw [if_neg (by simp [insideState]), if_pos (hp.close_self j hj.le),
          addPoint_close l (cell j) hlast (hp.close_self j hj.le)]
      · rw [List.filter_cons_of_neg (by simpa using he), List.filter_cons_of_neg (by simpa using hx)] at hc
        simp only [marchStep, cast_none (o := q.cast (cell j) (p l) (p (l + 1))) hc]

/-- The state at vertex `l`, once the first cell is found. -/
def entryState (p : ℕ → P) (cell : ℕ → ℤ) (l : ℕ) (e : Bool) : March P :=
  ⟨(List.range (l + 1)).map p, List.range l, List.replicate l (-1), some (cell 0), e, false, l + 1⟩

/-- The segment by which the line enters the mesh. -/
theorem loop_entry (hp : Passage q m n k p x seg cell face) {ia : Bool} {S : March P}
    (hS : EndsWith q m n k p x seg cell face ia S) (fuel : ℕ) (hf : k < fuel) :
    ∃ s', marchLoop q m ia (p n) (decide (seg 0 + 1 = n)) fuel { beforeState p (seg 0) with cell := some (cell 0) }
      (seg 0) (p (seg 0)) (p (seg 0 + 1)) = .ok s' ∧ After k p x seg cell S (seg 0) s' := by
  have hl : seg 0 < n := lt_of_le_of_lt (seg_le hp.toPassageCore (Nat.zero_le k) le_rfl) hp.seg_lt
  have hk := hp.meets
  obtain ⟨fuel, rfl⟩ : ∃ f, fuel = f + 1 := ⟨fuel - 1, by omega⟩
  have hc := hp.cast 0 hk (seg 0) hl
  have hlast := before_last p (seg 0)
  have hlen : (beforeState p (seg 0)).points.length = seg 0 + 1 := by simp [beforeState]
  rw [List.filter_cons_of_pos (by simp)] at hc
  have hadd : ∀ e : Bool, (e = true → m ≤ q.dist (x 0) (p (seg 0))) →
      { addPoint q m (entryState p cell (seg 0) e) (x 0) (seg 0) (-1) with entered := true } =
      insideState p x seg cell 0 := by
    intro e he
    rw [addPoint_new (s := entryState p cell (seg 0) e) _ _ hlast hp.apart_entry]
    · simp [insideState, entryState, List.range_succ, List.replicate_succ']
    · cases e
      · exact Or.inl rfl
      · exact Or.inr (Or.inr (he rfl))
  by_cases hx : seg 1 = seg 0
  · rw [List.filter_cons_of_pos (by simpa using hx)] at hc
    have hnf := nearFar_lt (q := q) (last := p (seg 0)) (a := (x 0, face 0)) (b := (x 1, face 1)) (hp.near_first hx)
    have key : marchStep q m ia (p n) (decide (seg 0 + 1 = n)) { beforeState p (seg 0) with cell := some (cell 0) }
        (seg 0) (p (seg 0)) (p (seg 0 + 1)) (cell 0) =
        crossExit q m ia (p n) (decide (seg 0 + 1 = n)) (insideState p x seg cell 0) (seg 0) (p (seg 0 + 1)) (cell 0)
          (x 1, face 1) := by
      rw [← hadd false (by simp)]
      rcases cast_two hc with hc | hc <;>
      · simp only [marchStep, hc, hlast, hlen]
        first | rw [hnf.1] | rw [hnf.2]
        rw [if_pos (by simp [beforeState])]
        rfl
    rw [marchLoop]
    simp only
    rw [key]
    by_cases hk1 : 0 + 1 = k
    · have hE := hS 0 hk1
      subst hk1
      simp only [Nat.zero_add, hx] at hE
      rw [hE]
      exact ⟨S, rfl, Or.inr ⟨hx, rfl⟩⟩
    · have hE := crossExit_next hp.toPassageCore ia (j := 0) (by omega) (decide (seg 1 + 1 = n)) (by simp)
      simp only [Nat.zero_add, hx] at hE
      rw [hE]
      exact loop_inside hp.toPassageCore hS hl fuel 1 (by omega) (by omega) hx.le (hx ▸ hp.seg_mono 1 (by omega))
  · rw [List.filter_cons_of_neg (by simpa using hx)] at hc
    have h01 := hp.seg_mono 0 hk
    have hE := hadd true (fun _ => hp.long_entry (by simp at h01; omega))
    refine ⟨insideState p x seg cell 0, ?_, Or.inl ⟨0, hk, le_rfl, by simp at h01 ⊢; omega, rfl⟩⟩
    rw [marchLoop]
    simp only [marchStep, cast_one hc, hlast, hlen]
    rw [if_pos (by simp [beforeState])]
    have hE' : addPoint q m (entryState p cell (seg 0) true) (x 0) (seg 0) (-1) = insideState p x seg cell 0 := by
      rw [← hE]
      have := addPoint_entered q m (entryState p cell (seg 0) true) (x 0) (seg 0) (-1)
      generalize addPoint q m (entryState p cell (seg 0) true) (x 0) (seg 0) (-1) = s at this
      cases s
      simp only at this
      subst this
      rfl
    simp only [entryState] at hE'
    simp only [beforeState, hE']
    have h0 : seg 0 ≠ 0 := fun h => hx (by rw [hp.first h, h])
    rw [if_pos (by simp [insideState]; omega)]

/-- The vertices of the line from number `l` on. -/
def verticesFrom (p : ℕ → P) (l n : ℕ) : List P := (List.range' l (n + 1 - l)).map p

theorem verticesFrom_cons (p : ℕ → P) {l n : ℕ} (h : l ≤ n) : verticesFrom p l n = p l :: verticesFrom p (l + 1) n := by
  unfold verticesFrom
  rw [show n + 1 - l = (n - l) + 1 by omega, List.range'_succ, List.map_cons, show n + 1 - (l + 1) = n - l by omega]

theorem verticesFrom_empty (p : ℕ → P) {l n : ℕ} (h : l < n) :
    (verticesFrom p (l + 2) n).isEmpty = decide (l + 1 = n) := by
  unfold verticesFrom
  by_cases he : l + 1 = n
  · subst he; simp
  · rw [show n + 1 - (l + 2) = (n - l - 2) + 1 by omega, List.range'_succ]
    simp [he]

/-- The loop over the segments. -/
theorem line_loop (hp : PassageCore q m n k p x seg cell face) {ia : Bool} {fuel : ℕ} (hf : k < fuel) {out : ℕ → March P}
    (hnone : ∀ l < seg 0, q.find (p l) (p (l + 1)) = none ∧ q.close (p l) (p (l + 1)) = false)
    (hentry : ∃ s', marchSegment q m ia (p n) (decide (seg 0 + 1 = n)) fuel (beforeState p (seg 0)) (seg 0) (p (seg 0))
      (p (seg 0 + 1)) = .ok (s', true) ∧ After k p x seg cell (out (seg k + 1)) (seg 0) s')
    (hS : EndsWith q m n k p x seg cell face ia (out (seg k + 1)))
    (hout : ∀ l, seg k < l → l < n →
      marchSegment q m ia (p n) (decide (l + 1 = n)) fuel (out l) l (p l) (p (l + 1)) = .ok (out (l + 1), true) ∨
      marchSegment q m ia (p n) (decide (l + 1 = n)) fuel (out l) l (p l) (p (l + 1)) = .ok (out n, false)) (d : ℕ) :
    ∀ l s, l + d = n → ((l ≤ seg 0 ∧ s = beforeState p l) ∨
      (∃ j < k, seg j < l ∧ l ≤ seg (j + 1) ∧ s = insideState p x seg cell j) ∨ (seg k < l ∧ s = out l)) →
    marchLine q m ia (p n) fuel s l (p l) (verticesFrom p (l + 1) n) = .ok (out n) := by
  have hk0 := seg_le hp (Nat.zero_le k) le_rfl
  have hkn := hp.seg_lt
  induction d with
  | zero =>
    rintro l s hl hs
    obtain rfl : l = n := by omega
    have : verticesFrom p (l + 1) l = [] := by simp [verticesFrom]
    rw [this, marchLine]
    rcases hs with ⟨h, -⟩ | ⟨j, hj, -, h, -⟩ | ⟨-, rfl⟩
    · omega
    · have := seg_le hp (Nat.succ_le_of_lt hj) le_rfl
      simp at this
      omega
    · rfl
  | succ d ih =>
    rintro l s hl hs
    have hln : l < n := by omega
    rw [verticesFrom_cons p (by omega : l + 1 ≤ n), marchLine, verticesFrom_empty p hln]
    have after : ∀ s', After k p x seg cell (out (seg k + 1)) l s' → marchSegment q m ia (p n) (decide (l + 1 = n)) fuel s l (p l) (p (l + 1)) = .ok (s', true) →
        (match marchSegment q m ia (p n) (decide (l + 1 = n)) fuel s l (p l) (p (l + 1)) with
        | .error e => .error e
        | .ok (s, false) => .ok s
        | .ok (s, true) => marchLine q m ia (p n) fuel s (l + 1) (p (l + 1)) (verticesFrom p (l + 1 + 1) n)) =
        (.ok (out n) : Py (March P)) := by
      intro s' h e
      rw [e]
      refine ih (l + 1) s' (by omega) ?_
      rcases h with ⟨j, hj, h1, h2, rfl⟩ | ⟨rfl, rfl⟩
      · exact Or.inr (Or.inl ⟨j, hj, by omega, by omega, rfl⟩)
      · exact Or.inr (Or.inr ⟨by omega, rfl⟩)
    rcases hs with ⟨h, rfl⟩ | ⟨j, hj, h1, h2, rfl⟩ | ⟨h, rfl⟩
    · rcases Nat.lt_or_eq_of_le h with h | rfl
      · have e : marchSegment q m ia (p n) (decide (l + 1 = n)) fuel (beforeState p l) l (p l) (p (l + 1)) =
            .ok (beforeState p (l + 1), true) := by
          simp only [marchSegment, show (beforeState p l).cell = none from rfl, (hnone l h).1]
          rw [addPoint_new _ _ (before_last p l) (hnone l h).2 (Or.inl rfl)]
          simp [beforeState, List.range_succ, List.replicate_succ']
        rw [e]
        exact ih (l + 1) _ (by omega) (Or.inl ⟨h, rfl⟩)
      · obtain ⟨s', h1, h2⟩ := hentry
        exact after s' h2 h1
    · obtain ⟨s', h3, h4⟩ := loop_inside hp hS hln fuel j hj (by omega) h1.le h2
      refine after s' h4 ?_
      simp only [marchSegment, show (insideState p x seg cell j).cell = some (cell j) from rfl, marchInside]
      rw [if_pos (show (insideState p x seg cell j).exited = false from rfl), h3]
    · rcases hout l h hln with e | e
      · rw [e]
        exact ih (l + 1) _ (by omega) (Or.inr (Or.inr ⟨by omega, rfl⟩))
      · rw [e]

theorem march_core (hp : PassageCore q m n k p x seg cell face) {ia : Bool} {fuel : ℕ} (hf : k < fuel)
    {out : ℕ → March P}
    (hnone : ∀ l < seg 0, q.find (p l) (p (l + 1)) = none ∧ q.close (p l) (p (l + 1)) = false)
    (hentry : ∃ s', marchSegment q m ia (p n) (decide (seg 0 + 1 = n)) fuel (beforeState p (seg 0)) (seg 0) (p (seg 0))
      (p (seg 0 + 1)) = .ok (s', true) ∧ After k p x seg cell (out (seg k + 1)) (seg 0) s')
    (hS : EndsWith q m n k p x seg cell face ia (out (seg k + 1)))
    (hout : ∀ l, seg k < l → l < n →
      marchSegment q m ia (p n) (decide (l + 1 = n)) fuel (out l) l (p l) (p (l + 1)) = .ok (out (l + 1), true) ∨
      marchSegment q m ia (p n) (decide (l + 1 = n)) fuel (out l) l (p l) (p (l + 1)) = .ok (out n, false)) :
    march q m ia fuel ((List.range (n + 1)).map p) = .ok (out n) := by
  have e : (List.range (n + 1)).map p = p 0 :: verticesFrom p 1 n := by
    rw [← verticesFrom_cons p (Nat.zero_le n), verticesFrom, List.range_eq_range']
    rfl
  have hlast : (p 0 :: verticesFrom p 1 n).getLastD (p 0) = p n := by
    rw [← e, List.range_succ, List.map_append]
    simp [List.getLastD_eq_getLast?]
  rw [e, march, hlast]
  exact line_loop hp hf hnone hentry hS hout n 0 _ (by omega) (Or.inl ⟨Nat.zero_le _, rfl⟩)

/-- How the entry of a line goes: like `loop_entry`, or from inside. -/
structure Begins (q : Queries P K) (m : K) (n k d : ℕ) (p x : ℕ → P) (seg : ℕ → ℕ) (cell : ℕ → ℤ) (face : ℕ → ℕ) :
    Prop where
  none : ∀ l < seg 0, q.find (p l) (p (l + 1)) = none ∧ q.close (p l) (p (l + 1)) = false
  entry : ∀ (ia : Bool) (fuel : ℕ) (S : March P), k + d < fuel → EndsWith q m n k p x seg cell face ia S →
    ∃ s', marchSegment q m ia (p n) (decide (seg 0 + 1 = n)) fuel (beforeState p (seg 0)) (seg 0) (p (seg 0))
      (p (seg 0 + 1)) = .ok (s', true) ∧ After k p x seg cell S (seg 0) s'

theorem Passage.begins (hp : Passage q m n k p x seg cell face) : Begins q m n k 0 p x seg cell face := by
  refine ⟨fun l h => ⟨hp.find_none l h, hp.apart_before l h⟩, ?_⟩
  intro ia fuel S hf hS
  obtain ⟨s', h1, h2⟩ := loop_entry hp hS fuel hf
  refine ⟨s', ?_, h2⟩
  simp only [marchSegment, show (beforeState p (seg 0)).cell = none from rfl, hp.find_first, marchInside]
  rw [if_pos (show (beforeState p (seg 0)).exited = false from rfl), h1]

theorem FromInside.begins {c : ℤ} (hp : FromInside q m n k p x seg cell face c) :
    Begins q m n k 1 p x seg cell face := by
  have h0 := hp.first_segment
  refine ⟨fun l h => by omega, ?_⟩
  intro ia fuel S hf hS
  obtain ⟨fuel, rfl⟩ : ∃ f, fuel = f + 1 := ⟨fuel - 1, by omega⟩
  have hn : 0 < n := by have := seg_le hp.toPassageCore (Nat.zero_le k) le_rfl; have := hp.seg_lt; omega
  have hk := hp.meets
  -- the only crossing is taken as the entry
  have ha : addPoint q m ⟨[p 0], [], [], some c, true, false, 1⟩ (x 0) 0 (-1) =
      { insideState p x seg cell 0 with cell := some c } := by
    rw [addPoint_new (s := ⟨[p 0], [], [], some c, true, false, 1⟩) (last := p 0) _ _ rfl (by have := hp.apart_entry; rwa [h0] at this)
      (Or.inr (Or.inr hp.long_first))]
    simp [insideState, h0]
  have hlast : ({ insideState p x seg cell 0 with cell := some c } : March P).points.getLast? = some (x 0) :=
    inside_last p x seg cell 0
  have h1 : c ∈ q.faceCells (face 0) := hp.first_face.mem_iff.2 (by simp)
  have h2 : (-1 : ℤ) ∉ q.faceCells (face 0) := by
    intro h
    have := hp.first_face.mem_iff.1 h
    simp only [List.mem_cons, List.not_mem_nil, or_false] at this
    rcases this with h | h
    · exact hp.first_inside h.symm
    · exact hp.inside 0 hk h.symm
  have h3 : (q.faceCells (face 0)).filter (· ≠ c) = [cell 0] := by
    have := hp.first_face.filter (fun d => decide (d ≠ c))
    simp only [ne_eq, decide_not, List.filter_cons, decide_true, Bool.not_true, Bool.false_eq_true, ↓reduceIte,
      List.filter_nil] at this
    rw [if_pos (by simpa using hp.first_ne.symm)] at this
    simpa using List.perm_singleton.1 this
  have hE : crossExit q m ia (p n) (decide (0 + 1 = n)) { insideState p x seg cell 0 with cell := some c } 0 (p 1) c
      (x 0, face 0) = .ok (insideState p x seg cell 0, true) := by
    unfold crossExit
    simp only
    rw [addPoint_close (s := { insideState p x seg cell 0 with cell := some c }) 0 c hlast
      (hp.close_self 0 (Nat.zero_le k)), if_neg (not_lt.2 hp.away_first), if_neg (by simpa using h1), if_neg h2, h3]
    simp only
    rw [if_neg]
    · rfl
    · rintro ⟨h, h'⟩
      obtain rfl : 0 + 1 = n := of_decide_eq_true h
      rw [hp.not_in_first] at h'
      cases h'
  obtain ⟨s', h4, h5⟩ := loop_inside hp.toPassageCore hS hn fuel 0 hk (by omega) h0.le (Nat.zero_le _)
  rw [h0]
  refine ⟨s', ?_, h5⟩
  simp only [marchSegment, show (beforeState p 0).cell = none from rfl, hp.find_first, marchInside]
  rw [if_pos (show (beforeState p 0).exited = false from rfl), marchLoop]
  have hs : marchStep q m ia (p n) (decide (0 + 1 = n)) { beforeState p 0 with cell := some c } 0 (p 0) (p (0 + 1)) c =
      .ok (insideState p x seg cell 0, true) := by
    simp only [marchStep, hp.cast_first, show (beforeState p 0).points.getLast? = some (p 0) from before_last p 0]
    rw [if_pos (show (beforeState p 0).entered = false from rfl),
      show ({ beforeState p 0 with cell := some c, count := (beforeState p 0).points.length, entered := true } : March P) =
        ⟨[p 0], [], [], some c, true, false, 1⟩ from rfl, ha, if_neg (by simp [insideState, h0])]
    exact hE
  simp only
  rw [hs]
  simp only
  rw [h4]

theorem march_passage (hp : PassageCore q m n k p x seg cell face) {d : ℕ} (hb : Begins q m n k d p x seg cell face) {ia : Bool}
    {fuel : ℕ} (hf : k + d < fuel)
    {out : ℕ → March P} (hS : EndsWith q m n k p x seg cell face ia (out (seg k + 1)))
    (hout : ∀ l, seg k < l → l < n →
      marchSegment q m ia (p n) (decide (l + 1 = n)) fuel (out l) l (p l) (p (l + 1)) = .ok (out (l + 1), true) ∨
      marchSegment q m ia (p n) (decide (l + 1 = n)) fuel (out l) l (p l) (p (l + 1)) = .ok (out n, false)) :
    march q m ia fuel ((List.range (n + 1)).map p) = .ok (out n) :=
  march_core hp (by omega) hb.none (hb.entry ia fuel _ hf hS) hS hout

theorem march_leaves (hp : PassageCore q m n k p x seg cell face) {d : ℕ} (hb : Begins q m n k d p x seg cell face)
    (hl : Leaves q m n k p x seg cell face) (ia : Bool)
    {fuel : ℕ} (hf : k + d < fuel) :
    march q m ia fuel ((List.range (n + 1)).map p) = .ok (outsideState k p x seg cell ia n) := by
  refine march_passage hp hb hf (out := outsideState k p x seg cell ia) ?_ ?_
  · intro j hj
    have := crossExit_out hp hl ia hj (decide (seg k + 1 = n))
    rw [hj] at this
    exact this
  · intro l h hn
    cases ia
    · left
      have hlast : (outsideState k p x seg cell false l).points.getLast? = some (p l) := by
        simp only [outsideState, Bool.false_eq_true, ↓reduceIte]
        rw [show l - seg k = (l - seg k - 1) + 1 by omega, List.range'_concat, List.map_append, ← List.append_assoc]
        rw [show seg k + 1 + 1 * (l - seg k - 1) = l by omega]
        exact List.getLast?_concat
      simp only [marchSegment, show (outsideState k p x seg cell false l).cell = some (cell (k - 1)) from rfl,
        marchInside]
      rw [if_neg (by simp [outsideState]), if_neg (by simp),
        addPoint_new _ _ hlast (hl.apart_after l h hn) (Or.inr (Or.inl rfl))]
      simp only [outsideState, Bool.false_eq_true, ↓reduceIte]
      rw [show l + 1 - seg k = (l - seg k) + 1 by omega, List.range'_concat,
        show seg k + 1 + 1 * (l - seg k) = l + 1 by omega]
      simp
    · right
      simp only [marchSegment, show (outsideState k p x seg cell true l).cell = some (cell (k - 1)) from rfl,
        marchInside]
      rw [if_neg (by simp [outsideState]), if_pos trivial]
      simp [outsideState]

/-- How a passage ends: the line goes through one more face, into the cell `cell k`, and ends in it. -/
structure Stops (q : Queries P K) (m : K) (n k : ℕ) (p x : ℕ → P) (seg : ℕ → ℕ) (cell : ℕ → ℤ) (face : ℕ → ℕ) :
    Prop where
  last_segment : seg k + 1 = n
  last_face : (q.faceCells (face k)).Perm [cell (k - 1), cell k]
  last_ne : cell (k - 1) ≠ cell k
  last_inside : cell k ≠ -1
  holds : q.contains (cell k) (p n) = true
  apart_end : q.close (x k) (p n) = false ∧ m ≤ q.dist (p n) (x k)

/-- The state at the end of a line that ends in the mesh. -/
def endState (n k : ℕ) (p x : ℕ → P) (seg : ℕ → ℕ) (cell : ℕ → ℤ) : March P :=
  ⟨(List.range (seg 0 + 1)).map p ++ (List.range (k + 1)).map x ++ [p n],
   List.range (seg 0 + 1) ++ (List.range k).map (fun i => seg (i + 1)) ++ [seg k],
   List.replicate (seg 0 + 1) (-1) ++ (List.range k).map cell ++ [cell k],
   some (cell k), true, false, seg 0 + 1⟩

theorem march_stops (hp : PassageCore q m n k p x seg cell face) {d : ℕ} (hb : Begins q m n k d p x seg cell face)
    (hl : Stops q m n k p x seg cell face) (ia : Bool)
    {fuel : ℕ} (hf : k + d < fuel) :
    march q m ia fuel ((List.range (n + 1)).map p) = .ok (endState n k p x seg cell) := by
  refine march_passage hp hb hf (out := fun _ => endState n k p x seg cell) ?_ ?_
  · intro j hj
    have hb := hl.last_face
    have hne := hl.last_ne
    have hseg := hl.last_segment
    subst hj
    rw [Nat.add_sub_cancel] at hb hne
    have h1 : cell j ∈ q.faceCells (face (j + 1)) := hb.mem_iff.2 (by simp)
    have h2 : (-1 : ℤ) ∉ q.faceCells (face (j + 1)) := by
      intro h
      have := hb.mem_iff.1 h
      simp only [List.mem_cons, List.not_mem_nil, or_false] at this
      rcases this with h | h
      · exact hp.inside j (by omega) h.symm
      · exact hl.last_inside h.symm
    have h3 : (q.faceCells (face (j + 1))).filter (· ≠ cell j) = [cell (j + 1)] := by
      have := hb.filter (fun c => decide (c ≠ cell j))
      simp only [ne_eq, decide_not, List.filter_cons, decide_true, Bool.not_true, Bool.false_eq_true, ↓reduceIte,
        List.filter_nil] at this
      rw [if_pos (by simpa using hne.symm)] at this
      simpa using List.perm_singleton.1 this
    unfold crossExit
    simp only
    rw [add_crossing hp (by omega), if_neg (not_lt.2 (hp.away j (by omega))), if_neg (by simpa using h1), if_neg h2,
      h3]
    simp only
    rw [if_pos ⟨by simpa using hseg, by rw [hseg]; exact hl.holds⟩, hseg,
      addPoint_new (s := { insideState p x seg cell (j + 1) with cell := some (cell (j + 1)) }) _ _
        (inside_last p x seg cell (j + 1)) hl.apart_end.1 (Or.inr (Or.inr hl.apart_end.2))]
    rfl
  · intro l h hn
    have := hl.last_segment
    omega

theorem drop_before {α : Type*} (ib : Bool) {d : ℕ} (a b c : List α) (ha : a.length = d) :
    (a ++ b ++ c).drop (if ib then d else 0) = (if ib then [] else a) ++ b ++ c := by
  cases ib
  · simp
  · simp only [if_true]
    rw [List.append_assoc, ← ha, List.drop_left, List.nil_append]

theorem through_core {D : Type*} (hp : PassageCore q m n k p x seg cell face) {d : ℕ}
    (hb : Begins q m n k d p x seg cell face)
    (hl : Leaves q m n k p x seg cell face) (ib ia : Bool) {fuel : ℕ} (hf : k + d < fuel)
    (cellData : Dict String (List D)) :
    (∀ r, intersectPolyline q m ib ia fuel ((List.range (n + 1)).map p) cellData = .ok r →
      r.points = (if ib then [] else (List.range (seg 0 + 1)).map p) ++ (List.range (k + 1)).map x ++
        (if ia then [] else (List.range' (seg k + 1) (n - seg k)).map p) ∧
      r.lineIds = (if ib then [] else List.range (seg 0 + 1)) ++ (List.range k).map (fun i => seg (i + 1)) ++
        (if ia then [] else List.range' (seg k) (n - seg k)) ∧
      r.cellIds = (if ib then [] else List.replicate (seg 0 + 1) (-1)) ++ (List.range k).map cell ++
        (if ia then [] else List.replicate (n - seg k) (-1))) ∧
    ∃ r, intersectPolyline q m ib ia fuel ((List.range (n + 1)).map p) ([] : Dict String (List D)) = .ok r := by
  have hm := march_leaves hp hb hl ia hf
  constructor
  · intro r h
    obtain ⟨s, d, hs, rfl, hlen, e1, e2, e3, -⟩ := intersect_ok h
    obtain rfl : outsideState k p x seg cell ia n = s := Except.ok.inj (hm.symm.trans hs)
    rw [e1, e2, e3]
    have hr : (List.range' (seg k + 1) (n - seg k)).map (· - 1) = List.range' (seg k) (n - seg k) := by
      rw [List.range'_eq_map_range, List.range'_eq_map_range, List.map_map]
      refine List.map_congr_left fun i _ => ?_
      simp only [Function.comp_apply]
      omega
    have hrep : (List.range' (seg k + 1) (n - seg k)).map (fun _ => (-1 : ℤ)) = List.replicate (n - seg k) (-1) := by
      simp [List.map_const']
    refine ⟨?_, ?_, ?_⟩
    · simp only [outsideState]
      rw [drop_before ib _ _ _ (by simp)]
      cases ia <;> simp
    · simp only [outsideState]
      rw [drop_before ib _ _ _ (by simp)]
      cases ia <;> simp [hr]
    · simp only [outsideState]
      rw [drop_before ib _ _ _ (by simp)]
      cases ia <;> simp
  · simp only [intersectPolyline, hm]
    rw [if_neg]
    · exact ⟨_, rfl⟩
    · have := hp.meets
      cases ib <;> simp [outsideState] <;> omega

theorem into_core {D : Type*} (hp : PassageCore q m n k p x seg cell face) {d : ℕ}
    (hb : Begins q m n k d p x seg cell face)
    (hl : Stops q m n k p x seg cell face) (ib ia : Bool) {fuel : ℕ} (hf : k + d < fuel)
    (cellData : Dict String (List D)) :
    (∀ r, intersectPolyline q m ib ia fuel ((List.range (n + 1)).map p) cellData = .ok r →
      r.points = (if ib then [] else (List.range (seg 0 + 1)).map p) ++ (List.range (k + 1)).map x ++ [p n] ∧
      r.lineIds = (if ib then [] else List.range (seg 0 + 1)) ++ (List.range k).map (fun i => seg (i + 1)) ++
        [n - 1] ∧
      r.cellIds = (if ib then [] else List.replicate (seg 0 + 1) (-1)) ++ (List.range (k + 1)).map cell) ∧
    ∃ r, intersectPolyline q m ib ia fuel ((List.range (n + 1)).map p) ([] : Dict String (List D)) = .ok r := by
  have hm := march_stops hp hb hl ia hf
  constructor
  · intro r h
    obtain ⟨s, d, hs, rfl, hlen, e1, e2, e3, -⟩ := intersect_ok h
    obtain rfl : endState n k p x seg cell = s := Except.ok.inj (hm.symm.trans hs)
    rw [e1, e2, e3]
    have hn : n - 1 = seg k := by have := hl.last_segment; omega
    refine ⟨?_, ?_, ?_⟩
    · simp only [endState]
      rw [drop_before ib _ _ _ (by simp)]
    · simp only [endState]
      rw [drop_before ib _ _ _ (by simp), hn]
    · simp only [endState]
      rw [drop_before ib _ _ _ (by simp), List.range_succ (n := k)]
      simp
  · simp only [intersectPolyline, hm]
    rw [if_neg]
    · exact ⟨_, rfl⟩
    · have := hp.meets
      cases ib
      · simp [endState]
        omega
      · simp [endState]

/-- **C115**, **C77**, for lines that enter the mesh once, cross its faces one at a time and leave it: whatever the
number of cells and of vertices, the line is cut at every face it crosses, in order; the parts between two crossings
name their cell and the segment they end on; what precedes the entry and follows the exit is kept, with -1
(`ignore_points_before_entry` and `ignore_points_after_exit` remove exactly that).  Missing: lines that start in the
mesh (`C77_inside_refuted`), whose first segment ends in the first cell (`C77_entry_refuted`), that come back
(`C116_reentry_refuted`), or for which the search does not find the first cell (`C115_nearest_refuted`). -/
theorem C115_through_partial {D : Type*} (hp : Passage q m n k p x seg cell face)
    (hl : Leaves q m n k p x seg cell face) (ib ia : Bool) {fuel : ℕ} (hf : k < fuel)
    (cellData : Dict String (List D)) :
    (∀ r, intersectPolyline q m ib ia fuel ((List.range (n + 1)).map p) cellData = .ok r →
      r.points = (if ib then [] else (List.range (seg 0 + 1)).map p) ++ (List.range (k + 1)).map x ++
        (if ia then [] else (List.range' (seg k + 1) (n - seg k)).map p) ∧
      r.lineIds = (if ib then [] else List.range (seg 0 + 1)) ++ (List.range k).map (fun i => seg (i + 1)) ++
        (if ia then [] else List.range' (seg k) (n - seg k)) ∧
      r.cellIds = (if ib then [] else List.replicate (seg 0 + 1) (-1)) ++ (List.range k).map cell ++
        (if ia then [] else List.replicate (n - seg k) (-1))) ∧
    ∃ r, intersectPolyline q m ib ia fuel ((List.range (n + 1)).map p) ([] : Dict String (List D)) = .ok r :=
  through_core hp.toPassageCore hp.begins hl ib ia hf cellData

/-- **C115**, **C78**, for lines that enter the mesh once, cross its faces one at a time and whose last segment goes
through a face into the cell where it ends: the line is cut at every face it crosses, and goes on to its last point,
in that cell.  Missing: lines whose last segment crosses no face (`C78_last_refuted`), and the cases missing from
`C115_through_partial`. -/
theorem C115_into_partial {D : Type*} (hp : Passage q m n k p x seg cell face)
    (hl : Stops q m n k p x seg cell face) (ib ia : Bool) {fuel : ℕ} (hf : k < fuel)
    (cellData : Dict String (List D)) :
    (∀ r, intersectPolyline q m ib ia fuel ((List.range (n + 1)).map p) cellData = .ok r →
      r.points = (if ib then [] else (List.range (seg 0 + 1)).map p) ++ (List.range (k + 1)).map x ++ [p n] ∧
      r.lineIds = (if ib then [] else List.range (seg 0 + 1)) ++ (List.range k).map (fun i => seg (i + 1)) ++
        [n - 1] ∧
      r.cellIds = (if ib then [] else List.replicate (seg 0 + 1) (-1)) ++ (List.range (k + 1)).map cell) ∧
    ∃ r, intersectPolyline q m ib ia fuel ((List.range (n + 1)).map p) ([] : Dict String (List D)) = .ok r :=
  into_core hp.toPassageCore hp.begins hl ib ia hf cellData

/-- **C77**, refuted, for every line that starts in a cell of the mesh, leaves it by its first segment for another
cell, and then goes on through the mesh and out of it: the part in the cell it starts in is labelled -1, and
`ignore_points_before_entry` removes it; the rest of the line is right. -/
theorem C77_from_inside_refuted {D : Type*} {c : ℤ} (hp : FromInside q m n k p x seg cell face c)
    (hl : Leaves q m n k p x seg cell face) (ib ia : Bool) {fuel : ℕ} (hf : k + 1 < fuel)
    (cellData : Dict String (List D)) :
    (∀ r, intersectPolyline q m ib ia fuel ((List.range (n + 1)).map p) cellData = .ok r →
      r.points = (if ib then [] else [p 0]) ++ (List.range (k + 1)).map x ++
        (if ia then [] else (List.range' (seg k + 1) (n - seg k)).map p) ∧
      r.lineIds = (if ib then [] else [0]) ++ (List.range k).map (fun i => seg (i + 1)) ++
        (if ia then [] else List.range' (seg k) (n - seg k)) ∧
      r.cellIds = (if ib then [] else [-1]) ++ (List.range k).map cell ++
        (if ia then [] else List.replicate (n - seg k) (-1))) ∧
    ∃ r, intersectPolyline q m ib ia fuel ((List.range (n + 1)).map p) ([] : Dict String (List D)) = .ok r := by
  have := through_core hp.toPassageCore hp.begins hl ib ia hf cellData
  rwa [hp.first_segment] at this

/-- **C77**, refuted, as `C77_from_inside_refuted` for the lines that end in the mesh. -/
theorem C77_inside_into_refuted {D : Type*} {c : ℤ} (hp : FromInside q m n k p x seg cell face c)
    (hl : Stops q m n k p x seg cell face) (ib ia : Bool) {fuel : ℕ} (hf : k + 1 < fuel)
    (cellData : Dict String (List D)) :
    (∀ r, intersectPolyline q m ib ia fuel ((List.range (n + 1)).map p) cellData = .ok r →
      r.points = (if ib then [] else [p 0]) ++ (List.range (k + 1)).map x ++ [p n] ∧
      r.lineIds = (if ib then [] else [0]) ++ (List.range k).map (fun i => seg (i + 1)) ++ [n - 1] ∧
      r.cellIds = (if ib then [] else [-1]) ++ (List.range (k + 1)).map cell) ∧
    ∃ r, intersectPolyline q m ib ia fuel ((List.range (n + 1)).map p) ([] : Dict String (List D)) = .ok r := by
  have := into_core hp.toPassageCore hp.begins hl ib ia hf cellData
  rwa [hp.first_segment] at this

end

/-! ## A line through a row of cubes -/

/-- The line from -2 to -1, 3/2 and 4, through three cubes, has a vertex in the second cube: the result has all the
crossings, and not that vertex. -/
def rowLine (i : ℕ) : ℚ := [-2, -1, 3 / 2, 4].getD i 0

theorem row_passage : Passage (rowQueries 3) (1 / 100) 3 3 rowLine (fun i => (i : ℚ)) (fun i => if i < 2 then 1 else 2)
    (fun i => (i : ℤ)) (fun i => i) ∧
    Leaves (rowQueries 3) (1 / 100) 3 3 rowLine (fun i => (i : ℚ)) (fun i => if i < 2 then 1 else 2)
    (fun i => (i : ℤ)) (fun i => i) := by
  constructor
  · refine ⟨?_, ?_, ?_, ?_, ?_, ?_, ?_⟩
    constructor
    case cell_ne => intro i _; simp
    case inside => intro i _; omega
    case between =>
      intro i h
      have : i = 0 ∨ i = 1 := by omega
      rcases this with rfl | rfl <;> decide +kernel
    case not_in =>
      intro i h
      have : i = 0 ∨ i = 1 := by omega
      rcases this with rfl | rfl <;> decide +kernel
    all_goals decide +kernel
  · constructor
    case apart_after =>
      intro l h1 h2
      simp at h1
      omega
    all_goals decide +kernel

example : (rowQueries 3).find 0 0 = some 0 := by decide +kernel

/-- The line from -1 to 5/2 enters the row and ends in the third cube. -/
example : ∃ p x : ℕ → ℚ, p 0 = -1 ∧ p 1 = 5 / 2 ∧
    Passage (rowQueries 3) (1 / 100) 1 2 p x (fun _ => 0) (fun i => (i : ℤ)) (fun i => i) ∧
    Stops (rowQueries 3) (1 / 100) 1 2 p x (fun _ => 0) (fun i => (i : ℤ)) (fun i => i) := by
  refine ⟨fun i => [-1, 5 / 2].getD i 0, fun i => i, rfl, rfl, ?_, ?_⟩
  · refine ⟨?_, ?_, ?_, ?_, ?_, ?_, ?_⟩
    constructor
    case cell_ne => intro i _; simp
    case inside => intro i _; omega
    case between =>
      intro i h
      obtain rfl : i = 0 := by omega
      decide +kernel
    case not_in =>
      intro i h
      obtain rfl : i = 0 := by omega
      decide +kernel
    all_goals decide +kernel
  · constructor
    all_goals decide +kernel

/-- The line from 1/2 to 4 starts in the first cube of the row and goes out of the third. -/
theorem row_from_inside : FromInside (rowQueries 3) (1 / 100) 1 2 (fun i => [1 / 2, 4].getD i 0) (fun i => (i : ℚ) + 1)
    (fun _ => 0) (fun i => (i : ℤ) + 1) (fun i => i + 1) 0 ∧
    Leaves (rowQueries 3) (1 / 100) 1 2 (fun i => [1 / 2, 4].getD i 0) (fun i => (i : ℚ) + 1)
    (fun _ => 0) (fun i => (i : ℤ) + 1) (fun i => i + 1) := by
  constructor
  · refine ⟨?_, ?_, ?_, ?_, ?_, ?_, ?_, ?_, ?_, ?_⟩
    constructor
    case cell_ne => intro i _; simp
    case inside => intro i _; omega
    case between =>
      intro i h
      obtain rfl : i = 0 := by omega
      decide +kernel
    case not_in =>
      intro i h
      obtain rfl : i = 0 := by omega
      decide +kernel
    all_goals decide +kernel
  · constructor
    case apart_after =>
      intro l h1 h2
      omega
    all_goals decide +kernel

/-- Its part in the first cube, from 1/2 to 1, is labelled -1. -/
example : ∃ r, intersectPolyline (D := ℕ) (rowQueries 3) (1 / 100) false false 4 [1 / 2, 4] [] = .ok r ∧
    r.points = [1 / 2, 1, 2, 3, 4] ∧ r.cellIds = [-1, 1, 2, -1] := by
  obtain ⟨h1, r, h2⟩ := C77_from_inside_refuted (D := ℕ) row_from_inside.1 row_from_inside.2 false false (fuel := 4)
    (by omega) []
  exact ⟨r, h2, by rw [(h1 r h2).1]; decide +kernel, by rw [(h1 r h2).2.2]; decide +kernel⟩

/-- What `C115_through_partial` says of the line of `row_passage`. -/
example : ∃ r, intersectPolyline (D := ℕ) (rowQueries 3) (1 / 100) false false 4 [-2, -1, 3 / 2, 4] [] = .ok r ∧
    r.points = [-2, -1, 0, 1, 2, 3, 4] ∧ r.lineIds = [0, 1, 1, 2, 2, 2] ∧ r.cellIds = [-1, -1, 0, 1, 2, -1] := by
  obtain ⟨h1, r, h2⟩ := C115_through_partial (D := ℕ) row_passage.1 row_passage.2 false false (fuel := 4) (by omega) []
  exact ⟨r, h2, by rw [(h1 r h2).1]; decide +kernel, by rw [(h1 r h2).2.1]; decide +kernel,
    by rw [(h1 r h2).2.2]; decide +kernel⟩

/-! ## The line is followed into the mesh only once -/

section
variable {P K : Type*} [LinearOrder K] {q : Queries P K} {m : K}

/-- The labels are -1 up to the entry, then cells, then -1 from the exit on. -/
def OnceInside (s : March P) : Prop :=
  s.cell ≠ some (-1) ∧ (s.entered = false → s.exited = false ∧ ∀ c ∈ s.cellIds, c = -1) ∧
  (s.entered = true → ∃ a cs b, s.cellIds = List.replicate a (-1) ++ cs ++ List.replicate b (-1) ∧
    (∀ c ∈ cs, c ≠ -1) ∧ (s.exited = false → b = 0))

theorem once_inside {s : March P} (h : OnceInside s) {lid : ℕ} {p : P} {c : ℤ} (he : s.entered = true)
    (hx : s.exited = false) (hc : c ≠ -1) : OnceInside (addPoint q m s p lid c) := by
  rcases addPoint_cases q m s p lid c with e | e <;> rw [e]
  · exact h
  · refine ⟨h.1, by simp [he], fun _ => ?_⟩
    obtain ⟨a, cs, b, h1, h2, h3⟩ := h.2.2 he
    refine ⟨a, cs ++ [c], 0, ?_, ?_, fun _ => rfl⟩
    · simp [h1, h3 hx]
    · intro d hd
      rcases List.mem_append.1 hd with hd | hd
      · exact h2 d hd
      · rw [List.mem_singleton.1 hd]
        exact hc

theorem once_outside {s : March P} (h : OnceInside s) {lid : ℕ} {p : P} (he : s.entered = true) :
    OnceInside { addPoint q m s p lid (-1) with exited := true } := by
  have hs : OnceInside { s with exited := true } := by
    refine ⟨h.1, by simp [he], fun _ => ?_⟩
    obtain ⟨a, cs, b, h1, h2, -⟩ := h.2.2 he
    exact ⟨a, cs, b, h1, h2, by simp⟩
  rcases addPoint_cases q m s p lid (-1) with e | e <;> rw [e]
  · exact hs
  · refine ⟨h.1, by simp [he], fun _ => ?_⟩
    obtain ⟨a, cs, b, h1, h2, -⟩ := h.2.2 he
    exact ⟨a, cs, b + 1, by simp [h1, List.replicate_succ'], h2, by simp⟩

/-- Nothing of the line is in the mesh yet. -/
def AllOut (s : March P) : Prop := s.cell ≠ some (-1) ∧ s.exited = false ∧ ∀ c ∈ s.cellIds, c = -1

theorem AllOut.once {s : March P} (h : AllOut s) : OnceInside s :=
  ⟨h.1, fun _ => h.2, fun _ => ⟨s.cellIds.length, [], 0, by
    simpa using List.eq_replicate_iff.2 ⟨rfl, h.2.2⟩, by simp, fun _ => rfl⟩⟩

theorem AllOut.addPoint {s : March P} (h : AllOut s) (p : P) (lid : ℕ) :
    AllOut (Gridder.addPoint q m s p lid (-1)) := by
  rcases addPoint_cases q m s p lid (-1) with e | e <;> rw [e]
  · exact h
  · refine ⟨h.1, h.2.1, fun c hc => ?_⟩
    rcases List.mem_append.1 hc with hc | hc
    · exact h.2.2 c hc
    · exact List.mem_singleton.1 hc

theorem crossExit_once {ia : Bool} {final : P} {il : Bool} {s : March P} {lid : ℕ} {b : P} {cid : ℤ} {x : P × ℕ}
    {r : March P × Bool} (hs : OnceInside s) (he : s.entered = true) (hx : s.exited = false) (hc : cid ≠ -1)
    (h : crossExit q m ia final il s lid b cid x = .ok r) :
    OnceInside r.1 ∧ r.1.entered = true ∧ (r.2 = true → r.1.exited = false) := by
  have h1 : OnceInside (addPoint q m s x.1 lid cid) := once_inside hs he hx hc
  obtain ⟨-, o2, -⟩ := addPoint_other q m s x.1 lid cid
  have oe := addPoint_entered q m s x.1 lid cid
  simp only [crossExit] at h
  generalize addPoint q m s x.1 lid cid = s1 at h h1 o2 oe
  have he1 : s1.entered = true := oe.trans he
  have hx1 : s1.exited = false := o2.trans hx
  split at h
  · cases h; exact ⟨h1, he1, by simp⟩
  · split at h
    · cases h
    · split at h
      · cases h
        split
        · refine ⟨⟨h1.1, by simp [he1], fun _ => ?_⟩, he1, by simp⟩
          obtain ⟨a, cs, b, e1, e2, -⟩ := h1.2.2 he1
          exact ⟨a, cs, b, e1, e2, by simp⟩
        · exact ⟨once_outside h1 he1, (addPoint_entered q m s1 b lid (-1)).trans he1, by simp⟩
      · rename_i hm1
        split at h
        · cases h
        · rename_i c l hl
          have hcm : c ≠ -1 := by
            rintro rfl
            exact hm1 (List.mem_of_mem_filter (hl ▸ List.mem_cons_self))
          have h2 : OnceInside { s1 with cell := some c } := ⟨by simpa using hcm, h1.2.1, h1.2.2⟩
          split at h
          · cases h
            exact ⟨once_inside h2 he1 hx1 hcm, (addPoint_entered q m { s1 with cell := some c } b lid c).trans he1,
              by simp⟩
          · cases h
            exact ⟨h2, he1, fun _ => hx1⟩

theorem marchStep_once {ia : Bool} {final : P} {il : Bool} {s : March P} {lid : ℕ} {a b : P} {cid : ℤ}
    {r : March P × Bool} (hs : OnceInside s) (hx : s.exited = false) (hcell : s.cell = some cid)
    (h : marchStep q m ia final il s lid a b cid = .ok r) :
    OnceInside r.1 ∧ (r.2 = true → r.1.exited = false) := by
  have hc : cid ≠ -1 := fun e => hs.1 (e ▸ hcell)
  unfold marchStep at h
  split at h
  · cases h; exact ⟨hs, by simp⟩
  · rename_i x last _ _
    split at h
    · rename_i he
      have hA : AllOut { s with count := s.points.length, entered := true } := ⟨hs.1, hs.2.1 he⟩
      have hB := hA.addPoint (q := q) (m := m) x.1 lid
      have oe := addPoint_entered q m { s with count := s.points.length, entered := true } x.1 lid (-1)
      simp only at h
      split at h
      · cases h; exact ⟨hB.once, by simp⟩
      · have := crossExit_once hB.once oe hB.2.1 hc h
        exact ⟨this.1, this.2.2⟩
    · rename_i he
      have he : s.entered = true := by simpa using he
      split at h
      · cases h; exact ⟨once_inside hs he hx hc, by simp⟩
      · have := crossExit_once hs he hx hc h
        exact ⟨this.1, this.2.2⟩
  · simp only at h
    split at h
    · rename_i he
      have hA : AllOut { s with count := s.points.length } := ⟨hs.1, hs.2.1 he⟩
      have hB : ∀ z, AllOut { addPoint q m { s with count := s.points.length } z lid (-1) with entered := true } := by
        intro z
        have hB := hA.addPoint (q := q) (m := m) z lid
        exact ⟨hB.1, hB.2.1, hB.2.2⟩
      have := crossExit_once (hB _).once rfl (hB _).2.1 hc h
      exact ⟨this.1, this.2.2⟩
    · rename_i he
      have := crossExit_once hs (by simpa using he) hx hc h
      exact ⟨this.1, this.2.2⟩
  · cases h

theorem marchLoop_once {ia : Bool} {final : P} {il : Bool} {lid : ℕ} {a b : P} (fuel : ℕ) :
    ∀ {s r : March P}, OnceInside s → s.exited = false →
    marchLoop q m ia final il fuel s lid a b = .ok r → OnceInside r := by
  induction fuel with
  | zero => intro s r _ _ h; cases h
  | succ fuel ih =>
    intro s r hs hx h
    rw [marchLoop] at h
    split at h
    · cases h; exact hs
    · rename_i cid hcell
      split at h
      · cases h
      · rename_i s' e
        cases h
        exact (marchStep_once hs hx hcell e).1
      · rename_i s' e
        have := marchStep_once hs hx hcell e
        exact ih this.1 (this.2 rfl) h

theorem marchInside_once {ia : Bool} {final : P} {il : Bool} {fuel : ℕ} {s : March P} {lid : ℕ} {a b : P}
    {r : March P × Bool} (hs : OnceInside s)
    (h : marchInside q m ia final il fuel s lid a b = .ok r) : OnceInside r.1 := by
  unfold marchInside at h
  split at h
  · rename_i hx
    split at h
    · cases h
    · rename_i s' e
      cases h
      exact marchLoop_once fuel hs hx e
  · rename_i hx
    have hx : s.exited = true := by simpa using hx
    have he : s.entered = true := by
      by_contra hne
      have := (hs.2.1 (by simpa using hne)).1
      rw [hx] at this
      cases this
    split at h
    · cases h; exact hs
    · cases h
      have h2 := once_outside (q := q) (m := m) (lid := lid) (p := b) hs he
      have h3 := (addPoint_other q m s b lid (-1)).2.1
      generalize addPoint q m s b lid (-1) = t at h2 h3
      rw [hx] at h3
      obtain ⟨a1, a2, a3, a4, a5, a6, a7⟩ := t
      simp only at h3
      subst h3
      exact h2

theorem marchLine_once (hfind : ∀ a b, q.find a b ≠ some (-1)) {ia : Bool} {final : P} {fuel : ℕ} (rest : List P) :
    ∀ {s : March P} {lid : ℕ} {a : P} {r : March P}, OnceInside s → Fits q lid s →
    marchLine q m ia final fuel s lid a rest = .ok r → OnceInside r := by
  induction rest with
  | nil => intro s lid a r hs _ h; cases h; exact hs
  | cons b rest ih =>
    intro s lid a r hs hf h
    have key : ∀ r', marchSegment q m ia final rest.isEmpty fuel s lid a b = .ok r' → OnceInside r'.1 := by
      intro r' h
      simp only [marchSegment] at h
      split at h
      · exact marchInside_once hs h
      · rename_i hc
        have hA : AllOut s := ⟨hs.1, hs.2.1 (hf.start.1 hc)⟩
        split at h
        · cases h
          exact (hA.addPoint b lid).once
        · rename_i c hfc
          exact marchInside_once (AllOut.once (s := { s with cell := some c })
            ⟨fun e => hfind a b (hfc.trans e), hA.2.1, hA.2.2⟩) h
    rw [marchLine] at h
    split at h
    · cases h
    · rename_i s' e
      cases h
      exact key _ e
    · rename_i s' e
      exact ih (key _ e) ((fits_inv q m).mono lid s' (marchSegment_inv (fits_inv q m) trivial hf e)) h

theorem drop_shape (n a b : ℕ) (cs : List ℤ) (hcs : ∀ c ∈ cs, c ≠ -1) :
    ∃ a' cs' b', (List.replicate a (-1) ++ cs ++ List.replicate b (-1)).drop n =
      List.replicate a' (-1) ++ cs' ++ List.replicate b' (-1) ∧ ∀ c ∈ cs', c ≠ -1 := by
  refine ⟨a - n, cs.drop (n - a), b - (n - a - cs.length), ?_, fun c hc => hcs c (List.mem_of_mem_drop hc)⟩
  rw [List.append_assoc, List.drop_append, List.drop_append, List.drop_replicate, List.drop_replicate,
    List.length_replicate, List.append_assoc]

/-- **C116** is false for every line that comes back: whatever the mesh and the line, at most one run of the result
is in the mesh.  Once a part of the line is labelled -1 after a part in a cell, all that follows is labelled -1,
without asking the mesh again. -/
theorem C116_reentry_refuted {D : Type*} (hfind : ∀ a b, q.find a b ≠ some (-1)) {ib ia : Bool} {fuel : ℕ}
    {line : List P} {cellData : Dict String (List D)} {r : Crossing P D}
    (h : intersectPolyline q m ib ia fuel line cellData = .ok r) :
    ∃ a cs b, r.cellIds = List.replicate a (-1) ++ cs ++ List.replicate b (-1) ∧ ∀ c ∈ cs, c ≠ -1 := by
  obtain ⟨s, n, hs, -, -, -, -, e3, -⟩ := intersect_ok h
  have ho : OnceInside s := by
    unfold march at hs
    split at hs
    · cases hs
    · refine marchLine_once hfind _ (AllOut.once ⟨by simp, rfl, by simp⟩) ?_ hs
      exact ⟨⟨fun _ => rfl, by simp⟩, rfl, rfl, by simp, by simp, by simp⟩
  rw [e3]
  cases he : s.entered with
  | false =>
    have := (ho.2.1 he).2
    refine ⟨(s.cellIds.drop n).length, [], 0, ?_, by simp⟩
    simpa using List.eq_replicate_iff.2 ⟨rfl, fun c hc => this c (List.mem_of_mem_drop hc)⟩
  | true =>
    obtain ⟨a, cs, b, e, hcs, -⟩ := ho.2.2 he
    rw [e]
    exact drop_shape n a b cs hcs

end

/-- The hypothesis of `C116_reentry_refuted` holds for rows of cubes. -/
example (n : ℕ) (a b : ℚ) : (rowQueries n).find a b ≠ some (-1) := by
  intro h
  obtain ⟨c, -, hc⟩ := Option.map_eq_some_iff.1 h
  simp at hc

/-- A line that crosses the row of two cubes, comes back inside and leaves it again: the second passage, from 3 to
-1, is labelled -1. -/
theorem C116_row_refuted :
    rowRun false [-1, 3, -1] [7, 8] = .ok ([-1, 0, 1, 2, 3, -1], [0, 0, 0, 0, 1], [-1, 0, 1, -1, -1]) ∧
    rowRun false [3, -1] [7] = .ok ([3, 2, 1, 0, -1], [0, 0, 0, 0], [-1, 1, 0, -1]) := by decide +kernel

section
variable {P K : Type*} [LinearOrder K] {q : Queries P K} {m : K} {n k : ℕ} {p x : ℕ → P} {seg : ℕ → ℕ} {cell : ℕ → ℤ}
  {face : ℕ → ℕ}

/-- **C117** is false for every line with a vertex in the mesh: under the hypotheses of `C115_through_partial`, the
vertices that come after the entry and before the exit are not points of the result (unless they coincide with
another of its points): the result goes straight from one crossing to the next. -/
theorem C117_skipped_refuted {D : Type*} (hp : Passage q m n k p x seg cell face)
    (hl : Leaves q m n k p x seg cell face) {ib ia : Bool} {fuel : ℕ} (hf : k < fuel)
    {cellData : Dict String (List D)} {r : Crossing P D}
    (h : intersectPolyline q m ib ia fuel ((List.range (n + 1)).map p) cellData = .ok r) {v : ℕ} (h0 : seg 0 < v)
    (h1 : v ≤ seg k) (hx : ∀ i ≤ k, p v ≠ x i) (hv : ∀ i ≤ n, i ≠ v → p i ≠ p v) : p v ∉ r.points := by
  obtain ⟨e, -, -⟩ := (C115_through_partial hp hl ib ia hf cellData).1 r h
  have hn := hp.seg_lt
  rw [e]
  intro hm
  simp only [List.mem_append] at hm
  rcases hm with (hm | hm) | hm
  · split at hm
    · simp at hm
    · obtain ⟨i, hi, hi'⟩ := List.mem_map.1 hm
      have := List.mem_range.1 hi
      exact hv i (by omega) (by omega) hi'
  · obtain ⟨i, hi, hi'⟩ := List.mem_map.1 hm
    exact hx i (by have := List.mem_range.1 hi; omega) hi'.symm
  · split at hm
    · simp at hm
    · obtain ⟨i, hi, hi'⟩ := List.mem_map.1 hm
      have := List.mem_range'_1.1 hi
      exact hv i (by omega) (by omega) hi'

/-- **C117**, for the vertices before the entry and after the exit, under the hypotheses of `C115_through_partial`:
they are points of the result.  False for the vertices in the mesh (`C117_skipped_refuted`). -/
theorem C117_outer_partial {D : Type*} (hp : Passage q m n k p x seg cell face)
    (hl : Leaves q m n k p x seg cell face) {fuel : ℕ} (hf : k < fuel)
    {cellData : Dict String (List D)} {r : Crossing P D}
    (h : intersectPolyline q m false false fuel ((List.range (n + 1)).map p) cellData = .ok r) {v : ℕ} (hn : v ≤ n)
    (hv : v ≤ seg 0 ∨ seg k < v) : p v ∈ r.points := by
  obtain ⟨e, -, -⟩ := (C115_through_partial hp hl false false hf cellData).1 r h
  rw [e]
  simp only [Bool.false_eq_true, if_false, List.mem_append]
  rcases hv with hv | hv
  · exact Or.inl (Or.inl (List.mem_map.2 ⟨v, List.mem_range.2 (by omega), rfl⟩))
  · exact Or.inr (List.mem_map.2 ⟨v, List.mem_range'_1.2 (by omega), rfl⟩)

end

/-- The line of `row_passage` has a vertex in the mesh, which the result does not have. -/
example : ∃ r, intersectPolyline (D := ℕ) (rowQueries 3) (1 / 100) false false 4 [-2, -1, 3 / 2, 4] [] = .ok r ∧
    (3 / 2 : ℚ) ∉ r.points ∧ ∀ v : ℚ, v ∈ [-2, -1, 4] → v ∈ r.points := by
  obtain ⟨-, r, h⟩ := C115_through_partial (D := ℕ) row_passage.1 row_passage.2 false false (fuel := 4) (by omega) []
  refine ⟨r, h, C117_skipped_refuted row_passage.1 row_passage.2 (by omega) h (v := 2) (by decide) (by decide)
    (by decide +kernel) (by decide +kernel), ?_⟩
  intro v hv
  have key := fun v => C117_outer_partial (v := v) row_passage.1 row_passage.2 (by omega) h
  simp only [List.mem_cons, List.not_mem_nil, or_false] at hv
  rcases hv with rfl | rfl | rfl
  · exact key 0 (by omega) (by decide)
  · exact key 1 (by omega) (by decide)
  · exact key 3 (by omega) (by decide)

/-! ## The search for the first cell -/

section
variable {P K : Type*} [LinearOrder K]

theorem nearestOf_spec (dist : P → P → K) (centre : ℕ → P) (a : P) (l : List ℕ) :
    (nearestOf dist centre a l = none ↔ l = []) ∧
    ∀ c, nearestOf dist centre a l = some c → c ∈ l ∧ (∀ d ∈ l, dist (centre c) a ≤ dist (centre d) a) ∧
      (l.Pairwise (· ≤ ·) → ∀ d ∈ l, dist (centre d) a = dist (centre c) a → c ≤ d) := by
  induction l with
  | nil => simp [nearestOf]
  | cons c l ih =>
    rw [nearestOf]
    cases hn : nearestOf dist centre a l with
    | none =>
      obtain rfl := ih.1.1 hn
      simp
    | some d =>
      obtain ⟨h1, h2, h3⟩ := ih.2 d hn
      simp only
      split
      · rename_i hlt
        simp only [reduceCtorEq, Option.some.injEq, forall_eq']
        refine ⟨by simp, by simp [h1], ?_, ?_⟩
        · rintro e (- | ⟨-, he⟩)
          · exact hlt.le
          · exact h2 e he
        · rintro hs e he heq
          rcases List.mem_cons.1 he with rfl | he
          · exact absurd heq hlt.ne'
          · exact h3 (List.pairwise_cons.1 hs).2 e he heq
      · rename_i hle
        simp only [reduceCtorEq, Option.some.injEq, forall_eq']
        refine ⟨by simp, by simp, ?_, ?_⟩
        · rintro e he
          rcases List.mem_cons.1 he with rfl | he
          · exact le_rfl
          · exact (not_lt.1 hle).trans (h2 e he)
        · rintro hs e he -
          rcases List.mem_cons.1 he with rfl | he
          · exact le_rfl
          · exact (List.pairwise_cons.1 hs).1 e he

/-- **C115**, the search: the first cell is, of the cells on the segment, the one whose centre is closest to the start
of the segment, the first in the mesh among equals, whatever the order of the cells found. -/
theorem C115_search (dist : P → P → K) (crossed : P → P → List ℕ) (centre : ℕ → P) (a b : P) :
    (searchCell dist crossed centre a b = none ↔ crossed a b = []) ∧
    ∀ c : ℕ, searchCell dist crossed centre a b = some (c : ℤ) ↔
      c ∈ crossed a b ∧ ∀ d ∈ crossed a b, dist (centre c) a < dist (centre d) a ∨
        dist (centre c) a = dist (centre d) a ∧ c ≤ d := by
  have hp := List.perm_insertionSort (· ≤ ·) (crossed a b)
  have hs := List.pairwise_insertionSort (· ≤ ·) (crossed a b)
  obtain ⟨h1, h2⟩ := nearestOf_spec dist centre a ((crossed a b).insertionSort (· ≤ ·))
  have hbest : ∀ c, nearestOf dist centre a ((crossed a b).insertionSort (· ≤ ·)) = some c →
      c ∈ crossed a b ∧ ∀ d ∈ crossed a b, dist (centre c) a < dist (centre d) a ∨
        dist (centre c) a = dist (centre d) a ∧ c ≤ d := by
    intro c hc
    obtain ⟨g1, g2, g3⟩ := h2 c hc
    refine ⟨hp.mem_iff.1 g1, fun d hd => ?_⟩
    have hd := hp.mem_iff.2 hd
    rcases (g2 d hd).lt_or_eq with h | h
    · exact Or.inl h
    · exact Or.inr ⟨h, g3 hs d hd h.symm⟩
  constructor
  · rw [searchCell, Option.map_eq_none_iff, h1]
    constructor
    · intro h
      rw [h] at hp
      exact hp.symm.eq_nil
    · intro h
      rw [h]
      rfl
  · intro c
    constructor
    · intro h
      obtain ⟨c', e, e'⟩ := Option.map_eq_some_iff.1 h
      obtain rfl : c' = c := by simpa using e'
      exact hbest c' e
    · rintro ⟨hc, hmin⟩
      cases hn : nearestOf dist centre a ((crossed a b).insertionSort (· ≤ ·)) with
      | none =>
        rw [h1] at hn
        have := hp.mem_iff.2 hc
        rw [hn] at this
        simp at this
      | some c' =>
        obtain ⟨g1, g2⟩ := hbest c' hn
        have : c' = c := by
          rcases hmin c' g1 with h | ⟨h, h'⟩ <;> rcases g2 c hc with g | ⟨g, g'⟩
          · exact absurd h g.asymm
          · exact absurd g h.ne'
          · exact absurd h g.ne'
          · omega
        rw [searchCell, hn, this]
        rfl

/-- **C118** is false for long lines given segment by segment: the result only depends on the first 1001 points, and
no part of it is on a segment from number 1000 on. -/
theorem C118_long_refuted {D : Type*} (q : Queries P K) (m : K) (ib ia : Bool) (fuel : ℕ) (line : List P)
    (cellData : Dict String (List D)) :
    (∀ more, 1001 ≤ line.length → intersectSegments q m ib ia fuel (line ++ more) cellData =
      intersectSegments q m ib ia fuel line cellData) ∧
    ∀ r, intersectSegments q m ib ia fuel line cellData = .ok r → ∀ i ∈ r.lineIds, i < 1000 := by
  constructor
  · intro more h
    unfold intersectSegments firstStrip
    rw [List.take_append_of_le_length h]
  · intro r h i hi
    have h1 := (C57_consistent q m ib ia fuel _ cellData r h).2.2.2.2.1 i hi
    rw [firstStrip, List.length_take] at h1
    omega

/-- **C118** for lines of at most 1000 segments: giving the line segment by segment makes no difference.  False for
longer lines (`C118_long_refuted`). -/
theorem C118_short_partial {D : Type*} (q : Queries P K) (m : K) (ib ia : Bool) (fuel : ℕ) (line : List P)
    (cellData : Dict String (List D)) (h : line.length ≤ 1001) :
    intersectSegments q m ib ia fuel line cellData = intersectPolyline q m ib ia fuel line cellData := by
  rw [intersectSegments, firstStrip, List.take_of_length_le h]

end

/-- A mesh that no line meets. -/
def noMesh : Queries ℕ ℕ :=
  ⟨fun _ _ => none, fun _ _ _ => none, fun _ => [], fun _ _ => false, fun a b => a == b, fun _ _ => 0⟩

theorem noMesh_line (N : ℕ) :
    ∃ r, intersectPolyline (D := ℕ) noMesh 0 false false 1 (List.range (N + 2)) [] = .ok r ∧
      r.points = List.range (N + 2) := by
  have hr : List.range (N + 2) = 0 :: List.range' 1 (N + 1) := by
    rw [List.range_eq_range', ← List.range'_succ (s := 0) (step := 1)]
  obtain ⟨s, h1, h2, -⟩ := C78_outside_partial (q := noMesh) (m := 0) (ia := false) (fuel := 1) 0
    (List.range' 1 (N + 1)) (fun _ _ => rfl) (by
      rw [← hr, List.range_eq_range']
      refine (List.isChain_range' 0 _ 1).imp fun a b h => ?_
      simp [noMesh, h])
  rw [← hr] at h1 h2
  simp only [intersectPolyline, h1, h2]
  rw [if_neg (by simp)]
  exact ⟨_, rfl, by simp [h2]⟩

/-- A line of 1001 segments that misses the mesh is returned without its last segment. -/
example : ∃ (q : Queries ℕ ℕ) (r : Crossing ℕ ℕ),
    intersectSegments q 0 false false 1 (List.range 1002) [] = .ok r ∧ 1001 ∉ r.points := by
  obtain ⟨r, h1, h2⟩ := noMesh_line 999
  refine ⟨noMesh, r, ?_, ?_⟩
  · rw [intersectSegments, firstStrip, List.take_range, min_eq_left (by norm_num)]
    exact h1
  · rw [h2, List.mem_range]
    norm_num

/-! ## A mesh for which the search fails -/

/-- Twice the signed area of a triangle. -/
def areaOf (a b c : ℚ × ℚ) : ℚ := (b.1 - a.1) * (c.2 - a.2) - (b.2 - a.2) * (c.1 - a.1)

/-- A plane mesh: points, cells given by their vertices in the counterclockwise direction, edges with the cells on
both sides. -/
structure PlaneMesh where
  point : ℕ → ℚ × ℚ
  cells : List (List ℕ)
  edges : List ((ℕ × ℕ) × List ℤ)

/-- Where the segment crosses an edge. -/
def PlaneMesh.hit (g : PlaneMesh) (a b : ℚ × ℚ) (e : ℕ × ℕ) : Option (ℚ × ℚ) :=
  let s := areaOf (g.point e.1) (g.point e.2) a
  let t := areaOf (g.point e.1) (g.point e.2) b
  if areaOf a b (g.point e.1) * areaOf a b (g.point e.2) ≤ 0 ∧ s * t ≤ 0 ∧ s ≠ t then
    some (a.1 + (b.1 - a.1) * (s / (s - t)), a.2 + (b.2 - a.2) * (s / (s - t)))
  else none

/-- The edges of a cell that the segment crosses. -/
def PlaneMesh.hits (g : PlaneMesh) (c : ℤ) (a b : ℚ × ℚ) : List ((ℚ × ℚ) × ℕ) :=
  (List.range g.edges.length).filterMap fun f =>
    match g.edges[f]? with
    | none => none
    | some e => if c ∈ e.2 then (g.hit a b e.1).map fun x => (x, f) else none

def PlaneMesh.holds (g : PlaneMesh) (vs : List ℕ) (x : ℚ × ℚ) : Bool :=
  (vs.zip (vs.rotate 1)).all fun e => decide (0 ≤ areaOf (g.point e.1) (g.point e.2) x)

def PlaneMesh.centre (g : PlaneMesh) (c : ℕ) : ℚ × ℚ :=
  let vs := ((g.cells[c]?).getD []).map g.point
  ((vs.map (·.1)).sum / vs.length, (vs.map (·.2)).sum / vs.length)

/-- Exact answers to the queries; distances are squared. -/
def PlaneMesh.queries (g : PlaneMesh) : Queries (ℚ × ℚ) ℚ where
  find := searchCell (fun a b => (a.1 - b.1) ^ 2 + (a.2 - b.2) ^ 2)
    (fun a b => (List.range g.cells.length).filter fun c => g.hits c a b ≠ [] ∨ g.holds ((g.cells[c]?).getD []) a) g.centre
  cast c a b := if g.hits c a b = [] then none else some (g.hits c a b)
  faceCells f := ((g.edges[f]?).map (·.2)).getD []
  contains c x := g.holds ((g.cells[c.toNat]?).getD []) x
  close a b := decide (|a.1 - b.1| ≤ 1 / 1000 ∧ |a.2 - b.2| ≤ 1 / 1000)
  dist a b := (a.1 - b.1) ^ 2 + (a.2 - b.2) ^ 2

/-- Two triangles with a common edge. -/
def twoTriangles : PlaneMesh where
  point i := [(0, 0), (1, 0), (0, 20), (3, -20)].getD i (0, 0)
  cells := [[0, 1, 2], [1, 3, 2]]
  edges := [((0, 1), [0, -1]), ((1, 2), [0, 1]), ((2, 0), [0, -1]), ((1, 3), [1, -1]), ((3, 2), [1, -1])]

/-- The run. -/
def triangleRun (line : List (ℚ × ℚ)) : Py (List (ℚ × ℚ) × List ℕ × List ℤ) :=
  match intersectPolyline (D := ℕ) twoTriangles.queries (1 / 100) false false 10 line [] with
  | .error e => .error e
  | .ok r => .ok (r.points, r.lineIds, r.cellIds)

/-- The claim C115 is false for a straight line through two triangles, the centre of the second being closer to the
start of the line: the first triangle is not noticed, and the part of the line in it is labelled -1.  The same line
in the other direction is cut as it should be. -/
theorem C115_nearest_refuted :
    triangleRun [(-1, 1), (4, 1)] = .ok ([(-1, 1), (19 / 20, 1), (57 / 40, 1), (4, 1)], [0, 0, 0], [-1, 1, -1]) ∧
    triangleRun [(4, 1), (-1, 1)] =
      .ok ([(4, 1), (57 / 40, 1), (19 / 20, 1), (0, 1), (-1, 1)], [0, 0, 0, 0], [-1, 1, 0, -1]) ∧
    (twoTriangles.queries.contains 0 (0, 1) = true ∧ twoTriangles.queries.contains 0 (19 / 20, 1) = true) := by
  decide +kernel

/-- A line that bends in a triangle, at (1/4, 1): the result goes straight, without that vertex. -/
theorem C117_bend_refuted :
    triangleRun [(4, 5), (3, 1), (1 / 4, 1), (-1, 5)] =
      .ok ([(4, 5), (3, 1), (57 / 40, 1), (19 / 20, 1), (0, 9 / 5), (-1, 5)], [0, 1, 1, 2, 2], [-1, -1, 1, 0, -1]) := by
  decide +kernel

end Gridder
