import Verif.Model.Rdp
import Verif.Props.Lines
import Mathlib.Data.List.Perm.Basic
import Mathlib.Data.List.Permutation
import Mathlib.Data.List.Rotate
import Mathlib.Data.Finset.Card
import Mathlib.Tactic.Linarith
import Mathlib.Algebra.Order.Field.Rat
import Mathlib.Tactic.NormNum

/-! # C42, C43: reconstructing a line -/

namespace Gridder

namespace Spec
variable {K : Type*} [Field K] [LinearOrder K]

/-- Length of a path: the distances between consecutive points, and back to the first if closed. -/
def tour (d : ℕ → ℕ → K) (close : Bool) (path : List ℕ) : K :=
  ((path.zip path.tail).map fun e => d e.1 e.2).sum +
    if close then (match path.getLast?, path.head? with | some l, some f => d l f | _, _ => 0) else 0

/-- Distances: non-negative, symmetric, triangle inequality. -/
structure IsDist (d : ℕ → ℕ → K) : Prop where
  self : ∀ i, d i i = 0
  nonneg : ∀ i j, 0 ≤ d i j
  symm : ∀ i j, d i j = d j i
  triangle : ∀ i j k, d i k ≤ d i j + d j k

/-- The path with the points at positions `first`, ..., `last - 1` in reverse order. -/
def Reversed (first last : ℕ) (path path' : List ℕ) : Prop :=
  path'.length = path.length ∧ ∀ i, path'[i]? =
    if first ≤ i ∧ i < last then path[first + last - 1 - i]? else path[i]?

end Spec

open Spec

section
variable {K : Type*} [Field K] [LinearOrder K]

theorem zipWith_pairs (d : ℕ → ℕ → K) (l l' : List ℕ) :
    List.zipWith d l l' = (l.zip l').map fun e => d e.1 e.2 := by
  rw [List.zip, List.map_zipWith]

theorem pathLength_eq (d : ℕ → ℕ → K) (close : Bool) (path : List ℕ) :
    pathLength d close path = tour d close path := by
  unfold pathLength tour
  cases close with
  | false => simp [zipWith_pairs]
  | true =>
    simp only [if_true]
    cases path with
    | nil => simp
    | cons a l =>
      have key : ∀ (a b : ℕ) (l : List ℕ), (List.zipWith d (a :: l ++ [b]) (l ++ [b])).sum =
          (((a :: l).zip l).map fun e => d e.1 e.2).sum + d ((a :: l).getLast (by simp)) b := by
        intro a b l
        induction l generalizing a with
        | nil => simp
        | cons c l ih =>
          have := ih c
          simp only [List.cons_append, List.zipWith_cons_cons, List.sum_cons, List.zip_cons_cons,
            List.map_cons] at this ⊢
          rw [this, List.getLast_cons (a := a) (List.cons_ne_nil c l)]
          ring
      have := key a a l
      simp only [List.take_succ_cons, List.take_zero, List.cons_append, List.tail_cons,
        List.head?_cons, List.getLast?_eq_getLast_of_ne_nil (List.cons_ne_nil a l)] at this ⊢
      exact this

theorem flipSlice_perm (first last : ℕ) (path : List ℕ) : (flipSlice first last path).Perm path := by
  unfold flipSlice
  rcases Nat.le_total first last with h | h
  · rw [Nat.max_eq_right h]
    have : path = path.take first ++ (path.take last).drop first ++ path.drop last := by
      conv_lhs => rw [← List.take_append_drop last path]
      congr 1
      conv_lhs => rw [← List.take_append_drop first (path.take last)]
      rw [List.take_take, Nat.min_eq_left h]
    conv_rhs => rw [this]
    exact (List.Perm.append_left _ (List.reverse_perm _)).append_right _
  · rw [Nat.max_eq_left h]
    have : (path.take last).drop first = [] := by
      apply List.drop_eq_nil_of_le
      rw [List.length_take]
      omega
    rw [this]
    simp

theorem flipSlice_head {first last : ℕ} (h : 1 ≤ first) (path : List ℕ) :
    (flipSlice first last path).head? = path.head? := by
  unfold flipSlice
  cases path with
  | nil => simp
  | cons a l =>
    obtain ⟨f, rfl⟩ := Nat.exists_eq_add_of_le' h
    simp

/-- `path[first:last] = np.flip(path[first:last])` reverses that section. -/
theorem flipSlice_reversed {first last : ℕ} {path : List ℕ} (h1 : first ≤ last)
    (h2 : last ≤ path.length) : Reversed first last path (flipSlice first last path) := by
  have hl := (flipSlice_perm first last path).length_eq
  refine ⟨hl, ?_⟩
  intro i
  unfold flipSlice
  rw [Nat.max_eq_right h1]
  have hlt : (path.take first).length = first := by rw [List.length_take]; omega
  have hlm : ((path.take last).drop first).reverse.length = last - first := by
    rw [List.length_reverse, List.length_drop, List.length_take]; omega
  rcases Nat.lt_or_ge i first with hi | hi
  · rw [List.append_assoc, List.getElem?_append_left (by omega), if_neg (by omega),
      List.getElem?_take_of_lt hi]
  · rcases Nat.lt_or_ge i last with hj | hj
    · rw [if_pos ⟨hi, hj⟩, List.append_assoc, List.getElem?_append_right (by omega), hlt,
        List.getElem?_append_left (by omega)]
      rw [List.getElem?_reverse (by rw [List.length_drop, List.length_take]; omega),
        List.getElem?_drop, List.length_drop, List.length_take, List.getElem?_take_of_lt (by omega)]
      congr 1
      omega
    · rw [if_neg (by omega), List.getElem?_append_right (by rw [List.length_append]; omega),
        List.length_append, hlt, hlm, List.getElem?_drop]
      congr 1
      omega

theorem flipSlice_flipSlice {first last : ℕ} {path : List ℕ} (h1 : first ≤ last)
    (h2 : last ≤ path.length) : flipSlice first last (flipSlice first last path) = path := by
  obtain ⟨a1, a2⟩ := flipSlice_reversed h1 h2
  obtain ⟨b1, b2⟩ := flipSlice_reversed (path := flipSlice first last path) h1 (by omega)
  apply List.ext_getElem?
  intro i
  rw [b2]
  split
  · rename_i h
    rw [a2, if_pos (by omega)]
    congr 1
    omega
  · rename_i h
    rw [a2, if_neg h]

theorem mem_flips {n : ℕ} {f : ℕ × ℕ} : f ∈ flips n ↔ 1 ≤ f.1 ∧ f.1 + 2 < n ∧ f.1 + 2 ≤ f.2 ∧ f.2 ≤ n := by
  unfold flips
  simp only [List.mem_flatMap, List.mem_map, List.mem_range']
  constructor
  · rintro ⟨a, ⟨i, hi, rfl⟩, b, ⟨j, hj, rfl⟩, rfl⟩
    simp only
    omega
  · rintro ⟨h1, h2, h3, h4⟩
    exact ⟨f.1, ⟨f.1 - 1, by omega, by omega⟩, f.2, ⟨f.2 - (f.1 + 2), by omega, by omega⟩, rfl⟩

/-- Invariant of the loops. -/
structure TwoOptInv (d : ℕ → ℕ → K) (close : Bool) (path0 : List ℕ) (s : TwoOpt K) : Prop where
  same : s.path = s.best
  perm : s.best.Perm path0
  head : s.best.head? = path0.head?
  length : s.length = tour d close s.best

theorem twoOptStep_inv {d : ℕ → ℕ → K} {close : Bool} {path0 : List ℕ} {s : TwoOpt K}
    (h : TwoOptInv d close path0 s) {f : ℕ × ℕ} (hf : f ∈ flips path0.length) :
    TwoOptInv d close path0 (twoOptStep d close s f) ∧ (twoOptStep d close s f).length ≤ s.length := by
  rw [mem_flips] at hf
  unfold twoOptStep
  simp only
  split
  · rename_i hlt
    refine ⟨⟨rfl, ?_, ?_, ?_⟩, hlt.le⟩
    · rw [h.same]; exact (flipSlice_perm _ _ _).trans h.perm
    · rw [h.same]; exact (flipSlice_head hf.1 _).trans h.head
    · exact pathLength_eq _ _ _
  · refine ⟨⟨?_, h.perm, h.head, h.length⟩, le_rfl⟩
    rw [flipSlice_flipSlice (by omega) (by rw [h.same, h.perm.length_eq]; omega), h.same]

theorem twoOptPass_inv {d : ℕ → ℕ → K} {close : Bool} {path0 : List ℕ} {s : TwoOpt K}
    (h : TwoOptInv d close path0 s) :
    TwoOptInv d close path0 (twoOptPass d close path0.length s) ∧
    (twoOptPass d close path0.length s).length ≤ s.length := by
  unfold twoOptPass
  have : ∀ l : List (ℕ × ℕ), (∀ f ∈ l, f ∈ flips path0.length) → ∀ s : TwoOpt K,
      TwoOptInv d close path0 s → TwoOptInv d close path0 (l.foldl (twoOptStep d close) s) ∧
      (l.foldl (twoOptStep d close) s).length ≤ s.length := by
    intro l
    induction l with
    | nil => intro _ s h; exact ⟨h, le_rfl⟩
    | cons f l ih =>
      intro hf s h
      obtain ⟨h1, h2⟩ := twoOptStep_inv h (hf f (by simp))
      obtain ⟨h3, h4⟩ := ih (fun g hg => hf g (by simp [hg])) _ h1
      exact ⟨h3, h4.trans h2⟩
  exact this _ (fun _ h => h) s h

theorem twoOptLoop_inv {d : ℕ → ℕ → K} {close : Bool} {path0 : List ℕ} {tol : K} :
    ∀ (fuel : ℕ) (s r : TwoOpt K), TwoOptInv d close path0 s →
    twoOptLoop d close path0.length tol fuel s = some r →
    TwoOptInv d close path0 r ∧ r.length ≤ s.length := by
  intro fuel
  induction fuel with
  | zero => intro s r _ h; cases h
  | succ fuel ih =>
    intro s r hs h
    obtain ⟨h1, h2⟩ := twoOptPass_inv hs
    simp only [twoOptLoop] at h
    split at h
    · cases h; exact ⟨h1, h2⟩
    · obtain ⟨h3, h4⟩ := ih _ _ h1 h
      exact ⟨h3, h4.trans h2⟩

theorem startPath_rotate {n start : ℕ} (h : start < n) :
    startPath n start = (List.range n).rotate start := by
  apply List.ext_getElem
  · simp [startPath]
  · intro i h1 h2
    have hi : i < n := by simpa [startPath] using h1
    simp only [startPath, List.getElem_map, List.getElem_range, List.getElem_rotate, List.length_range]
    rw [← Int.natCast_add, ← Int.natCast_mod, Int.toNat_natCast]

/-- **C42**: the line visits every point once, starts at point number `start` and is no longer than the
path through the points in the given order from there. -/
theorem C42_reconstruct (d : ℕ → ℕ → K) (close : Bool) {n start : ℕ} (hs : start < n) (tol : K) (fuel : ℕ)
    (path : List ℕ) (h : reconstructPath d close n start tol fuel = some path) :
    path.Perm (List.range n) ∧ path.head? = some start ∧
    tour d close path ≤ tour d close ((List.range n).rotate start) := by
  unfold reconstructPath at h
  simp only [startPath_rotate hs, pathLength_eq] at h
  obtain ⟨r, hr, rfl⟩ := Option.map_eq_some_iff.1 h
  have h0 : TwoOptInv d close ((List.range n).rotate start)
      ⟨(List.range n).rotate start, (List.range n).rotate start,
        tour d close ((List.range n).rotate start)⟩ := ⟨rfl, List.Perm.refl _, rfl, rfl⟩
  have hr' := hr
  rw [show n = ((List.range n).rotate start).length by simp] at hr
  simp only [List.length_rotate, List.length_range] at hr
  have := twoOptLoop_inv (path0 := (List.range n).rotate start) (tol := tol) fuel _ r h0
    (by simpa using hr')
  obtain ⟨h1, h2⟩ := this
  refine ⟨h1.perm.trans (List.rotate_perm _ _), ?_, ?_⟩
  · rw [h1.head, List.head?_rotate (by simpa using hs)]
    simp [hs]
  · rw [← h1.length]; exact h2

/-- When a pass changes nothing, no reversal of a section (keeping the first point, and of at least two
points) makes the path shorter. -/
theorem C42_no_better_reversal (d : ℕ → ℕ → K) (close : Bool) (path0 : List ℕ) (s : TwoOpt K)
    (h : TwoOptInv d close path0 s) (hp : (twoOptPass d close path0.length s).length = s.length)
    (first last : ℕ) (h1 : 1 ≤ first) (h2 : first + 2 < path0.length) (h3 : first + 2 ≤ last)
    (h4 : last ≤ path0.length) (path' : List ℕ) (hr : Reversed first last s.best path') :
    tour d close s.best ≤ tour d close path' := by
  have key : ∀ l : List (ℕ × ℕ), (∀ f ∈ l, f ∈ flips path0.length) → ∀ s : TwoOpt K,
      TwoOptInv d close path0 s → (l.foldl (twoOptStep d close) s).length = s.length →
      ∀ f ∈ l, ¬ pathLength d close (flipSlice f.1 f.2 s.best) < s.length := by
    intro l
    induction l with
    | nil => intro _ s _ _ f hf; simp at hf
    | cons g l ih =>
      intro hl s hs he f hf
      rw [List.foldl_cons] at he
      obtain ⟨a1, a2⟩ := twoOptStep_inv hs (hl g (by simp))
      have hle : (l.foldl (twoOptStep d close) (twoOptStep d close s g)).length ≤
          (twoOptStep d close s g).length := by
        clear ih hf he a2
        have : ∀ (l : List (ℕ × ℕ)) (s : TwoOpt K), (l.foldl (twoOptStep d close) s).length ≤ s.length := by
          intro l
          induction l with
          | nil => intro s; exact le_rfl
          | cons f l ih =>
            intro s
            refine (ih _).trans ?_
            unfold twoOptStep
            simp only
            split
            · rename_i h; exact h.le
            · exact le_rfl
        exact this _ _
      have heq : (twoOptStep d close s g).length = s.length :=
        le_antisymm a2 (by rw [← he]; exact hle)
      have hng : ¬ pathLength d close (flipSlice g.1 g.2 s.best) < s.length := by
        intro hlt
        unfold twoOptStep at heq
        simp only [hs.same, if_pos hlt] at heq
        exact absurd heq hlt.ne
      have hbest : (twoOptStep d close s g).best = s.best := by
        unfold twoOptStep
        simp only [hs.same, if_neg hng]
      rcases List.mem_cons.1 hf with rfl | hf
      · exact hng
      · have := ih (fun f hf => hl f (by simp [hf])) _ a1 (he.trans heq.symm) f hf
        rw [hbest, heq] at this
        exact this
  have := key (flips path0.length) (fun _ h => h) s h hp (first, last) (mem_flips.2 ⟨h1, h2, h3, h4⟩)
  have hlen := h.perm.length_eq
  have heq : flipSlice first last s.best = path' := by
    obtain ⟨b1, b2⟩ := flipSlice_reversed (path := s.best) (first := first) (last := last) (by omega)
      (by omega)
    apply List.ext_getElem?
    intro i
    rw [b2, hr.2]
  rw [heq, pathLength_eq, h.length] at this
  exact not_lt.1 this

/-- Four points on a line in the order 0, 2, 1, 3: the crossing is removed. -/
example : reconstructPath (K := ℚ) (fun i j => |([0, 2, 1, 3] : List ℚ).getD i 0 -
    ([0, 2, 1, 3] : List ℚ).getD j 0|) false 4 0 (1 / 100) 5 = some [0, 2, 1, 3] := by decide +kernel

end

section
variable {K : Type*} [Field K] [LinearOrder K] [IsStrictOrderedRing K]

theorem pairs_nonneg {d : ℕ → ℕ → K} (hd : IsDist d) (l : List (ℕ × ℕ)) :
    0 ≤ (l.map fun e => d e.1 e.2).sum := by
  induction l with
  | nil => simp
  | cons e l ih =>
    simp only [List.map_cons, List.sum_cons]
    exact add_nonneg (hd.nonneg _ _) ih

/-- A path is at least as long as the distance from its first point to any other. -/
theorem dist_le_path {d : ℕ → ℕ → K} (hd : IsDist d) : ∀ (a : ℕ) (l : List ℕ) (j : ℕ), j ∈ l →
    d a j ≤ (((a :: l).zip l).map fun e => d e.1 e.2).sum := by
  intro a l
  induction l generalizing a with
  | nil => intro j hj; simp at hj
  | cons b l ih =>
    intro j hj
    simp only [List.zip_cons_cons, List.map_cons, List.sum_cons]
    rcases List.mem_cons.1 hj with rfl | hj
    · have := pairs_nonneg hd ((j :: l).zip l)
      linarith
    · have := ih b j hj
      have := hd.triangle a b j
      linarith

theorem tour_pos {d : ℕ → ℕ → K} (hd : IsDist d) {close : Bool} {path : List ℕ} {i j : ℕ}
    (hi : i ∈ path) (hj : j ∈ path) (hij : 0 < d i j) : 0 < tour d close path := by
  cases path with
  | nil => simp at hi
  | cons a l =>
    have hpos : 0 < (((a :: l).zip l).map fun e => d e.1 e.2).sum := by
      have hex : ∃ k ∈ a :: l, 0 < d a k := by
        by_contra hno
        push Not at hno
        have h1 := le_antisymm (hno i hi) (hd.nonneg _ _)
        have h2 := le_antisymm (hno j hj) (hd.nonneg _ _)
        have := hd.triangle i a j
        rw [hd.symm i a, h1, h2] at this
        linarith
      obtain ⟨k, hk, hak⟩ := hex
      rcases List.mem_cons.1 hk with rfl | hk
      · exact absurd hak (by rw [hd.self]; exact lt_irrefl _)
      · exact lt_of_lt_of_le hak (dist_le_path hd a l k hk)
    unfold tour
    rw [List.tail_cons]
    have : 0 ≤ (if close then (match (a :: l).getLast?, (a :: l).head? with
        | some l, some f => d l f | _, _ => 0) else (0 : K)) := by
      split
      · split
        · exact hd.nonneg _ _
        · exact le_rfl
      · exact le_rfl
    linarith

/-- Fuel for the loop: one more than the number of shorter paths. -/
theorem twoOptLoop_some {d : ℕ → ℕ → K} {close : Bool} {path0 : List ℕ} {tol : K} (ht : 0 < tol)
    (hpos : ∀ p : List ℕ, p.Perm path0 → 0 < tour d close p) :
    ∀ (m : ℕ) (s : TwoOpt K), TwoOptInv d close path0 s →
    (path0.permutations.toFinset.filter fun p => tour d close p < s.length).card ≤ m →
    ∃ r, twoOptLoop d close path0.length tol (m + 1) s = some r := by
  intro m
  induction m with
  | zero =>
    intro s hs hm
    obtain ⟨h1, h2⟩ := twoOptPass_inv hs
    simp only [twoOptLoop]
    rcases lt_or_eq_of_le h2 with hlt | heq
    · have hmem : (twoOptPass d close path0.length s).best ∈
          path0.permutations.toFinset.filter fun p => tour d close p < s.length := by
        rw [Finset.mem_filter, List.mem_toFinset, List.mem_permutations, ← h1.length]
        exact ⟨h1.perm, hlt⟩
      rw [Finset.card_eq_zero.1 (Nat.le_zero.1 hm)] at hmem
      simp at hmem
    · rw [if_pos]
      · exact ⟨_, rfl⟩
      · have : 0 < s.length := by rw [hs.length]; exact hpos _ hs.perm
        have := mul_pos ht this
        rw [heq]
        linarith
  | succ m ih =>
    intro s hs hm
    obtain ⟨h1, h2⟩ := twoOptPass_inv hs
    rw [twoOptLoop]
    split
    · exact ⟨_, rfl⟩
    · rename_i hno
      rcases lt_or_eq_of_le h2 with hlt | heq
      · refine ih _ h1 ?_
        have : (path0.permutations.toFinset.filter fun p =>
            tour d close p < (twoOptPass d close path0.length s).length) ⊂
            path0.permutations.toFinset.filter fun p => tour d close p < s.length := by
          rw [Finset.ssubset_iff_of_subset]
          · refine ⟨(twoOptPass d close path0.length s).best, ?_, ?_⟩
            · rw [Finset.mem_filter, List.mem_toFinset, List.mem_permutations, ← h1.length]
              exact ⟨h1.perm, hlt⟩
            · rw [Finset.mem_filter, ← h1.length]
              exact fun h => lt_irrefl _ h.2
          · intro p hp
            rw [Finset.mem_filter] at hp ⊢
            exact ⟨hp.1, hp.2.trans hlt⟩
        have := Finset.card_lt_card this
        omega
      · exfalso
        apply hno
        have : 0 < s.length := by rw [hs.length]; exact hpos _ hs.perm
        have := mul_pos ht this
        rw [heq]
        linarith

/-- **C43**: for a positive tolerance and points that do not all coincide, the iteration ends. -/
theorem C43_terminates_partial (d : ℕ → ℕ → K) (hd : IsDist d) (close : Bool) {n start : ℕ}
    (hs : start < n) (tol : K) (ht : 0 < tol) (hne : ∃ i < n, ∃ j < n, d i j ≠ 0) :
    ∃ fuel path, reconstructPath d close n start tol fuel = some path := by
  obtain ⟨i, hi, j, hj, hij⟩ := hne
  have hij' : 0 < d i j := lt_of_le_of_ne (hd.nonneg i j) (Ne.symm hij)
  have h0 : TwoOptInv d close ((List.range n).rotate start)
      ⟨(List.range n).rotate start, (List.range n).rotate start,
        tour d close ((List.range n).rotate start)⟩ := ⟨rfl, List.Perm.refl _, rfl, rfl⟩
  have hpos : ∀ p : List ℕ, p.Perm ((List.range n).rotate start) → 0 < tour d close p := by
    intro p hp
    have hp' := hp.trans (List.rotate_perm _ _)
    exact tour_pos hd (hp'.mem_iff.2 (List.mem_range.2 hi)) (hp'.mem_iff.2 (List.mem_range.2 hj)) hij'
  obtain ⟨m, hm⟩ : ∃ m, (((List.range n).rotate start).permutations.toFinset.filter fun p =>
      tour d close p < tour d close ((List.range n).rotate start)).card ≤ m := ⟨_, le_rfl⟩
  obtain ⟨r, hr⟩ := twoOptLoop_some ht hpos m _ h0 hm
  rw [List.length_rotate, List.length_range] at hr
  refine ⟨m + 1, r.best, ?_⟩
  unfold reconstructPath
  simp only [startPath_rotate hs, pathLength_eq]
  rw [hr]
  rfl

/-- The claim fails for the tolerance 0, which is accepted: the loop never ends, whatever the points. -/
theorem C43_zero_tolerance_refuted (d : ℕ → ℕ → K) (close : Bool) {n start : ℕ} (hs : start < n)
    (fuel : ℕ) : reconstructPath d close n start 0 fuel = none := by
  have key : ∀ (fuel : ℕ) (s : TwoOpt K), TwoOptInv d close ((List.range n).rotate start) s →
      twoOptLoop d close n 0 fuel s = none := by
    intro fuel
    induction fuel with
    | zero => intro s _; rfl
    | succ fuel ih =>
      intro s h
      have hp := twoOptPass_inv h
      rw [List.length_rotate, List.length_range] at hp
      rw [twoOptLoop]
      rw [if_neg (by rw [sub_zero, one_mul]; exact not_lt.2 hp.2)]
      exact ih _ hp.1
  unfold reconstructPath
  simp only [startPath_rotate hs, pathLength_eq]
  rw [key fuel _ ⟨rfl, List.Perm.refl _, rfl, rfl⟩]
  rfl

/-- The claim fails, for every tolerance, when all points coincide; in particular for one point. -/
theorem C43_coincident_refuted (d : ℕ → ℕ → K) (close : Bool) {n start : ℕ} (hs : start < n)
    (hd : ∀ i < n, ∀ j < n, d i j = 0) (tol : K) (fuel : ℕ) :
    reconstructPath d close n start tol fuel = none := by
  have hz : ∀ p : List ℕ, p.Perm ((List.range n).rotate start) → tour d close p = 0 := by
    intro p hp
    have hm : ∀ i ∈ p, i < n := fun i hi =>
      List.mem_range.1 ((hp.trans (List.rotate_perm _ _)).mem_iff.1 hi)
    unfold tour
    have h1 : ((p.zip p.tail).map fun e => d e.1 e.2).sum = 0 := by
      apply List.sum_eq_zero
      intro x hx
      obtain ⟨e, he, rfl⟩ := List.mem_map.1 hx
      obtain ⟨a, b⟩ := e
      have := List.of_mem_zip he
      exact hd _ (hm _ this.1) _ (hm _ (List.mem_of_mem_tail this.2))
    rw [h1, zero_add]
    split
    · split
      · rename_i l f hl hf
        exact hd _ (hm _ (List.mem_of_getLast? hl)) _ (hm _ (List.mem_of_mem_head? hf))
      · rfl
    · rfl
  have key : ∀ (fuel : ℕ) (s : TwoOpt K), TwoOptInv d close ((List.range n).rotate start) s →
      twoOptLoop d close n tol fuel s = none := by
    intro fuel
    induction fuel with
    | zero => intro s _; rfl
    | succ fuel ih =>
      intro s h
      have hp := twoOptPass_inv h
      rw [List.length_rotate, List.length_range] at hp
      rw [twoOptLoop]
      rw [if_neg]
      · exact ih _ hp.1
      · rw [hp.1.length, h.length, hz _ hp.1.perm, hz _ h.perm, mul_zero]
        exact lt_irrefl _
  unfold reconstructPath
  simp only [startPath_rotate hs, pathLength_eq]
  rw [key fuel _ ⟨rfl, List.Perm.refl _, rfl, rfl⟩]
  rfl

/-- A single point. -/
example (tol : ℚ) (fuel : ℕ) : reconstructPath (K := ℚ) (fun _ _ => 0) true 1 0 tol fuel = none :=
  C43_coincident_refuted _ true (by decide) (by simp) tol fuel

/-- Three distinct points on a line and a positive tolerance. -/
example : ∃ fuel path, reconstructPath (K := ℚ) (fun i j => |(i : ℚ) - j|) true 3 1 (1 / 100) fuel = some path :=
  C43_terminates_partial _ ⟨by simp, fun _ _ => abs_nonneg _, fun _ _ => abs_sub_comm _ _,
    fun _ _ _ => abs_sub_le _ _ _⟩ true (by decide) _ (by norm_num) ⟨0, by decide, 1, by decide, by norm_num⟩

end

end Gridder
