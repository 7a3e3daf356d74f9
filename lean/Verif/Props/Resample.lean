import Verif.Props.Curves
import Verif.Props.StackBase
import Verif.Props.Transition

/-!
# C122, C123: transitions given by a number of segments; the number of points of `RegularLine`
-/

namespace Gridder
open Spec

section
variable {K : Type _} [Field K] [LinearOrder K] [IsStrictOrderedRing K]

theorem norm_smul_nonneg {nrm : V3 K → K} (hn : IsNorm nrm) {c : K} (hc : 0 ≤ c) (d : V3 K) :
    nrm (c • d) = c * nrm d := by
  have h1 := hn (c • d)
  have h2 := hn d
  have hs : sqLen (c • d) = c ^ 2 * sqLen d := by
    simp only [sqLen, Pi.smul_apply, smul_eq_mul]; ring
  have : nrm (c • d) ^ 2 = (c * nrm d) ^ 2 := by rw [h1.2, hs, mul_pow, h2.2]
  exact (pow_left_inj₀ h1.1 (mul_nonneg hc h2.1) (by norm_num)).1 this

/-- Points of a straight line. -/
def Spec.onStraight (a d : V3 K) (ts : List K) : List (V3 K) := ts.map fun t => a + t • d

/-- Arc length on a straight line that is followed in one direction. -/
theorem arcLength_straight {nrm : V3 K → K} (hn : IsNorm nrm) (a d : V3 K) :
    ∀ (ts : List K), ts.Pairwise (· ≤ ·) → ∀ (k : ℕ) (t0 t : K), ts[0]? = some t0 → ts[k]? = some t →
      arcLength nrm (onStraight a d ts) k = (t - t0) * nrm d
  | [], _, k, t0, t, h0, _ => by simp at h0
  | x :: l, _, 0, t0, t, h0, hk => by
    simp only [List.getElem?_cons_zero, Option.some.injEq] at h0 hk
    subst h0; subst hk
    simp [arcLength]
  | [x], _, k + 1, t0, t, h0, hk => by simp at hk
  | x :: y :: l, hs, k + 1, t0, t, h0, hk => by
    simp only [List.getElem?_cons_zero, Option.some.injEq] at h0
    subst h0
    rw [List.pairwise_cons] at hs
    have ih := arcLength_straight hn a d (y :: l) hs.2 k y t rfl (by simpa using hk)
    have hxy : x ≤ y := hs.1 y (by simp)
    change nrm ((a + y • d) - (a + x • d)) + arcLength nrm (onStraight a d (y :: l)) k = _
    have e : (a + y • d) - (a + x • d) = (y - x) • d := by rw [sub_smul]; abel
    rw [ih, e, norm_smul_nonneg hn (by linarith)]
    ring

/-- On a straight line followed in one direction, `RegularLine` gives equal segments. -/
theorem regularLine_straight {nrm : V3 K → K} (hn : IsNorm nrm) (a d : V3 K) (hd : d ≠ 0) (ts : List K)
    (hs : ts.Pairwise (· ≤ ·)) (t0 t1 : K) (h0 : ts.head? = some t0) (h1 : ts.getLast? = some t1)
    (h01 : t0 < t1) (n : ℕ) (hpos : 0 < n) :
    regularLine nrm (onStraight a d ts) (some n) = .ok (onStraight a d (linspace t0 t1 n)) := by
  have hne : ts ≠ [] := by rintro rfl; simp at h0
  have hlen : (onStraight a d ts).length = ts.length := by simp [onStraight]
  obtain ⟨m, pts, hm, hr, hl, hfirst, hlast, hmid⟩ := C66_regular_line hn (onStraight a d ts)
    (by simpa [onStraight] using hne) (some n)
  obtain rfl : n = m := by
    rcases hm with ⟨_, h | h⟩ | ⟨h, _⟩
    · cases h
    · cases h; omega
    · exact Option.some.inj h
  rw [hr]
  congr 1
  have hN : 0 < nrm d := norm_pos hn hd
  have hz : ts[0]? = some t0 := by rw [← List.head?_eq_getElem?]; exact h0
  have hlz : ts[ts.length - 1]? = some t1 := by rw [← List.getLast?_eq_getElem?]; exact h1
  have hT : arcLength nrm (onStraight a d ts) ((onStraight a d ts).length - 1) = (t1 - t0) * nrm d := by
    rw [hlen]; exact arcLength_straight hn a d ts hs _ t0 t1 hz hlz
  rw [hT] at hmid
  have nK : (0 : K) < n := by exact_mod_cast hpos
  have hll : (onStraight a d (linspace t0 t1 n)).length = n + 1 := by simp [onStraight, linspace]
  apply List.ext_getElem?
  intro i
  have hgoal : i ≤ n → (onStraight a d (linspace t0 t1 n))[i]? =
      some (a + (t0 + i * ((t1 - t0) / n)) • d) := by
    intro hi
    rw [onStraight, List.getElem?_map, linspace_get' n i hi]; rfl
  rcases lt_trichotomy i n with hi | hi | hi
  · rw [hgoal hi.le]
    obtain ⟨k, p, q, hp, hq, hpq, h2, h3, h4⟩ := hmid (mul_pos (by linarith) hN) i hi
    rw [h4]
    rw [onStraight, List.getElem?_map, Option.map_eq_some_iff] at hp hq
    obtain ⟨x, hx, rfl⟩ := hp
    obtain ⟨y, hy, rfl⟩ := hq
    have e : (a + y • d) - (a + x • d) = (y - x) • d := by rw [sub_smul]; abel
    have hk1 : k < ts.length := (List.getElem?_eq_some_iff.1 hx).1
    have hk2 : k + 1 < ts.length := (List.getElem?_eq_some_iff.1 hy).1
    have hxy : x ≤ y := by
      rw [List.pairwise_iff_getElem] at hs
      have := hs k (k + 1) hk1 hk2 (by omega)
      rw [List.getElem?_eq_getElem hk1] at hx
      rw [List.getElem?_eq_getElem hk2] at hy
      rw [← Option.some.inj hx, ← Option.some.inj hy]
      exact this
    have hne' : y - x ≠ 0 := by
      intro h
      apply hpq
      rw [sub_eq_zero.1 h]
    rw [e, norm_smul_nonneg hn (by linarith), arcLength_straight hn a d ts hs k t0 x hz hx, smul_smul,
      add_assoc, ← add_smul]
    congr 3
    have hN' := hN.ne'
    field_simp
    ring
  · subst hi
    rw [hlast, hgoal le_rfl, onStraight, List.getLast?_map, h1]
    simp only [Option.map_some]
    congr 3
    field_simp
    ring
  · rw [List.getElem?_eq_none (by omega), List.getElem?_eq_none (by omega)]

end

/-- **C122.** `set_transition(n)` with a number: the new base is a line of `n` segments (`len(points)` segments for 0)
along the old one, from its first to its last point, its `i`-th point at `i/n` of the length of the old line (`C66`); it
has no data; the items so far, the axis and the direction are unchanged, and the next item is a transition, as after
`set_transition(mesh)`; so C31 and C104 apply.  A negative number is rejected. -/
theorem C122_resolution {ω : Type _} {nrm : V3 ℝ → ℝ} (hn : IsNorm nrm) (s : Stack ℝ LineTopo ω)
    (hs : s.mesh.points ≠ []) (n : ℤ) :
    (n < 0 → s.setTransitionInt nrm n = .error .valueError) ∧
    (0 ≤ n → ∃ line m, s.setTransitionInt nrm n = .ok (s.setTransition line) ∧
      (m = if n = 0 then s.mesh.points.length else n.toNat) ∧ 1 ≤ m ∧
      regularLine nrm s.mesh.points (some m) = .ok line.points ∧
      line.points.length = m + 1 ∧ StackLine (m + 1) line ∧
      line.points[0]? = s.mesh.points.head? ∧ line.points[m]? = s.mesh.points.getLast? ∧
      line.topo.pointData = [] ∧ line.topo.cellData = [] ∧ line.topo.table = none) := by
  constructor
  · intro h
    simp only [Stack.setTransitionInt, h, if_true]
  · intro h
    obtain ⟨m, pts, hm, hr, hl, h1, h2, _⟩ := C66_regular_line hn s.mesh.points hs (some n.toNat)
    have hpos : 0 < s.mesh.points.length := List.length_pos_of_ne_nil hs
    have hmn : m = if n = 0 then s.mesh.points.length else n.toNat := by
      rcases hm with ⟨e, e2 | e2⟩ | ⟨e, e2⟩
      · cases e2
      · have := Option.some.inj e2
        rw [if_pos (by omega)]; exact e
      · have := Option.some.inj e
        rw [if_neg (by omega)]; omega
    have hm1 : 1 ≤ m := by
      rw [hmn]; split <;> omega
    have hr' : regularLine nrm s.mesh.points (some m) = .ok pts := by
      rcases hm with ⟨e, e2 | e2⟩ | ⟨e, e2⟩
      · cases e2
      · rw [← hr, e2]
        cases hp : s.mesh.points with
        | nil => exact absurd hp hs
        | cons p l => rw [hp] at e; rw [e]; rfl
      · rw [← hr, e]
    refine ⟨⟨pts, List.range pts.length, [], [], none⟩, m, ?_, hmn, hm1, hr', hl, ?_, h1, h2, rfl, rfl, rfl⟩
    · simp only [Stack.setTransitionInt, if_neg (show ¬ n < 0 by omega), hr]
    · refine ⟨⟨?_, ?_, ?_, ?_, ?_, ?_⟩, hl, ?_⟩
      · simp
      · simp only; omega
      · simp
      · simp
      · simp
      · simp
      · simp

/-- **C122.** On a stack over numbers in increasing order, `set_transition(n)` gives the base that `MeshStack2D` makes of
`np.linspace(first, last, n + 1)`. -/
theorem C122_numbers {ω : Type _} {nrm : V3 ℝ → ℝ} (hn : IsNorm nrm) (xs : List ℝ) (hxs : xs.Pairwise (· ≤ ·))
    (x0 x1 : ℝ) (h0 : xs.head? = some x0) (h1 : xs.getLast? = some x1) (h01 : x0 < x1) (axis : Fin 3)
    (bottomUp : Bool) (n : ℤ) (hn0 : 0 < n) :
    ∃ s s' : Stack ℝ LineTopo ω, stack2DNew (.numbers xs) (axis : ℕ) bottomUp = .ok s ∧
      stack2DNew (.numbers (linspace x0 x1 n.toNat)) (axis : ℕ) bottomUp = .ok s' ∧
      s.setTransitionInt nrm n = .ok (s.setTransition s'.mesh) := by
  have hlen : 2 ≤ xs.length := by
    match xs, h0, h1 with
    | [], h0, _ => simp at h0
    | [x], h0, h1 =>
      simp only [List.head?_cons, List.getLast?_singleton, Option.some.injEq] at h0 h1
      linarith
    | _ :: _ :: l, _, _ => simp
  have hpos : 0 < n.toNat := by omega
  refine ⟨⟨⟨numberPoints axis xs, List.range xs.length, [], [], none⟩, axis, bottomUp, false, []⟩,
    ⟨⟨numberPoints axis (linspace x0 x1 n.toNat), List.range (linspace x0 x1 n.toNat).length, [], [], none⟩, axis,
      bottomUp, false, []⟩, ?_, ?_, ?_⟩
  · simp only [stack2DNew, checkAxis_cast]; rw [if_neg (by omega)]; rfl
  · simp only [stack2DNew, checkAxis_cast]
    rw [if_neg (by simp only [linspace, List.length_map, List.length_range]; omega)]; rfl
  · have hnum : ∀ ts : List ℝ, numberPoints axis ts = onStraight 0 (Function.update 0 (axis + 1) 1) ts := by
      intro ts
      unfold numberPoints onStraight
      apply List.map_congr_left
      intro t _
      funext ax
      by_cases h : ax = axis + 1
      · subst h; simp
      · simp [Function.update_of_ne h]
    have hd : (Function.update 0 (axis + 1) 1 : V3 ℝ) ≠ 0 := by
      intro h
      have := congrFun h (axis + 1)
      simp at this
    simp only [Stack.setTransitionInt, if_neg (show ¬ n < 0 by omega)]
    rw [hnum xs, regularLine_straight hn 0 _ hd xs hxs x0 x1 h0 h1 h01 _ hpos]
    simp only [hnum, onStraight, List.length_map]

/-- Concrete case: the numbers 0, 1, 4 and four segments. -/
example : ([0, 1, 4] : List ℝ).Pairwise (· ≤ ·) ∧ ([0, 1, 4] : List ℝ).head? = some 0 ∧
    ([0, 1, 4] : List ℝ).getLast? = some 4 ∧ (linspace 0 4 4 : List ℝ) = [0, 1, 2, 3, 4] := by
  refine ⟨?_, rfl, rfl, ?_⟩
  · simp only [List.pairwise_cons, List.mem_cons, List.not_mem_nil, or_false, forall_eq_or_imp, forall_eq,
      List.Pairwise.nil]
    norm_num
  · simp only [linspace, List.range_succ, List.range_zero, List.nil_append, List.cons_append, List.map_cons,
      List.map_nil]
    norm_num

/-- **C123 (refuted).** `RegularLine` never returns as many points as documented ("number of points to interpolate",
by default the number of points given): always one more. -/
theorem C123_one_more_refuted {nrm : V3 ℝ → ℝ} (hn : IsNorm nrm) (points : List (V3 ℝ)) (hp : points ≠ []) :
    (∀ n : ℕ, n ≠ 0 → ∃ pts, regularLine nrm points (some n) = .ok pts ∧ pts.length = n + 1) ∧
    ∃ pts, regularLine nrm points none = .ok pts ∧ pts.length = points.length + 1 := by
  constructor
  · intro n hn0
    obtain ⟨m, pts, hm, hr, hl, _⟩ := C66_regular_line hn points hp (some n)
    rcases hm with ⟨_, h | h⟩ | ⟨h, _⟩
    · cases h
    · exact absurd (Option.some.inj h) hn0
    · exact ⟨pts, hr, by rw [hl, Option.some.inj h]⟩
  · obtain ⟨m, pts, hm, hr, hl, _⟩ := C66_regular_line hn points hp none
    rcases hm with ⟨h, _⟩ | ⟨h, _⟩
    · exact ⟨pts, hr, by rw [hl, h]⟩
    · cases h

/-- **C123 (partial).** A line that is straight and evenly spaced is returned unchanged when the number of its segments
is given as resolution.
Missing: by default, and with the number of its points, it is not (`C123_one_more_refuted`). -/
theorem C123_regular_partial {nrm : V3 ℝ → ℝ} (hn : IsNorm nrm) (a d : V3 ℝ) (hd : d ≠ 0) (t0 t1 : ℝ) (h : t0 < t1)
    (n : ℕ) (hpos : 0 < n) :
    regularLine nrm (onStraight a d (linspace t0 t1 n)) (some n) = .ok (onStraight a d (linspace t0 t1 n)) := by
  have nR : (0 : ℝ) < n := by exact_mod_cast hpos
  apply regularLine_straight hn a d hd _ ?_ t0 t1 ?_ ?_ h n hpos
  · unfold linspace
    rw [List.pairwise_map]
    refine List.pairwise_lt_range.imp ?_
    intro i j hij
    have : (i : ℝ) ≤ j := by exact_mod_cast hij.le
    have hq : 0 ≤ (t1 - t0) / n := div_nonneg (by linarith) nR.le
    nlinarith
  · rw [List.head?_eq_getElem?, linspace_get' n 0 (by omega)]; simp
  · rw [List.getLast?_eq_getElem?]
    have : (linspace t0 t1 n).length - 1 = n := by simp [linspace]
    rw [this, linspace_get' n n le_rfl]
    congr 1
    field_simp
    ring

/-- The Euclidean norm is one. -/
example : IsNorm (fun v : V3 ℝ => Real.sqrt (sqLen v)) := by
  intro v
  have : 0 ≤ sqLen v := by unfold sqLen; positivity
  exact ⟨Real.sqrt_nonneg _, Real.sq_sqrt this⟩

end Gridder
