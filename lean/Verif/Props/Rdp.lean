import Verif.Model.Rdp
import Verif.Props.Lines
import Mathlib.Data.List.Chain
import Mathlib.Tactic.LinearCombination
import Mathlib.Tactic.Linarith
import Mathlib.Tactic.FieldSimp
import Mathlib.Data.Real.Sqrt

/-! # C41, C76: decimating lines -/

namespace Gridder

namespace Spec
variable {K : Type*} [Field K] [LinearOrder K]

/-- Squared length. -/
def sqLen (v : Fin 3 → K) : K := v 0 ^ 2 + v 1 ^ 2 + v 2 ^ 2

/-- `nrm` is the Euclidean norm. -/
def IsNorm (nrm : (Fin 3 → K) → K) : Prop := ∀ v, 0 ≤ nrm v ∧ nrm v ^ 2 = sqLen v

/-- `p` is within `tol` of the line through `a` and `b` (of the point `a` if they coincide). -/
def NearLine (tol : K) (a b p : Fin 3 → K) : Prop :=
  ∃ t : K, sqLen (p - (a + t • (b - a))) ≤ tol ^ 2

/-- Points `i` and `j` are kept one after the other: all points between them are near the line through
them. -/
def Keeps (tol : K) (pts : List (Fin 3 → K)) (i j : ℕ) : Prop :=
  i < j ∧ ∀ (k : ℕ) (a b p : Fin 3 → K), i ≤ k → k ≤ j → pts[i]? = some a → pts[j]? = some b →
    pts[k]? = some p → NearLine tol a b p

/-- `out` is a subsequence of `pts` from its first to its last point, close to it. -/
def Simplified (tol : K) (pts out : List (Fin 3 → K)) : Prop :=
  ∃ idx : List ℕ, idx.head? = some 0 ∧ idx.getLast? = some (pts.length - 1) ∧
    out.map some = along pts idx ∧ idx.IsChain (Keeps tol pts)

end Spec

open Spec

section
variable {K : Type*} [Field K] [LinearOrder K] [IsStrictOrderedRing K]

theorem argmax_spec (l : List K) (hl : l ≠ []) : ∃ i y, argmax l = some (i, y) ∧ l[i]? = some y ∧
    ∀ x ∈ l, x ≤ y := by
  induction l with
  | nil => exact absurd rfl hl
  | cons x xs ih =>
    unfold argmax
    cases xs with
    | nil => exact ⟨0, x, by simp [argmax], rfl, by simp⟩
    | cons x' xs =>
      obtain ⟨i, y, h1, h2, h3⟩ := ih (by simp)
      rw [h1]
      simp only
      split
      · rename_i h
        refine ⟨i + 1, y, rfl, by simpa using h2, ?_⟩
        intro z hz
        rcases List.mem_cons.1 hz with rfl | hz
        · exact h.le
        · exact h3 z hz
      · rename_i h
        refine ⟨0, x, rfl, rfl, ?_⟩
        intro z hz
        rcases List.mem_cons.1 hz with rfl | hz
        · exact le_rfl
        · exact (h3 z hz).trans (not_lt.1 h)

theorem sqLen_nonneg (v : V3 K) : 0 ≤ sqLen v := by unfold sqLen; positivity

theorem norm_zero {nrm : V3 K → K} (hn : IsNorm nrm) {v : V3 K} (h : sqLen v = 0) : nrm v = 0 := by
  have := (hn v).2
  rw [h] at this
  exact pow_eq_zero_iff (two_ne_zero) |>.1 this

theorem chordDist_first {nrm : V3 K → K} (hn : IsNorm nrm) (a b : V3 K) : chordDist nrm a b a = 0 := by
  unfold chordDist
  simp only
  split
  · rw [norm_zero hn (by simp [sqLen, cross]), zero_div]
  · exact norm_zero hn (by simp [sqLen])

theorem chordDist_last {nrm : V3 K → K} (hn : IsNorm nrm) (a b : V3 K) : chordDist nrm a b b = 0 := by
  unfold chordDist
  simp only
  split
  · rw [norm_zero hn, zero_div]
    simp only [sqLen, cross, Pi.sub_apply, Matrix.cons_val]
    ring
  · rename_i h
    exact le_antisymm (not_lt.1 h) (hn _).1

/-- The computed distance is that to the line. -/
theorem chordDist_near {nrm : V3 K → K} (hn : IsNorm nrm) {a b p : V3 K} {tol : K}
    (h : chordDist nrm a b p ≤ tol) : NearLine tol a b p := by
  unfold chordDist at h
  simp only at h
  by_cases hu : 0 < nrm (b - a)
  · rw [if_pos hu] at h
    have h1 := (hn (b - a)).2
    have h2 := (hn (cross (b - a) (a - p))).2
    have h3 := (hn (cross (b - a) (a - p))).1
    have hs : 0 < sqLen (b - a) := by rw [← h1]; positivity
    refine ⟨((b - a) 0 * (p - a) 0 + (b - a) 1 * (p - a) 1 + (b - a) 2 * (p - a) 2) / sqLen (b - a), ?_⟩
    have e : sqLen (p - (a + (((b - a) 0 * (p - a) 0 + (b - a) 1 * (p - a) 1 + (b - a) 2 * (p - a) 2) /
        sqLen (b - a)) • (b - a))) = (nrm (cross (b - a) (a - p)) / nrm (b - a)) ^ 2 := by
      rw [div_pow, h1, h2, eq_div_iff hs.ne']
      set s := sqLen (b - a) with hsdef
      have hs' : s ≠ 0 := hs.ne'
      simp only [sqLen, cross, Pi.sub_apply, Pi.add_apply, Pi.smul_apply, smul_eq_mul, Matrix.cons_val]
        at hsdef ⊢
      field_simp
      rw [hsdef]
      ring
    rw [e]
    exact pow_le_pow_left₀ (by positivity) h 2
  · rw [if_neg hu] at h
    have h0 : nrm (b - a) = 0 := le_antisymm (not_lt.1 hu) (hn _).1
    refine ⟨0, ?_⟩
    have e : sqLen (p - (a + (0 : K) • (b - a))) = nrm (p - a) ^ 2 := by
      rw [(hn _).2]
      simp
    rw [e]
    exact pow_le_pow_left₀ (hn _).1 h 2

theorem keeps_take {tol : K} {pts : List (V3 K)} {n i j : ℕ} (h : Keeps tol (pts.take n) i j) (hj : j < n) :
    Keeps tol pts i j := by
  refine ⟨h.1, ?_⟩
  intro k a b p hk1 hk2 ha hb hp
  have := h.1
  apply h.2 k a b p hk1 hk2 <;> rw [List.getElem?_take_of_lt (by omega)] <;> assumption

theorem keeps_drop {tol : K} {pts : List (V3 K)} {n i j : ℕ} (h : Keeps tol (pts.drop n) i j) :
    Keeps tol pts (i + n) (j + n) := by
  have h1 := h.1
  refine ⟨by omega, ?_⟩
  intro k a b p hk1 hk2 ha hb hp
  apply h.2 (k - n) a b p (by omega) (by omega)
  · rw [List.getElem?_drop, Nat.add_comm]; exact ha
  · rw [List.getElem?_drop, Nat.add_comm]; exact hb
  · rw [List.getElem?_drop, Nat.add_sub_cancel' (by omega)]; exact hp

/-- Indices along a chain increase, so the last one bounds them. -/
theorem chain_bound {R : ℕ → ℕ → Prop} (hR : ∀ i j, R i j → i < j) : ∀ (l : List ℕ) (n : ℕ),
    l.IsChain R → l.getLast? = some n → ∀ i ∈ l, i ≤ n := by
  intro l
  induction l with
  | nil => intro n _ _ i hi; simp at hi
  | cons a l ih =>
    intro n hc hl i hi
    cases l with
    | nil =>
      simp only [List.getLast?_singleton, Option.some.injEq] at hl
      simp only [List.mem_singleton] at hi
      omega
    | cons b l =>
      rw [List.isChain_cons_cons] at hc
      rw [List.getLast?_cons_cons] at hl
      have := ih n hc.2 hl
      rcases List.mem_cons.1 hi with rfl | hi
      · have := this b (by simp)
        have := hR _ _ hc.1
        omega
      · exact this i hi

theorem decimate_ok {nrm : V3 K → K} (hn : IsNorm nrm) {tol : K} (ht : 0 ≤ tol) :
    ∀ (depth : ℕ) (pts : List (V3 K)), 2 ≤ pts.length → pts.length ≤ depth →
    ∃ out, decimate nrm tol depth pts = .ok out ∧ Simplified tol pts out := by
  intro depth
  induction depth with
  | zero => intro pts h1 h2; omega
  | succ depth ih =>
    intro pts h1 h2
    have hne : pts ≠ [] := by rintro rfl; simp at h1
    have hl0 : 0 < pts.length := by omega
    have hlast : pts.length - 1 < pts.length := by omega
    have ha : pts.head? = some pts[0] := by
      rw [List.head?_eq_getElem?, List.getElem?_eq_getElem hl0]
    have hb : pts.getLast? = some pts[pts.length - 1] := by
      rw [List.getLast?_eq_getElem?, List.getElem?_eq_getElem hlast]
    obtain ⟨imax, d, m1, m2, m3⟩ := argmax_spec (pts.map (chordDist nrm pts[0] pts[pts.length - 1]))
      (by simpa using hne)
    rw [List.getElem?_map] at m2
    obtain ⟨p, hp, hpd⟩ := Option.map_eq_some_iff.1 m2
    unfold decimate
    rw [ha, hb]
    simp only [m1]
    by_cases hd : tol < d
    · rw [if_pos hd]
      have hpos : 0 < d := lt_of_le_of_lt ht hd
      have him : imax < pts.length := (List.getElem?_eq_some_iff.1 hp).1
      have hi0 : imax ≠ 0 := by
        rintro rfl
        rw [List.getElem?_eq_getElem hl0] at hp
        cases hp
        rw [chordDist_first hn] at hpd
        exact hpos.ne hpd
      have hi1 : imax ≠ pts.length - 1 := by
        rintro h
        rw [h, List.getElem?_eq_getElem hlast] at hp
        cases hp
        rw [chordDist_last hn] at hpd
        exact hpos.ne hpd
      have hl1 : (pts.take (imax + 1)).length = imax + 1 := by rw [List.length_take]; omega
      have hl2 : (pts.drop imax).length = pts.length - imax := by rw [List.length_drop]
      obtain ⟨out1, e1, idx1, a1, a2, a3, a4⟩ := ih (pts.take (imax + 1)) (by omega) (by omega)
      obtain ⟨out2, e2, idx2, b1, b2, b3, b4⟩ := ih (pts.drop imax) (by omega) (by omega)
      rw [e1, e2]
      refine ⟨_, rfl, ?_⟩
      rw [hl1, Nat.add_sub_cancel] at a2
      rw [hl2] at b2
      obtain ⟨init, rfl⟩ : ∃ init, idx1 = init ++ [imax] := by
        obtain ⟨init, h⟩ := List.getLast?_eq_some_iff.1 a2
        exact ⟨init, h⟩
      obtain ⟨rest, rfl⟩ : ∃ rest, idx2 = 0 :: rest := by
        cases idx2 with
        | nil => simp at b1
        | cons x r => simp only [List.head?_cons, Option.some.injEq] at b1; exact ⟨r, by rw [b1]⟩
      have hbound := chain_bound (fun i j h => h.1) _ _ a4 a2
      have hinit : init ≠ [] := by
        rintro rfl
        simp only [List.nil_append, List.head?_cons, Option.some.injEq] at a1
        omega
      refine ⟨init ++ (imax :: rest.map (· + imax)), ?_, ?_, ?_, ?_⟩
      · rw [List.head?_append_of_ne_nil _ hinit] at a1 ⊢
        exact a1
      · rw [List.getLast?_append]
        have : (imax :: rest.map (· + imax)) = (0 :: rest).map (· + imax) := by simp
        rw [this, List.getLast?_map, b2]
        simp only [Option.map_some, Option.or_some, Option.some.injEq]
        simp
        omega
      · rw [List.map_append, List.map_dropLast, a3]
        unfold along at a3 b3 ⊢
        rw [b3, ← List.map_dropLast, List.dropLast_concat, List.map_append]
        have e1 : init.map (fun i => (pts.take (imax + 1))[i]?) = init.map fun i => pts[i]? := by
          apply List.map_congr_left
          intro i hi
          have := hbound i (by simp [hi])
          rw [List.getElem?_take_of_lt (by omega)]
        have e2 : (0 :: rest).map (fun i => (pts.drop imax)[i]?) =
            (imax :: rest.map (· + imax)).map fun i => pts[i]? := by
          simp only [List.map_cons, List.map_map, List.getElem?_drop, Nat.add_zero]
          congr 1
          apply List.map_congr_left
          intro i _
          simp only [Function.comp, Nat.add_comm]
        rw [e1, e2]
      · rw [List.isChain_split]
        constructor
        · refine List.IsChain.imp_of_mem_imp ?_ a4
          intro x y _ hy hxy
          exact keeps_take hxy (Nat.lt_succ_of_le (hbound y hy))
        · have : (imax :: rest.map (· + imax)) = (0 :: rest).map (· + imax) := by simp
          rw [this, List.isChain_map]
          exact b4.imp fun x y h => keeps_drop h
    · rw [if_neg hd]
      refine ⟨_, rfl, [0, pts.length - 1], rfl, rfl, ?_, ?_⟩
      · simp [along, hl0]
      · rw [List.isChain_cons_cons]
        refine ⟨⟨by omega, ?_⟩, by simp⟩
        intro k a b q _ _ ha' hb' hq
        rw [List.getElem?_eq_getElem hl0] at ha'
        rw [List.getElem?_eq_getElem hlast] at hb'
        cases ha'
        cases hb'
        apply chordDist_near hn
        exact (m3 _ (List.mem_map.2 ⟨q, List.mem_of_getElem? hq, rfl⟩)).trans (not_lt.1 hd)

theorem rdpLoop_ok {nrm : V3 K → K} (hn : IsNorm nrm) {tol : K} (ht : 0 ≤ tol) (depth : ℕ)
    (points : List (V3 K)) : ∀ (cells : List (ℕ × List ℕ)) (n : ℕ),
    (∀ c ∈ cells, ∀ i ∈ c.2, i < points.length) →
    (∀ c ∈ cells, c.1 = 4 → 2 ≤ c.2.length ∧ c.2.length ≤ depth) →
    ∃ lines more, rdpLoop nrm tol depth points n cells = .ok (lines, more) ∧
      (∀ l ∈ lines, ∀ i ∈ l, n ≤ i) ∧
      ∀ pre : List (V3 K), pre.length = n → List.Forall₂ (fun (c : ℕ × List ℕ) line =>
        (c.1 = 3 → along (pre ++ more) line = along points c.2) ∧
        (c.1 = 4 → ∃ out, along (pre ++ more) line = out.map some ∧
          Simplified tol (c.2.map (pt points)) out))
        (cells.filter fun c => c.1 = 3 ∨ c.1 = 4) lines := by
  intro cells
  induction cells with
  | nil => intro n _ _; exact ⟨[], [], rfl, by simp, fun _ _ => by simp⟩
  | cons c cells ih =>
    intro n hi hp
    obtain ⟨t, ids⟩ := c
    have hi' : ∀ c ∈ cells, ∀ i ∈ c.2, i < points.length := fun c hc => hi c (by simp [hc])
    have hp' : ∀ c ∈ cells, c.1 = 4 → 2 ≤ c.2.length ∧ c.2.length ≤ depth :=
      fun c hc => hp c (by simp [hc])
    unfold rdpLoop
    by_cases h34 : t = 3 ∨ t = 4
    · rw [if_pos h34]
      have hids := hi (t, ids) (by simp)
      have hg : gather points ids = .ok (ids.map (pt points)) := by
        rw [gather_ok_iff]
        unfold along
        rw [List.map_map]
        apply List.map_congr_left
        intro i h
        simp [pt, List.getD_eq_getElem?_getD, hids i h]
      rw [hg]
      simp only
      have hdec : ∃ out, (if t = 4 then decimate nrm tol depth (ids.map (pt points))
          else .ok (ids.map (pt points))) = .ok out ∧
          (t = 3 → out.map some = along points ids) ∧
          (t = 4 → Simplified tol (ids.map (pt points)) out) := by
        by_cases h4 : t = 4
        · rw [if_pos h4]
          have := hp (t, ids) (by simp) h4
          obtain ⟨out, e1, e2⟩ := decimate_ok hn ht depth (ids.map (pt points)) (by simpa using this.1)
            (by simpa using this.2)
          exact ⟨out, e1, fun h => by omega, fun _ => e2⟩
        · rw [if_neg h4]
          exact ⟨_, rfl, fun _ => gather_ok_iff.1 hg, fun h => absurd h h4⟩
      obtain ⟨out, e1, e2, e3⟩ := hdec
      rw [e1]
      simp only
      obtain ⟨lines, more, f1, f2, f3⟩ := ih (n + out.length) hi' hp'
      rw [f1]
      refine ⟨_, _, rfl, ?_, ?_⟩
      · intro l hl i hil
        rcases List.mem_cons.1 hl with rfl | hl
        · obtain ⟨k, -, rfl⟩ := List.mem_map.1 hil
          omega
        · have := f2 l hl i hil
          omega
      · intro pre hpre
        rw [List.filter_cons_of_pos (by simpa using h34)]
        have hal : along (pre ++ (out ++ more)) ((List.range out.length).map (· + n)) = out.map some := by
          apply List.ext_getElem?
          intro j
          simp only [along, List.map_map, List.getElem?_map]
          rcases Nat.lt_or_ge j out.length with hj | hj
          · rw [List.getElem?_range hj, List.getElem?_eq_getElem hj]
            simp only [Option.map_some, Function.comp]
            rw [List.getElem?_append_right (by omega), hpre, Nat.add_sub_cancel,
              List.getElem?_append_left hj, List.getElem?_eq_getElem hj]
          · rw [List.getElem?_eq_none (by simpa using hj), List.getElem?_eq_none hj]
            rfl
        refine .cons ⟨fun h => ?_, fun h => ⟨out, hal, e3 h⟩⟩ ?_
        · rw [hal]; exact e2 h
        · have := f3 (pre ++ out) (by simp [hpre])
          rw [List.append_assoc] at this
          exact this
    · rw [if_neg h34]
      obtain ⟨lines, more, f1, f2, f3⟩ := ih n hi' hp'
      refine ⟨lines, more, f1, f2, ?_⟩
      rw [List.filter_cons_of_neg (by simpa using h34)]
      exact f3

/-- **C41**: for a non-negative tolerance (and recursion depth enough for the longest polyline),
`decimate_rdp` returns one line per line and polyline, in order: lines keep their points; a polyline
becomes a subsequence of its points from the first to the last, each dropped point being within the
tolerance of the line through the kept points around it. -/
theorem C41_decimate_rdp {nrm : V3 K → K} (hn : IsNorm nrm) {tol : K} (ht : 0 ≤ tol) (depth : ℕ)
    (points : List (V3 K)) (cells : List (ℕ × List ℕ))
    (hi : ∀ c ∈ cells, ∀ i ∈ c.2, i < points.length)
    (hp : ∀ c ∈ cells, c.1 = 4 → 2 ≤ c.2.length ∧ c.2.length ≤ depth) :
    ∃ lines pts, decimateRdp nrm tol depth points cells = .ok (lines, pts) ∧
      List.Forall₂ (fun (c : ℕ × List ℕ) line =>
        (c.1 = 3 → along pts line = along points c.2) ∧
        (c.1 = 4 → ∃ out, along pts line = out.map some ∧ Simplified tol (c.2.map (pt points)) out))
        (cells.filter fun c => c.1 = 3 ∨ c.1 = 4) lines := by
  obtain ⟨lines, more, h1, -, h2⟩ := rdpLoop_ok hn ht depth points cells 0 hi hp
  exact ⟨lines, more, h1, h2 [] rfl⟩

/-- The Euclidean norm over the reals is one. -/
theorem isNorm_real : IsNorm fun v : Fin 3 → ℝ => Real.sqrt (sqLen v) :=
  fun v => ⟨Real.sqrt_nonneg _, Real.sq_sqrt (sqLen_nonneg v)⟩

/-- A flat zigzag, a line and a closed polyline; all vectors met are along an axis, where the maximum
norm is the Euclidean one. -/
example : (decimateRdp (K := ℚ) (fun v => max |v 0| (max |v 1| |v 2|)) (1 / 2) 10
    [![0, 0, 0], ![1, 1 / 10, 0], ![2, 0, 0], ![0, 2, 0], ![0, 3, 0], ![4, 0, 0]]
    [(4, [0, 1, 2, 5]), (3, [3, 4]), (4, [0, 3, 4, 0])]).toOption.map
      (fun r => (r.1, r.2.map fun p => [p 0, p 1])) =
    some ([[0, 1], [2, 3], [4, 5, 6]], [[0, 0], [4, 0], [0, 2], [0, 3], [0, 0], [0, 3], [0, 0]]) := by
  decide +kernel

/-- A negative tolerance never stops. -/
theorem C41_negative_tolerance (nrm : V3 K → K) (hn : IsNorm nrm) {tol : K} (ht : tol < 0) (a : V3 K)
    (depth : ℕ) : decimate nrm tol depth [a] = .error .recursionError := by
  induction depth with
  | zero => rfl
  | succ depth ih =>
    unfold decimate
    simp only [List.head?_cons, List.getLast?_singleton, List.map_cons, List.map_nil, argmax,
      chordDist_first hn, ht, if_true, List.take, ih]

/-- **C76**: lines and polylines are all returned: see `C41_decimate_rdp`; the number of lines returned is
that of the lines and polylines of the input. -/
theorem C76_lines_partial {nrm : V3 K → K} (hn : IsNorm nrm) {tol : K} (ht : 0 ≤ tol) (depth : ℕ)
    (points : List (V3 K)) (cells : List (ℕ × List ℕ))
    (hi : ∀ c ∈ cells, ∀ i ∈ c.2, i < points.length)
    (hp : ∀ c ∈ cells, c.1 = 4 → 2 ≤ c.2.length ∧ c.2.length ≤ depth)
    (hno : ∀ c ∈ cells, c.1 = 3 ∨ c.1 = 4) :
    ∃ lines pts, decimateRdp nrm tol depth points cells = .ok (lines, pts) ∧
      lines.length = cells.length := by
  obtain ⟨lines, pts, h1, h2⟩ := C41_decimate_rdp hn ht depth points cells hi hp
  refine ⟨lines, pts, h1, ?_⟩
  rw [← h2.length_eq, List.filter_eq_self.2 (by simpa using hno)]

/-- **C76** is false for polygons, which the documentation also promises to decimate: they are dropped
without notice. -/
theorem C76_polygons_refuted : ∀ (nrm : V3 K → K) (tol : K) (depth : ℕ) (points : List (V3 K))
    (cells : List (ℕ × List ℕ)), (∀ c ∈ cells, c.1 = 5 ∨ c.1 = 7 ∨ c.1 = 9) →
    decimateRdp nrm tol depth points cells = .ok ([], []) := by
  intro nrm tol depth points cells h
  unfold decimateRdp
  generalize 0 = n
  induction cells with
  | nil => rfl
  | cons c cells ih =>
    obtain ⟨t, ids⟩ := c
    unfold rdpLoop
    have := h (t, ids) (by simp)
    simp only at this
    rw [if_neg (by omega)]
    exact ih fun c hc => h c (by simp [hc])

example : decimateRdp (K := ℚ) (fun v => max |v 0| |v 1|) (1 / 2) 10
    [![0, 0, 0], ![1, 0, 0], ![2, 1, 0]] [(7, [0, 1, 2])] = .ok ([], []) :=
  C76_polygons_refuted _ _ _ _ _ (by simp)

end

end Gridder
