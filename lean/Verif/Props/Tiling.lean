import Verif.Props.Profile
import Mathlib.Analysis.Convex.Combination

/-!
# C131: the cells of a stacked section fill it without gaps and overlaps
-/

namespace Gridder
open Spec

namespace Spec

/-- The region of the cell between the nodes `j` and `j + 1` of two consecutive rows. -/
def quadRegion (node : ℕ → ℕ → Fin 3 → ℝ) (j L : ℕ) : Set (Fin 3 → ℝ) :=
  convexHull ℝ {node j L, node (j + 1) L, node j (L + 1), node (j + 1) (L + 1)}

/-- The cells over the segments of a line, in `m` rows, fill the section between two curves given by their heights over the
points of the line, and two cells of a column share at most a row of nodes. -/
structure FillsSection (axis : Fin 3) (base : List (Fin 3 → ℝ)) (low high : (Fin 3 → ℝ) → ℝ) (m : ℕ)
    (node : ℕ → ℕ → Fin 3 → ℝ) : Prop where
  fills : ∀ (j : ℕ) p q, base[j]? = some p → base[j + 1]? = some q →
    (⋃ L, ⋃ (_ : L < m), quadRegion node j L) = convexHull ℝ
      {Function.update p axis (low p), Function.update q axis (low q), Function.update p axis (high p),
        Function.update q axis (high q)}
  apart : ∀ (j : ℕ) p q, base[j]? = some p → base[j + 1]? = some q → (∃ ax, ax ≠ axis ∧ p ax ≠ q ax) →
    ∀ L L', L < L' → L' < m → quadRegion node j L ∩ quadRegion node j L' ⊆ segment ℝ (node j L') (node (j + 1) L')
  columns : ∀ ax, ax ≠ axis → base.Pairwise (fun p q => p ax < q ax) →
    ∀ (j j' : ℕ) p', j < j' → base[j']? = some p' → j' + 1 < base.length → ∀ L L', L < m → L' < m →
      ∀ x ∈ quadRegion node j L ∩ quadRegion node j' L', j' = j + 1 ∧ x ax = p' ax

end Spec

/-- The points over a segment between two heights at its ends. -/
def strip (axis : Fin 3) (p q : V3 ℝ) (a b c d : ℝ) : Set (V3 ℝ) :=
  {x | ∃ t h, 0 ≤ t ∧ t ≤ 1 ∧ (1 - t) * a + t * b ≤ h ∧ h ≤ (1 - t) * c + t * d ∧
    x = Function.update (fun ax => (1 - t) * p ax + t * q ax) axis h}

theorem update_comb (axis : Fin 3) (p q : V3 ℝ) (s t u v : ℝ) :
    (s • Function.update p axis u + t • Function.update q axis v : V3 ℝ) =
      Function.update (fun ax => s * p ax + t * q ax) axis (s * u + t * v) := by
  funext ax
  by_cases h : ax = axis
  · subst h; simp
  · simp [Function.update_of_ne h]

theorem quad_hull (axis : Fin 3) (p q : V3 ℝ) {a b c d : ℝ} (h1 : a ≤ c) (h2 : b ≤ d) :
    convexHull ℝ {Function.update p axis a, Function.update q axis b, Function.update p axis c, Function.update q axis d} =
      strip axis p q a b c d := by
  apply Set.Subset.antisymm
  · refine convexHull_min ?_ ?_
    · rintro x (rfl | rfl | rfl | rfl)
      · exact ⟨0, a, le_rfl, zero_le_one, by simp, by simpa, by simp⟩
      · exact ⟨1, b, zero_le_one, le_rfl, by simp, by simpa, by simp⟩
      · exact ⟨0, c, le_rfl, zero_le_one, by simpa, by simp, by simp⟩
      · exact ⟨1, d, zero_le_one, le_rfl, by simpa, by simp, by simp⟩
    · rintro _ ⟨t, h, t0, t1, hl, hh, rfl⟩ _ ⟨t', h', t0', t1', hl', hh', rfl⟩ r s hr hs hrs
      refine ⟨r * t + s * t', r * h + s * h', by positivity, by nlinarith, ?_, ?_, ?_⟩
      · have e : (1 - (r * t + s * t')) * a + (r * t + s * t') * b =
            r * ((1 - t) * a + t * b) + s * ((1 - t') * a + t' * b) := by linear_combination (-a) * hrs
        rw [e]
        exact add_le_add (mul_le_mul_of_nonneg_left hl hr) (mul_le_mul_of_nonneg_left hl' hs)
      · have e : (1 - (r * t + s * t')) * c + (r * t + s * t') * d =
            r * ((1 - t) * c + t * d) + s * ((1 - t') * c + t' * d) := by linear_combination (-c) * hrs
        rw [e]
        exact add_le_add (mul_le_mul_of_nonneg_left hh hr) (mul_le_mul_of_nonneg_left hh' hs)
      · rw [update_comb]
        congr 1
        funext ax
        linear_combination (p ax) * hrs
  · rintro x ⟨t, h, t0, t1, hl, hh, rfl⟩
    set S : Set (V3 ℝ) :=
      {Function.update p axis a, Function.update q axis b, Function.update p axis c, Function.update q axis d} with hS
    have hconv := convex_convexHull ℝ S
    have m1 : Function.update p axis a ∈ convexHull ℝ S := subset_convexHull ℝ S (by simp [hS])
    have m2 : Function.update q axis b ∈ convexHull ℝ S := subset_convexHull ℝ S (by simp [hS])
    have m3 : Function.update p axis c ∈ convexHull ℝ S := subset_convexHull ℝ S (by simp [hS])
    have m4 : Function.update q axis d ∈ convexHull ℝ S := subset_convexHull ℝ S (by simp [hS])
    have lo := hconv m1 m2 (by linarith : 0 ≤ 1 - t) t0 (by ring)
    have hi := hconv m3 m4 (by linarith : 0 ≤ 1 - t) t0 (by ring)
    rw [update_comb] at lo hi
    by_cases hd : (1 - t) * a + t * b = (1 - t) * c + t * d
    · have : h = (1 - t) * a + t * b := by linarith
      rw [this]; exact lo
    · have hlt : 0 < (1 - t) * c + t * d - ((1 - t) * a + t * b) := by
        have : (1 - t) * a + t * b ≤ (1 - t) * c + t * d := le_trans hl hh
        rcases lt_or_eq_of_le this with h | h
        · linarith
        · exact absurd h hd
      set w := (1 - t) * c + t * d - ((1 - t) * a + t * b) with hw
      have := hconv lo hi (a := ((1 - t) * c + t * d - h) / w) (b := (h - ((1 - t) * a + t * b)) / w)
        (div_nonneg (by linarith) hlt.le) (div_nonneg (by linarith) hlt.le) (by
          rw [← add_div, show (1 - t) * c + t * d - h + (h - ((1 - t) * a + t * b)) = w by rw [hw]; ring, div_self hlt.ne'])
      rw [update_comb] at this
      convert this using 2
      · funext ax
        rw [← add_mul, ← add_div, show (1 - t) * c + t * d - h + (h - ((1 - t) * a + t * b)) = w by rw [hw]; ring,
          div_self hlt.ne', one_mul]
      · field_simp
        rw [hw]; ring

/-- A height between the first and the last of a rising sequence lies between two consecutive ones. -/
theorem exists_step {f : ℕ → ℝ} {h : ℝ} : ∀ {m : ℕ}, 0 < m → f 0 ≤ h → h ≤ f m → ∃ L < m, f L ≤ h ∧ h ≤ f (L + 1)
  | 0, hm, _, _ => absurd hm (lt_irrefl 0)
  | m + 1, _, h0, h1 => by
    by_cases hc : f m ≤ h
    · exact ⟨m, Nat.lt_succ_self m, hc, h1⟩
    · have hm : 0 < m := by
        rcases Nat.eq_zero_or_pos m with rfl | h
        · exact absurd h0 hc
        · exact h
      obtain ⟨L, hL, g⟩ := exists_step hm h0 (le_of_lt (not_le.1 hc))
      exact ⟨L, Nat.lt_succ_of_lt hL, g⟩

/-- Rows of nodes over a line whose heights rise fill the section. -/
theorem fills_of_rising {axis : Fin 3} {base : List (V3 ℝ)} {low high : V3 ℝ → ℝ} {m : ℕ} (hm : 0 < m)
    {node : ℕ → ℕ → V3 ℝ} {Z : ℕ → ℕ → ℝ}
    (hnode : ∀ (j : ℕ) p, base[j]? = some p → ∀ L ≤ m, node j L = Function.update p axis (Z j L))
    (hrise : ∀ j < base.length, ∀ L < m, Z j L ≤ Z j (L + 1))
    (hlow : ∀ (j : ℕ) p, base[j]? = some p → Z j 0 = low p) (hhigh : ∀ (j : ℕ) p, base[j]? = some p → Z j m = high p) :
    FillsSection axis base low high m node := by
  have hmono : ∀ j < base.length, ∀ L L', L ≤ L' → L' ≤ m → Z j L ≤ Z j L' := by
    intro j hj L L' hL
    induction L', hL using Nat.le_induction with
    | base => intro _; exact le_rfl
    | succ L' h ih => intro hm'; exact le_trans (ih (by omega)) (hrise j hj L' (by omega))
  have hquad : ∀ (j : ℕ) p q, base[j]? = some p → base[j + 1]? = some q → ∀ L < m, quadRegion node j L =
      strip axis p q (Z j L) (Z (j + 1) L) (Z j (L + 1)) (Z (j + 1) (L + 1)) := by
    intro j p q hp hq L hL
    rw [quadRegion, hnode j p hp L hL.le, hnode j p hp (L + 1) hL, hnode (j + 1) q hq L hL.le, hnode (j + 1) q hq (L + 1) hL]
    exact quad_hull axis p q (hrise j (List.getElem?_eq_some_iff.1 hp).1 L hL)
      (hrise (j + 1) (List.getElem?_eq_some_iff.1 hq).1 L hL)
  refine ⟨?_, ?_, ?_⟩
  · intro j p q hp hq
    have hj := (List.getElem?_eq_some_iff.1 hp).1
    have hj' := (List.getElem?_eq_some_iff.1 hq).1
    rw [← hlow j p hp, ← hlow (j + 1) q hq, ← hhigh j p hp, ← hhigh (j + 1) q hq,
      quad_hull axis p q (hmono j hj 0 m (Nat.zero_le _) le_rfl) (hmono (j + 1) hj' 0 m (Nat.zero_le _) le_rfl)]
    ext x
    simp only [Set.mem_iUnion]
    constructor
    · rintro ⟨L, hL, hx⟩
      rw [hquad j p q hp hq L hL] at hx
      obtain ⟨t, h, t0, t1, hl, hh, rfl⟩ := hx
      refine ⟨t, h, t0, t1, le_trans ?_ hl, le_trans hh ?_, rfl⟩
      · exact add_le_add (mul_le_mul_of_nonneg_left (hmono j hj 0 L (Nat.zero_le _) hL.le) (by linarith))
          (mul_le_mul_of_nonneg_left (hmono (j + 1) hj' 0 L (Nat.zero_le _) hL.le) t0)
      · exact add_le_add (mul_le_mul_of_nonneg_left (hmono j hj (L + 1) m hL le_rfl) (by linarith))
          (mul_le_mul_of_nonneg_left (hmono (j + 1) hj' (L + 1) m hL le_rfl) t0)
    · rintro ⟨t, h, t0, t1, hl, hh, rfl⟩
      obtain ⟨L, hL, g1, g2⟩ := exists_step (f := fun L => (1 - t) * Z j L + t * Z (j + 1) L) hm hl hh
      refine ⟨L, hL, ?_⟩
      rw [hquad j p q hp hq L hL]
      exact ⟨t, h, t0, t1, g1, g2, rfl⟩
  · rintro j p q hp hq ⟨ax, hax, hne⟩ L L' hLL hL' x ⟨hx, hx'⟩
    have hj := (List.getElem?_eq_some_iff.1 hp).1
    have hj' := (List.getElem?_eq_some_iff.1 hq).1
    rw [hquad j p q hp hq L (by omega)] at hx
    rw [hquad j p q hp hq L' hL'] at hx'
    obtain ⟨t, h, t0, t1, hl, hh, rfl⟩ := hx
    obtain ⟨t', h', t0', t1', hl', hh', he⟩ := hx'
    have e1 : h = h' := by simpa using congrFun he axis
    have e2 : t = t' := by
      have := congrFun he ax
      rw [Function.update_of_ne hax, Function.update_of_ne hax] at this
      have hz : (t - t') * (q ax - p ax) = 0 := by linear_combination this
      rcases mul_eq_zero.1 hz with hz | hz
      · linarith
      · exact absurd (by linarith) hne
    subst e1 e2
    have g : (1 - t) * Z j (L + 1) + t * Z (j + 1) (L + 1) ≤ (1 - t) * Z j L' + t * Z (j + 1) L' :=
      add_le_add (mul_le_mul_of_nonneg_left (hmono j hj _ _ hLL hL'.le) (by linarith))
        (mul_le_mul_of_nonneg_left (hmono (j + 1) hj' _ _ hLL hL'.le) t0)
    have hh2 : h = (1 - t) * Z j L' + t * Z (j + 1) L' := le_antisymm (le_trans hh g) hl'
    rw [hnode j p hp L' hL'.le, hnode (j + 1) q hq L' hL'.le]
    exact ⟨1 - t, t, by linarith, t0, by ring, by rw [update_comb, hh2]⟩
  · rintro ax hax hinc j j' p' hjj hp' hlen L L' hL hL' x ⟨hx, hx'⟩
    obtain ⟨q', hq'⟩ : ∃ q', base[j' + 1]? = some q' := ⟨_, List.getElem?_eq_getElem hlen⟩
    have hj' := (List.getElem?_eq_some_iff.1 hp').1
    obtain ⟨p, hp⟩ : ∃ p, base[j]? = some p := ⟨_, List.getElem?_eq_getElem (by omega)⟩
    obtain ⟨q, hq⟩ : ∃ q, base[j + 1]? = some q := ⟨_, List.getElem?_eq_getElem (by omega)⟩
    rw [hquad j p q hp hq L hL] at hx
    rw [hquad j' p' q' hp' hq' L' hL'] at hx'
    obtain ⟨t, h, t0, t1, -, -, rfl⟩ := hx
    obtain ⟨t', h', t0', t1', -, -, he⟩ := hx'
    have key : ∀ (a b : ℕ) u v, a < b → base[a]? = some u → base[b]? = some v → u ax < v ax := by
      intro a b u v hab hu hv
      obtain ⟨ha, rfl⟩ := List.getElem?_eq_some_iff.1 hu
      obtain ⟨hb, rfl⟩ := List.getElem?_eq_some_iff.1 hv
      exact List.pairwise_iff_getElem.1 hinc a b ha hb hab
    have c1 := key j (j + 1) p q (by omega) hp hq
    have c2 := key j' (j' + 1) p' q' (by omega) hp' hq'
    have he' := congrFun he ax
    rw [Function.update_of_ne hax, Function.update_of_ne hax] at he'
    have u1 : (1 - t) * p ax + t * q ax ≤ q ax := by nlinarith
    have u2 : p' ax ≤ (1 - t') * p' ax + t' * q' ax := by nlinarith
    have hjj' : j' = j + 1 := by
      by_contra hne
      have := key (j + 1) j' q p' (by omega) hq hp'
      linarith
    refine ⟨hjj', ?_⟩
    subst hjj'
    rw [hq] at hp'
    cases hp'
    rw [Function.update_of_ne hax]
    linarith

/-! ## Stacks -/

theorem subdivision_zeroOne {m : ℕ} {ts : List ℝ} (h : Subdivision m ts) : fromZeroToOne ts := by
  have hm : m ≠ 0 := by
    rintro rfl
    have := h.first.symm.trans h.last
    simp at this
  refine ⟨by rw [h.size]; omega, h.first, ?_⟩
  rw [h.size]
  exact h.last

theorem stackPlane_update (axis : Fin 3) (j L : ℕ) :
    Function.update (planeIx (stackPlane axis) j 0) axis L = planeIx (stackPlane axis) j L := by
  funext ax
  fin_cases axis <;> fin_cases ax <;> simp [stackPlane, planeIx, lineAxis, subdivisionAxis, Function.update]

theorem stackPlane_id (axis : Fin 3) (n j : ℕ) :
    vtkId (planeShape (stackPlane axis) n 1) (planeIx (stackPlane axis) j 0) = j := by
  fin_cases axis <;> simp [stackPlane, vtkId, planeIx, planeShape, lineAxis, subdivisionAxis]

/-- The rows of a profile grid over a line: they rise, and row `layersIn subs k` is surface `k`. -/
theorem profile_rises {axis : Fin 3} {n : ℕ} {base : List (V3 ℝ)} (hn : base.length = n) {h : ℕ → V3 ℝ → ℝ}
    {args : List (Resolution ℝ × Option String)} (hargs : args ≠ [])
    (hsub : ∀ a ∈ args, ∃ m ts, resolutionToPerc a.1 a.2 = .ok ts ∧ Subdivision m ts)
    (hord : ∀ p ∈ base, ∀ k < args.length, h k p ≤ h (k + 1) p) {M : SGrid ℝ ℤ}
    (hM : ProfileGrid (planeShape (stackPlane axis) n 1) axis base h args M) :
    ∃ (m : ℕ) (node : ℕ → ℕ → V3 ℝ), M.nodes.d = planeShape (stackPlane axis) n (m + 1) ∧
      (∀ j < n, ∀ L ≤ m, M.points[vtkId M.nodes.d (planeIx (stackPlane axis) j L)]? = some (node j L)) ∧
      0 < m ∧ (∀ (j : ℕ) p, base[j]? = some p → ∀ L ≤ m, node j L = Function.update p axis (node j L axis)) ∧
      (∀ j < base.length, ∀ L < m, node j L axis ≤ node j (L + 1) axis) ∧
      ∃ subs : List (List ℝ), subs.length = args.length ∧
        (∀ (k : ℕ) a, args[k]? = some a → ∃ ts, resolutionToPerc a.1 a.2 = .ok ts ∧ subs[k]? = some ts) ∧
        layersIn subs args.length = m ∧
        ∀ k ≤ args.length, ∀ (j : ℕ) p, base[j]? = some p → node j (layersIn subs k) axis = h k p := by
  obtain ⟨subs, s1, s2, s3, s4⟩ := hM
  set m := (subs.map fun ts => ts.length - 1).sum with hm
  have hsubs : ∀ (k : ℕ) ts, subs[k]? = some ts → ∃ m', Subdivision m' ts := by
    intro k ts hk
    have hk' : k < args.length := by rw [← s1]; exact (List.getElem?_eq_some_iff.1 hk).1
    obtain ⟨ts', t1, t2⟩ := s2 k _ (List.getElem?_eq_getElem hk')
    obtain ⟨m', ts'', r1, r2⟩ := hsub _ (List.getElem_mem hk')
    obtain rfl : ts' = ts'' := Except.ok.inj (t1.symm.trans r1)
    rw [hk] at t2
    cases t2
    exact ⟨m', r2⟩
  have hat : ∀ (j : ℕ) p, base[j]? = some p → ∀ (k : ℕ) ts, subs[k]? = some ts → ∀ (s : ℕ) t, ts[s]? = some t →
      M.points[vtkId M.nodes.d (planeIx (stackPlane axis) j (layersIn subs k + s))]? =
        some (Function.update p axis ((1 - t) * h k p + t * h (k + 1) p)) := by
    intro j p hp k ts hk s t ht
    have hj : j < n := by rw [← hn]; exact (List.getElem?_eq_some_iff.1 hp).1
    have hin : InShape (planeShape (stackPlane axis) n 1) (planeIx (stackPlane axis) j 0) :=
      planeIx_inShape (stackPlane_is axis) hj Nat.one_pos
    have := s4 k ts hk _ s t p hin ht (by rw [stackPlane_id]; exact hp)
    rwa [stackPlane_update] at this
  set node : ℕ → ℕ → V3 ℝ := fun j L => (M.points[vtkId M.nodes.d (planeIx (stackPlane axis) j L)]?).getD 0 with hnode
  have hlen : 0 < args.length := List.length_pos_iff.2 hargs
  obtain ⟨ts0, hts0⟩ : ∃ ts, subs[(0 : ℕ)]? = some ts := ⟨_, List.getElem?_eq_getElem (by omega)⟩
  obtain ⟨tsl, htsl⟩ : ∃ ts, subs[args.length - 1]? = some ts := ⟨_, List.getElem?_eq_getElem (by omega)⟩
  obtain ⟨m0, hm0⟩ := hsubs _ _ hts0
  obtain ⟨ml, hml⟩ := hsubs _ _ htsl
  have hlast : layersIn subs (args.length - 1) + (tsl.length - 1) = m := by
    rw [← layersIn_succ htsl, Nat.sub_add_cancel hlen, ← s1, layersIn, List.take_length]
  have hpos : 0 < m := by
    have := layersIn_le hts0
    have h2 := (subdivision_zeroOne hm0).1
    omega
  have hin : ∀ L < m, ∃ (k : ℕ) (ts : List ℝ) (s : ℕ) (t t' : ℝ), subs[k]? = some ts ∧ L = layersIn subs k + s ∧
      ts[s]? = some t ∧ ts[s + 1]? = some t' ∧ t < t' := by
    intro L hL
    obtain ⟨k, ts, s, k1, k2, k3⟩ := exists_part subs L hL
    obtain ⟨m', hm'⟩ := hsubs k ts k1
    refine ⟨k, ts, s, ts[s], ts[s + 1], k1, k3, List.getElem?_eq_getElem _, List.getElem?_eq_getElem _, ?_⟩
    exact List.pairwise_iff_getElem.1 hm'.increasing s (s + 1) _ _ (Nat.lt_succ_self s)
  have hget : ∀ (j : ℕ) p, base[j]? = some p → ∀ L ≤ m, ∃ z, M.points[vtkId M.nodes.d (planeIx (stackPlane axis) j L)]? =
      some (Function.update p axis z) := by
    intro j p hp L hL
    rcases Nat.lt_or_ge L m with hL' | hL'
    · obtain ⟨k, ts, s, t, t', k1, rfl, k3, k4, _⟩ := hin L hL'
      exact ⟨_, hat j p hp k ts k1 s t k3⟩
    · obtain rfl : L = m := le_antisymm hL hL'
      rw [← hlast]
      exact ⟨_, hat j p hp _ _ htsl _ _ (subdivision_zeroOne hml).2.2⟩
  refine ⟨m, node, ?_, ?_, hpos, ?_, ?_, subs, s1, s2, by rw [← s1, layersIn, List.take_length], ?_⟩
  · rw [s3]
    funext ax
    fin_cases axis <;> fin_cases ax <;>
      simp [stackPlane, planeShape, lineAxis, subdivisionAxis, Function.update, Nat.add_comm]
  · intro j hj L hL
    obtain ⟨z, hz⟩ := hget j _ (List.getElem?_eq_getElem (by omega)) L hL
    simp only [hnode, hz, Option.getD_some]
  · intro j p hp L hL
    obtain ⟨z, hz⟩ := hget j p hp L hL
    simp only [hnode, hz, Option.getD_some, Function.update_self]
  · intro j hj L hL
    obtain ⟨p, hp⟩ : ∃ p, base[j]? = some p := ⟨_, List.getElem?_eq_getElem hj⟩
    obtain ⟨k, ts, s, t, t', k1, rfl, k3, k4, k5⟩ := hin L hL
    have e1 := hat j p hp k ts k1 s t k3
    have e2 := hat j p hp k ts k1 (s + 1) t' k4
    rw [← Nat.add_assoc] at e2
    simp only [hnode, e1, e2, Option.getD_some, Function.update_self]
    have hk : k < args.length := by rw [← s1]; exact (List.getElem?_eq_some_iff.1 k1).1
    have := hord p (List.mem_of_getElem? hp) k hk
    nlinarith
  · intro k hk j p hp
    rcases Nat.lt_or_ge k args.length with hk' | hk'
    · obtain ⟨ts, hts⟩ : ∃ ts, subs[k]? = some ts := ⟨_, List.getElem?_eq_getElem (by omega)⟩
      obtain ⟨m', hm'⟩ := hsubs _ _ hts
      have := hat j p hp k ts hts 0 0 hm'.first
      rw [Nat.add_zero] at this
      simp only [hnode, this, Option.getD_some, Function.update_self]
      ring
    · obtain rfl : k = args.length := le_antisymm hk hk'
      have := hat j p hp _ _ htsl _ _ (subdivision_zeroOne hml).2.2
      rw [← layersIn_succ htsl, Nat.sub_add_cancel hlen] at this
      simp only [hnode, this, Option.getD_some, Function.update_self]
      ring

/-- The rows of a profile grid over a line fill the section between the first and the last surface. -/
theorem profile_fills {axis : Fin 3} {n : ℕ} {base : List (V3 ℝ)} (hn : base.length = n) {h : ℕ → V3 ℝ → ℝ}
    {args : List (Resolution ℝ × Option String)} (hargs : args ≠ [])
    (hsub : ∀ a ∈ args, ∃ m ts, resolutionToPerc a.1 a.2 = .ok ts ∧ Subdivision m ts)
    (hord : ∀ p ∈ base, ∀ k < args.length, h k p ≤ h (k + 1) p) {M : SGrid ℝ ℤ}
    (hM : ProfileGrid (planeShape (stackPlane axis) n 1) axis base h args M) :
    ∃ m node, M.nodes.d = planeShape (stackPlane axis) n (m + 1) ∧
      (∀ j < n, ∀ L ≤ m, M.points[vtkId M.nodes.d (planeIx (stackPlane axis) j L)]? = some (node j L)) ∧
      FillsSection axis base (h 0) (h args.length) m node := by
  obtain ⟨m, node, h1, h2, hpos, h3, h4, subs, _, _, h6, h7⟩ := profile_rises hn hargs hsub hord hM
  refine ⟨m, node, h1, h2, fills_of_rising hpos (Z := fun j L => node j L axis) h3 h4 ?_ ?_⟩
  · intro j p hp
    exact h7 0 (Nat.zero_le _) j p hp
  · intro j p hp
    rw [← h6]
    exact h7 _ le_rfl j p hp

/-- **C131 (2D stacks).** A 2D stack of profiles, built bottom-up with any priorities, whose surfaces come
out in order over every point of the line: the cells of the mesh fill exactly the section between the first and the last
surface; two cells of a column meet only in the row of nodes between them; if the line runs in one direction, cells of
different columns meet only on the vertical through their common node.  Missing: surfaces that cross, for which it is false
(`C131_crossing_refuted`). -/
theorem C131_stack2d_partial (area : Arr3 (V3 ℝ) → List ℝ) (harea : ∀ x, (area x).length = count (cells x.d))
    (ignore : List String) (dflt : String) (o : InterpOracle ℝ) (n : ℕ) (mesh : Surf ℝ LineTopo)
    (hmesh : StackLine n mesh) (axis : Fin 3)
    (as : List (Profile × Rest ℝ (Opts (Resolution ℝ × Option String)))) (has : 2 ≤ as.length)
    (hres : ∀ a ∈ as.tail, ∃ m ts, resolutionToPerc a.2.opts.sub.1 a.2.opts.sub.2 = .ok ts ∧ Subdivision m ts)
    (hord : ∀ p ∈ mesh.points, ∀ k, k + 1 < as.length → cutHeight (as.map fun a => (a.1, a.2.thickness, a.2.priority)) k p ≤
      cutHeight (as.map fun a => (a.1, a.2.thickness, a.2.priority)) (k + 1) p) :
    ∃ s, (Stack.new mesh axis true).run o ((profileAdds as).map addCall) = .ok s ∧
      ((∀ a ∈ as.tail, Acceptable (n - 1) a.2.opts.group) → ∃ R, stack2D area ignore dflt s = .ok R) ∧
      ∀ M table s', stack2D area ignore dflt s = .ok ((M, table), s') →
        ∃ m node, M.nodes.d = planeShape (stackPlane axis) n (m + 1) ∧
          (∀ j < n, ∀ L ≤ m, M.points[vtkId M.nodes.d (planeIx (stackPlane axis) j L)]? = some (node j L)) ∧
          FillsSection axis mesh.points (cutHeight (as.map fun a => (a.1, a.2.thickness, a.2.priority)) 0)
            (cutHeight (as.map fun a => (a.1, a.2.thickness, a.2.priority)) (as.length - 1)) m node := by
  obtain ⟨s, h1, h2, h3⟩ := C124_stack2d_partial area harea ignore dflt o n mesh hmesh axis as has
    (fun a ha => by obtain ⟨m, ts, t1, t2⟩ := hres a ha; exact ⟨ts, t1, subdivision_zeroOne t2⟩)
  refine ⟨s, h1, h2, fun M table s' hM => ?_⟩
  obtain ⟨_, hP⟩ := h3 M table s' hM
  have hlen : (as.tail.map fun a => a.2.opts.sub).length = as.length - 1 := by simp
  have := profile_fills hmesh.size (args := as.tail.map fun a => a.2.opts.sub)
    (by intro h; have := congrArg List.length h; simp at this; omega)
    (by
      intro a ha
      obtain ⟨x, hx, rfl⟩ := List.mem_map.1 ha
      exact hres x hx)
    (by
      intro p hp k hk
      rw [hlen] at hk
      exact hord p hp k (by omega)) hP
  rwa [hlen] at this

/-- The options used below: one layer per item, no group. -/
def oneLayer : Rest ℝ (Opts (Resolution ℝ × Option String)) := ⟨none, ⟨(.int 1, none), .none⟩, 0, 0⟩

theorem oneLayer_res : resolutionToPerc (.int 1) none = .ok [(0 : ℝ), 1] := by
  obtain ⟨p, h1, h2, _⟩ := C11_integer_resolution 1 none (.inl rfl)
  have hs := h2.size
  have h0 := h2.first
  have hl := h2.last
  match p, hs, h0, hl, h1 with
  | [a, b], _, h0, hl, h1 =>
    simp at h0 hl
    rw [h1, h0, hl]

theorem strip_subset {axis : Fin 3} {p q : V3 ℝ} {a b c d a' b' c' d' : ℝ} (h1 : a' ≤ a) (h2 : b' ≤ b) (h3 : c ≤ c')
    (h4 : d ≤ d') : strip axis p q a b c d ⊆ strip axis p q a' b' c' d' := by
  rintro x ⟨t, h, t0, t1, hl, hh, rfl⟩
  have : 0 ≤ 1 - t := by linarith
  exact ⟨t, h, t0, t1,
    le_trans (add_le_add (mul_le_mul_of_nonneg_left h1 this) (mul_le_mul_of_nonneg_left h2 t0)) hl,
    le_trans hh (add_le_add (mul_le_mul_of_nonneg_left h3 this) (mul_le_mul_of_nonneg_left h4 t0)), rfl⟩

/-- The nodes of a stack of four surfaces whose third is below all others. -/
theorem crossing_nodes (area : Arr3 (V3 ℝ) → List ℝ) (harea : ∀ x, (area x).length = count (cells x.d))
    (ignore : List String) (dflt : String) (o : InterpOracle ℝ) (n : ℕ) (mesh : Surf ℝ LineTopo)
    (hmesh : StackLine n mesh) (axis : Fin 3) (f g k l : V3 ℝ → ℝ)
    (hg : ∀ p ∈ mesh.points, k p < g p) (hl : ∀ p ∈ mesh.points, k p < l p) :
    ∃ s, (Stack.new mesh axis true).run o ((profileAdds [(.height f, oneLayer), (.height g, oneLayer), (.height k, oneLayer),
        (.height l, oneLayer)]).map addCall) = .ok s ∧
      ∃ M table s', stack2D area ignore dflt s = .ok ((M, table), s') ∧ ∃ node : ℕ → ℕ → V3 ℝ,
        (∀ j < n, ∀ L ≤ 3, M.points[vtkId M.nodes.d (planeIx (stackPlane axis) j L)]? = some (node j L)) ∧
        ∀ (j : ℕ) p, mesh.points[j]? = some p → node j 0 = Function.update p axis (min (f p) (g p)) ∧
          node j 1 = Function.update p axis (k p) ∧ node j 2 = Function.update p axis (k p) ∧
          node j 3 = Function.update p axis (l p) := by
  obtain ⟨s, h1, h2, h3⟩ := C124_stack2d_partial area harea ignore dflt o n mesh hmesh axis
    [(.height f, oneLayer), (.height g, oneLayer), (.height k, oneLayer), (.height l, oneLayer)] (by simp)
    (by
      intro a ha
      refine ⟨[0, 1], ?_, by simp [fromZeroToOne]⟩
      simp only [List.tail_cons, List.mem_cons, List.not_mem_nil, or_false] at ha
      rcases ha with rfl | rfl | rfl <;> exact oneLayer_res)
  refine ⟨s, h1, ?_⟩
  obtain ⟨⟨⟨M, table⟩, s'⟩, hR⟩ := h2 (by
    intro a ha
    simp only [List.tail_cons, List.mem_cons, List.not_mem_nil, or_false] at ha
    rcases ha with rfl | rfl | rfl <;> simp [oneLayer, Acceptable, entries])
  refine ⟨M, table, s', hR, ?_⟩
  obtain ⟨_, subs, s1, s2, s3, s4⟩ := h3 M table s' hR
  have hsubs : subs = [[0, 1], [0, 1], [0, 1]] := by
    refine List.ext_getElem? fun i => ?_
    by_cases hi : i < 3
    · have hi' : ([[0, 1], [0, 1], [0, 1]] : List (List ℝ))[i]? = some [0, 1] := by
        have : i = 0 ∨ i = 1 ∨ i = 2 := by omega
        rcases this with rfl | rfl | rfl <;> rfl
      rw [hi']
      obtain ⟨ts, t1, t2⟩ := s2 i (.int 1, none) (by
        have : i = 0 ∨ i = 1 ∨ i = 2 := by omega
        rcases this with rfl | rfl | rfl <;> rfl)
      rw [oneLayer_res] at t1
      rw [t2, ← Except.ok.inj t1]
    · rw [List.getElem?_eq_none (by rw [s1]; simp; omega), List.getElem?_eq_none (by simp; omega)]
  subst hsubs
  set c := cutHeight ([(Profile.height f, oneLayer), (.height g, oneLayer), (.height k, oneLayer),
    (.height l, oneLayer)].map fun a => (a.1, a.2.thickness, a.2.priority)) with hc
  have hat : ∀ (j : ℕ) p, mesh.points[j]? = some p → ∀ L ≤ 3,
      M.points[vtkId M.nodes.d (planeIx (stackPlane axis) j L)]? = some (Function.update p axis (c L p)) := by
    intro j p hp L hL
    have hj : j < n := by rw [← hmesh.size]; exact (List.getElem?_eq_some_iff.1 hp).1
    have hin : InShape (planeShape (stackPlane axis) n 1) (planeIx (stackPlane axis) j 0) :=
      planeIx_inShape (stackPlane_is axis) hj Nat.one_pos
    rcases Nat.lt_or_ge L 3 with hL' | hL'
    · have hk : ([[0, 1], [0, 1], [0, 1]] : List (List ℝ))[L]? = some [0, 1] := by
        have : L = 0 ∨ L = 1 ∨ L = 2 := by omega
        rcases this with rfl | rfl | rfl <;> rfl
      have hlay : layersIn ([[0, 1], [0, 1], [0, 1]] : List (List ℝ)) L = L := by
        have : L = 0 ∨ L = 1 ∨ L = 2 := by omega
        rcases this with rfl | rfl | rfl <;> simp [layersIn]
      have := s4 L _ hk _ 0 0 p hin rfl (by rw [stackPlane_id]; exact hp)
      rw [stackPlane_update, hlay] at this
      simpa using this
    · obtain rfl : L = 3 := by omega
      have := s4 2 _ rfl _ 1 1 p hin rfl (by rw [stackPlane_id]; exact hp)
      rw [stackPlane_update, show layersIn ([[0, 1], [0, 1], [0, 1]] : List (List ℝ)) 2 + 1 = 3 by simp [layersIn]] at this
      simpa using this
  refine ⟨fun j L => (M.points[vtkId M.nodes.d (planeIx (stackPlane axis) j L)]?).getD 0, ?_, ?_⟩
  · intro j hj L hL
    obtain ⟨p, hp⟩ : ∃ p, mesh.points[j]? = some p := ⟨_, List.getElem?_eq_getElem (by rw [hmesh.size]; exact hj)⟩
    simp only [hat j p hp L hL, Option.getD_some]
  · intro j p hp
    have hp' := List.mem_of_getElem? hp
    have c0 : c 0 p = min (f p) (g p) := by simp [hc, cutHeight, pushedHeight, profileHeight, oneLayer]
    have c1 : c 1 p = k p := by simp [hc, cutHeight, pushedHeight, profileHeight, oneLayer, (hg p hp').le]
    have c2 : c 2 p = k p := by simp [hc, cutHeight, pushedHeight, profileHeight, oneLayer, (hl p hp').le]
    have c3 : c 3 p = l p := by simp [hc, cutHeight, pushedHeight, profileHeight]
    simp only [hat j p hp 0 (by omega), hat j p hp 1 (by omega), hat j p hp 2 (by omega), hat j p hp 3 (by omega),
      Option.getD_some, c0, c1, c2, c3, and_self]

/-- **C131 refuted for surfaces that cross.** On every line, along every axis, with default priorities and thicknesses: four
surfaces, the third below all others.  The mesh is generated, and the cells of its first and third layer both contain the
whole strip above the third surface up to the lowest of the others. -/
theorem C131_crossing_refuted (area : Arr3 (V3 ℝ) → List ℝ) (harea : ∀ x, (area x).length = count (cells x.d))
    (ignore : List String) (dflt : String) (o : InterpOracle ℝ) (n : ℕ) (mesh : Surf ℝ LineTopo)
    (hmesh : StackLine n mesh) (axis : Fin 3) (f g k l : V3 ℝ → ℝ)
    (hf : ∀ p ∈ mesh.points, k p < f p) (hg : ∀ p ∈ mesh.points, k p < g p) (hl : ∀ p ∈ mesh.points, k p < l p) :
    ∃ s, (Stack.new mesh axis true).run o ((profileAdds [(.height f, oneLayer), (.height g, oneLayer), (.height k, oneLayer),
        (.height l, oneLayer)]).map addCall) = .ok s ∧
      ∃ M table s', stack2D area ignore dflt s = .ok ((M, table), s') ∧ ∃ node,
        (∀ j < n, ∀ L ≤ 3, M.points[vtkId M.nodes.d (planeIx (stackPlane axis) j L)]? = some (node j L)) ∧
        ∀ (j : ℕ) p q, mesh.points[j]? = some p → mesh.points[j + 1]? = some q →
          convexHull ℝ {Function.update p axis (k p), Function.update q axis (k q),
            Function.update p axis (min (min (f p) (g p)) (l p)), Function.update q axis (min (min (f q) (g q)) (l q))} ⊆
            quadRegion node j 0 ∩ quadRegion node j 2 := by
  obtain ⟨s, h1, M, table, s', h2, node, h3, h4⟩ := crossing_nodes area harea ignore dflt o n mesh hmesh axis f g k l hg hl
  refine ⟨s, h1, M, table, s', h2, node, h3, fun j p q hp hq => ?_⟩
  obtain ⟨p0, p1, p2, p3⟩ := h4 j p hp
  obtain ⟨q0, q1, q2, q3⟩ := h4 _ q hq
  have hp' := List.mem_of_getElem? hp
  have hq' := List.mem_of_getElem? hq
  have le1 : ∀ p ∈ mesh.points, k p ≤ min (f p) (g p) := fun p hp => le_min (hf p hp).le (hg p hp).le
  have le2 : ∀ p ∈ mesh.points, k p ≤ min (min (f p) (g p)) (l p) := fun p hp => le_min (le1 p hp) (hl p hp).le
  rw [quad_hull axis p q (le2 p hp') (le2 q hq'), Set.subset_inter_iff]
  simp only [quadRegion]
  rw [p0, p1, p2, p3, q0, q1, q2, q3]
  constructor
  · have : ({Function.update p axis (min (f p) (g p)), Function.update q axis (min (f q) (g q)), Function.update p axis (k p),
        Function.update q axis (k q)} : Set (V3 ℝ)) = {Function.update p axis (k p), Function.update q axis (k q),
        Function.update p axis (min (f p) (g p)), Function.update q axis (min (f q) (g q))} := by
      ext x; simp only [Set.mem_insert_iff, Set.mem_singleton_iff]; tauto
    rw [this, quad_hull axis p q (le1 p hp') (le1 q hq')]
    exact strip_subset le_rfl le_rfl (min_le_left _ _) (min_le_left _ _)
  · rw [quad_hull axis p q (hl p hp').le (hl q hq').le]
    exact strip_subset le_rfl le_rfl (min_le_right _ _) (min_le_right _ _)

/-- **C131 (profiles in order).** The same when the profiles themselves are in order, each at least its minimum thickness
above the one before: the cells fill the section between the first and the last profile.  Missing: as above. -/
theorem C131_profiles_partial (area : Arr3 (V3 ℝ) → List ℝ) (harea : ∀ x, (area x).length = count (cells x.d))
    (ignore : List String) (dflt : String) (o : InterpOracle ℝ) (n : ℕ) (mesh : Surf ℝ LineTopo)
    (hmesh : StackLine n mesh) (axis : Fin 3)
    (as : List (Profile × Rest ℝ (Opts (Resolution ℝ × Option String)))) (has : 2 ≤ as.length)
    (hres : ∀ a ∈ as.tail, ∃ m ts, resolutionToPerc a.2.opts.sub.1 a.2.opts.sub.2 = .ok ts ∧ Subdivision m ts)
    (hthick : ∀ a ∈ as, 0 ≤ a.2.thickness)
    (hord : ∀ p ∈ mesh.points, ∀ (k : ℕ) a, as[k + 1]? = some a →
      profileHeight true (as.map Prod.fst) k p + a.2.thickness ≤ profileHeight true (as.map Prod.fst) (k + 1) p)
    (hacc : ∀ a ∈ as.tail, Acceptable (n - 1) a.2.opts.group) :
    ∃ s M table s' m node, (Stack.new mesh axis true).run o ((profileAdds as).map addCall) = .ok s ∧
      stack2D area ignore dflt s = .ok ((M, table), s') ∧ M.nodes.d = planeShape (stackPlane axis) n (m + 1) ∧
      (∀ j < n, ∀ L ≤ m, M.points[vtkId M.nodes.d (planeIx (stackPlane axis) j L)]? = some (node j L)) ∧
      FillsSection axis mesh.points (profileHeight true (as.map Prod.fst) 0)
        (profileHeight true (as.map Prod.fst) (as.length - 1)) m node := by
  have hcut : ∀ p ∈ mesh.points, ∀ k, cutHeight (as.map fun a => (a.1, a.2.thickness, a.2.priority)) k p =
      profileHeight true (as.map Prod.fst) k p := by
    intro p hp k
    have hmap : (as.map fun a => (a.1, a.2.thickness, a.2.priority)).map Prod.fst = as.map Prod.fst := by
      rw [List.map_map]; rfl
    rw [cutHeight_ordered, hmap]
    intro k a ha
    rw [List.getElem?_map, Option.map_eq_some_iff] at ha
    obtain ⟨b, hb, rfl⟩ := ha
    rw [hmap]
    exact hord p hp k b hb
  obtain ⟨s, h1, h2, h3⟩ := C131_stack2d_partial area harea ignore dflt o n mesh hmesh axis as has hres (by
    intro p hp k hk
    rw [hcut p hp, hcut p hp]
    have := hord p hp k _ (List.getElem?_eq_getElem hk)
    linarith [hthick _ (List.getElem_mem hk)])
  obtain ⟨⟨⟨M, table⟩, s'⟩, hR⟩ := h2 hacc
  obtain ⟨m, node, m1, m2, m3⟩ := h3 M table s' hR
  refine ⟨s, M, table, s', m, node, h1, hR, m1, m2, ⟨?_, m3.apart, m3.columns⟩⟩
  intro j p q hp hq
  rw [m3.fills j p q hp hq, hcut p (List.mem_of_getElem? hp), hcut q (List.mem_of_getElem? hq),
    hcut p (List.mem_of_getElem? hp), hcut q (List.mem_of_getElem? hq)]

/-- Concrete case of C131: a flat base, a parabola above it and a layer of thickness 2 in three logarithmic parts. -/
example (area : Arr3 (V3 ℝ) → List ℝ) (harea : ∀ x, (area x).length = count (cells x.d)) (o : InterpOracle ℝ) :
    ∃ s M table s' m node, (Stack.new (lineX ℝ) 2 true).run o ((profileAdds [(.thick 0, oneLayer),
        (.height fun p => p 0 ^ 2 + 1, oneLayer), (.thick 2, ⟨none, ⟨(.int 3, some "log"), .str "Top"⟩, 0, 1⟩)]).map addCall) =
          .ok s ∧
      stack2D area [] "default" s = .ok ((M, table), s') ∧
      FillsSection 2 (lineX ℝ).points (fun _ => 0) (fun p => p 0 ^ 2 + 3) m node := by
  obtain ⟨s, M, table, s', m, node, h1, h2, _, _, h5⟩ := C131_profiles_partial area harea [] "default" o 3 (lineX ℝ) lineX_ok 2
    [(.thick 0, oneLayer), (.height fun p => p 0 ^ 2 + 1, oneLayer), (.thick 2, ⟨none, ⟨(.int 3, some "log"), .str "Top"⟩, 0, 1⟩)]
    (by simp)
    (by
      intro a ha
      simp only [List.tail_cons, List.mem_cons, List.not_mem_nil, or_false] at ha
      rcases ha with rfl | rfl
      · obtain ⟨p, p1, p2, _⟩ := C11_integer_resolution 1 none (.inl rfl)
        exact ⟨_, p, p1, p2⟩
      · obtain ⟨p, p1, p2, _⟩ := C11_integer_resolution 3 (some "log") (.inr (.inl rfl))
        exact ⟨_, p, p1, p2⟩)
    (by
      intro a ha
      simp only [List.mem_cons, List.not_mem_nil, or_false] at ha
      rcases ha with rfl | rfl | rfl <;> simp [oneLayer])
    (by
      intro p _ k a ha
      match k, ha with
      | 0, ha =>
        simp only [List.getElem?_cons_succ, List.getElem?_cons_zero, Option.some.injEq] at ha
        subst ha
        simp [profileHeight, oneLayer]
        positivity
      | 1, ha =>
        simp only [List.getElem?_cons_succ, List.getElem?_cons_zero, Option.some.injEq] at ha
        subst ha
        simp [profileHeight]
      | k + 2, ha => simp at ha)
    (by
      intro a ha
      simp only [List.tail_cons, List.mem_cons, List.not_mem_nil, or_false] at ha
      rcases ha with rfl | rfl
      · simp [oneLayer, Acceptable, entries]
      · intro kv hkv
        simp [entries] at hkv
        subst hkv
        simp [Fits])
  refine ⟨s, M, table, s', m, node, h1, h2, ⟨?_, h5.apart, h5.columns⟩⟩
  intro j p q hp hq
  rw [h5.fills j p q hp hq]
  simp only [profileHeight, List.map_cons, List.map_nil, List.length_cons, List.length_nil, List.getElem?_cons_zero,
    List.getElem?_cons_succ, Nat.add_sub_cancel]
  norm_num [add_assoc]

/-- Concrete case of the overlap: surfaces added at heights 0, 3, -1 and 5. -/
example (area : Arr3 (V3 ℝ) → List ℝ) (harea : ∀ x, (area x).length = count (cells x.d)) (o : InterpOracle ℝ) :
    ∃ s M table s', (Stack.new (lineX ℝ) 2 true).run o ((profileAdds [(.height fun _ => 0, oneLayer),
        (.height fun _ => 3, oneLayer), (.height fun _ => -1, oneLayer), (.height fun _ => 5, oneLayer)]).map addCall) =
          .ok s ∧ stack2D area [] "default" s = .ok ((M, table), s') := by
  obtain ⟨s, h1, M, table, s', h2, _⟩ := C131_crossing_refuted area harea [] "default" o 3 (lineX ℝ) lineX_ok 2
    (fun _ => 0) (fun _ => 3) (fun _ => -1) (fun _ => 5) (by intros; norm_num) (by intros; norm_num) (by intros; norm_num)
  exact ⟨s, M, table, s', h1, h2⟩

end Gridder
