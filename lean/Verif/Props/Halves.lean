import Verif.Model.Halves
import Verif.Props.Frames
import Verif.Props.GridNeighbours

/-!
# C146: the two halves around a sector or rectangle are joined to one conforming mesh
-/

namespace Gridder
open Spec

namespace Spec

/-- Points at the same place are joined to one, and no others. -/
structure JoinsEqual (join : List (Fin 3 → ℝ) → List (Fin 3 → ℝ) × (ℕ → ℕ)) : Prop where
  kept : ∀ pts i x, pts[i]? = some x → (join pts).1[(join pts).2 i]? = some x
  once : ∀ pts, (join pts).1.Nodup
  old : ∀ pts, ∀ x ∈ (join pts).1, x ∈ pts

/-- The mesh is one strip of `N` by `m` quads: `id` are the numbers of its `(N + 1) * (m + 1)` nodes, all different, `place` their places, and
each cell between four of them occurs once, its nodes in order around it. -/
structure IsStrip (N m : ℕ) (place : ℕ → ℕ → Fin 3 → ℝ) (points : List (Fin 3 → ℝ)) (cells : List (List ℕ)) : Prop where
  pointCount : points.length = (N + 1) * (m + 1)
  cellCount : cells.length = N * m
  nodes : ∃ id pos : ℕ → ℕ → ℕ, (∀ i ≤ N, ∀ j ≤ m, points[id i j]? = some (place i j)) ∧
    (∀ i ≤ N, ∀ j ≤ m, ∀ i' ≤ N, ∀ j' ≤ m, id i j = id i' j' → i = i' ∧ j = j') ∧
    (∀ i < N, ∀ j < m, ∀ i' < N, ∀ j' < m, pos i j = pos i' j' → i = i' ∧ j = j') ∧
    ∀ i < N, ∀ j < m, cells[pos i j]? = some [id i j, id (i + 1) j, id (i + 1) (j + 1), id i (j + 1)] ∨
      cells[pos i j]? = some [id (i + 1) j, id i j, id i (j + 1), id (i + 1) (j + 1)]

end Spec

theorem Spec.IsStrip.congr {N m : ℕ} {place place' : ℕ → ℕ → V3 ℝ} {points : List (V3 ℝ)} {cells : List (List ℕ)}
    (h : IsStrip N m place points cells) (e : ∀ i ≤ N, ∀ j ≤ m, place i j = place' i j) : IsStrip N m place' points cells := by
  obtain ⟨id, pos, h1, h2⟩ := h.nodes
  exact ⟨h.pointCount, h.cellCount, id, pos, fun i hi j hj => by rw [← e i hi j hj]; exact h1 i hi j hj, h2⟩

/-- On which side of line `k` a node of line `p` is. -/
theorem node_side (σ y : ℝ) (P Q P' Q' : V3 ℝ) : σ * crossXY (between y P' Q' - P) (Q - P) =
    (1 - y) * (σ * crossXY (P' - P) (Q - P)) + y * (σ * crossXY (Q' - Q) (Q - P)) := by
  simp only [crossXY, Pi.sub_apply, between]
  ring

theorem node_right {σ z : ℝ} {n : ℕ} {P Q : ℕ → V3 ℝ} (hf : Fans σ z n P Q) {k p : ℕ} (hk : k < p) (hp : p ≤ n) {y : ℝ} (y0 : 0 ≤ y) (y1 : y ≤ 1) :
    0 < σ * crossXY (between y (P p) (Q p) - P k) (Q k - P k) := by
  have b := hf.bends k p hk hp
  rw [node_side]
  rcases y0.eq_or_lt with h | h
  · rw [← h]; simpa using b.c1
  · have := mul_nonneg (sub_nonneg.2 y1) b.c1.le; have := mul_pos h b.c3; linarith

theorem node_on (σ y : ℝ) (P Q : V3 ℝ) : σ * crossXY (between y P Q - P) (Q - P) = 0 := by
  rw [node_side]; simp [crossXY]

/-- Nodes on different lines of a band, or on different rows, are at different places. -/
theorem fans_distinct {σ z : ℝ} {n m : ℕ} {P Q : ℕ → V3 ℝ} {Y : ℕ → ℝ} (hn : 0 < n) (hf : Fans σ z n P Q)
    (hY : ∀ q q', q < q' → q' ≤ m → Y q < Y q') (hu : ∀ q ≤ m, 0 ≤ Y q ∧ Y q ≤ 1) {p q p' q' : ℕ} (hp : p ≤ n) (hq : q ≤ m) (hp' : p' ≤ n)
    (hq' : q' ≤ m) (e : between (Y q) (P p) (Q p) = between (Y q') (P p') (Q p')) : p = p' ∧ q = q' := by
  have hpp : p = p' := by
    rcases lt_trichotomy p p' with h | h | h
    · have h1 := node_right hf h hp' (hu q' hq').1 (hu q' hq').2
      rw [← e, node_on] at h1
      exact absurd h1 (lt_irrefl _)
    · exact h
    · have h1 := node_right hf h hp (hu q hq).1 (hu q hq).2
      rw [e, node_on] at h1
      exact absurd h1 (lt_irrefl _)
  subst hpp
  refine ⟨rfl, ?_⟩
  by_contra hne
  have hy : Y q ≠ Y q' := by
    rcases Nat.lt_or_gt_of_ne hne with h | h
    · exact (hY q q' h hq').ne
    · exact (hY q' q h hq).ne'
  have hPQ : ∀ i, Q p i = P p i := by
    intro i
    have := congrFun e i
    simp only [between] at this
    have h2 : (Y q - Y q') * (Q p i - P p i) = 0 := by linear_combination this
    rcases mul_eq_zero.1 h2 with h | h
    · exact absurd (sub_eq_zero.1 h) hy
    · linarith
  obtain ⟨k, l, hkl, hl, hc⟩ : ∃ k l, k < l ∧ l ≤ n ∧ (k = p ∨ l = p) := by
    rcases Nat.eq_zero_or_pos p with h | h
    · exact ⟨p, p + 1, by omega, by omega, Or.inl rfl⟩
    · exact ⟨p - 1, p, by omega, by omega, Or.inr rfl⟩
  have b := hf.bends k l hkl hl
  rcases hc with rfl | rfl
  · have := b.c1
    simp [crossXY, hPQ] at this
  · have := b.c2
    simp [crossXY, hPQ] at this

/-- Nodes of two bands on different sides of their first line coincide on that line only. -/
theorem fans_meet {z : ℝ} {n n' m : ℕ} {P Q P' Q' : ℕ → V3 ℝ} {Y : ℕ → ℝ} (hf : Fans 1 z n P Q)
    (hf' : Fans (-1) z n' P' Q') (h0 : P 0 = P' 0 ∧ Q 0 = Q' 0) (hu : ∀ q ≤ m, 0 ≤ Y q ∧ Y q ≤ 1) {p q p' q' : ℕ} (hp : p ≤ n) (hq : q ≤ m)
    (hp' : p' ≤ n') (hq' : q' ≤ m) (e : between (Y q) (P p) (Q p) = between (Y q') (P' p') (Q' p')) : p = 0 ∧ p' = 0 := by
  have a : 0 ≤ crossXY (between (Y q) (P p) (Q p) - P 0) (Q 0 - P 0) ∧ (0 < p → 0 < crossXY (between (Y q) (P p) (Q p) - P 0) (Q 0 - P 0)) := by
    rcases Nat.eq_zero_or_pos p with h | h
    · have := node_on 1 (Y q) (P 0) (Q 0)
      rw [one_mul] at this
      rw [h, this]
      exact ⟨le_rfl, fun h => absurd h (lt_irrefl _)⟩
    · have := node_right hf h hp (hu q hq).1 (hu q hq).2
      rw [one_mul] at this
      exact ⟨this.le, fun _ => this⟩
  have b : crossXY (between (Y q') (P' p') (Q' p') - P 0) (Q 0 - P 0) ≤ 0 ∧
      (0 < p' → crossXY (between (Y q') (P' p') (Q' p') - P 0) (Q 0 - P 0) < 0) := by
    rw [h0.1, h0.2]
    rcases Nat.eq_zero_or_pos p' with h | h
    · have := node_on 1 (Y q') (P' 0) (Q' 0)
      rw [one_mul] at this
      rw [h, this]
      exact ⟨le_rfl, fun h => absurd h (lt_irrefl _)⟩
    · have := node_right hf' h hp' (hu q' hq').1 (hu q' hq').2
      have : crossXY (between (Y q') (P' p') (Q' p') - P' 0) (Q' 0 - P' 0) < 0 := by linarith
      exact ⟨this.le, fun _ => this⟩
  rw [e] at a
  constructor
  · by_contra h
    have := a.2 (Nat.pos_of_ne_zero h)
    linarith [b.1]
  · by_contra h
    have := b.2 (Nat.pos_of_ne_zero h)
    linarith [a.1]

section
variable {δ : Type _}

/-- The nodes of a grid in the XY plane. -/
def halfNode (A : SGrid ℝ δ) (p q : ℕ) : V3 ℝ := A.points.getD (vtkId A.nodes.d ![p, q, 0]) 0

theorem half_count {A : SGrid ℝ δ} {n m : ℕ} (h : A.nodes.d = ![n + 1, m + 1, 1]) : A.nodes.ravelF.length = (n + 1) * (m + 1) := by
  rw [ravelF_length, h]; simp [count]

theorem half_id (n m p q : ℕ) : vtkId ![n + 1, m + 1, 1] ![p, q, 0] = p + (n + 1) * q := by simp [vtkId]

theorem half_lt {n m p q : ℕ} (hp : p ≤ n) (hq : q ≤ m) : p + (n + 1) * q < (n + 1) * (m + 1) := by nlinarith

theorem half_get {A : SGrid ℝ δ} {n m : ℕ} (h : A.nodes.d = ![n + 1, m + 1, 1]) {p q : ℕ} (hp : p ≤ n) (hq : q ≤ m) :
    A.nodes.ravelF[p + (n + 1) * q]? = some (halfNode A p q) := by
  have : p + (n + 1) * q < A.nodes.ravelF.length := by rw [half_count h]; exact half_lt hp hq
  rw [halfNode, h, half_id, SGrid.points, List.getD_eq_getElem?_getD, List.getElem?_eq_getElem this]
  rfl

theorem half_mem {A : SGrid ℝ δ} {n m : ℕ} (h : A.nodes.d = ![n + 1, m + 1, 1]) {x : V3 ℝ} :
    x ∈ A.nodes.ravelF ↔ ∃ p ≤ n, ∃ q ≤ m, x = halfNode A p q := by
  constructor
  · intro hx
    obtain ⟨k, hk, e⟩ := List.mem_iff_getElem.1 hx
    rw [half_count h] at hk
    have h1 : k % (n + 1) ≤ n := Nat.lt_succ_iff.1 (Nat.mod_lt _ (Nat.succ_pos n))
    have h2 : k / (n + 1) ≤ m := Nat.lt_succ_iff.1 (Nat.div_lt_of_lt_mul hk)
    refine ⟨k % (n + 1), h1, k / (n + 1), h2, ?_⟩
    have := half_get h h1 h2
    rw [Nat.mod_add_div, List.getElem?_eq_getElem (by rw [half_count h]; exact hk), e] at this
    exact Option.some.inj this
  · rintro ⟨p, hp, q, hq, rfl⟩
    exact List.mem_of_getElem? (half_get h hp hq)

theorem half_cells (n m : ℕ) (hn : 0 < n) (hm : 0 < m) : (castCells ![n + 1, m + 1, 1] false fun _ => false).length = n * m := by
  rw [castCells_length]
  simp [count, cells, hn.ne', hm.ne']

theorem half_cell {n m p q : ℕ} (hp : p < n) (hq : q < m) : (castCells ![n + 1, m + 1, 1] false fun _ => false)[p + n * q]? =
    some (9, [p + (n + 1) * q, p + 1 + (n + 1) * q, p + 1 + (n + 1) * (q + 1), p + (n + 1) * (q + 1)]) := by
  have hlt : p + n * q < n * m := by nlinarith
  have hn : n ≠ 0 := by omega
  have hm : m ≠ 0 := by omega
  have hs : cellShape ![n + 1, m + 1, 1] = ![n, m, 1] := by
    funext i
    fin_cases i <;> simp [cellShape] <;> omega
  have hd : dimOfShape ![n + 1, m + 1, 1] = 2 := by simp [dimOfShape, hn, hm]
  have hu : unflatF ![n, m, 1] (p + n * q) = ![p, q, 0] := by
    have := unflat_vtkId (d := ![n, m, 1]) (i := ![p, q, 0]) (by intro i; fin_cases i <;> simp [hp, hq])
    simpa [vtkId] using this
  have hsz : sizeOfShape ![n, m, 1] = n * m := by simp [sizeOfShape]
  simp only [castCells, hs, hd, hu, hsz, List.getElem?_map, List.getElem?_range hlt, Bool.false_and, Option.map_some]
  simp [quadIds, flatF, hn]

/-- Two halves with different nodes that meet in their first lines only become one strip. -/
theorem halves_strip {join : Joining ℝ} (hj : JoinsEqual join) {A B : SGrid ℝ δ} {n n' m : ℕ} (hn : 0 < n) (hn' : 0 < n') (hm : 0 < m)
    (hA : A.nodes.d = ![n + 1, m + 1, 1]) (hB : B.nodes.d = ![n' + 1, m + 1, 1])
    (same : ∀ q ≤ m, halfNode A 0 q = halfNode B 0 q)
    (dA : ∀ p ≤ n, ∀ q ≤ m, ∀ p' ≤ n, ∀ q' ≤ m, halfNode A p q = halfNode A p' q' → p = p' ∧ q = q')
    (dB : ∀ p ≤ n', ∀ q ≤ m, ∀ p' ≤ n', ∀ q' ≤ m, halfNode B p q = halfNode B p' q' → p = p' ∧ q = q')
    (dAB : ∀ p ≤ n, ∀ q ≤ m, ∀ p' ≤ n', ∀ q' ≤ m, halfNode A p q = halfNode B p' q' → p = 0 ∧ p' = 0) :
    IsStrip (n + n') m (fun i j => if i ≤ n then halfNode A (n - i) j else halfNode B (i - n) j) (sumHalves join A B).points
      (sumHalves join A B).cells := by
  set pts := A.nodes.ravelF ++ B.nodes.ravelF with hpts
  set place : ℕ → ℕ → V3 ℝ := fun i j => if i ≤ n then halfNode A (n - i) j else halfNode B (i - n) j with hplace
  have la := half_count hA
  have lb := half_count hB
  have getA : ∀ {p q}, p ≤ n → q ≤ m → pts[p + (n + 1) * q]? = some (halfNode A p q) := by
    intro p q hp hq
    rw [hpts, List.getElem?_append_left (by rw [la]; exact half_lt hp hq), half_get hA hp hq]
  have getB : ∀ {p q}, p ≤ n' → q ≤ m → pts[A.nodes.ravelF.length + (p + (n' + 1) * q)]? = some (halfNode B p q) := by
    intro p q hp hq
    rw [hpts, List.getElem?_append_right (Nat.le_add_right _ _), Nat.add_sub_cancel_left, half_get hB hp hq]
  have placeA : ∀ {i j}, i ≤ n → place i j = halfNode A (n - i) j := by
    intro i j hi
    simp only [hplace, if_pos hi]
  have placeB : ∀ {i j}, n ≤ i → j ≤ m → place i j = halfNode B (i - n) j := by
    intro i j hi hj'
    rcases Nat.eq_or_lt_of_le hi with h | h
    · rw [← h, placeA le_rfl, Nat.sub_self]; exact same j hj'
    · simp only [hplace, if_neg (Nat.not_le.2 h)]
  have inj : ∀ i ≤ n + n', ∀ j ≤ m, ∀ i' ≤ n + n', ∀ j' ≤ m, place i j = place i' j' → i = i' ∧ j = j' := by
    intro i hi j hj1 i' hi' j' hj2 e
    rcases Nat.le_total i n with h | h <;> rcases Nat.le_total i' n with h' | h'
    · rw [placeA h, placeA h'] at e
      have := dA _ (Nat.sub_le _ _) _ hj1 _ (Nat.sub_le _ _) _ hj2 e
      omega
    · rw [placeA h, placeB h' hj2] at e
      have h0 := dAB _ (Nat.sub_le _ _) _ hj1 _ (by omega) _ hj2 e
      rw [h0.1, h0.2, same j hj1] at e
      have := dB _ (Nat.zero_le _) _ hj1 _ (Nat.zero_le _) _ hj2 e
      omega
    · rw [placeB h hj1, placeA h'] at e
      have h0 := dAB _ (Nat.sub_le _ _) _ hj2 _ (by omega) _ hj1 e.symm
      rw [h0.1, h0.2, same j' hj2] at e
      have := dB _ (Nat.zero_le _) _ hj1 _ (Nat.zero_le _) _ hj2 e
      omega
    · rw [placeB h hj1, placeB h' hj2] at e
      have := dB _ (by omega) _ hj1 _ (by omega) _ hj2 e
      omega
  have number : ∀ {k l x}, pts[k]? = some x → pts[l]? = some x → (join pts).2 k = (join pts).2 l := by
    intro k l x hk hl
    have h1 := hj.kept pts k x hk
    have h2 := hj.kept pts l x hl
    obtain ⟨b1, e1⟩ := List.getElem?_eq_some_iff.1 h1
    obtain ⟨b2, e2⟩ := List.getElem?_eq_some_iff.1 h2
    exact (List.Nodup.getElem_inj_iff (hj.once pts)).1 (e1.trans e2.symm)
  set id : ℕ → ℕ → ℕ := fun i j => if i ≤ n then (join pts).2 (n - i + (n + 1) * j)
    else (join pts).2 (A.nodes.ravelF.length + (i - n + (n' + 1) * j)) with hid
  have idA : ∀ {i j}, i ≤ n → id i j = (join pts).2 (n - i + (n + 1) * j) := by
    intro i j hi
    simp only [hid, if_pos hi]
  have idB : ∀ {i j}, n ≤ i → j ≤ m → id i j = (join pts).2 (A.nodes.ravelF.length + (i - n + (n' + 1) * j)) := by
    intro i j hi hj1
    rcases Nat.eq_or_lt_of_le hi with h | h
    · rw [← h, idA le_rfl, Nat.sub_self]
      exact number (getA (Nat.zero_le _) hj1) (by rw [same j hj1]; exact getB (Nat.zero_le _) hj1)
    · simp only [hid, if_neg (Nat.not_le.2 h)]
  have idPlace : ∀ i ≤ n + n', ∀ j ≤ m, (join pts).1[id i j]? = some (place i j) := by
    intro i hi j hj1
    rcases Nat.le_total i n with h | h
    · rw [idA h, placeA h]
      exact hj.kept _ _ _ (getA (Nat.sub_le _ _) hj1)
    · rw [idB h hj1, placeB h hj1]
      exact hj.kept _ _ _ (getB (by omega) hj1)
  have cellsLen : ((castCells A.nodes.d false fun _ => false).map fun c => c.2.map (join pts).2).length = n * m := by
    rw [List.length_map, hA, half_cells n m hn hm]
  refine ⟨?_, ?_, id, fun i j => if i < n then n - 1 - i + n * j else n * m + (i - n + n' * j), idPlace, ?_, ?_, ?_⟩
  · have hperm : (join pts).1.Perm (((List.range (n + n' + 1)) ×ˢ (List.range (m + 1))).map fun c => place c.1 c.2) := by
      rw [List.perm_ext_iff_of_nodup (hj.once pts)]
      · intro x
        constructor
        · intro hx
          have hx := hj.old pts x hx
          rw [hpts, List.mem_append, half_mem hA, half_mem hB] at hx
          rw [List.mem_map]
          rcases hx with ⟨p, hp, q, hq, rfl⟩ | ⟨p, hp, q, hq, rfl⟩
          · refine ⟨(n - p, q), ?_, ?_⟩
            · rw [List.mem_product, List.mem_range, List.mem_range]; omega
            · change place (n - p) q = _
              rw [placeA (Nat.sub_le _ _), show n - (n - p) = p by omega]
          · refine ⟨(n + p, q), ?_, ?_⟩
            · rw [List.mem_product, List.mem_range, List.mem_range]; omega
            · change place (n + p) q = _
              rw [placeB (Nat.le_add_right _ _) hq, Nat.add_sub_cancel_left]
        · intro hx
          obtain ⟨c, hc, rfl⟩ := List.mem_map.1 hx
          rw [List.mem_product, List.mem_range, List.mem_range] at hc
          exact List.mem_of_getElem? (idPlace c.1 (by omega) c.2 (by omega))
      · refine List.Nodup.map_on ?_ (List.Nodup.product List.nodup_range List.nodup_range)
        intro c hc c' hc' e
        rw [List.mem_product, List.mem_range, List.mem_range] at hc hc'
        have := inj c.1 (by omega) c.2 (by omega) c'.1 (by omega) c'.2 (by omega) e
        exact Prod.ext this.1 this.2
    have := hperm.length_eq
    rw [List.length_map, List.length_product, List.length_range, List.length_range] at this
    exact this
  · change (_ ++ _ : List (List ℕ)).length = _
    rw [List.length_append, cellsLen, List.length_map, hB, half_cells n' m hn' hm, Nat.add_mul]
  · intro i hi j hj1 i' hi' j' hj2 e
    have h1 := idPlace i hi j hj1
    have h2 := idPlace i' hi' j' hj2
    rw [e, h2] at h1
    exact (inj _ hi _ hj1 _ hi' _ hj2 (Option.some.inj h1).symm)
  · intro i hi j hj1 i' hi' j' hj2 e
    have key : ∀ {N a b a' b' : ℕ}, a < N → a' < N → a + N * b = a' + N * b' → a = a' ∧ b = b' := by
      intro N a b a' b' ha ha' e
      have h1 := congrArg (· % N) e
      have h2 := congrArg (· / N) e
      simp only [Nat.add_mul_mod_self_left, Nat.mod_eq_of_lt ha, Nat.mod_eq_of_lt ha'] at h1
      simp only [Nat.add_mul_div_left _ _ (by omega : 0 < N), Nat.div_eq_of_lt ha, Nat.div_eq_of_lt ha', Nat.zero_add] at h2
      exact ⟨h1, h2⟩
    have small : ∀ {i j}, i < n → j < m → n - 1 - i + n * j < n * m := by
      intro i j hi hj
      have : n * (j + 1) ≤ n * m := Nat.mul_le_mul_left n hj
      rw [Nat.mul_add, Nat.mul_one] at this
      omega
    simp only at e
    split at e <;> split at e
    · have := key (by omega) (by omega) e; omega
    · have := small (i := i) (by omega) hj1; omega
    · have := small (i := i') (by omega) hj2; omega
    · have := key (N := n') (by omega) (by omega) (Nat.add_left_cancel e); omega
  · intro i hi j hj1
    have e : (sumHalves join A B).cells = (castCells A.nodes.d false fun _ => false).map (fun c => c.2.map (join pts).2) ++
      (castCells B.nodes.d false fun _ => false).map fun c => c.2.map fun k => (join pts).2 (A.nodes.ravelF.length + k) := rfl
    rw [e]
    by_cases h : i < n
    · have hlt : n - 1 - i + n * j < n * m := by
        have : n * (j + 1) ≤ n * m := Nat.mul_le_mul_left n hj1
        rw [Nat.mul_add, Nat.mul_one] at this
        omega
      simp only [if_pos h]
      right
      rw [List.getElem?_append_left (by rw [cellsLen]; exact hlt), List.getElem?_map, hA, half_cell (by omega) hj1,
        idA h.le, idA h, idA h, idA h.le, show n - i = n - 1 - i + 1 by omega, show n - (i + 1) = n - 1 - i by omega]
      rfl
    · have h' := Nat.not_lt.1 h
      simp only [if_neg h]
      left
      rw [List.getElem?_append_right (by rw [cellsLen]; exact Nat.le_add_right _ _), cellsLen, Nat.add_sub_cancel_left, List.getElem?_map, hB,
        half_cell (by omega) hj1, idB h' hj1.le, idB (by omega) hj1.le, idB (by omega) hj1, idB h' hj1, show i + 1 - n = i - n + 1 by omega]
      rfl

/-- Two bands on different sides of their first line become one strip. -/
theorem fans_strips {join : Joining ℝ} (hj : JoinsEqual join) {A B : SGrid ℝ δ} {z : ℝ} {n n' m : ℕ} (hn : 0 < n) (hn' : 0 < n') {rs : List ℝ}
    (sr : Subdivision m rs) (hA : A.nodes.d = ![n + 1, m + 1, 1]) (hB : B.nodes.d = ![n' + 1, m + 1, 1]) {P Q P' Q' : ℕ → V3 ℝ}
    (hf : Fans 1 z n P Q) (hf' : Fans (-1) z n' P' Q') (h0 : P 0 = P' 0 ∧ Q 0 = Q' 0)
    (hnode : ∀ p ≤ n, ∀ q ≤ m, halfNode A p q = between (rs.getD q 0) (P p) (Q p))
    (hnode' : ∀ p ≤ n', ∀ q ≤ m, halfNode B p q = between (rs.getD q 0) (P' p) (Q' p)) :
    IsStrip (n + n') m (fun i j => if i ≤ n then halfNode A (n - i) j else halfNode B (i - n) j) (sumHalves join A B).points
      (sumHalves join A B).cells := by
  have hY : ∀ q q', q < q' → q' ≤ m → rs.getD q 0 < rs.getD q' 0 := fun q q' h h' => (getD_rising sr h h').2.1
  have hu : ∀ q ≤ m, 0 ≤ rs.getD q 0 ∧ rs.getD q 0 ≤ 1 := fun q hq => getD_unit sr hq
  refine halves_strip hj hn hn' (subdivision_pos sr) hA hB ?_ ?_ ?_ ?_
  · intro q hq
    rw [hnode 0 (Nat.zero_le _) q hq, hnode' 0 (Nat.zero_le _) q hq, h0.1, h0.2]
  · intro p hp q hq p' hp' q' hq' e
    rw [hnode p hp q hq, hnode p' hp' q' hq'] at e
    exact fans_distinct hn hf hY hu hp hq hp' hq' e
  · intro p hp q hq p' hp' q' hq' e
    rw [hnode' p hp q hq, hnode' p' hp' q' hq'] at e
    exact fans_distinct hn' hf' hY hu hp hq hp' hq' e
  · intro p hp q hq p' hp' q' hq' e
    rw [hnode p hp q hq, hnode' p' hp' q' hq'] at e
    exact fans_meet hf hf' h0 hu hp hq hp' hq' e

end

section
variable {δ : Type _} [OfNat δ 0] [OfNat δ 32]

/-- **C146 (SectorRectangle).** If VTK joins the points at the same place, the mesh is one strip of quads that follows the outer edges of the
rectangle from the X axis to the Y axis: `2 n m` cells, `(2 n + 1) (m + 1)` points, and the cells on both sides of the diagonal share their
nodes there.  Missing: subdivisions of the sides that run ahead of those of the arc (method log_r), see C144. -/
theorem C146_sectorRectangle_partial {join : Joining ℝ} (hj : JoinsEqual join) {area : Arr3 (V3 ℝ) → List ℝ} {radius dx dy : ℝ}
    {rres tres : Resolution ℝ} {rm tm : Option String} (fr : DividesUnit rres rm) (ft : DividesUnit tres none) (fl : DividesUnit tres tm)
    (late : ∀ ls ts, resolutionToPerc tres tm = .ok ls → resolutionToPerc tres none = .ok ts → ∀ p, ls.getD p 0 ≤ ts.getD p 0)
    {c : Option (List ℝ)} {M : QuadMesh ℝ} (h : sectorRectangleMesh δ join area radius dx dy rres tres rm tm c = .ok M) :
    ∃ v ts ls rs n m, IsCentre c v ∧ resolutionToPerc tres none = .ok ts ∧ resolutionToPerc tres tm = .ok ls ∧ resolutionToPerc rres rm = .ok rs ∧
      ts.length = n + 1 ∧ rs.length = m + 1 ∧
      IsStrip (n + n) m (fun i j => if i ≤ n then
          v + between (rs.getD j 0) (polar radius (45 - 45 * ts.getD (n - i) 0)) ![dx, (1 - ls.getD (n - i) 0) * dy, 0]
        else v + between (rs.getD j 0) (polar radius (45 + 45 * ts.getD (i - n) 0)) ![(1 - ls.getD (i - n) 0) * dx, dy, 0])
        M.points M.cells := by
  simp only [sectorRectangleMesh, bind_ok] at h
  obtain ⟨⟨A, B⟩, h, e⟩ := h
  cases e
  obtain ⟨r0, rx, ry, ls, ts, rs, v, h1, h2, h3, h4, h5, h6, h7, h8⟩ := C63_sectorRectangle_nodes h
  obtain ⟨n, st⟩ := ft _ h2
  obtain ⟨n', sl⟩ := fl _ h1
  obtain ⟨m, sr⟩ := fr _ h3
  obtain rfl : n = n' := by
    have := sl.size; have := st.size; omega
  rw [st.size, sr.size] at h5 h6
  have late' : ∀ p ≤ n, ls.getD p 0 ≤ ts.getD p 0 := fun p _ => late _ _ h1 h2 p
  have nA : ∀ p ≤ n, ∀ q ≤ m, halfNode A p q =
      v + between (rs.getD q 0) (polar radius (45 - 45 * ts.getD p 0)) ![dx, (1 - ls.getD p 0) * dy, 0] := by
    intro p hp q hq
    rw [halfNode, List.getD_eq_getElem?_getD, (h8 p q _ _ _ (subdivision_getD sl hp) (subdivision_getD st hp) (subdivision_getD sr hq)).1]
    rfl
  have nB : ∀ p ≤ n, ∀ q ≤ m, halfNode B p q =
      v + between (rs.getD q 0) (polar radius (45 + 45 * ts.getD p 0)) ![(1 - ls.getD p 0) * dx, dy, 0] := by
    intro p hp q hq
    rw [halfNode, List.getD_eq_getElem?_getD, (h8 p q _ _ _ (subdivision_getD sl hp) (subdivision_getD st hp) (subdivision_getD sr hq)).2]
    rfl
  have t0 : ts.getD 0 0 = 0 := by rw [List.getD_eq_getElem?_getD, st.first]; rfl
  have l0 : ls.getD 0 0 = 0 := by rw [List.getD_eq_getElem?_getD, sl.first]; rfl
  have fA : Fans 1 (v 2) n (fun p => v + polar radius (45 - 45 * ts.getD p 0)) (fun p => v + ![dx, (1 - ls.getD p 0) * dy, 0]) := by
    refine ⟨fun p hp => ⟨by simp [polar], by simp⟩, fun p p' hpp hp' => ?_⟩
    obtain ⟨a, b, c⟩ := getD_rising st hpp hp'
    exact (inner_bends r0 rx ry a b c (getD_rising sl hpp hp').2.1 (late' p (hpp.le.trans hp')) (late' p' hp') v).1
  have fB : Fans (-1) (v 2) n (fun p => v + polar radius (45 + 45 * ts.getD p 0)) (fun p => v + ![(1 - ls.getD p 0) * dx, dy, 0]) := by
    refine ⟨fun p hp => ⟨by simp [polar], by simp⟩, fun p p' hpp hp' => ?_⟩
    obtain ⟨a, b, c⟩ := getD_rising st hpp hp'
    exact (inner_bends r0 rx ry a b c (getD_rising sl hpp hp').2.1 (late' p (hpp.le.trans hp')) (late' p' hp') v).2
  have strip := fans_strips hj (subdivision_pos st) (subdivision_pos st) sr h5 h6 fA fB
    ⟨by simp only [t0, mul_zero, sub_zero, add_zero], by simp only [l0, sub_zero, one_mul]⟩ (fun p hp q hq => by rw [nA p hp q hq, between_moved]) fun p hp q hq => by rw [nB p hp q hq, between_moved]
  refine ⟨v, ts, ls, rs, n, m, h4, h2, h1, h3, st.size, sr.size, strip.congr ?_⟩
  intro i hi j hj
  split
  · exact nA _ (Nat.sub_le _ _) _ hj
  · exact nB _ (by omega) _ hj

/-- **C146 (RectangleSector).** The same around a rectangle, with `n` lines below and `n'` above the diagonal.  Missing: rectangles that reach
beyond the point of the arc at 45 degrees, see C144. -/
theorem C146_rectangleSector_partial {join : Joining ℝ} (hj : JoinsEqual join) {area : Arr3 (V3 ℝ) → List ℝ} {radius dx dy : ℝ} (hr : 0 < radius)
    (hx0 : 0 < dx) (hy0 : 0 < dy) (hx : 2 * dx ^ 2 < radius ^ 2) (hy : 2 * dy ^ 2 < radius ^ 2) {xres yres rres : Resolution ℝ}
    {xm ym rm : Option String} (fx : DividesUnit xres xm) (fy : DividesUnit yres ym) (fr : DividesUnit rres rm)
    {c : Option (List ℝ)} {M : QuadMesh ℝ} (h : rectangleSectorMesh δ join area dx dy radius xres yres rres xm ym rm c = .ok M) :
    ∃ v xs ys rs n n' m, IsCentre c v ∧ resolutionToPerc xres xm = .ok xs ∧ resolutionToPerc yres ym = .ok ys ∧
      resolutionToPerc rres rm = .ok rs ∧ ys.length = n + 1 ∧ xs.length = n' + 1 ∧ rs.length = m + 1 ∧
      IsStrip (n + n') m (fun i j => if i ≤ n then
          v + between (rs.getD j 0) ![dx, (1 - ys.getD (n - i) 0) * dy, 0] (polar radius (45 - 45 * ys.getD (n - i) 0))
        else v + between (rs.getD j 0) ![(1 - xs.getD (i - n) 0) * dx, dy, 0] (polar radius (45 + 45 * xs.getD (i - n) 0)))
        M.points M.cells := by
  simp only [rectangleSectorMesh, bind_ok] at h
  obtain ⟨⟨A, B⟩, h, e⟩ := h
  cases e
  obtain ⟨xs, ys, rs, v, h1, h2, h3, h4, h5, h6, h7, h8⟩ := C63_rectangleSector_nodes h
  obtain ⟨n', sx⟩ := fx _ h1
  obtain ⟨n, sy⟩ := fy _ h2
  obtain ⟨m, sr⟩ := fr _ h3
  rw [sy.size, sr.size] at h5
  rw [sx.size, sr.size] at h6
  have nA : ∀ p ≤ n, ∀ q ≤ m, halfNode A p q =
      v + between (rs.getD q 0) ![dx, (1 - ys.getD p 0) * dy, 0] (polar radius (45 - 45 * ys.getD p 0)) := by
    intro p hp q hq
    rw [halfNode, List.getD_eq_getElem?_getD, h7 p q _ _ (subdivision_getD sy hp) (subdivision_getD sr hq)]
    rfl
  have nB : ∀ p ≤ n', ∀ q ≤ m, halfNode B p q =
      v + between (rs.getD q 0) ![(1 - xs.getD p 0) * dx, dy, 0] (polar radius (45 + 45 * xs.getD p 0)) := by
    intro p hp q hq
    rw [halfNode, List.getD_eq_getElem?_getD, h8 p q _ _ (subdivision_getD sx hp) (subdivision_getD sr hq)]
    rfl
  have a0 : ys.getD 0 0 = 0 := by rw [List.getD_eq_getElem?_getD, sy.first]; rfl
  have b0 : xs.getD 0 0 = 0 := by rw [List.getD_eq_getElem?_getD, sx.first]; rfl
  have fA : Fans 1 (v 2) n (fun p => v + ![dx, (1 - ys.getD p 0) * dy, 0]) (fun p => v + polar radius (45 - 45 * ys.getD p 0)) := by
    refine ⟨fun p hp => ⟨by simp, by simp [polar]⟩, fun p p' hpp hp' => ?_⟩
    obtain ⟨a, b, c⟩ := getD_rising sy hpp hp'
    exact (outer_bends hr hx0 hy0 hx hy a b c v).1
  have fB : Fans (-1) (v 2) n' (fun p => v + ![(1 - xs.getD p 0) * dx, dy, 0]) (fun p => v + polar radius (45 + 45 * xs.getD p 0)) := by
    refine ⟨fun p hp => ⟨by simp, by simp [polar]⟩, fun p p' hpp hp' => ?_⟩
    obtain ⟨a, b, c⟩ := getD_rising sx hpp hp'
    exact (outer_bends hr hx0 hy0 hx hy a b c v).2
  have strip := fans_strips hj (subdivision_pos sy) (subdivision_pos sx) sr h5 h6 fA fB
    ⟨by simp only [a0, b0, sub_zero, one_mul], by simp only [a0, b0, mul_zero, sub_zero, add_zero]⟩ (fun p hp q hq => by rw [nA p hp q hq, between_moved]) fun p hp q hq => by rw [nB p hp q hq, between_moved]
  refine ⟨v, xs, ys, rs, n, n', m, h4, h1, h2, h3, sy.size, sx.size, sr.size, strip.congr ?_⟩
  intro i hi j hj
  split
  · exact nA _ (Nat.sub_le _ _) _ hj
  · exact nB _ (by omega) _ hj

end

/-- Numbers of the points by their first occurrence. -/
theorem joins_exists : ∃ join : Joining ℝ, JoinsEqual join := by
  classical
  refine ⟨fun pts => (pts.dedup, fun i => pts.dedup.idxOf (pts.getD i 0)), ?_, fun pts => List.nodup_dedup pts, fun pts x hx => List.mem_dedup.1 hx⟩
  intro pts i x h
  have hx : x ∈ pts.dedup := List.mem_dedup.2 (List.mem_of_getElem? h)
  simp only [List.getD_eq_getElem?_getD, h, Option.getD_some]
  exact List.getElem?_idxOf hx

/-- Concrete case of C146: around a quarter disc with 5 rows of cells and 4 cells along each half there are 40 cells and 54 points. -/
example (area : Arr3 (V3 ℝ) → List ℝ) : ∃ (join : Joining ℝ) (M : QuadMesh ℝ), JoinsEqual join ∧
    sectorRectangleMesh ℤ join area 1 2 3 (.int 5) (.int 4) (some "log") (some "log") none = .ok M ∧
      M.points.length = 54 ∧ M.cells.length = 40 := by
  obtain ⟨join, hj⟩ := joins_exists
  obtain ⟨A, B, h⟩ := C63_sectorRectangle_exists (δ := ℤ) area zero_lt_one (by norm_num : (1 : ℝ) < 2)
    (by norm_num : (1 : ℝ) < 3) 5 4 (rm := some "log") (tm := some "log") (Or.inr (Or.inl rfl)) (Or.inr (Or.inl rfl)) (c := none) (v := 0)
    (by simp [IsCentre])
  have hM : sectorRectangleMesh ℤ join area 1 2 3 (.int 5) (.int 4) (some "log") (some "log") none = .ok (sumHalves join A B) := by
    simp only [sectorRectangleMesh, h]; rfl
  refine ⟨join, _, hj, hM, ?_⟩
  obtain ⟨v, ts, ls, rs, n, m, _, h2, _, h3, hn, hm, hs⟩ := C146_sectorRectangle_partial hj (divides_int 5 (Or.inr (Or.inl rfl)))
    (divides_int 4 (Or.inl rfl)) (divides_int 4 (Or.inr (Or.inl rfl))) (fun _ _ => late_int 4 (Or.inr rfl)) hM
  have e2 := partsOf_size (Or.inl rfl) h2
  have e3 := partsOf_size (Or.inr (Or.inl rfl)) h3
  rw [hs.pointCount, hs.cellCount]
  simp only [partsOf] at e2 e3
  norm_num at e2 e3
  obtain rfl : n = 4 := by omega
  obtain rfl : m = 5 := by omega
  exact ⟨rfl, rfl⟩

end Gridder
