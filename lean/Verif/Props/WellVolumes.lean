import Verif.Props.WellSolid

/-!
# C153: the volumes of the cells of load_well_3d
-/

namespace Gridder
open Spec Pointwise MeasureTheory

/-- Convex cells that cover a square and whose areas add up to its area fill these areas. -/
theorem exact_area {cells : List (List (V3 ℝ))} {S : ℝ} (hS : 0 ≤ S) (hl : ∀ c ∈ cells, c.length = 3 ∨ c.length = 4)
    (hz : ∀ c ∈ cells, ∀ y ∈ c, y 2 = 0) (ht : ∀ c ∈ cells, TurnsLeft c ∨ TurnsRight c)
    (cover : ∀ x : V3 ℝ, |x 0| ≤ S → |x 1| ≤ S → x 2 = 0 → ∃ c ∈ cells, x ∈ cellHull c) (area : (cells.map flatArea).sum = (2 * S) ^ 2)
    {c : List (V3 ℝ)} (hc : c ∈ cells) : volume (swept (cellHull c) upZ) = ENNReal.ofReal (flatArea c) := by
  obtain ⟨i, hi, rfl⟩ := List.getElem_of_mem hc
  have each : ∀ k : Fin cells.length, volume (swept (cellHull cells[k.1]) upZ) ≤ ENNReal.ofReal (flatArea cells[k.1]) := fun k =>
    swept_area (hl _ (List.getElem_mem _)) (hz _ (List.getElem_mem _)) (ht _ (List.getElem_mem _))
  by_contra hne
  have less : volume (swept (cellHull cells[i]) upZ) < ENNReal.ofReal (flatArea cells[i]) := lt_of_le_of_ne (each ⟨i, hi⟩) hne
  have covered : Set.Icc ![-S, -S, 0] ![S, S, 1] ⊆ ⋃ k : Fin cells.length, swept (cellHull cells[k.1]) upZ := by
    rintro y ⟨lo, hi⟩
    obtain ⟨d, hd, hy⟩ := cover ![y 0, y 1, 0] (abs_le.2 ⟨lo 0, hi 0⟩) (abs_le.2 ⟨lo 1, hi 1⟩) rfl
    obtain ⟨k, hk, rfl⟩ := List.getElem_of_mem hd
    refine Set.mem_iUnion.2 ⟨⟨k, hk⟩, _, hy, y 2, lo 2, hi 2, ?_⟩
    funext ax; fin_cases ax <;> simp [upZ]
  have square : volume (Set.Icc (![-S, -S, 0] : V3 ℝ) ![S, S, 1]) = ENNReal.ofReal ((2 * S) ^ 2) := by
    rw [Real.volume_Icc_pi, Fin.prod_univ_three]
    simp only [Matrix.cons_val_zero, Matrix.cons_val_one, Matrix.cons_val]
    rw [sub_zero, ENNReal.ofReal_one, mul_one, ← ENNReal.ofReal_mul (by linarith)]
    congr 1
    ring
  have low := (measure_mono covered).trans (measure_iUnion_fintype_le volume _)
  rw [square, ← area, ← Fin.sum_univ_fun_getElem, ENNReal.ofReal_sum_of_nonneg fun k _ => flatArea_nonneg _] at low
  refine absurd low (not_le.2 ?_)
  rw [← Finset.add_sum_erase _ _ (Finset.mem_univ (⟨i, hi⟩ : Fin cells.length)),
    ← Finset.add_sum_erase (a := (⟨i, hi⟩ : Fin cells.length)) _ (fun k => ENNReal.ofReal (flatArea cells[k.1])) (Finset.mem_univ _)]
  refine ENNReal.add_lt_add_of_lt_of_le ?_ less (Finset.sum_le_sum fun k _ => each k)
  exact ne_top_of_le_ne_top (ENNReal.sum_ne_top.2 fun _ _ => ENNReal.ofReal_ne_top) (Finset.sum_le_sum fun k _ => each k)

/-- The cells of a well whose numbers fit fill their areas. -/
theorem well_exact_area {δ : Type _} [OfNat δ 0] [OfNat δ 32] {area : Arr3 (V3 ℝ) → List ℝ} {w : WellNumbers} (hw : WellFits w)
    {parts : List WellPart} (h : wellQuarter δ area w = .ok parts) (hname : ∀ p ∈ parts, p.group ≠ "")
    {append : List (List (V3 ℝ) × Int) → List (List (V3 ℝ) × Int) → List (List (V3 ℝ) × Int)} (happ : ∀ a b, (append a b).Perm (a ++ b)) :
    ∃ out table, wellMerged append parts = .ok (out, table) ∧ ∀ gc ∈ out, volume (swept (cellHull gc.1) upZ) = ENNReal.ofReal (flatArea gc.1) := by
  obtain ⟨out, table, k1, k2⟩ := C149_well hw h hname happ
  obtain ⟨out', table', m1, m2, _⟩ := C148_well hw h hname happ
  rw [k1] at m1; cases m1
  have hne : parts ≠ [] := by
    rintro rfl
    obtain ⟨parts', g1, g2, _⟩ := C127_conforming (δ := δ) area hw
    rw [h] at g1; cases g1
    simp [wellRegions] at g2
  obtain ⟨out', table', g1, _, _, g4⟩ := C127_groups happ hne hname
  rw [k1] at g1; cases g1
  have S0 : 0 ≤ w.side + w.width := by
    have := (ringsFit_le _ hw.core_pos hw.rings).1
    have := hw.core_pos; have := hw.side; have := hw.width
    linarith
  have origin : ∀ d ∈ out.map Prod.fst, ∃ k, ∃ p ∈ parts, ∃ c ∈ p.cells, c.map quarterTurn^[k] = d := by
    intro d hd
    obtain ⟨gc, hgc, rfl⟩ := List.mem_map.1 hd
    have := g4.mem_iff.1 (List.mem_map_of_mem (f := fun gc : List (V3 ℝ) × Int => (gc.1, nameOf table gc.2)) hgc)
    obtain ⟨k, _, hk⟩ := List.mem_flatMap.1 this
    obtain ⟨p, hp, hk⟩ := List.mem_flatMap.1 hk
    obtain ⟨c, hc, e⟩ := List.mem_map.1 hk
    exact ⟨k, p, hp, c, hc, congrArg Prod.fst e⟩
  refine ⟨out, table, k1, fun gc hgc => ?_⟩
  refine exact_area (cells := out.map Prod.fst) S0 ?_ ?_ ?_ ?_ ?_ (List.mem_map_of_mem hgc)
  · intro d hd
    obtain ⟨k, p, hp, c, hc, rfl⟩ := origin d hd
    rw [List.length_map]
    exact quarter_lengths h p hp c hc
  · intro d hd y hy
    obtain ⟨gc, hgc, rfl⟩ := List.mem_map.1 hd
    have : y ∈ ⋃ gc ∈ out, cellHull gc.1 := Set.mem_iUnion₂.2 ⟨gc, hgc, subset_convexHull ℝ _ hy⟩
    rw [k2] at this
    exact this.2.2
  · intro d hd
    obtain ⟨k, p, hp, c, hc, rfl⟩ := origin d hd
    simp only [TurnsLeft, TurnsRight, List.length_map, turnAt_quarters]
    exact (quarter_turn hw.toWellSizes h).1 p hp c hc
  · intro x x0 x1 x2
    have : x ∈ ⋃ gc ∈ out, cellHull gc.1 := by rw [k2]; exact ⟨x0, x1, x2⟩
    obtain ⟨gc, hgc, hx⟩ := Set.mem_iUnion₂.1 this
    exact ⟨gc.1, List.mem_map_of_mem hgc, hx⟩
  · rw [List.map_map]
    exact m2

/-- The thickness of a layer of a column. -/
theorem columnAt_step {a b : ℝ} {n1 n2 L : ℕ} (h1 : 0 < n1) :
    columnAt ![0, 0, a] ![0, 0, b] n1 n2 (L + 1) 2 - columnAt ![0, 0, a] ![0, 0, b] n1 n2 L 2 = if L < n1 then a / n1 else b / n2 := by
  split
  · rename_i h
    simp only [columnAt, if_pos h.le, if_pos (show L + 1 ≤ n1 from h)]
    show ((L + 1 : ℕ) : ℝ) / n1 * a - (L : ℝ) / n1 * a = _
    push_cast; ring
  · rename_i h
    rw [columnAt_above h1 (by omega), columnAt_above h1 (by omega), show L + 1 - n1 = L - n1 + 1 by omega]
    show a + ((L - n1 + 1 : ℕ) : ℝ) / n2 * b - (a + ((L - n1 : ℕ) : ℝ) / n2 * b) = _
    push_cast; ring

/-- The volume of a cell of a vertical column is the thickness of its layer times the area of its base, as a volume of height 1. -/
theorem vertical_volume {points : List (V3 ℝ)} {cells : List (ℕ × List ℕ)} {a b z : ℝ} (ha : 0 < a) (hb : 0 < b) {n1 n2 : ℕ} (h1 : 0 < n1)
    (h2 : 0 < n2)
    {dropped : ℕ → Prop} {label : ℕ → String} {C : Column} {pos node : ℕ → ℕ → ℕ} (hids : ∀ tc ∈ cells, ∀ x ∈ tc.2, x < points.length)
    (h : ColumnOver Eq (points.map fun p => ![p 0, p 1, z]) cells ![0, 0, a] ![0, 0, b] n1 n2 dropped label C pos node) {L c t : ℕ}
    {conn : List ℕ} (hL : L < n1 + n2) (hc : cells[c]? = some (t, conn)) {corners : List (V3 ℝ)} (hz : ∀ y ∈ corners, y 2 = 0)
    (hcorners : ∀ y, (∃ j ∈ conn, points[j]? = some y) ↔ y ∈ corners) :
    volume (cellRegion C.mesh (pos L c)) = ENNReal.ofReal (if L < n1 then a / n1 else b / n2) * volume (swept (cellHull corners) upZ) := by
  have n1R : (0 : ℝ) < n1 := by exact_mod_cast h1
  have n2R : (0 : ℝ) < n2 := by exact_mod_cast h2
  have step := columnAt_step (a := a) (b := b) (n2 := n2) (L := L) h1
  have pos' : (0 : ℝ) < if L < n1 then a / n1 else b / n2 := by split <;> positivity
  have flat : ∀ y ∈ baseRegion (points.map fun p => ![p 0, p 1, z]) conn, (LinearMap.proj 2 : V3 ℝ →ₗ[ℝ] ℝ) y = z := fun y hy =>
    ((base_at_depth z hz hcorners).1 hy).2
  have e : cellRegion C.mesh (pos L c) = {x | ∃ p ∈ baseRegion (points.map fun p => ![p 0, p 1, z]) conn,
      ∃ y ∈ segment ℝ (columnAt ![0, 0, a] ![0, 0, b] n1 n2 L) (columnAt ![0, 0, a] ![0, 0, b] n1 n2 (L + 1)), x = p + y} := by
    rw [column_region h1 (by intro tc htc i hi; rw [List.length_map]; exact hids tc htc i hi) h hL hc]
    ext x
    simp only [Set.mem_add, Set.mem_ofPred_eq, eq_comm]
  rw [e, volume_between (f := LinearMap.proj 2) (z := z) (n := upZ) flat rfl (by
    show columnAt ![0, 0, a] ![0, 0, b] n1 n2 L 2 < columnAt ![0, 0, a] ![0, 0, b] n1 n2 (L + 1) 2
    linarith)]
  congr 1
  · exact congrArg ENNReal.ofReal step
  · have img : swept (baseRegion (points.map fun p => ![p 0, p 1, z]) conn) upZ = (fun x => ![0, 0, z] + x) '' swept (cellHull corners) upZ := by
      have zero : ∀ y ∈ cellHull corners, y 2 = 0 := by
        intro y hy
        have : Convex ℝ {y : V3 ℝ | y 2 = 0} := by
          intro a ha b hb s t _ _ _
          simp only [Set.mem_ofPred_eq] at ha hb ⊢
          simp [ha, hb]
        exact convexHull_min (fun y hy => hz y hy) this hy
      ext x
      constructor
      · rintro ⟨p, hp, s, s0, s1, rfl⟩
        obtain ⟨q1, q2⟩ := (base_at_depth z hz hcorners).1 hp
        refine ⟨_, ⟨_, q1, s, s0, s1, rfl⟩, ?_⟩
        funext k; fin_cases k
        · simp [upZ]
        · simp [upZ]
        · simp [upZ, q2]
      · rintro ⟨_, ⟨p, hp, s, s0, s1, rfl⟩, rfl⟩
        have p2 := zero p hp
        refine ⟨![p 0, p 1, z], (base_at_depth z hz hcorners).2 ⟨?_, rfl⟩, s, s0, s1, ?_⟩
        · have : (![(![p 0, p 1, z] : V3 ℝ) 0, (![p 0, p 1, z] : V3 ℝ) 1, 0] : V3 ℝ) = p := by funext k; fin_cases k <;> simp [p2]
          rw [this]; exact hp
        · funext k; fin_cases k
          · show 0 + (p 0 + s * 0) = p 0 + s * 0; ring
          · show 0 + (p 1 + s * 0) = p 1 + s * 0; ring
          · show z + (p 2 + s * 1) = z + s * 1; rw [p2]; ring
    rw [img, Set.image_add_left, measure_preimage_add]

theorem layer_sums {M : Type _} [AddCommMonoid M] (n1 n2 : ℕ) (f : ℕ → M) (x y : M) (hx : ∀ L < n1, f L = x)
    (hy : ∀ L, n1 ≤ L → f L = y) : ((List.range (n1 + n2)).map f).sum = n1 • x + n2 • y := by
  rw [List.range_add, List.map_append, List.sum_append]
  congr 1
  · rw [List.map_congr_left (g := fun _ => x) (fun L hL => hx L (List.mem_range.1 hL))]
    simp
  · rw [List.map_map, List.map_congr_left (f := f ∘ fun x => n1 + x) (g := fun _ => y) (fun L _ => hy (n1 + L) (by omega))]
    simp

/-- The volumes of the cells of a column in a group. -/
theorem column_volumes {points : List (V3 ℝ)} {cells : List (ℕ × List ℕ)} {v1 v2 : V3 ℝ} {a b : ℝ} (ha : 0 ≤ a) (hb : 0 ≤ b) {n1 n2 : ℕ}
    (h1 : 0 < n1) (h2 : 0 < n2) {D : String → Prop} [DecidablePred D] {label : ℕ → String} {C : Column} {pos node : ℕ → ℕ → ℕ}
    (h : ColumnOver Eq points cells v1 v2 n1 n2 (fun c => D (label c)) label C pos node) {W : ℕ → ENNReal}
    (hW : ∀ L c, L < n1 + n2 → c < cells.length → volume (cellRegion C.mesh (pos L c)) = ENNReal.ofReal (if L < n1 then a / n1 else b / n2) * W c)
    (s : String) :
    ((C.kept.zip (C.groups.map (nameOf C.table))).map fun e => if e.2 = some s then volume (cellRegion C.mesh e.1) else 0).sum =
      ENNReal.ofReal (a + if D s then 0 else b) * ((List.range cells.length).map fun c => if label c = s then W c else 0).sum := by
  have n1R : (0 : ℝ) < n1 := by exact_mod_cast h1
  have n2R : (0 : ℝ) < n2 := by exact_mod_cast h2
  rw [((column_perm h).map _).sum_eq, List.map_flatMap]
  obtain ⟨X, hX⟩ : ∃ X, X = ((List.range cells.length).map fun c => if label c = s then W c else 0).sum := ⟨_, rfl⟩
  rw [← hX]
  have sums : ∀ (l : List ℕ) (F : ℕ → List ENNReal), (l.flatMap F).sum = (l.map fun L => (F L).sum).sum := by
    intro l F
    induction l with
    | nil => rfl
    | cons x l ih => rw [List.flatMap_cons, List.sum_append, ih, List.map_cons, List.sum_cons]
  rw [sums]
  have filt : ∀ (l : List ℕ) (P : ℕ → Bool) (F : ℕ → ENNReal), ((l.filter P).map F).sum = (l.map fun c => if P c then F c else 0).sum := by
    intro l P F
    induction l with
    | nil => rfl
    | cons x l ih => by_cases hp : P x <;> simp [hp, ih]
  have each : ∀ L < n1 + n2, ((((List.range cells.length).filter fun c => decide (L < n1 ∨ ¬ D (label c))).map fun c => (pos L c, some (label c))).map
      fun e => if e.2 = some s then volume (cellRegion C.mesh e.1) else 0).sum =
      if L < n1 then ENNReal.ofReal (a / n1) * X else if D s then 0 else ENNReal.ofReal (b / n2) * X := by
    intro L hL
    rw [List.map_map, filt]
    have : ∀ k : ENNReal, ((List.range cells.length).map fun c => k * if label c = s then W c else 0).sum = k * X := by
      intro k
      rw [hX, List.sum_map_mul_left]
    split_ifs with g1 g2
    · rw [← this]
      congr 1
      refine List.map_congr_left fun c hc => ?_
      by_cases hs : label c = s
      · simp [g1, hs, hW L c hL (List.mem_range.1 hc)]
      · simp [hs]
    · rw [List.map_congr_left (g := fun _ => (0 : ENNReal))]
      · simp
      · intro c hc
        by_cases hs : label c = s
        · simp [g1, hs, g2]
        · simp [hs]
    · rw [← this]
      congr 1
      refine List.map_congr_left fun c hc => ?_
      by_cases hs : label c = s
      · simp [g1, hs, g2, hW L c hL (List.mem_range.1 hc)]
      · simp [hs]
  rw [List.map_congr_left (g := fun L => if L < n1 then ENNReal.ofReal (a / n1) * X else if D s then 0 else ENNReal.ofReal (b / n2) * X)
    (fun L hL => each L (List.mem_range.1 hL)),
    layer_sums n1 n2 _ (ENNReal.ofReal (a / n1) * X) (if D s then 0 else ENNReal.ofReal (b / n2) * X) (fun L hL => if_pos hL)
      (fun L hL => if_neg (by omega))]
  have mul : ∀ (n : ℕ) (r : ℝ), (0 : ℝ) < n → 0 ≤ r → n • (ENNReal.ofReal (r / n) * X) = ENNReal.ofReal r * X := by
    intro n r hn hr
    rw [nsmul_eq_mul, ← mul_assoc, ← ENNReal.ofReal_natCast, ← ENNReal.ofReal_mul hn.le, mul_div_cancel₀ _ hn.ne']
  split_ifs
  · rw [mul n1 a n1R ha]; simp
  · rw [mul n1 a n1R ha, mul n2 b n2R hb, ENNReal.ofReal_add ha hb, add_mul]

/-- **C153.** The volumes of the cells of load_well_3d in a group add up to the area of the group in load_well_2d times 33 for the core and
the casing, times 30 for the others. -/
theorem C153_load_well_3d {vtk : VtkOracle ℝ} (ho : AppendsAll vtk.order) (hc : Cleans Eq vtk.clean)
    (rot : V3 ℝ → ℝ → V3 ℝ → V3 ℝ → V3 ℝ) {δ : Type _} [OfNat δ 0] [OfNat δ 32] (area : Arr3 (V3 ℝ) → List ℝ)
    {append : List (List (V3 ℝ) × Int) → List (List (V3 ℝ) × Int) → List (List (V3 ℝ) × Int)} (happ : ∀ a b, (append a b).Perm (a ++ b)) :
    ∃ out table, loadWell2d δ area append = .ok (out, table) ∧
      ∀ mesh : Surf ℝ UTopo, StackSurf mesh → groupCodes mesh.topo.cellData = some (out.map Prod.snd) →
        mesh.topo.cells.length = out.length → mesh.topo.table = some table →
        (∀ (c : ℕ) tc gc, mesh.topo.cells[c]? = some tc → out[c]? = some gc → ∀ y, (∃ j ∈ tc.2, mesh.points[j]? = some y) ↔ y ∈ gc.1) →
        ∃ C, wellColumn vtk rot columnNumbers mesh = .ok C ∧ C.groups.length = C.kept.length ∧
          let volumeOf (s : String) := ((C.kept.zip (C.groups.map (nameOf C.table))).map fun e =>
            if e.2 = some s then volume (cellRegion C.mesh e.1) else 0).sum
          let S := 16 * Real.sin (Real.pi / 16)
          volumeOf "Core" = ENNReal.ofReal (33 * (0.34 ^ 2 * S)) ∧ volumeOf "Casing" = ENNReal.ofReal (33 * ((0.445 ^ 2 - 0.34 ^ 2) * S)) ∧
            volumeOf "Cement" = ENNReal.ofReal (30 * ((1 - 0.445 ^ 2) * S)) ∧ volumeOf "Matrix" = ENNReal.ofReal (30 * (400 - S)) := by
  obtain ⟨out, table, k1, k2⟩ := C130_load_well_3d ho hc rot (δ := δ) area happ
  obtain ⟨out', table', m1, m2⟩ := C149_load_well (δ := δ) area happ
  rw [k1] at m1; cases m1
  obtain ⟨out', table', n1, _, n3⟩ := C148_load_well (δ := δ) area happ
  rw [k1] at n1; cases n1
  obtain ⟨_, out', table', c1, dense, _⟩ := C127_load_well (δ := δ) area happ
  rw [k1] at c1; cases c1
  have exact_ : ∀ gc ∈ out, volume (swept (cellHull gc.1) upZ) = ENNReal.ofReal (flatArea gc.1) := by
    obtain ⟨parts, h1, _⟩ := C127_conforming (δ := δ) area wellNumbers_fit
    have hareas := wellQuarter_areas wellNumbers_fit h1
    obtain ⟨out', table', e1, e2⟩ := well_exact_area wellNumbers_fit h1 (by
      intro p hp
      have := List.mem_map_of_mem (f := fun p : WellPart => (p.group, (p.cells.map flatArea).sum)) hp
      rw [hareas] at this
      simp only [wellAreas, wellNumbers, List.map_cons, List.map_nil, List.cons_append, List.nil_append, List.mem_cons, List.not_mem_nil, or_false, Prod.mk.injEq] at this
      rcases this with h | h | h | h | h | h | h | h | h | h | h <;> rw [h.1] <;> decide) happ
    have e : loadWell2d δ area append = .ok (out', table') := by simp only [loadWell2d, h1, e1]
    rw [k1] at e; cases e
    exact e2
  refine ⟨out, table, k1, fun mesh hmesh hcodes hlen htab hcorners => ?_⟩
  obtain ⟨C, pos, node, label, g1, g2, g3, _⟩ := k2 mesh hmesh hcodes hlen htab
  have flat : ∀ gc ∈ out, ∀ y ∈ gc.1, y 2 = 0 := by
    intro gc hgc y hy
    have : y ∈ ⋃ gc ∈ out, cellHull gc.1 := Set.mem_iUnion₂.2 ⟨gc, hgc, subset_convexHull ℝ _ hy⟩
    rw [m2] at this
    exact this.2.2
  have hlabel : ∀ (c : ℕ) gc, out[c]? = some gc → nameOf table gc.2 = some (label c) := by
    intro c gc hgc
    obtain ⟨v, v1, v2⟩ := g2 c (List.getElem?_eq_some_iff.1 hgc).1
    rw [List.getElem?_map, hgc] at v1
    obtain rfl : gc.2 = v := Option.some.inj v1
    exact (nameOf_inj dense.inj).2 v2
  have vol := column_volumes (D := fun s => s = "Cement" ∨ s = "Matrix") (a := 30) (b := 3) (by norm_num) (by norm_num) (by norm_num) (by norm_num) g3
    (W := fun c => ENNReal.ofReal (flatArea (out.getD c ([], 0)).1)) (by
      intro L c hL hc
      have hcl : c < out.length := by omega
      rw [vertical_volume (by norm_num) (by norm_num) (by norm_num) (by norm_num) hmesh.ids g3 hL (List.getElem?_eq_getElem hc)
        (flat _ (List.getElem_mem hcl)) (hcorners c _ _ (List.getElem?_eq_getElem hc) (List.getElem?_eq_getElem hcl)), exact_ _ (List.getElem_mem hcl),
        List.getD_eq_getElem _ _ hcl])
  have sums : ∀ s, ((List.range mesh.topo.cells.length).map fun c => if label c = s then ENNReal.ofReal (flatArea (out.getD c ([], 0)).1) else 0).sum =
      ENNReal.ofReal ((out.filter fun gc => nameOf table gc.2 = some s).map fun gc => flatArea gc.1).sum := by
    intro s
    have e : ((List.range mesh.topo.cells.length).map fun c => if label c = s then ENNReal.ofReal (flatArea (out.getD c ([], 0)).1) else 0) =
        out.map fun gc => if nameOf table gc.2 = some s then ENNReal.ofReal (flatArea gc.1) else 0 := by
      refine List.ext_getElem (by simp [hlen]) fun c h1 h2 => ?_
      have hcl : c < out.length := by simpa using h2
      simp only [List.getElem_map, List.getElem_range, List.getD_eq_getElem _ _ hcl, hlabel c _ (List.getElem?_eq_getElem hcl), Option.some.injEq]
    rw [e]
    clear * -
    induction out with
    | nil => simp
    | cons gc out ih =>
      rw [List.map_cons, List.sum_cons, ih]
      by_cases hs : nameOf table gc.2 = some s
      · rw [if_pos hs, List.filter_cons_of_pos (by simpa using hs), List.map_cons, List.sum_cons, ENNReal.ofReal_add (flatArea_nonneg _)]
        exact List.sum_nonneg (by
          intro x hx
          obtain ⟨gc', _, rfl⟩ := List.mem_map.1 hx
          exact flatArea_nonneg _)
      · rw [if_neg hs, List.filter_cons_of_neg (by simpa using hs), zero_add]
  refine ⟨C, g1, g3.size, ?_⟩
  intro volumeOf S
  have all : ∀ s, volumeOf s = ENNReal.ofReal ((30 + if s = "Cement" ∨ s = "Matrix" then 0 else 3) *
      ((out.filter fun gc => nameOf table gc.2 = some s).map fun gc => flatArea gc.1).sum) := by
    intro s
    have := vol s
    rw [sums] at this
    rw [ENNReal.ofReal_mul (by split_ifs <;> norm_num)]
    exact this
  obtain ⟨a1, a2, a3, a4⟩ := n3
  beta_reduce at a1 a2 a3 a4
  refine ⟨?_, ?_, ?_, ?_⟩
  · rw [all, a1, if_neg (by decide)]; norm_num [S]
  · rw [all, a2, if_neg (by decide)]; norm_num [S]
  · rw [all, a3, if_pos (by decide)]; norm_num [S]
  · rw [all, a4, if_pos (by decide)]; norm_num [S]

/-- Concrete case of C153: the mesh of the cells of load_well_2d. -/
example (rot : V3 ℝ → ℝ → V3 ℝ → V3 ℝ → V3 ℝ) : ∃ mesh C, wellColumn exactVtk rot columnNumbers mesh = .ok C ∧
    ((C.kept.zip (C.groups.map (nameOf C.table))).map fun e => if e.2 = some "Core" then volume (cellRegion C.mesh e.1) else 0).sum =
      ENNReal.ofReal (33 * (0.34 ^ 2 * (16 * Real.sin (Real.pi / 16)))) := by
  obtain ⟨out, table, h1, h2⟩ := C153_load_well_3d exactVtk_ok.1 exactVtk_ok.2 rot (δ := ℤ) (fun _ => [])
    (append := (· ++ ·)) (fun a b => List.Perm.refl _)
  obtain ⟨_, out', _, c1, _, _, c2, _⟩ := C127_load_well (δ := ℤ) (fun _ => []) (append := (· ++ ·)) (fun a b => List.Perm.refl _)
  rw [h1] at c1; cases c1
  obtain ⟨mesh, q1, q2, q3, q4, q5⟩ := mesh_of_cells out table (by rintro rfl; simp at c2)
  obtain ⟨C, e1, _, e2⟩ := h2 mesh q1 q2 q3 q4 q5
  exact ⟨mesh, C, e1, e2.1⟩

end Gridder
