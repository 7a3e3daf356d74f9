import Verif.Props.Prisms
import Verif.Props.Well3d
import Verif.Props.WellTiles

/-!
# C151, C152: the cells of load_well_3d fill the block and the core above it, and do not overlap
-/

namespace Gridder
open Spec Pointwise

/-- Two sets share a cube of some size. -/
def Spec.ShareVolume (S T : Set (Fin 3 → ℝ)) : Prop :=
  ∃ (x : Fin 3 → ℝ) (r : ℝ), 0 < r ∧ ∀ y : Fin 3 → ℝ, (∀ k, |y k - x k| < r) → y ∈ S ∧ y ∈ T

/-- Places of the layers of a column of two parts. -/
noncomputable def columnAt (v1 v2 : V3 ℝ) (n1 n2 L : ℕ) : V3 ℝ :=
  if L ≤ n1 then ((L : ℝ) / n1) • v1 else v1 + (((L - n1 : ℕ) : ℝ) / n2) • v2

theorem columnAt_above {v1 v2 : V3 ℝ} {n1 n2 L : ℕ} (h1 : 0 < n1) (h : n1 ≤ L) :
    columnAt v1 v2 n1 n2 L = v1 + (((L - n1 : ℕ) : ℝ) / n2) • v2 := by
  have : (n1 : ℝ) ≠ 0 := by exact_mod_cast h1.ne'
  rcases h.eq_or_lt with rfl | h
  · simp [columnAt, this]
  · rw [columnAt, if_neg (by omega)]

theorem steps_segment {u v a : V3 ℝ} {s s' : ℝ} (h : s ≤ s') : a ∈ segment ℝ (u + s • v) (u + s' • v) ↔ ∃ t, s ≤ t ∧ t ≤ s' ∧ a = u + t • v := by
  constructor
  · rintro ⟨p, q, p0, q0, pq, rfl⟩
    refine ⟨p * s + q * s', ?_, ?_, ?_⟩
    · have e : p * s + q * s' = s + q * (s' - s) := by linear_combination s * pq
      rw [e]; linarith [mul_nonneg q0 (sub_nonneg.2 h)]
    · have e : p * s + q * s' = s' - p * (s' - s) := by linear_combination s' * pq
      rw [e]; linarith [mul_nonneg p0 (sub_nonneg.2 h)]
    · funext i
      simp only [Pi.add_apply, Pi.smul_apply, smul_eq_mul]
      linear_combination (u i) * pq
  · rintro ⟨t, t0, t1, rfl⟩
    rcases h.eq_or_lt with rfl | h
    · obtain rfl : t = s := le_antisymm t1 t0
      exact left_mem_segment ℝ _ _
    · have d : 0 < s' - s := sub_pos.2 h
      refine ⟨(s' - t) / (s' - s), (t - s) / (s' - s), div_nonneg (by linarith) d.le, div_nonneg (by linarith) d.le, ?_, ?_⟩
      · rw [← add_div]; rw [div_eq_one_iff_eq d.ne']; ring
      · funext i
        simp only [Pi.add_apply, Pi.smul_apply, smul_eq_mul]
        field_simp
        ring

/-- The region of a cell of a column. -/
theorem column_region {points : List (V3 ℝ)} {cells : List (ℕ × List ℕ)} {v1 v2 : V3 ℝ} {n1 n2 : ℕ} (h1 : 0 < n1)
    {dropped : ℕ → Prop} {label : ℕ → String} {C : Column} {pos node : ℕ → ℕ → ℕ} (hids : ∀ tc ∈ cells, ∀ x ∈ tc.2, x < points.length)
    (h : ColumnOver Eq points cells v1 v2 n1 n2 dropped label C pos node) {L c t : ℕ} {conn : List ℕ} (hL : L < n1 + n2)
    (hc : cells[c]? = some (t, conn)) :
    cellRegion C.mesh (pos L c) = baseRegion points conn + segment ℝ (columnAt v1 v2 n1 n2 L) (columnAt v1 v2 n1 n2 (L + 1)) := by
  have hA : ∀ l ≤ n1 + n2, ∀ (j : ℕ) p, NodeOf cells j → points[j]? = some p → C.mesh.points[node l j]? = some (p + columnAt v1 v2 n1 n2 l) := by
    intro l hl j p hj hp
    obtain ⟨g1, g2⟩ := h.nodes j p hj hp
    rcases le_total l n1 with hl' | hl'
    · obtain ⟨q, q1, rfl⟩ := g1 l hl'
      rw [q1, columnAt, if_pos hl']
    · obtain ⟨q, q1, rfl⟩ := g2 (l - n1) (by omega)
      rw [show n1 + (l - n1) = l by omega] at q1
      rw [q1, columnAt_above h1 hl', add_assoc]
  obtain ⟨t', cell, k1, k2⟩ := h.cell L c t conn hL hc
  have hmem := List.mem_of_getElem? hc
  rw [cellRegion, baseRegion, ← convexHull_pair, ← convexHull_add]
  congr 1
  ext x
  have hdm : ∀ (l j : ℕ), j < points.length → (l * points.length + j) / points.length = l ∧ (l * points.length + j) % points.length = j := by
    intro l j hj
    rw [Nat.mul_comm]
    exact ⟨by rw [Nat.mul_add_div (by omega), Nat.div_eq_of_lt hj, Nat.add_zero], by rw [Nat.mul_add_mod, Nat.mod_eq_of_lt hj]⟩
  simp only [Set.mem_ofPred_eq, Set.mem_add, Set.mem_insert_iff, Set.mem_singleton_iff, k2, Option.some.injEq, Prod.mk.injEq]
  constructor
  · rintro ⟨_, _, ⟨rfl, rfl⟩, id, hid, hx⟩
    rw [renamed_ids, List.mem_map] at hid
    obtain ⟨i, hi, rfl⟩ := hid
    obtain ⟨j, hj, hij⟩ := (prismOver_ids_mem k1 i).1 hi
    have hjl := hids _ hmem j hj
    have a1 := hA L hL.le j points[j] ⟨_, hmem, hj⟩ (List.getElem?_eq_getElem hjl)
    have a2 := hA (L + 1) hL j points[j] ⟨_, hmem, hj⟩ (List.getElem?_eq_getElem hjl)
    refine ⟨points[j], ⟨j, hj, List.getElem?_eq_getElem hjl⟩, ?_⟩
    rcases hij with rfl | rfl
    · rw [(hdm _ _ hjl).1, (hdm _ _ hjl).2, a1] at hx
      exact ⟨_, .inl rfl, Option.some.inj hx⟩
    · rw [(hdm _ _ hjl).1, (hdm _ _ hjl).2, a2] at hx
      exact ⟨_, .inr rfl, Option.some.inj hx⟩
  · rintro ⟨p, ⟨j, hj, hp⟩, a, ha, rfl⟩
    have hjl := hids _ hmem j hj
    have a1 := hA L hL.le j p ⟨_, hmem, hj⟩ hp
    have a2 := hA (L + 1) hL j p ⟨_, hmem, hj⟩ hp
    refine ⟨_, _, ⟨rfl, rfl⟩, ?_⟩
    simp only [renamed_ids, List.mem_map]
    rcases ha with rfl | rfl
    · refine ⟨_, ⟨_, (prismOver_ids_mem k1 _).2 ⟨j, hj, .inl rfl⟩, rfl⟩, ?_⟩
      rw [(hdm _ _ hjl).1, (hdm _ _ hjl).2, a1]
    · refine ⟨_, ⟨_, (prismOver_ids_mem k1 _).2 ⟨j, hj, .inr rfl⟩, rfl⟩, ?_⟩
      rw [(hdm _ _ hjl).1, (hdm _ _ hjl).2, a2]

/-- **C151 (column).** The cells of a column fill what its base sweeps out along the first vector, and what the part of the base that is not
dropped sweeps out along the second from there. -/
theorem C151_column {points : List (V3 ℝ)} {cells : List (ℕ × List ℕ)} {v1 v2 : V3 ℝ} {n1 n2 : ℕ} (h1 : 0 < n1) (h2 : 0 < n2)
    {dropped : ℕ → Prop} {label : ℕ → String} {C : Column} {pos node : ℕ → ℕ → ℕ} (hids : ∀ tc ∈ cells, ∀ x ∈ tc.2, x < points.length)
    (h : ColumnOver Eq points cells v1 v2 n1 n2 dropped label C pos node) :
    ⋃ i ∈ C.kept, cellRegion C.mesh i = {x | ∃ (c t : ℕ) (conn : List ℕ), cells[c]? = some (t, conn) ∧ ∃ p ∈ baseRegion points conn, ∃ s : ℝ,
      0 ≤ s ∧ s ≤ 1 ∧ (x = p + s • v1 ∨ ¬ dropped c ∧ x = p + v1 + s • v2)} := by
  have n1R : (0 : ℝ) < n1 := by exact_mod_cast h1
  have n2R : (0 : ℝ) < n2 := by exact_mod_cast h2
  have low : ∀ L < n1, ∀ a, a ∈ segment ℝ (columnAt v1 v2 n1 n2 L) (columnAt v1 v2 n1 n2 (L + 1)) ↔
      ∃ t : ℝ, (L : ℝ) / n1 ≤ t ∧ t ≤ ((L + 1 : ℕ) : ℝ) / n1 ∧ a = t • v1 := by
    intro L hL a
    have := steps_segment (u := 0) (v := v1) (a := a) (s := (L : ℝ) / n1) (s' := ((L + 1 : ℕ) : ℝ) / n1)
      (div_le_div_of_nonneg_right (by push_cast; linarith) n1R.le)
    simp only [zero_add] at this
    rw [columnAt, if_pos hL.le, columnAt, if_pos (show L + 1 ≤ n1 from hL)]
    exact this
  have high : ∀ L, n1 ≤ L → ∀ a, a ∈ segment ℝ (columnAt v1 v2 n1 n2 L) (columnAt v1 v2 n1 n2 (L + 1)) ↔
      ∃ t : ℝ, ((L - n1 : ℕ) : ℝ) / n2 ≤ t ∧ t ≤ ((L - n1 + 1 : ℕ) : ℝ) / n2 ∧ a = v1 + t • v2 := by
    intro L hL a
    rw [columnAt_above h1 hL, columnAt_above h1 (by omega), show L + 1 - n1 = L - n1 + 1 by omega]
    exact steps_segment (div_le_div_of_nonneg_right (by push_cast; linarith) n2R.le)
  ext x
  simp only [Set.mem_iUnion, exists_prop, Set.mem_ofPred_eq]
  constructor
  · rintro ⟨i, hi, hx⟩
    obtain ⟨L, c, hL, hc, rfl, hd⟩ := (h.kept i).1 hi
    obtain ⟨⟨t, conn⟩, htc⟩ : ∃ tc, cells[c]? = some tc := ⟨_, List.getElem?_eq_getElem hc⟩
    rw [column_region h1 hids h hL htc] at hx
    obtain ⟨p, hp, a, ha, rfl⟩ := Set.mem_add.1 hx
    refine ⟨c, t, conn, htc, p, hp, ?_⟩
    rcases Nat.lt_or_ge L n1 with hl | hl
    · obtain ⟨s, s0, s1, rfl⟩ := (low L hl a).1 ha
      have : (((L + 1 : ℕ) : ℝ) / n1) ≤ 1 := by rw [div_le_one n1R]; exact_mod_cast hl
      exact ⟨s, le_trans (by positivity) s0, s1.trans this, Or.inl rfl⟩
    · obtain ⟨s, s0, s1, rfl⟩ := (high L hl a).1 ha
      have : (((L - n1 + 1 : ℕ) : ℝ) / n2) ≤ 1 := by rw [div_le_one n2R]; exact_mod_cast (by omega : L - n1 + 1 ≤ n2)
      exact ⟨s, le_trans (by positivity) s0, s1.trans this, Or.inr ⟨hd.resolve_left (by omega), by rw [add_assoc]⟩⟩
  · rintro ⟨c, t, conn, htc, p, hp, s, s0, s1, hx⟩
    have hc : c < cells.length := (List.getElem?_eq_some_iff.1 htc).1
    rcases hx with rfl | ⟨hd, rfl⟩
    · obtain ⟨L, hL, l0, l1⟩ := exists_step (f := fun k : ℕ => (k : ℝ) / n1) (h := s) h1 (by simpa using s0)
        (by simp only [div_self n1R.ne']; exact s1)
      refine ⟨pos L c, (h.kept _).2 ⟨L, c, by omega, hc, rfl, Or.inl hL⟩, ?_⟩
      rw [column_region h1 hids h (by omega) htc]
      exact Set.add_mem_add hp ((low L hL _).2 ⟨s, l0, l1, rfl⟩)
    · obtain ⟨L, hL, l0, l1⟩ := exists_step (f := fun k : ℕ => (k : ℝ) / n2) (h := s) h2 (by simpa using s0)
        (by simp only [div_self n2R.ne']; exact s1)
      refine ⟨pos (n1 + L) c, (h.kept _).2 ⟨n1 + L, c, by omega, hc, rfl, Or.inr hd⟩, ?_⟩
      rw [column_region h1 hids h (by omega) htc, add_assoc p v1]
      exact Set.add_mem_add hp ((high (n1 + L) (by omega) _).2 ⟨s, by rw [Nat.add_sub_cancel_left]; exact l0,
        by rw [Nat.add_sub_cancel_left]; exact l1, rfl⟩)

/-- A base cell put at a depth. -/
theorem base_at_depth {points : List (V3 ℝ)} {conn : List ℕ} {corners : List (V3 ℝ)} (z : ℝ) (hz : ∀ y ∈ corners, y 2 = 0)
    (hc : ∀ y, (∃ j ∈ conn, points[j]? = some y) ↔ y ∈ corners) {p : V3 ℝ} :
    p ∈ baseRegion (points.map fun p => ![p 0, p 1, z]) conn ↔ ![p 0, p 1, 0] ∈ cellHull corners ∧ p 2 = z := by
  have set : {x : V3 ℝ | ∃ j ∈ conn, (points.map fun p => ![p 0, p 1, z])[j]? = some x} = {x | x ∈ corners} + {![0, 0, z]} := by
    ext x
    simp only [Set.mem_ofPred_eq, Set.mem_add, Set.mem_singleton_iff, exists_eq_left, List.getElem?_map, Option.map_eq_some_iff]
    have lift : ∀ y ∈ corners, y + ![0, 0, z] = ![y 0, y 1, z] := by
      intro y hy
      have := hz y hy
      funext i; fin_cases i <;> simp [this]
    constructor
    · rintro ⟨j, hj, y, hy, rfl⟩
      have := (hc y).1 ⟨j, hj, hy⟩
      exact ⟨y, this, lift y this⟩
    · rintro ⟨y, hy, rfl⟩
      obtain ⟨j, hj, hy'⟩ := (hc y).2 hy
      exact ⟨j, hj, y, hy', (lift y hy).symm⟩
  have flat : ∀ y ∈ cellHull corners, y 2 = 0 := by
    intro y hy
    have : Convex ℝ {y : V3 ℝ | y 2 = 0} := by
      intro a ha b hb s t _ _ _
      simp only [Set.mem_ofPred_eq] at ha hb ⊢
      simp [ha, hb]
    exact convexHull_min (fun y hy => hz y hy) this hy
  rw [baseRegion, set, convexHull_add, convexHull_singleton, Set.mem_add]
  constructor
  · rintro ⟨y, hy, w, rfl, rfl⟩
    have h2 := flat y hy
    refine ⟨?_, by simp [h2]⟩
    have : ![(y + ![0, 0, z]) 0, (y + ![0, 0, z]) 1, 0] = y := by funext i; fin_cases i <;> simp [h2]
    rw [this]; exact hy
  · rintro ⟨h1, h2⟩
    exact ⟨_, h1, _, rfl, by funext i; fin_cases i <;> simp [h2]⟩

/-- **C151 (load_well_3d).** The cells fill the block of side 20 and depth 30, and above it, up to 3, the part over the core and the
casing. -/
theorem C151_load_well_3d {vtk : VtkOracle ℝ} (ho : AppendsAll vtk.order) (hc : Cleans Eq vtk.clean)
    (rot : V3 ℝ → ℝ → V3 ℝ → V3 ℝ → V3 ℝ) {δ : Type _} [OfNat δ 0] [OfNat δ 32] (area : Arr3 (V3 ℝ) → List ℝ)
    {append : List (List (V3 ℝ) × Int) → List (List (V3 ℝ) × Int) → List (List (V3 ℝ) × Int)} (happ : ∀ a b, (append a b).Perm (a ++ b)) :
    ∃ out table, loadWell2d δ area append = .ok (out, table) ∧
      ∀ mesh : Surf ℝ UTopo, StackSurf mesh → groupCodes mesh.topo.cellData = some (out.map Prod.snd) →
        mesh.topo.cells.length = out.length → mesh.topo.table = some table →
        (∀ (c : ℕ) tc gc, mesh.topo.cells[c]? = some tc → out[c]? = some gc → ∀ y, (∃ j ∈ tc.2, mesh.points[j]? = some y) ↔ y ∈ gc.1) →
        ∃ C, wellColumn vtk rot columnNumbers mesh = .ok C ∧
          ⋃ i ∈ C.kept, cellRegion C.mesh i = {x | |x 0| ≤ 10 ∧ |x 1| ≤ 10 ∧ -30 ≤ x 2 ∧ x 2 ≤ 0} ∪
            {x | 0 ≤ x 2 ∧ x 2 ≤ 3 ∧ ∃ gc ∈ out, (nameOf table gc.2 = some "Core" ∨ nameOf table gc.2 = some "Casing") ∧
              ![x 0, x 1, 0] ∈ cellHull gc.1} := by
  obtain ⟨out, table, k1, k2⟩ := C130_load_well_3d ho hc rot (δ := δ) area happ
  obtain ⟨out', table', m1, m2⟩ := C149_load_well (δ := δ) area happ
  rw [k1] at m1; cases m1
  obtain ⟨_, out', table', c1, dense, names, c3, _⟩ := C127_load_well (δ := δ) area happ
  rw [k1] at c1; cases c1
  refine ⟨out, table, k1, fun mesh hmesh hcodes hlen htab hcorners => ?_⟩
  obtain ⟨C, pos, node, label, g1, g2, g3, _⟩ := k2 mesh hmesh hcodes hlen htab
  have flat : ∀ gc ∈ out, ∀ y ∈ gc.1, y 2 = 0 := by
    intro gc hgc y hy
    have : y ∈ ⋃ gc ∈ out, cellHull gc.1 := Set.mem_iUnion₂.2 ⟨gc, hgc, subset_convexHull ℝ _ hy⟩
    rw [m2] at this
    exact this.2.2
  have hlabel : ∀ (c : ℕ) gc, out[c]? = some gc → nameOf table gc.2 = some (label c) := by
    intro c gc hgc
    obtain ⟨v, v1, v2⟩ := g2 c (List.getElem?_eq_some_iff.1 hgc).1
    rw [List.getElem?_map, hgc] at v1
    obtain rfl : gc.2 = v := Option.some.inj v1
    exact (nameOf_inj dense.inj).2 v2
  have hfour : ∀ (c : ℕ) gc, out[c]? = some gc → label c ∈ ["Core", "Casing", "Cement", "Matrix"] := by
    intro c gc hgc
    obtain ⟨v, v1, v2⟩ := g2 c (List.getElem?_eq_some_iff.1 hgc).1
    exact names.mem_iff.1 (List.mem_map_of_mem (f := Prod.fst) v2)
  have base : ∀ (c t : ℕ) conn gc, mesh.topo.cells[c]? = some (t, conn) → out[c]? = some gc → ∀ p : V3 ℝ,
      p ∈ baseRegion (mesh.points.map fun p => ![p 0, p 1, -30]) conn ↔ ![p 0, p 1, 0] ∈ cellHull gc.1 ∧ p 2 = -30 := by
    intro c t conn gc hct hgc p
    exact base_at_depth (-30) (flat gc (List.mem_of_getElem? hgc)) (hcorners c (t, conn) gc hct hgc)
  refine ⟨C, g1, ?_⟩
  rw [C151_column (by norm_num) (by norm_num) (by
    intro tc htc x hx
    rw [List.length_map]
    exact hmesh.ids tc htc x hx) g3]
  ext x
  simp only [Set.mem_ofPred_eq, Set.mem_union]
  constructor
  · rintro ⟨c, t, conn, hct, p, hp, s, s0, s1, hx⟩
    have hcl : c < out.length := by rw [← hlen]; exact (List.getElem?_eq_some_iff.1 hct).1
    obtain ⟨gc, hgc⟩ : ∃ gc, out[c]? = some gc := ⟨_, List.getElem?_eq_getElem hcl⟩
    obtain ⟨p1, p2⟩ := (base c t conn gc hct hgc p).1 hp
    have hin : ![p 0, p 1, 0] ∈ ⋃ gc ∈ out, cellHull gc.1 := Set.mem_iUnion₂.2 ⟨gc, List.mem_of_getElem? hgc, p1⟩
    rw [m2] at hin
    obtain ⟨i0, i1, _⟩ := hin
    rcases hx with rfl | ⟨hd, rfl⟩
    · left
      refine ⟨?_, ?_, ?_, ?_⟩
      · simpa using i0
      · simpa using i1
      · simp [p2]; linarith
      · simp [p2]; linarith
    · right
      have e0 : (p + ![0, 0, 30] + s • ![0, 0, 3] : V3 ℝ) 0 = p 0 := by
        show p 0 + 0 + s * 0 = p 0; ring
      have e1 : (p + ![0, 0, 30] + s • ![0, 0, 3] : V3 ℝ) 1 = p 1 := by
        show p 1 + 0 + s * 0 = p 1; ring
      have e2 : (p + ![0, 0, 30] + s • ![0, 0, 3] : V3 ℝ) 2 = s * 3 := by
        show p 2 + 30 + s * 3 = s * 3; rw [p2]; ring
      rw [e0, e1, e2]
      refine ⟨by linarith, by linarith, gc, List.mem_of_getElem? hgc, ?_, p1⟩
      rw [hlabel c gc hgc, Option.some.injEq, Option.some.injEq]
      have := hfour c gc hgc
      simp only [List.mem_cons, List.not_mem_nil, or_false] at this
      tauto
  · rintro (⟨x0, x1, x2, x3⟩ | ⟨x2, x3, gc, hgc, hname, hx⟩)
    · have hin : ![x 0, x 1, 0] ∈ ⋃ gc ∈ out, cellHull gc.1 := by rw [m2]; exact ⟨x0, x1, rfl⟩
      obtain ⟨gc, hgc, hx⟩ := Set.mem_iUnion₂.1 hin
      obtain ⟨c, hcl, rfl⟩ := List.getElem_of_mem hgc
      obtain ⟨⟨t, conn⟩, hct⟩ : ∃ tc, mesh.topo.cells[c]? = some tc := ⟨_, List.getElem?_eq_getElem (by omega)⟩
      refine ⟨c, t, conn, hct, ![x 0, x 1, -30], (base c t conn _ hct (List.getElem?_eq_getElem hcl) _).2 ⟨hx, rfl⟩, (x 2 + 30) / 30,
        by linarith, by linarith, Or.inl ?_⟩
      funext i; fin_cases i
      · simp
      · simp
      · simp
    · obtain ⟨c, hcl, rfl⟩ := List.getElem_of_mem hgc
      obtain ⟨⟨t, conn⟩, hct⟩ : ∃ tc, mesh.topo.cells[c]? = some tc := ⟨_, List.getElem?_eq_getElem (by omega)⟩
      refine ⟨c, t, conn, hct, ![x 0, x 1, -30], (base c t conn _ hct (List.getElem?_eq_getElem hcl) _).2 ⟨hx, rfl⟩, x 2 / 3,
        by linarith, by linarith, Or.inr ⟨?_, ?_⟩⟩
      · rw [hlabel c _ (List.getElem?_eq_getElem hcl), Option.some.injEq, Option.some.injEq] at hname
        rcases hname with h | h <;> rw [h] <;> decide
      · funext i; fin_cases i
        · simp
        · simp
        · simp

/-! ## C152 -/

theorem columnAt_vertical {a b : ℝ} {n1 n2 L : ℕ} : columnAt ![0, 0, a] ![0, 0, b] n1 n2 L 0 = 0 ∧ columnAt ![0, 0, a] ![0, 0, b] n1 n2 L 1 = 0 := by
  unfold columnAt
  split <;> simp

theorem columnAt_mono {a b : ℝ} (ha : 0 ≤ a) (hb : 0 ≤ b) {n1 n2 : ℕ} (h1 : 0 < n1) :
    Monotone fun L => columnAt ![0, 0, a] ![0, 0, b] n1 n2 L 2 := by
  refine monotone_nat_of_le_succ fun L => ?_
  rcases Nat.lt_or_ge L n1 with h | h
  · simp only [columnAt, if_pos h.le, if_pos (show L + 1 ≤ n1 from h)]
    show (L : ℝ) / n1 * a ≤ ((L + 1 : ℕ) : ℝ) / n1 * a
    push_cast
    gcongr
    linarith
  · show columnAt _ _ _ _ L 2 ≤ columnAt _ _ _ _ (L + 1) 2
    rw [columnAt_above h1 h, columnAt_above h1 (by omega), show L + 1 - n1 = L - n1 + 1 by omega]
    show a + ((L - n1 : ℕ) : ℝ) / n2 * b ≤ a + ((L - n1 + 1 : ℕ) : ℝ) / n2 * b
    push_cast
    gcongr
    linarith

/-- A point of a cell of a vertical column is over its base, between its layers. -/
theorem vertical_cell {points : List (V3 ℝ)} {cells : List (ℕ × List ℕ)} {a b z : ℝ} (ha : 0 ≤ a) (hb : 0 ≤ b) {n1 n2 : ℕ} (h1 : 0 < n1)
    {dropped : ℕ → Prop} {label : ℕ → String} {C : Column} {pos node : ℕ → ℕ → ℕ} (hids : ∀ tc ∈ cells, ∀ x ∈ tc.2, x < points.length)
    (h : ColumnOver Eq (points.map fun p => ![p 0, p 1, z]) cells ![0, 0, a] ![0, 0, b] n1 n2 dropped label C pos node) {L c t : ℕ}
    {conn : List ℕ} (hL : L < n1 + n2) (hc : cells[c]? = some (t, conn)) {corners : List (V3 ℝ)} (hz : ∀ y ∈ corners, y 2 = 0)
    (hcorners : ∀ y, (∃ j ∈ conn, points[j]? = some y) ↔ y ∈ corners) {x : V3 ℝ} (hx : x ∈ cellRegion C.mesh (pos L c)) :
    ![x 0, x 1, 0] ∈ cellHull corners ∧ z + columnAt ![0, 0, a] ![0, 0, b] n1 n2 L 2 ≤ x 2 ∧
      x 2 ≤ z + columnAt ![0, 0, a] ![0, 0, b] n1 n2 (L + 1) 2 := by
  rw [column_region h1 (by intro tc htc i hi; rw [List.length_map]; exact hids tc htc i hi) h hL hc] at hx
  obtain ⟨p, hp, w, ⟨s, t, s0, t0, st, rfl⟩, rfl⟩ := Set.mem_add.1 hx
  obtain ⟨p1, p2⟩ := (base_at_depth z hz hcorners).1 hp
  have m : columnAt ![0, 0, a] ![0, 0, b] n1 n2 L 2 ≤ columnAt ![0, 0, a] ![0, 0, b] n1 n2 (L + 1) 2 :=
    columnAt_mono ha hb h1 (Nat.le_succ L)
  have v := columnAt_vertical (a := a) (b := b) (n1 := n1) (n2 := n2) (L := L)
  have v' := columnAt_vertical (a := a) (b := b) (n1 := n1) (n2 := n2) (L := L + 1)
  generalize columnAt ![0, 0, a] ![0, 0, b] n1 n2 L = A at *
  generalize columnAt ![0, 0, a] ![0, 0, b] n1 n2 (L + 1) = B at *
  simp only [Pi.add_apply, Pi.smul_apply, smul_eq_mul, v.1, v.2, v'.1, v'.2, mul_zero, add_zero, p2]
  obtain rfl : s = 1 - t := by linarith
  refine ⟨p1, ?_, ?_⟩
  · nlinarith [mul_nonneg t0 (sub_nonneg.2 m)]
  · nlinarith [mul_nonneg s0 (sub_nonneg.2 m)]

/-- **C152 (column).** The cells of a vertical column over cells that share no area share no volume. -/
theorem C152_column {points : List (V3 ℝ)} {cells : List (ℕ × List ℕ)} {a b z : ℝ} (ha : 0 ≤ a) (hb : 0 ≤ b) {n1 n2 : ℕ} (h1 : 0 < n1)
    {dropped : ℕ → Prop} {label : ℕ → String} {C : Column} {pos node : ℕ → ℕ → ℕ} (hids : ∀ tc ∈ cells, ∀ x ∈ tc.2, x < points.length)
    (h : ColumnOver Eq (points.map fun p => ![p 0, p 1, z]) cells ![0, 0, a] ![0, 0, b] n1 n2 dropped label C pos node)
    {corners : List (List (V3 ℝ))} (hlen : cells.length = corners.length) (hz : ∀ g ∈ corners, ∀ y ∈ g, y 2 = 0)
    (hcorners : ∀ (c : ℕ) tc g, cells[c]? = some tc → corners[c]? = some g → ∀ y, (∃ j ∈ tc.2, points[j]? = some y) ↔ y ∈ g)
    (apart : ∀ (c c' : ℕ) g g', c ≠ c' → corners[c]? = some g → corners[c']? = some g' → ¬ ShareArea (cellHull g) (cellHull g'))
    {i j : ℕ} (hi : i ∈ C.kept) (hj : j ∈ C.kept) (hij : i ≠ j) : ¬ ShareVolume (cellRegion C.mesh i) (cellRegion C.mesh j) := by
  obtain ⟨L, c, hL, hc, rfl, _⟩ := (h.kept i).1 hi
  obtain ⟨L', c', hL', hc', rfl, _⟩ := (h.kept j).1 hj
  have getc : ∀ c < cells.length, ∃ t conn g, cells[c]? = some (t, conn) ∧ corners[c]? = some g := fun c hc =>
    ⟨_, _, _, List.getElem?_eq_getElem hc, List.getElem?_eq_getElem (by omega)⟩
  obtain ⟨t, conn, g, e1, e2⟩ := getc c hc
  obtain ⟨t', conn', g', e1', e2'⟩ := getc c' hc'
  rintro ⟨x, r, hr, share⟩
  have both : ∀ y : V3 ℝ, (∀ k, |y k - x k| < r) → _ := fun y hy =>
    And.intro (vertical_cell ha hb h1 hids h hL e1 (hz g (List.mem_of_getElem? e2)) (hcorners c _ g e1 e2) (share y hy).1)
      (vertical_cell ha hb h1 hids h hL' e1' (hz g' (List.mem_of_getElem? e2')) (hcorners c' _ g' e1' e2') (share y hy).2)
  by_cases hcc : c = c'
  · subst hcc
    have hLL : L ≠ L' := by rintro rfl; exact hij rfl
    have up := both ![x 0, x 1, x 2 + r / 2] (by
      intro k; fin_cases k <;> simp [hr, abs_of_pos])
    have down := both ![x 0, x 1, x 2 - r / 2] (by
      intro k; fin_cases k <;> simp [hr, abs_of_pos])
    have u2 : (![x 0, x 1, x 2 + r / 2] : V3 ℝ) 2 = x 2 + r / 2 := rfl
    have d2 : (![x 0, x 1, x 2 - r / 2] : V3 ℝ) 2 = x 2 - r / 2 := rfl
    rw [u2] at up
    rw [d2] at down
    obtain ⟨⟨_, u1, u2⟩, _, u3, u4⟩ := up
    obtain ⟨⟨_, d1, d2⟩, _, d3, d4⟩ := down
    rcases Nat.lt_or_gt_of_ne hLL with hl | hl
    · have m : columnAt ![0, 0, a] ![0, 0, b] n1 n2 (L + 1) 2 ≤ columnAt ![0, 0, a] ![0, 0, b] n1 n2 L' 2 :=
        columnAt_mono ha hb h1 hl
      linarith
    · have m : columnAt ![0, 0, a] ![0, 0, b] n1 n2 (L' + 1) 2 ≤ columnAt ![0, 0, a] ![0, 0, b] n1 n2 L 2 :=
        columnAt_mono ha hb h1 hl
      linarith
  · refine apart c c' g g' hcc e2 e2' ⟨x, r, hr, fun y y0 y1 y2 => ?_⟩
    obtain ⟨⟨q, _⟩, q', _⟩ := both ![y 0, y 1, x 2] (by
      intro k; fin_cases k
      · exact y0
      · exact y1
      · simpa using hr)
    have e : (![y 0, y 1, 0] : V3 ℝ) = y := by funext k; fin_cases k <;> simp [y2]
    exact ⟨e ▸ q, e ▸ q'⟩

/-- **C152 (load_well_3d).** No two of the 7328 cells share any volume. -/
theorem C152_load_well_3d {vtk : VtkOracle ℝ} (ho : AppendsAll vtk.order) (hc : Cleans Eq vtk.clean)
    (rot : V3 ℝ → ℝ → V3 ℝ → V3 ℝ → V3 ℝ) {δ : Type _} [OfNat δ 0] [OfNat δ 32] (area : Arr3 (V3 ℝ) → List ℝ)
    {append : List (List (V3 ℝ) × Int) → List (List (V3 ℝ) × Int) → List (List (V3 ℝ) × Int)} (happ : ∀ a b, (append a b).Perm (a ++ b)) :
    ∃ out table, loadWell2d δ area append = .ok (out, table) ∧
      ∀ mesh : Surf ℝ UTopo, StackSurf mesh → groupCodes mesh.topo.cellData = some (out.map Prod.snd) →
        mesh.topo.cells.length = out.length → mesh.topo.table = some table →
        (∀ (c : ℕ) tc gc, mesh.topo.cells[c]? = some tc → out[c]? = some gc → ∀ y, (∃ j ∈ tc.2, mesh.points[j]? = some y) ↔ y ∈ gc.1) →
        ∃ C, wellColumn vtk rot columnNumbers mesh = .ok C ∧ C.kept.length = 7328 ∧ ∀ i ∈ C.kept, ∀ j ∈ C.kept, i ≠ j →
          ¬ ShareVolume (cellRegion C.mesh i) (cellRegion C.mesh j) := by
  obtain ⟨out, table, k1, k2⟩ := C130_load_well_3d ho hc rot (δ := δ) area happ
  obtain ⟨out', table', m1, m2⟩ := C149_load_well (δ := δ) area happ
  rw [k1] at m1; cases m1
  obtain ⟨out', table', n1, _, n3⟩ := C150_load_well (δ := δ) area happ
  rw [k1] at n1; cases n1
  refine ⟨out, table, k1, fun mesh hmesh hcodes hlen htab hcorners => ?_⟩
  obtain ⟨C, pos, node, label, g1, _, g3, g4, _⟩ := k2 mesh hmesh hcodes hlen htab
  refine ⟨C, g1, g4, fun i hi j hj hij => ?_⟩
  refine C152_column (corners := out.map Prod.fst) (by norm_num) (by norm_num) (by norm_num) hmesh.ids g3 (by simpa using hlen) ?_ ?_ ?_ hi hj hij
  · intro g hg y hy
    obtain ⟨gc, hgc, rfl⟩ := List.mem_map.1 hg
    have : y ∈ ⋃ gc ∈ out, cellHull gc.1 := Set.mem_iUnion₂.2 ⟨gc, hgc, subset_convexHull ℝ _ hy⟩
    rw [m2] at this
    exact this.2.2
  · intro c tc g htc hg
    rw [List.getElem?_map, Option.map_eq_some_iff] at hg
    obtain ⟨gc, hgc, rfl⟩ := hg
    exact hcorners c tc gc htc hgc
  · intro c c' g g' hcc hg hg'
    rw [List.getElem?_map, Option.map_eq_some_iff] at hg hg'
    obtain ⟨gc, hgc, rfl⟩ := hg
    obtain ⟨gc', hgc', rfl⟩ := hg'
    exact n3 c c' gc gc' hcc hgc hgc'

/-! ## Concrete cases -/

/-- A mesh of given cells, points that coincide being one. -/
theorem mesh_of_cells (out : List (List (V3 ℝ) × ℤ)) (table : Dict String ℤ) (hne : out ≠ []) :
    ∃ mesh : Surf ℝ UTopo, StackSurf mesh ∧ groupCodes mesh.topo.cellData = some (out.map Prod.snd) ∧
      mesh.topo.cells.length = out.length ∧ mesh.topo.table = some table ∧
      ∀ (c : ℕ) tc gc, mesh.topo.cells[c]? = some tc → out[c]? = some gc → ∀ y, (∃ j ∈ tc.2, mesh.points[j]? = some y) ↔ y ∈ gc.1 := by
  classical
  obtain ⟨pts, hpts⟩ : ∃ pts : List (V3 ℝ), pts = out.flatMap Prod.fst := ⟨_, rfl⟩
  have mem : ∀ gc ∈ out, ∀ y ∈ gc.1, y ∈ pts := fun gc hgc y hy => hpts ▸ List.mem_flatMap.2 ⟨gc, hgc, hy⟩
  have at_ : ∀ y ∈ pts, pts[pts.idxOf y]? = some y := fun y hy => by
    rw [List.getElem?_eq_getElem (List.idxOf_lt_length_of_mem hy), List.getElem_idxOf]
  refine ⟨⟨pts, out.map fun gc => (if gc.1.length = 4 then 9 else 5, gc.1.map fun y => pts.idxOf y), [],
    [("CellGroup", ⟨false, out.map Prod.snd⟩)], some table⟩, ⟨by simpa using hne, ?_, ?_, ?_, by simp [Arrays], ⟨?_, by simp⟩⟩, rfl, by simp, rfl, ?_⟩
  · intro tc htc x hx
    obtain ⟨gc, hgc, rfl⟩ := List.mem_map.1 htc
    obtain ⟨y, hy, rfl⟩ := List.mem_map.1 hx
    exact List.idxOf_lt_length_of_mem (mem gc hgc y hy)
  · intro tc htc
    obtain ⟨gc, hgc, rfl⟩ := List.mem_map.1 htc
    dsimp only
    split <;> simp
  · intro tc htc
    obtain ⟨gc, hgc, rfl⟩ := List.mem_map.1 htc
    dsimp only
    split <;> simp
  · intro kv hkv
    simp only [List.mem_cons, List.not_mem_nil, or_false] at hkv
    subst hkv
    simp
  · intro c tc gc htc hgc y
    rw [List.getElem?_map, hgc] at htc
    obtain rfl := Option.some.inj htc
    have hg := List.mem_of_getElem? hgc
    constructor
    · rintro ⟨j, hj, hy⟩
      obtain ⟨y', hy', rfl⟩ := List.mem_map.1 hj
      rw [at_ y' (mem gc hg y' hy')] at hy
      exact Option.some.inj hy ▸ hy'
    · intro hy
      exact ⟨_, List.mem_map_of_mem hy, at_ y (mem gc hg y hy)⟩

/-- Concrete case of C151 and C152: the cells of load_well_2d, merged where points coincide; a point 20 deep is in some cell, one 31
deep in none. -/
example (rot : V3 ℝ → ℝ → V3 ℝ → V3 ℝ → V3 ℝ) : ∃ mesh C, wellColumn exactVtk rot columnNumbers mesh = .ok C ∧
    (∃ i ∈ C.kept, (![9, 9, -20] : V3 ℝ) ∈ cellRegion C.mesh i) ∧ ¬ ∃ i ∈ C.kept, (![0, 0, -31] : V3 ℝ) ∈ cellRegion C.mesh i := by
  obtain ⟨out, table, h1, h2⟩ := C151_load_well_3d exactVtk_ok.1 exactVtk_ok.2 rot (δ := ℤ) (fun _ => [])
    (append := (· ++ ·)) (fun a b => List.Perm.refl _)
  obtain ⟨_, out', _, c1, _, _, c2, _⟩ := C127_load_well (δ := ℤ) (fun _ => []) (append := (· ++ ·)) (fun a b => List.Perm.refl _)
  rw [h1] at c1; cases c1
  obtain ⟨mesh, q1, q2, q3, q4, q5⟩ := mesh_of_cells out table (by rintro rfl; simp at c2)
  obtain ⟨C, e1, e2⟩ := h2 mesh q1 q2 q3 q4 q5
  refine ⟨mesh, C, e1, ?_, ?_⟩
  · have : (![9, 9, -20] : V3 ℝ) ∈ ⋃ i ∈ C.kept, cellRegion C.mesh i := by
      rw [e2]
      left
      refine ⟨?_, ?_, ?_, ?_⟩ <;> simp <;> norm_num [abs_of_pos]
    simpa using this
  · intro hcon
    have : (![0, 0, -31] : V3 ℝ) ∈ ⋃ i ∈ C.kept, cellRegion C.mesh i := by simpa using hcon
    rw [e2] at this
    rcases this with ⟨_, _, h, _⟩ | ⟨h, _⟩
    · simp at h; linarith
    · simp at h; linarith

end Gridder
