import Verif.Props.Prisms
import Mathlib.Analysis.Convex.StdSimplex
import Mathlib.LinearAlgebra.AffineSpace.Independent

/-!
# C135: the cells of a stack on an unstructured surface fill the body between its surfaces
-/

namespace Gridder
open Spec

namespace Spec

/-- The nodes of a cell of a surface, moved along the axis to the heights `z`. -/
def movedNodes (axis : Fin 3) (points : List (Fin 3 → ℝ)) (conn : List ℕ) (z : ℕ → ℝ) : Set (Fin 3 → ℝ) :=
  {x | ∃ j ∈ conn, ∃ p, points[j]? = some p ∧ x = Function.update p axis (z j)}

/-- The shadow of a cell along the axis: its nodes moved to height 0, and all convex combinations of them. -/
def shadow (axis : Fin 3) (points : List (Fin 3 → ℝ)) (conn : List ℕ) : Set (Fin 3 → ℝ) :=
  convexHull ℝ (movedNodes axis points conn fun _ => 0)

/-- The shadow of a cell is a triangle (or a segment or point) with independent corners. -/
def SimpleShadow (axis : Fin 3) (points : List (Fin 3 → ℝ)) (conn : List ℕ) : Prop :=
  AffineIndependent ℝ fun i : Fin conn.length => Function.update (points.getD conn[i] 0) axis 0

/-- The cells of `M` are `m` layers over the cells of a surface; cell `c` of layer `L` is cell `at_ L c` of the mesh and lies
between the heights `Z L` and `Z (L + 1)` over the points of the surface.  The layers over a cell fill the column between the
heights `low` and `high` of its nodes, and over triangles two of them meet only in the triangle between them; cells lie over the shadows
of their base cells, so that columns meet only over points that are in both shadows. -/
structure FillsColumns (axis : Fin 3) (points : List (Fin 3 → ℝ)) (cells : List (ℕ × List ℕ)) (low high : (Fin 3 → ℝ) → ℝ)
    (M : UMesh ℝ) (m : ℕ) (at_ : ℕ → ℕ → ℕ) (Z : ℕ → ℕ → ℝ) : Prop where
  size : M.cells.length = m * cells.length
  cover : ∀ n, n < M.cells.length → ∃ L c, L < m ∧ c < cells.length ∧ at_ L c = n
  inj : ∀ L L' c c', L < m → L' < m → c < cells.length → c' < cells.length → at_ L c = at_ L' c' → L = L' ∧ c = c'
  rises : ∀ j L, NodeOf cells j → L < m → Z L j ≤ Z (L + 1) j
  first : ∀ (j : ℕ) p, NodeOf cells j → points[j]? = some p → Z 0 j = low p
  last : ∀ (j : ℕ) p, NodeOf cells j → points[j]? = some p → Z m j = high p
  region : ∀ L (c t : ℕ) conn, L < m → cells[c]? = some (t, conn) → cellRegion M (at_ L c) =
    convexHull ℝ (movedNodes axis points conn (Z L) ∪ movedNodes axis points conn (Z (L + 1)))
  fills : ∀ (c t : ℕ) conn, cells[c]? = some (t, conn) → (⋃ L, ⋃ (_ : L < m), cellRegion M (at_ L c)) =
    convexHull ℝ (movedNodes axis points conn (Z 0) ∪ movedNodes axis points conn (Z m))
  apart : ∀ (c t : ℕ) conn, cells[c]? = some (t, conn) → SimpleShadow axis points conn → ∀ L L', L < L' → L' < m →
    cellRegion M (at_ L c) ∩ cellRegion M (at_ L' c) ⊆ convexHull ℝ (movedNodes axis points conn (Z L'))
  over : ∀ L (c t : ℕ) conn, L < m → cells[c]? = some (t, conn) → ∀ x ∈ cellRegion M (at_ L c),
    Function.update x axis 0 ∈ shadow axis points conn

end Spec

section
variable {ι : Type _} [Fintype ι]

/-- The points over a combination (with weights in `W`) of the points `q`, between the combinations of two heights. -/
def column (axis : Fin 3) (W : Set (ι → ℝ)) (q : ι → V3 ℝ) (lo hi : ι → ℝ) : Set (V3 ℝ) :=
  {x | ∃ w ∈ W, ∃ h, ∑ i, w i * lo i ≤ h ∧ h ≤ ∑ i, w i * hi i ∧ x = Function.update (∑ i, w i • q i) axis h}

theorem sum_update (axis : Fin 3) (q : ι → V3 ℝ) (w z : ι → ℝ) :
    ∑ i, w i • Function.update (q i) axis (z i) = Function.update (∑ i, w i • q i) axis (∑ i, w i * z i) := by
  funext ax
  by_cases h : ax = axis
  · subst h; simp [Finset.sum_apply]
  · simp [Finset.sum_apply, Function.update_of_ne h]

/-- A convex set contains the points between two points over each other. -/
theorem vertical_mem {S : Set (V3 ℝ)} (hS : Convex ℝ S) {axis : Fin 3} {v : V3 ℝ} {l u h : ℝ}
    (hl : Function.update v axis l ∈ S) (hu : Function.update v axis u ∈ S) (h1 : l ≤ h) (h2 : h ≤ u) :
    Function.update v axis h ∈ S := by
  rcases eq_or_lt_of_le (h1.trans h2) with e | hlt
  · obtain rfl : h = l := le_antisymm (by rw [e]; exact h2) h1
    exact hl
  · have hd : 0 < u - l := by linarith
    have := hS hl hu (a := (u - h) / (u - l)) (b := (h - l) / (u - l)) (div_nonneg (by linarith) hd.le)
      (div_nonneg (by linarith) hd.le) (by rw [← add_div, show u - h + (h - l) = u - l by ring, div_self hd.ne'])
    convert this using 1
    funext ax
    by_cases hax : ax = axis
    · subst hax
      simp
      field_simp
      ring
    · simp [Function.update_of_ne hax]
      field_simp
      ring

theorem column_hull (axis : Fin 3) (q : ι → V3 ℝ) {lo hi : ι → ℝ} (h : ∀ i, lo i ≤ hi i) :
    convexHull ℝ (Set.range (fun i => Function.update (q i) axis (lo i)) ∪
      Set.range fun i => Function.update (q i) axis (hi i)) = column axis (stdSimplex ℝ ι) q lo hi := by
  classical
  apply Set.Subset.antisymm
  · refine convexHull_min ?_ ?_
    · have key : ∀ i z, lo i ≤ z → z ≤ hi i → Function.update (q i) axis z ∈ column axis (stdSimplex ℝ ι) q lo hi := by
        intro i z h1 h2
        refine ⟨Pi.single i 1, ⟨?_, by simp⟩, z, by simpa [Pi.single_apply], by simpa [Pi.single_apply], ?_⟩
        · intro k
          rw [Pi.single_apply]
          split_ifs <;> simp
        · congr 1
          simp [Pi.single_apply]
      rintro x (⟨i, rfl⟩ | ⟨i, rfl⟩)
      · exact key i _ le_rfl (h i)
      · exact key i _ (h i) le_rfl
    · rintro _ ⟨w, ⟨w0, w1⟩, z, hl, hh, rfl⟩ _ ⟨w', ⟨w0', w1'⟩, z', hl', hh', rfl⟩ r s hr hs hrs
      have e : ∀ f : ι → ℝ, ∑ i, (r * w i + s * w' i) * f i = r * ∑ i, w i * f i + s * ∑ i, w' i * f i := by
        intro f
        rw [Finset.mul_sum, Finset.mul_sum, ← Finset.sum_add_distrib]
        exact Finset.sum_congr rfl fun i _ => by ring
      refine ⟨fun i => r * w i + s * w' i, ⟨fun i => add_nonneg (mul_nonneg hr (w0 i)) (mul_nonneg hs (w0' i)), ?_⟩,
        r * z + s * z', ?_, ?_, ?_⟩
      · rw [Finset.sum_add_distrib, ← Finset.mul_sum, ← Finset.mul_sum, w1, w1']; linarith
      · rw [e]
        exact add_le_add (mul_le_mul_of_nonneg_left hl hr) (mul_le_mul_of_nonneg_left hl' hs)
      · rw [e]
        exact add_le_add (mul_le_mul_of_nonneg_left hh hr) (mul_le_mul_of_nonneg_left hh' hs)
      · funext ax
        by_cases hax : ax = axis
        · subst hax; simp
        · simp only [Pi.add_apply, Pi.smul_apply, Function.update_of_ne hax, Finset.sum_apply, smul_eq_mul]
          rw [← e]
  · rintro x ⟨w, ⟨w0, w1⟩, z, hl, hh, rfl⟩
    have hconv := convex_convexHull ℝ (Set.range (fun i => Function.update (q i) axis (lo i)) ∪
      Set.range fun i => Function.update (q i) axis (hi i))
    have m1 := hconv.sum_mem (t := Finset.univ) (w := w) (z := fun i => Function.update (q i) axis (lo i)) (fun i _ => w0 i) w1
      (fun i _ => subset_convexHull ℝ _ (.inl ⟨i, rfl⟩))
    have m2 := hconv.sum_mem (t := Finset.univ) (w := w) (z := fun i => Function.update (q i) axis (hi i)) (fun i _ => w0 i) w1
      (fun i _ => subset_convexHull ℝ _ (.inr ⟨i, rfl⟩))
    rw [sum_update] at m1 m2
    exact vertical_mem hconv m1 m2 hl hh

theorem sum_le_of_le {w f g : ι → ℝ} (w0 : ∀ i, 0 ≤ w i) (h : ∀ i, f i ≤ g i) : ∑ i, w i * f i ≤ ∑ i, w i * g i :=
  Finset.sum_le_sum fun i _ => mul_le_mul_of_nonneg_left (h i) (w0 i)

/-- Layers of rising heights over one cell fill the column between the first and the last. -/
theorem columns_fill (axis : Fin 3) {W : Set (ι → ℝ)} (hW : W ⊆ stdSimplex ℝ ι) (q : ι → V3 ℝ) {z : ℕ → ι → ℝ} {m : ℕ} (hm : 0 < m) (h : ∀ L < m, ∀ i, z L i ≤ z (L + 1) i) :
    (⋃ L, ⋃ (_ : L < m), column axis W q (z L) (z (L + 1))) = column axis W q (z 0) (z m) := by
  have hmono : ∀ i L L', L ≤ L' → L' ≤ m → z L i ≤ z L' i := by
    intro i L L' hL
    induction L', hL using Nat.le_induction with
    | base => intro _; exact le_rfl
    | succ L' _ ih => intro hm'; exact le_trans (ih (by omega)) (h L' (by omega) i)
  ext x
  simp only [Set.mem_iUnion]
  constructor
  · rintro ⟨L, hL, w, hw, y, hl, hh, rfl⟩
    have w0 := (hW hw).1
    exact ⟨w, hw, y, le_trans (sum_le_of_le w0 fun i => hmono i 0 L (Nat.zero_le _) hL.le) hl,
      le_trans hh (sum_le_of_le w0 fun i => hmono i (L + 1) m hL le_rfl), rfl⟩
  · rintro ⟨w, hw, y, hl, hh, rfl⟩
    obtain ⟨L, hL, g1, g2⟩ := exists_step (f := fun L => ∑ i, w i * z L i) hm hl hh
    exact ⟨L, hL, w, hw, y, g1, g2, rfl⟩

/-- Where the weights are determined by the shadow, two layers meet only on the surface between them. -/
theorem columns_apart (axis : Fin 3) {W : Set (ι → ℝ)} (hW : W ⊆ stdSimplex ℝ ι) (q : ι → V3 ℝ)
    (hq : Set.InjOn (fun w : ι → ℝ => ∑ i, w i • Function.update (q i) axis 0) W) {a b c d : ι → ℝ} (hbc : ∀ i, b i ≤ c i) :
    column axis W q a b ∩ column axis W q c d ⊆ {x | ∃ w ∈ W, x = ∑ i, w i • Function.update (q i) axis (c i)} := by
  rintro x ⟨⟨w, hw, y, -, hh, rfl⟩, w', hw', y', hl', -, he⟩
  have hy : y = y' := by simpa using congrFun he axis
  obtain rfl : w = w' := by
    refine hq hw hw' ?_
    show ∑ i, w i • Function.update (q i) axis 0 = ∑ i, w' i • Function.update (q i) axis 0
    rw [sum_update axis q w fun _ => 0, sum_update axis q w' fun _ => 0]
    funext ax
    by_cases hax : ax = axis
    · subst hax; simp
    · simpa [Function.update_of_ne hax] using congrFun he ax
  have : y = ∑ i, w i * c i := le_antisymm (le_trans hh (sum_le_of_le (hW hw).1 hbc)) (by rw [hy]; exact hl')
  exact ⟨w, hw, by rw [this, ← sum_update]⟩

/-- The shadow of an independent cell determines the weights. -/
theorem independent_weights {q : ι → V3 ℝ} (hq : AffineIndependent ℝ q) :
    Set.InjOn (fun w : ι → ℝ => ∑ i, w i • q i) (stdSimplex ℝ ι) := by
  rintro w ⟨_, w1⟩ w' ⟨_, w1'⟩ he
  funext i
  have := affineIndependent_iff.1 hq Finset.univ (fun i => w i - w' i) (by rw [Finset.sum_sub_distrib, w1, w1', sub_self]) (by
    simp only [sub_smul, Finset.sum_sub_distrib]
    exact sub_eq_zero.2 he) i (Finset.mem_univ i)
  linarith

/-- A column lies over the combinations of its points. -/
theorem column_shadow (axis : Fin 3) {W : Set (ι → ℝ)} (hW : W ⊆ stdSimplex ℝ ι) (q : ι → V3 ℝ) {lo hi : ι → ℝ} {x : V3 ℝ}
    (hx : x ∈ column axis W q lo hi) :
    Function.update x axis 0 ∈ convexHull ℝ (Set.range fun i => Function.update (q i) axis 0) := by
  obtain ⟨w, hw, y, -, -, rfl⟩ := hx
  obtain ⟨w0, w1⟩ := hW hw
  have : Function.update (Function.update (∑ i, w i • q i) axis y) axis 0 =
      ∑ i, w i • Function.update (q i) axis 0 := by
    rw [sum_update axis q w fun _ => 0, Function.update_idem]; simp
  rw [this]
  exact (convex_convexHull ℝ _).sum_mem (fun i _ => w0 i) w1 fun i _ => subset_convexHull ℝ _ ⟨i, rfl⟩

end

theorem movedNodes_range {axis : Fin 3} {points : List (V3 ℝ)} {conn : List ℕ} (h : ∀ j ∈ conn, j < points.length) (z : ℕ → ℝ) :
    movedNodes axis points conn z =
      Set.range fun i : Fin conn.length => Function.update (points.getD conn[i] 0) axis (z conn[i]) := by
  ext x
  constructor
  · rintro ⟨j, hj, p, hp, rfl⟩
    obtain ⟨i, hi, rfl⟩ := List.mem_iff_getElem.1 hj
    refine ⟨⟨i, hi⟩, ?_⟩
    simp only [Fin.getElem_fin, List.getD_eq_getElem?_getD, hp, Option.getD_some]
  · rintro ⟨i, rfl⟩
    have hj := h _ (List.getElem_mem i.2)
    refine ⟨conn[i], List.getElem_mem i.2, points[conn[i]], List.getElem?_eq_getElem hj, ?_⟩
    simp only [Fin.getElem_fin, List.getD_eq_getElem?_getD, List.getElem?_eq_getElem hj, Option.getD_some]

/-- The region of a prism between two heights over the nodes of its base cell. -/
theorem layer_heights {flip : Bool} {key : String} {mesh : Surf ℝ UTopo} (hids : ∀ tc ∈ mesh.topo.cells, ∀ x ∈ tc.2, x < mesh.points.length)
    {base : Dict String (DArr ℤ)} {surfs : List (List (V3 ℝ))} {subs : List (List ℝ)} {names : List (ℕ → String)} {M : UMesh ℝ}
    {table : List (String × Int)} {pos node : ℕ → ℕ → ℕ}
    (h : LayeredU Eq flip key mesh.points.length mesh.topo.cells base surfs subs names M table pos node)
    {axis : Fin 3} {Z : ℕ → ℕ → ℝ} {L : ℕ}
    (hA : ∀ (j : ℕ) p, NodeOf mesh.topo.cells j → mesh.points[j]? = some p →
      M.points[node L j]? = some (Function.update p axis (Z L j)) ∧
      M.points[node (L + 1) j]? = some (Function.update p axis (Z (L + 1) j)))
    {c t : ℕ} {conn : List ℕ} (hL : L < (subs.map fun ts => ts.length - 1).sum) (hc : mesh.topo.cells[c]? = some (t, conn)) :
    cellRegion M (pos L c) = convexHull ℝ (movedNodes axis mesh.points conn (Z L) ∪ movedNodes axis mesh.points conn (Z (L + 1))) := by
  obtain ⟨t', cell, h1, h2⟩ := h.cell L c t conn hL hc
  have hmem := List.mem_of_getElem? hc
  rw [cellRegion]
  congr 1
  ext x
  have hdm : ∀ (l j : ℕ), j < mesh.points.length → (l * mesh.points.length + j) / mesh.points.length = l ∧
      (l * mesh.points.length + j) % mesh.points.length = j := by
    intro l j hj
    rw [Nat.mul_comm]
    exact ⟨by rw [Nat.mul_add_div (by omega), Nat.div_eq_of_lt hj, Nat.add_zero], by rw [Nat.mul_add_mod, Nat.mod_eq_of_lt hj]⟩
  simp only [h2, Option.some.injEq, Prod.mk.injEq]
  constructor
  · rintro ⟨_, _, ⟨rfl, rfl⟩, id, hid, hx⟩
    rw [renamed_ids, List.mem_map] at hid
    obtain ⟨i, hi, rfl⟩ := hid
    obtain ⟨j, hj, hij⟩ := (prismOver_ids_mem h1 i).1 hi
    have hjl := hids _ hmem j hj
    obtain ⟨a1, a2⟩ := hA j mesh.points[j] ⟨_, hmem, hj⟩ (List.getElem?_eq_getElem hjl)
    rcases hij with rfl | rfl
    · rw [(hdm _ _ hjl).1, (hdm _ _ hjl).2, a1] at hx
      exact .inl ⟨j, hj, _, List.getElem?_eq_getElem hjl, (Option.some.inj hx).symm⟩
    · rw [(hdm _ _ hjl).1, (hdm _ _ hjl).2, a2] at hx
      exact .inr ⟨j, hj, _, List.getElem?_eq_getElem hjl, (Option.some.inj hx).symm⟩
  · rintro (⟨j, hj, p, hp, rfl⟩ | ⟨j, hj, p, hp, rfl⟩)
    · have hjl := hids _ hmem j hj
      obtain ⟨a1, a2⟩ := hA j p ⟨_, hmem, hj⟩ hp
      refine ⟨_, _, ⟨rfl, rfl⟩, ?_⟩
      simp only [renamed_ids, List.mem_map]
      refine ⟨_, ⟨_, (prismOver_ids_mem h1 _).2 ⟨j, hj, .inl rfl⟩, rfl⟩, ?_⟩
      rw [(hdm _ _ hjl).1, (hdm _ _ hjl).2, a1]
    · have hjl := hids _ hmem j hj
      obtain ⟨a1, a2⟩ := hA j p ⟨_, hmem, hj⟩ hp
      refine ⟨_, _, ⟨rfl, rfl⟩, ?_⟩
      simp only [renamed_ids, List.mem_map]
      refine ⟨_, ⟨_, (prismOver_ids_mem h1 _).2 ⟨j, hj, .inr rfl⟩, rfl⟩, ?_⟩
      rw [(hdm _ _ hjl).1, (hdm _ _ hjl).2, a2]

/-- Layers between surfaces at rising heights over the base. -/
theorem layered_columns {flip : Bool} {key : String} {mesh : Surf ℝ UTopo}
    (hids : ∀ tc ∈ mesh.topo.cells, ∀ x ∈ tc.2, x < mesh.points.length)
    {base : Dict String (DArr ℤ)} {surfs : List (List (V3 ℝ))} {subs : List (List ℝ)} {names : List (ℕ → String)} {M : UMesh ℝ}
    {table : List (String × Int)} {pos node : ℕ → ℕ → ℕ}
    (h : LayeredU Eq flip key mesh.points.length mesh.topo.cells base surfs subs names M table pos node)
    {axis : Fin 3} {H : ℕ → V3 ℝ → ℝ} (hne : subs ≠ []) (hsubs : ∀ ts ∈ subs, ∃ n, Subdivision n ts)
    (hord : ∀ p ∈ mesh.points, ∀ k < subs.length, H k p ≤ H (k + 1) p)
    (hnodes : ∀ (k : ℕ) ts, subs[k]? = some ts → ∀ (j s : ℕ) t p, NodeOf mesh.topo.cells j → ts[s]? = some t →
      mesh.points[j]? = some p → M.points[node (layersIn subs k + s) j]? =
        some (Function.update p axis ((1 - t) * H k p + t * H (k + 1) p))) :
    ∃ Z, FillsColumns axis mesh.points mesh.topo.cells (H 0) (H subs.length) M (subs.map fun ts => ts.length - 1).sum pos Z := by
  set m := (subs.map fun ts => ts.length - 1).sum with hm
  set Z : ℕ → ℕ → ℝ := fun L j => (M.points[node L j]?).getD 0 axis with hZ
  have h01 : ∀ ts ∈ subs, fromZeroToOne ts := fun ts ht => by
    obtain ⟨n, hn⟩ := hsubs ts ht
    exact subdivision_zeroOne hn
  have hpart : ∀ L < m, ∃ (k s : ℕ) (ts : List ℝ) (t t' : ℝ), subs[k]? = some ts ∧ L = layersIn subs k + s ∧
      ts[s]? = some t ∧ ts[s + 1]? = some t' ∧ t < t' := by
    intro L hL
    obtain ⟨k, ts, s, k1, k2, k3⟩ := exists_part subs L hL
    obtain ⟨n, hn⟩ := hsubs ts (List.mem_of_getElem? k1)
    exact ⟨k, s, ts, ts[s], ts[s + 1], k1, k3, List.getElem?_eq_getElem _, List.getElem?_eq_getElem _,
      List.pairwise_iff_getElem.1 hn.increasing s (s + 1) _ _ (Nat.lt_succ_self s)⟩
  have hlt : ∀ j, NodeOf mesh.topo.cells j → j < mesh.points.length := by
    rintro j ⟨tc, h1, h2⟩; exact hids tc h1 j h2
  have hA : ∀ L < m, ∀ (j : ℕ) p, NodeOf mesh.topo.cells j → mesh.points[j]? = some p →
      (M.points[node L j]? = some (Function.update p axis (Z L j)) ∧
      M.points[node (L + 1) j]? = some (Function.update p axis (Z (L + 1) j))) ∧ Z L j ≤ Z (L + 1) j := by
    intro L hL j p hj hp
    obtain ⟨k, s, ts, t, t', k1, rfl, k3, k4, k5⟩ := hpart L hL
    have e1 := hnodes k ts k1 j s t p hj k3 hp
    have e2 := hnodes k ts k1 j (s + 1) t' p hj k4 hp
    rw [← Nat.add_assoc] at e2
    simp only [hZ, e1, e2, Option.getD_some, Function.update_self, and_self, true_and]
    have := hord p (List.mem_of_getElem? hp) k (List.getElem?_eq_some_iff.1 k1).1
    nlinarith
  have hrises : ∀ j L, NodeOf mesh.topo.cells j → L < m → Z L j ≤ Z (L + 1) j := fun j L hj hL =>
    (hA L hL j _ hj (List.getElem?_eq_getElem (hlt j hj))).2
  have hlen : 0 < subs.length := List.length_pos_iff.2 hne
  obtain ⟨ts0, hts0⟩ : ∃ ts, subs[(0 : ℕ)]? = some ts := ⟨_, List.getElem?_eq_getElem (by omega)⟩
  obtain ⟨tsl, htsl⟩ : ∃ ts, subs[subs.length - 1]? = some ts := ⟨_, List.getElem?_eq_getElem (by omega)⟩
  have hlast : layersIn subs (subs.length - 1) + (tsl.length - 1) = m := by
    rw [← layersIn_succ htsl, Nat.sub_add_cancel hlen, layersIn, List.take_length]
  have hpos : 0 < m := by
    have := layersIn_le hts0
    have h2 := (h01 _ (List.mem_of_getElem? hts0)).1
    omega
  have hregion : ∀ L (c t : ℕ) conn, L < m → mesh.topo.cells[c]? = some (t, conn) → cellRegion M (pos L c) =
      convexHull ℝ (movedNodes axis mesh.points conn (Z L) ∪ movedNodes axis mesh.points conn (Z (L + 1))) :=
    fun L c t conn hL hc => layer_heights hids h (fun j p hj hp => (hA L hL j p hj hp).1) hL hc
  have hcol : ∀ L (c t : ℕ) conn, L < m → mesh.topo.cells[c]? = some (t, conn) → cellRegion M (pos L c) =
      column axis (stdSimplex ℝ (Fin conn.length)) (fun i : Fin conn.length => mesh.points.getD conn[i] 0) (fun i => Z L conn[i]) (fun i => Z (L + 1) conn[i]) := by
    intro L c t conn hL hc
    have hmem := List.mem_of_getElem? hc
    rw [hregion L c t conn hL hc, movedNodes_range (hids _ hmem), movedNodes_range (hids _ hmem)]
    exact column_hull axis _ fun i => hrises _ L ⟨_, hmem, List.getElem_mem i.2⟩ hL
  have hmono : ∀ j, NodeOf mesh.topo.cells j → ∀ L L', L ≤ L' → L' ≤ m → Z L j ≤ Z L' j := by
    intro j hj L L' hL
    induction L', hL using Nat.le_induction with
    | base => intro _; exact le_rfl
    | succ L' _ ih => intro hm'; exact le_trans (ih (by omega)) (hrises j L' hj (by omega))
  refine ⟨Z, h.size, h.cover, h.inj, hrises, ?_, ?_, hregion, ?_, ?_, ?_⟩
  · intro j p hj hp
    have := hnodes 0 ts0 hts0 j 0 0 p hj (h01 _ (List.mem_of_getElem? hts0)).2.1 hp
    rw [show layersIn subs 0 + 0 = 0 from rfl] at this
    simp only [hZ, this, Option.getD_some, Function.update_self]
    ring
  · intro j p hj hp
    have := hnodes _ tsl htsl j _ 1 p hj (h01 _ (List.mem_of_getElem? htsl)).2.2 hp
    rw [hlast, Nat.sub_add_cancel hlen] at this
    simp only [hZ, this, Option.getD_some, Function.update_self]
    ring
  · intro c t conn hc
    have hmem := List.mem_of_getElem? hc
    have hin : ∀ j ∈ conn, j < mesh.points.length := hids _ hmem
    rw [movedNodes_range hin, movedNodes_range hin,
      column_hull axis (fun i : Fin conn.length => mesh.points.getD conn[i] 0) (lo := fun i => Z 0 conn[i]) (hi := fun i => Z m conn[i])
        fun i => hmono _ ⟨_, hmem, List.getElem_mem i.2⟩ 0 m (Nat.zero_le _) le_rfl,
      ← columns_fill axis subset_rfl _ (z := fun L (i : Fin conn.length) => Z L conn[i]) hpos
        fun L hL i => hrises _ L ⟨_, hmem, List.getElem_mem i.2⟩ hL]
    refine Set.iUnion_congr fun L => Set.iUnion_congr fun hL => hcol L c t conn hL hc
  · intro c t conn hc hsh L L' hLL hL'
    have hmem := List.mem_of_getElem? hc
    rw [hcol L c t conn (by omega) hc, hcol L' c t conn hL' hc, movedNodes_range (hids _ hmem)]
    refine (columns_apart axis subset_rfl _ (independent_weights hsh) fun i => hmono _ ⟨_, hmem, List.getElem_mem i.2⟩ (L + 1) L' hLL hL'.le).trans ?_
    rintro x ⟨w, ⟨w0, w1⟩, rfl⟩
    exact (convex_convexHull ℝ _).sum_mem (fun i _ => w0 i) w1 fun i _ => subset_convexHull ℝ _ ⟨i, rfl⟩
  · intro L c t conn hL hc x hx
    have hmem := List.mem_of_getElem? hc
    rw [hcol L c t conn hL hc] at hx
    rw [shadow, movedNodes_range (hids _ hmem)]
    exact column_shadow axis subset_rfl _ hx

/-- The layers of a stack of profiles. -/
theorem stack_layers {vtk : VtkOracle ℝ} (ho : AppendsAll vtk.order) (hc : Cleans Eq vtk.clean) (invert : Bool)
    (ignore : List String) (dflt : String) (o : InterpOracle ℝ) (mesh : Surf ℝ UTopo) (hmesh : StackSurf mesh) (axis : Fin 3)
    (as : List (Profile × Rest ℝ (Opts (Resolution ℝ × Option String)))) (has : 2 ≤ as.length)
    (hres : ∀ a ∈ as.tail, ∃ m ts, resolutionToPerc a.2.opts.sub.1 a.2.opts.sub.2 = .ok ts ∧ Subdivision m ts) :
    ∃ s, (Stack.new mesh axis true).run o ((profileAdds as).map addCall) = .ok s ∧
      ((∀ a ∈ as.tail, Acceptable mesh.topo.cells.length a.2.opts.group) → ∃ r, stack3DU vtk invert ignore dflt s = .ok r) ∧
      ∀ M table s', stack3DU vtk invert ignore dflt s = .ok ((M, table), s') →
        ∃ flip key base surfs subs names pos node,
          LayeredU Eq flip key mesh.points.length mesh.topo.cells base surfs subs names M table pos node ∧
          subs.length = as.length - 1 ∧ (∀ ts ∈ subs, ∃ n, Subdivision n ts) ∧
          (∀ (k : ℕ) ts, subs[k]? = some ts → ∀ (j s : ℕ) t p, NodeOf mesh.topo.cells j → ts[s]? = some t →
            mesh.points[j]? = some p → M.points[node (layersIn subs k + s) j]? =
              some (Function.update p axis ((1 - t) * cutHeight (as.map fun a => (a.1, a.2.thickness, a.2.priority)) k p +
                t * cutHeight (as.map fun a => (a.1, a.2.thickness, a.2.priority)) (k + 1) p))) ∧
          surfs.length = as.length ∧
          AtHeights axis mesh.points (cutHeight (as.map fun a => (a.1, a.2.thickness, a.2.priority))) surfs ∧
          ∀ (k : ℕ) a, as[k + 1]? = some a → ∃ ts, resolutionToPerc a.2.opts.sub.1 a.2.opts.sub.2 = .ok ts ∧ subs[k]? = some ts := by
  obtain ⟨s, h1, h2, h3⟩ := C124_unstructured_partial ho hc invert ignore dflt o mesh hmesh axis as has
    (fun a ha => by obtain ⟨m, ts, t1, t2⟩ := hres a ha; exact ⟨ts, t1, subdivision_zeroOne t2⟩)
  refine ⟨s, h1, h2, fun M table s' hM => ?_⟩
  obtain ⟨surfs, subs, names, pos, node, e1, e2, e3, e4, e5, e6⟩ := h3 M table s' hM
  have hl : subs.length = as.length - 1 := by simpa using e2
  have hget : ∀ (k : ℕ) ts, subs[k]? = some ts → ∃ a, as[k + 1]? = some a ∧
      resolutionToPerc a.2.opts.sub.1 a.2.opts.sub.2 = .ok ts ∧ a ∈ as.tail := by
    intro k ts hk
    have hk' : k + 1 < as.length := by have := (List.getElem?_eq_some_iff.1 hk).1; omega
    have ha := List.getElem?_eq_getElem hk'
    obtain ⟨ts', _, t1, t2, _⟩ := e6 k _ ha
    rw [hk] at t2
    obtain rfl := Option.some.inj t2
    refine ⟨_, ha, t1, List.mem_of_getElem? (i := k) ?_⟩
    rw [List.getElem?_tail]; exact ha
  refine ⟨_, _, _, surfs, subs, names, pos, node, e5, hl, ?_, ?_, e1, e4, fun k a ha => ?_⟩
  · intro ts hts
    obtain ⟨k, hk, rfl⟩ := List.mem_iff_getElem.1 hts
    obtain ⟨a, _, r1, r2⟩ := hget k _ (List.getElem?_eq_getElem hk)
    obtain ⟨n, ts', r3, r4⟩ := hres a r2
    rw [r1] at r3
    obtain rfl := Except.ok.inj r3
    exact ⟨n, r4⟩
  · intro k ts hk j s t p hj ht hp
    obtain ⟨a, ha, _, _⟩ := hget k ts hk
    obtain ⟨ts', _, t1, t2, _, _, t5⟩ := e6 k a ha
    rw [hk] at t2
    obtain rfl := Option.some.inj t2
    obtain ⟨p', q1, q2⟩ := t5 j s t p hj ht hp
    rw [q1, q2]
  · obtain ⟨ts, _, t1, t2, _⟩ := e6 k a ha
    exact ⟨ts, t1, t2⟩

/-- **C135.** A 3D stack of profiles on an unstructured surface, built bottom-up with any priorities, whose surfaces come out in
order over every point of the surface.  If the groups fit, the mesh is generated; over each cell of the surface its cells fill
exactly the column between the first and the last surface; over a triangle (that is not parallel to the axis) two cells of a
column meet only in the triangle between them; and each cell lies over the shadow of its base cell, so that cells of different
columns meet only where the base cells, seen along the axis, do.  (Cells are the convex hulls of their nodes.)
Missing: surfaces that cross (`C135_crossing_refuted`). -/
theorem C135_columns_partial {vtk : VtkOracle ℝ} (ho : AppendsAll vtk.order) (hc : Cleans Eq vtk.clean) (invert : Bool)
    (ignore : List String) (dflt : String) (o : InterpOracle ℝ) (mesh : Surf ℝ UTopo) (hmesh : StackSurf mesh) (axis : Fin 3)
    (as : List (Profile × Rest ℝ (Opts (Resolution ℝ × Option String)))) (has : 2 ≤ as.length)
    (hres : ∀ a ∈ as.tail, ∃ m ts, resolutionToPerc a.2.opts.sub.1 a.2.opts.sub.2 = .ok ts ∧ Subdivision m ts)
    (hord : ∀ p ∈ mesh.points, ∀ k, k + 1 < as.length →
      cutHeight (as.map fun a => (a.1, a.2.thickness, a.2.priority)) k p ≤
        cutHeight (as.map fun a => (a.1, a.2.thickness, a.2.priority)) (k + 1) p) :
    ∃ s, (Stack.new mesh axis true).run o ((profileAdds as).map addCall) = .ok s ∧
      ((∀ a ∈ as.tail, Acceptable mesh.topo.cells.length a.2.opts.group) → ∃ r, stack3DU vtk invert ignore dflt s = .ok r) ∧
      ∀ M table s', stack3DU vtk invert ignore dflt s = .ok ((M, table), s') →
        ∃ m at_ Z, FillsColumns axis mesh.points mesh.topo.cells
          (cutHeight (as.map fun a => (a.1, a.2.thickness, a.2.priority)) 0)
          (cutHeight (as.map fun a => (a.1, a.2.thickness, a.2.priority)) (as.length - 1)) M m at_ Z := by
  obtain ⟨s, h1, h2, h3⟩ := stack_layers ho hc invert ignore dflt o mesh hmesh axis as has hres
  refine ⟨s, h1, h2, fun M table s' hM => ?_⟩
  obtain ⟨flip, key, base, surfs, subs, names, pos, node, e1, e2, e3, e4, _⟩ := h3 M table s' hM
  rw [← e2]
  obtain ⟨Z, hZ⟩ := layered_columns hmesh.ids e1 (axis := axis)
    (H := cutHeight (as.map fun a => (a.1, a.2.thickness, a.2.priority)))
    (by intro h0; rw [h0] at e2; simp at e2; omega) e3 (fun p hp k hk => hord p hp k (by omega)) e4
  exact ⟨_, pos, Z, hZ⟩

/-- The shadow of the triangle of the kite is a triangle. -/
theorem kite_shadow : SimpleShadow 2 kiteXY.points [0, 1, 2] := by
  rw [SimpleShadow, affineIndependent_iff_of_fintype]
  intro w h1 h2
  rw [Finset.weightedVSub_eq_linear_combination _ h1] at h2
  have e0 := congrFun h2 0
  have e1 := congrFun h2 1
  simp [kiteXY, Fin.sum_univ_succ] at h1 e0 e1
  intro i
  fin_cases i <;> simp <;> linarith

/-- Concrete case of C135: three profiles of different priorities, one of them cut and one pushed up, on a triangle and a quad;
the cells over the triangle fill its column and meet only in triangles. -/
example (o : InterpOracle ℝ) : ∃ s M table s' m at_ Z,
    (Stack.new kiteXY 2 true).run o ((profileAdds someProfiles).map addCall) = .ok s ∧
      stack3DU exactVtk true [] "default" s = .ok ((M, table), s') ∧
      FillsColumns 2 kiteXY.points kiteXY.topo.cells
        (cutHeight (someProfiles.map fun a => (a.1, a.2.thickness, a.2.priority)) 0)
        (cutHeight (someProfiles.map fun a => (a.1, a.2.thickness, a.2.priority)) 2) M m at_ Z ∧
      ∀ L L', L < L' → L' < m →
        cellRegion M (at_ L 0) ∩ cellRegion M (at_ L' 0) ⊆ convexHull ℝ (movedNodes 2 kiteXY.points [0, 1, 2] (Z L')) := by
  obtain ⟨p1, _, p4⟩ := someProfiles_ok
  obtain ⟨s, hs, g, h⟩ := C135_columns_partial exactVtk_ok.1 exactVtk_ok.2 true [] "default" o kiteXY kiteXY_ok 2 someProfiles p1
    (by
      intro a ha
      simp only [someProfiles, List.tail_cons, List.mem_cons, List.not_mem_nil, or_false] at ha
      rcases ha with rfl | rfl
      · obtain ⟨p, p1, p2, _⟩ := C11_integer_resolution 2 none (.inl rfl)
        exact ⟨_, p, p1, p2⟩
      · obtain ⟨p, p1, p2, _⟩ := C11_integer_resolution 3 (some "log") (.inr (.inl rfl))
        exact ⟨_, p, p1, p2⟩)
    (by
      intro p hp k hk
      simp only [kiteXY, List.mem_cons, List.not_mem_nil, or_false] at hp
      have hk' : k = 0 ∨ k = 1 := by simp [someProfiles] at hk; omega
      rcases hp with rfl | rfl | rfl | rfl | rfl <;> rcases hk' with rfl | rfl <;>
        simp [cutHeight, pushedHeight, someProfiles, profileHeight])
  obtain ⟨⟨⟨M, table⟩, s'⟩, hR⟩ := g p4
  obtain ⟨m, at_, Z, hf⟩ := h M table s' hR
  exact ⟨s, M, table, s', m, at_, Z, hs, hR, hf, hf.apart 0 5 [0, 1, 2] rfl kite_shadow⟩

end Gridder
