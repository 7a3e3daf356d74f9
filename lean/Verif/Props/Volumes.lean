import Verif.Props.Hexes
import Verif.Props.Centers
import Verif.Lemmas.Volume

/-!
# C140: the volumes of the cells of a 3D mesh add up
-/

namespace Gridder
open Spec MeasureTheory

namespace Spec

/-- The volume over a triangle between two heights: its area, seen along the axis, times the mean distance of the heights. -/
noncomputable def volumeOver (axis : Fin 3) (p q r : Fin 3 → ℝ) (gap : (Fin 3 → ℝ) → ℝ) : ℝ :=
  |crossAlong axis (q - p) (r - p)| / 2 * ((gap p + gap q + gap r) / 3)

/-- The same for a cell of a surface; only for triangles. -/
noncomputable def volumeOverCell (axis : Fin 3) (points : List (Fin 3 → ℝ)) (gap : (Fin 3 → ℝ) → ℝ) (cell : ℕ × List ℕ) : ℝ :=
  match cell.2 with
  | [i, j, k] => volumeOver axis (points.getD i 0) (points.getD j 0) (points.getD k 0) gap
  | _ => 0

/-- How the weights of two ends of an interval overlap. -/
noncomputable def share (a b : Fin 2) : ℝ := if a = b then 1 / 3 else 1 / 6

/-- The cross product of the edges of a quad at a corner, seen along the axis: the length unit of area there. -/
def cornerArea (axis : Fin 3) (q : Fin 2 × Fin 2 → Fin 3 → ℝ) (e : Fin 2 × Fin 2) : ℝ :=
  crossAlong axis (q (1, e.2) - q (0, e.2)) (q (e.1, 1) - q (e.1, 0))

/-- Seen along the axis, the quad turns the same way in all corners or not at all: it is convex, possibly with a straight corner, a triangle with
two equal corners, or less. -/
def TurnsOneWay (axis : Fin 3) (q : Fin 2 × Fin 2 → Fin 3 → ℝ) : Prop :=
  (∀ e, 0 ≤ cornerArea axis q e) ∨ ∀ e, cornerArea axis q e ≤ 0

/-- The volume over a quad between heights interpolated from its corners, where they are `gap` apart: each corner counts with its area and,
through the weights, with those of the others. -/
noncomputable def quadVolume (axis : Fin 3) (q : Fin 2 × Fin 2 → Fin 3 → ℝ) (gap : Fin 2 × Fin 2 → ℝ) : ℝ :=
  ∑ e, ∑ e', share e.1 e'.1 * share e.2 e'.2 * |cornerArea axis q e'| * gap e

end Spec

/-- The linear map that takes the unit vectors to three vectors. -/
noncomputable def spanMap (a b c : V3 ℝ) : V3 ℝ →ₗ[ℝ] V3 ℝ := Matrix.toLin' (Matrix.of ![a, b, c]).transpose

theorem spanMap_apply (a b c y : V3 ℝ) : spanMap a b c y = y 0 • a + y 1 • b + y 2 • c := by
  funext i
  simp [spanMap, Matrix.mulVec, dotProduct, Fin.sum_univ_three]
  ring

theorem spanMap_det (a b c : V3 ℝ) : LinearMap.det (spanMap a b c) = det3 a b c := by
  rw [spanMap, LinearMap.det_toLin', Matrix.det_transpose, det3]

theorem det3_along (axis : Fin 3) (a b : V3 ℝ) :
    det3 (Function.update a axis 0) (Function.update b axis 0) (Pi.single axis 1) = crossAlong axis a b := by
  rw [det3_eq]
  fin_cases axis <;> simp [crossAlong] <;> ring

theorem column_triangle (axis : Fin 3) (q : Fin 3 → V3 ℝ) (lo hi : Fin 3 → ℝ) :
    column axis (stdSimplex ℝ (Fin 3)) q lo hi = (fun y => Function.update (q 0) axis 0 +
      spanMap (Function.update (q 1 - q 0) axis 0) (Function.update (q 2 - q 0) axis 0) (Pi.single axis 1) y) '' unitPrism lo hi := by
  have key : ∀ (w : Fin 3 → ℝ) (h : ℝ), w 0 = 1 - w 1 - w 2 → Function.update (∑ i, w i • q i) axis h =
      Function.update (q 0) axis 0 + spanMap (Function.update (q 1 - q 0) axis 0) (Function.update (q 2 - q 0) axis 0)
        (Pi.single axis 1) ![w 1, w 2, h] := by
    intro w h hw
    rw [spanMap_apply]
    funext ax
    by_cases hax : ax = axis
    · subst hax; simp
    · simp [Function.update_of_ne hax, Fin.sum_univ_three, hw, Pi.single_eq_of_ne hax]
      ring
  ext x
  constructor
  · rintro ⟨w, ⟨w0, w1⟩, h, h1, h2, rfl⟩
    rw [Fin.sum_univ_three] at w1 h1 h2
    have e : w 0 = 1 - w 1 - w 2 := by linarith
    refine ⟨![w 1, w 2, h], ⟨w0 1, w0 2, ?_, ?_, ?_⟩, (key w h e).symm⟩
    · simp; linarith [w0 0]
    · simp; rw [← e]; exact h1
    · simp; rw [← e]; exact h2
  · rintro ⟨y, ⟨a, b, c, d, e⟩, rfl⟩
    refine ⟨![1 - y 0 - y 1, y 0, y 1], ⟨?_, ?_⟩, y 2, ?_, ?_, ?_⟩
    · intro i
      fin_cases i
      · simp; linarith
      · exact a
      · exact b
    · simp [Fin.sum_univ_three]; ring
    · simpa [Fin.sum_univ_three] using d
    · simpa [Fin.sum_univ_three] using e
    · rw [key _ _ (by simp)]
      congr 2
      funext i
      fin_cases i <;> simp

/-- The volume of a column over a triangle. -/
theorem volume_column (axis : Fin 3) (q : Fin 3 → V3 ℝ) {lo hi : Fin 3 → ℝ} (h : ∀ i, lo i ≤ hi i) :
    volume (column axis (stdSimplex ℝ (Fin 3)) q lo hi) =
      ENNReal.ofReal (|crossAlong axis (q 1 - q 0) (q 2 - q 0)| / 2 *
        (((hi 0 - lo 0) + (hi 1 - lo 1) + (hi 2 - lo 2)) / 3)) := by
  rw [column_triangle, volume_affine, spanMap_det, det3_along, volume_unitPrism h, ← ENNReal.ofReal_mul (abs_nonneg _)]
  congr 1
  ring

theorem lookup_of {points : List (V3 ℝ)} {i : ℕ} (h : i < points.length) : points[i]? = some (points.getD i 0) := by
  simp [List.getD_eq_getElem?_getD, List.getElem?_eq_getElem h]

/-- The volume over a triangle of a surface, between heights at its nodes. -/
theorem volume_moved {axis : Fin 3} {points : List (V3 ℝ)} {i j k : ℕ} (hin : ∀ x ∈ [i, j, k], x < points.length) {lo hi : ℕ → ℝ}
    (h : ∀ x ∈ [i, j, k], lo x ≤ hi x) :
    volume (convexHull ℝ (movedNodes axis points [i, j, k] lo ∪ movedNodes axis points [i, j, k] hi)) =
      ENNReal.ofReal (|crossAlong axis (points.getD j 0 - points.getD i 0) (points.getD k 0 - points.getD i 0)| / 2 *
        (((hi i - lo i) + (hi j - lo j) + (hi k - lo k)) / 3)) := by
  rw [movedNodes_range hin, movedNodes_range hin]
  refine Eq.trans ?_ (volume_column axis ![points.getD i 0, points.getD j 0, points.getD k 0]
    (lo := ![lo i, lo j, lo k]) (hi := ![hi i, hi j, hi k]) ?_)
  · rw [← column_hull]
    · congr 2
      congr 1
      · refine congrArg Set.range (funext fun x => ?_)
        match x with
        | ⟨0, _⟩ => rfl
        | ⟨1, _⟩ => rfl
        | ⟨2, _⟩ => rfl
      · refine congrArg Set.range (funext fun x => ?_)
        match x with
        | ⟨0, _⟩ => rfl
        | ⟨1, _⟩ => rfl
        | ⟨2, _⟩ => rfl
    · intro x; fin_cases x <;> simp [h]
  · intro x; fin_cases x <;> simp [h]

/-- Summing over all cells is summing over the columns and their layers. -/
theorem sum_over_layers {α : Type _} [AddCommMonoid α] {m n N : ℕ} {at_ : ℕ → ℕ → ℕ} (hN : N = m * n)
    (cover : ∀ i, i < N → ∃ L c, L < m ∧ c < n ∧ at_ L c = i)
    (inj : ∀ L L' c c', L < m → L' < m → c < n → c' < n → at_ L c = at_ L' c' → L = L' ∧ c = c') (g : ℕ → α) :
    ∑ i ∈ Finset.range N, g i = ∑ c ∈ Finset.range n, ∑ L ∈ Finset.range m, g (at_ L c) := by
  classical
  have hinj : Set.InjOn (fun x : ℕ × ℕ => at_ x.1 x.2) (Finset.range m ×ˢ Finset.range n : Finset (ℕ × ℕ)) := by
    rintro ⟨L, c⟩ h ⟨L', c'⟩ h' he
    simp only [Finset.coe_product, Set.mem_prod, Finset.mem_coe, Finset.mem_range] at h h'
    obtain ⟨rfl, rfl⟩ := inj L L' c c' h.1 h'.1 h.2 h'.2 he
    rfl
  have hsub : Finset.range N ⊆ (Finset.range m ×ˢ Finset.range n).image fun x : ℕ × ℕ => at_ x.1 x.2 := by
    intro i hi
    obtain ⟨L, c, h1, h2, h3⟩ := cover i (Finset.mem_range.1 hi)
    exact Finset.mem_image.2 ⟨(L, c), by simp [h1, h2], h3⟩
  have := Finset.eq_of_subset_of_card_le hsub (by
    rw [Finset.card_image_of_injOn hinj, Finset.card_product, Finset.card_range, Finset.card_range, Finset.card_range, hN])
  rw [this, Finset.sum_image hinj, Finset.sum_product_right]

namespace Spec

/-- The volumes of the cells of `M`, in `m` layers over the cells of a surface, where these are triangles: of each cell, of the
cells over a triangle, together and as a set, and of all cells if there are only triangles. -/
structure VolumesAddUp (axis : Fin 3) (points : List (Fin 3 → ℝ)) (cells : List (ℕ × List ℕ)) (low high : (Fin 3 → ℝ) → ℝ)
    (M : UMesh ℝ) (m : ℕ) (at_ : ℕ → ℕ → ℕ) (Z : ℕ → ℕ → ℝ) : Prop where
  cell : ∀ L (c t i j k : ℕ) p q r, L < m → cells[c]? = some (t, [i, j, k]) →
    points[i]? = some p → points[j]? = some q → points[k]? = some r →
    volume (cellRegion M (at_ L c)) = ENNReal.ofReal (|crossAlong axis (q - p) (r - p)| / 2 *
      (((Z (L + 1) i - Z L i) + (Z (L + 1) j - Z L j) + (Z (L + 1) k - Z L k)) / 3))
  column : ∀ (c t i j k : ℕ) p q r, cells[c]? = some (t, [i, j, k]) →
    points[i]? = some p → points[j]? = some q → points[k]? = some r →
    ∑ L ∈ Finset.range m, volume (cellRegion M (at_ L c)) = ENNReal.ofReal (volumeOver axis p q r fun x => high x - low x) ∧
    volume (⋃ L, ⋃ (_ : L < m), cellRegion M (at_ L c)) = ENNReal.ofReal (volumeOver axis p q r fun x => high x - low x)
  total : (∀ tc ∈ cells, tc.2.length = 3) → ∑ n ∈ Finset.range M.cells.length, volume (cellRegion M n) =
    ENNReal.ofReal (cells.map (volumeOverCell axis points fun x => high x - low x)).sum

end Spec

theorem volumeOver_nonneg {axis : Fin 3} {p q r : V3 ℝ} {gap : V3 ℝ → ℝ} (h : ∀ x ∈ [p, q, r], 0 ≤ gap x) :
    0 ≤ volumeOver axis p q r gap := by
  have h1 := h p (by simp)
  have h2 := h q (by simp)
  have h3 := h r (by simp)
  rw [volumeOver]
  positivity

/-- The volumes over the triangles of a mesh that fills the columns over a surface. -/
theorem columns_volumes {axis : Fin 3} {points : List (V3 ℝ)} {cells : List (ℕ × List ℕ)} {low high : V3 ℝ → ℝ} {M : UMesh ℝ}
    {m : ℕ} {at_ : ℕ → ℕ → ℕ} {Z : ℕ → ℕ → ℝ} (hids : ∀ tc ∈ cells, ∀ x ∈ tc.2, x < points.length)
    (h : FillsColumns axis points cells low high M m at_ Z) : VolumesAddUp axis points cells low high M m at_ Z := by
  have hmono : ∀ j, NodeOf cells j → ∀ L L', L ≤ L' → L' ≤ m → Z L j ≤ Z L' j := by
    intro j hj L L' hL
    induction L', hL using Nat.le_induction with
    | base => intro _; exact le_rfl
    | succ L' _ ih => intro hm'; exact le_trans (ih (by omega)) (h.rises j L' hj (by omega))
  have hcell : ∀ L (c t i j k : ℕ) p q r, L < m → cells[c]? = some (t, [i, j, k]) →
      points[i]? = some p → points[j]? = some q → points[k]? = some r →
      volume (cellRegion M (at_ L c)) = ENNReal.ofReal (|crossAlong axis (q - p) (r - p)| / 2 *
        (((Z (L + 1) i - Z L i) + (Z (L + 1) j - Z L j) + (Z (L + 1) k - Z L k)) / 3)) := by
    intro L c t i j k p q r hL hc hp hq hr
    have hmem := List.mem_of_getElem? hc
    rw [h.region L c t _ hL hc, volume_moved (hids _ hmem) fun x hx => h.rises x L ⟨_, hmem, hx⟩ hL]
    simp only [List.getD_eq_getElem?_getD, hp, hq, hr, Option.getD_some]
  have hcol : ∀ (c t i j k : ℕ) p q r, cells[c]? = some (t, [i, j, k]) →
      points[i]? = some p → points[j]? = some q → points[k]? = some r →
      ∑ L ∈ Finset.range m, volume (cellRegion M (at_ L c)) =
        ENNReal.ofReal (volumeOver axis p q r fun x => high x - low x) ∧
      volume (⋃ L, ⋃ (_ : L < m), cellRegion M (at_ L c)) =
        ENNReal.ofReal (volumeOver axis p q r fun x => high x - low x) := by
    intro c t i j k p q r hc hp hq hr
    have hmem := List.mem_of_getElem? hc
    have hn : ∀ x ∈ [i, j, k], NodeOf cells x := fun x hx => ⟨_, hmem, hx⟩
    have hi := hn i (by simp)
    have hj := hn j (by simp)
    have hk := hn k (by simp)
    constructor
    · rw [Finset.sum_congr rfl fun L hL => hcell L c t i j k p q r (Finset.mem_range.1 hL) hc hp hq hr,
        ← ENNReal.ofReal_sum_of_nonneg]
      · congr 1
        rw [← Finset.mul_sum, ← Finset.sum_div, Finset.sum_add_distrib, Finset.sum_add_distrib,
          Finset.sum_range_sub (fun L => Z L i), Finset.sum_range_sub (fun L => Z L j), Finset.sum_range_sub (fun L => Z L k),
          h.first i p hi hp, h.first j q hj hq, h.first k r hk hr, h.last i p hi hp, h.last j q hj hq, h.last k r hk hr, volumeOver]
      · intro L hL
        have hL' := Finset.mem_range.1 hL
        have a := sub_nonneg.2 (h.rises i L hi hL')
        have b := sub_nonneg.2 (h.rises j L hj hL')
        have c := sub_nonneg.2 (h.rises k L hk hL')
        positivity
    · rw [h.fills c t _ hc, volume_moved (hids _ hmem) fun x hx => hmono x (hn x hx) 0 m (Nat.zero_le _) le_rfl]
      simp only [List.getD_eq_getElem?_getD, hp, hq, hr, Option.getD_some, h.first i p hi hp, h.first j q hj hq,
        h.first k r hk hr, h.last i p hi hp, h.last j q hj hq, h.last k r hk hr, volumeOver]
  refine ⟨hcell, hcol, fun htri => ?_⟩
  rw [sum_over_layers h.size h.cover h.inj]
  have hone : ∀ c (hc : c < cells.length), ∑ L ∈ Finset.range m, volume (cellRegion M (at_ L c)) =
      ENNReal.ofReal (volumeOverCell axis points (fun x => high x - low x) cells[c]) ∧
      0 ≤ volumeOverCell axis points (fun x => high x - low x) cells[c] := by
    intro c hc
    have hl := htri _ (List.getElem_mem hc)
    have hget := List.getElem?_eq_getElem hc
    have hin := hids _ (List.getElem_mem hc)
    have hmem := List.getElem_mem hc
    revert hl hget hin hmem
    generalize cells[c] = tc
    obtain ⟨t, conn⟩ := tc
    intro hl hget hin hmem
    obtain ⟨i, j, k, rfl⟩ := List.length_eq_three.1 hl
    have li := lookup_of (hin i (by simp))
    have lj := lookup_of (hin j (by simp))
    have lk := lookup_of (hin k (by simp))
    simp only [volumeOverCell]
    refine ⟨(hcol c t i j k _ _ _ hget li lj lk).1, volumeOver_nonneg ?_⟩
    have gap : ∀ x p, x ∈ [i, j, k] → points[x]? = some p → 0 ≤ high p - low p := by
      intro x p hx hp
      have hn : NodeOf cells x := ⟨_, hmem, hx⟩
      rw [← h.first x p hn hp, ← h.last x p hn hp]
      exact sub_nonneg.2 (hmono x hn 0 m (Nat.zero_le _) le_rfl)
    intro x hx
    simp only [List.mem_cons, List.not_mem_nil, or_false] at hx
    rcases hx with rfl | rfl | rfl
    · exact gap i _ (by simp) li
    · exact gap j _ (by simp) lj
    · exact gap k _ (by simp) lk
  rw [← Fin.sum_univ_eq_sum_range (fun c => ∑ L ∈ Finset.range m, volume (cellRegion M (at_ L c))),
    Finset.sum_congr rfl fun (c : Fin cells.length) _ => (hone c c.2).1, ← ENNReal.ofReal_sum_of_nonneg fun (c : Fin cells.length) _ => (hone c c.2).2]
  congr 1
  rw [← Fin.sum_univ_fun_getElem]

/-- **C140 (unstructured stacks).** A 3D stack of profiles on an unstructured surface, built bottom-up with any priorities, whose
surfaces come out in order over every point of the surface.  If the groups fit, the mesh is generated.  The volume (Lebesgue measure)
of each cell over a triangle is the area of the triangle, seen along the axis, times the mean height of the cell at its three nodes; the
volumes of the cells over a triangle add up to the volume of what they fill, which is the area times the mean distance between the
first and the last surface, however the items are subdivided; and over a surface of triangles the volumes of all cells add up to the sum of these.
Missing: surfaces that cross, for which it is false (`C140_crossing_refuted`), and cells over other polygons. -/
theorem C140_columns_partial {vtk : VtkOracle ℝ} (ho : AppendsAll vtk.order) (hc : Cleans Eq vtk.clean) (invert : Bool)
    (ignore : List String) (dflt : String) (o : InterpOracle ℝ) (mesh : Surf ℝ UTopo) (hmesh : StackSurf mesh) (axis : Fin 3)
    (as : List (Profile × Rest ℝ (Opts (Resolution ℝ × Option String)))) (has : 2 ≤ as.length)
    (hres : ∀ a ∈ as.tail, ∃ m ts, resolutionToPerc a.2.opts.sub.1 a.2.opts.sub.2 = .ok ts ∧ Subdivision m ts)
    (hord : ∀ p ∈ mesh.points, ∀ k, k + 1 < as.length →
      cutHeight (as.map fun a => (a.1, a.2.thickness, a.2.priority)) k p ≤
        cutHeight (as.map fun a => (a.1, a.2.thickness, a.2.priority)) (k + 1) p) :
    ∃ s, (Stack.new mesh axis true).run o ((profileAdds as).map addCall) = .ok s ∧
      ((∀ a ∈ as.tail, Acceptable mesh.topo.cells.length a.2.opts.group) → ∃ r, stack3DU vtk invert ignore dflt s = .ok r) ∧
      ∀ M table s', stack3DU vtk invert ignore dflt s = .ok ((M, table), s') →
        ∃ m at_ Z, FillsColumns axis mesh.points mesh.topo.cells
            (cutHeight (as.map fun a => (a.1, a.2.thickness, a.2.priority)) 0)
            (cutHeight (as.map fun a => (a.1, a.2.thickness, a.2.priority)) (as.length - 1)) M m at_ Z ∧
          VolumesAddUp axis mesh.points mesh.topo.cells
            (cutHeight (as.map fun a => (a.1, a.2.thickness, a.2.priority)) 0)
            (cutHeight (as.map fun a => (a.1, a.2.thickness, a.2.priority)) (as.length - 1)) M m at_ Z := by
  obtain ⟨s, h1, h2, h3⟩ := C135_columns_partial ho hc invert ignore dflt o mesh hmesh axis as has hres hord
  refine ⟨s, h1, h2, fun M table s' hM => ?_⟩
  obtain ⟨m, at_, Z, h⟩ := h3 M table s' hM
  exact ⟨m, at_, Z, h, columns_volumes hmesh.ids h⟩

namespace Spec

/-- What a set sweeps out along a vector. -/
def swept (S : Set (Fin 3 → ℝ)) (n : Fin 3 → ℝ) : Set (Fin 3 → ℝ) :=
  {x | ∃ p ∈ S, ∃ t : ℝ, 0 ≤ t ∧ t ≤ 1 ∧ x = p + t • n}

/-- The volumes of the cells of `M`, in `m` layers over the cells of a surface moved along vectors: each is the distance between
the planes of the layer (measured with `f`) times what its base cell sweeps out along a vector of unit height; those over a cell add up to
the whole height times this, those of the whole mesh to the whole height times what all cells of the surface sweep out; over a triangle they are half
the volume of the box spanned by its edges and the vector of the layer. -/
structure SweptVolumes (points : List (Fin 3 → ℝ)) (cells : List (ℕ × List ℕ)) (f : (Fin 3 → ℝ) →ₗ[ℝ] ℝ) (vs : List (Fin 3 → ℝ)) (M : UMesh ℝ)
    (m : ℕ) (at_ : ℕ → ℕ → ℕ) (A : ℕ → Fin 3 → ℝ) : Prop where
  cell : ∀ L (c t : ℕ) conn n, L < m → cells[c]? = some (t, conn) → f n = 1 → volume (cellRegion M (at_ L c)) =
    ENNReal.ofReal (f (A (L + 1)) - f (A L)) * volume (swept (baseRegion points conn) n)
  column : ∀ (c t : ℕ) conn n, cells[c]? = some (t, conn) → f n = 1 →
    ∑ L ∈ Finset.range m, volume (cellRegion M (at_ L c)) = ENNReal.ofReal (f vs.sum) * volume (swept (baseRegion points conn) n)
  total : ∀ n, f n = 1 → ∑ i ∈ Finset.range M.cells.length, volume (cellRegion M i) =
    ENNReal.ofReal (f vs.sum) * (cells.map fun c => volume (swept (baseRegion points c.2) n)).sum
  triangle : ∀ L (c t i j k : ℕ) p q r, L < m → cells[c]? = some (t, [i, j, k]) →
    points[i]? = some p → points[j]? = some q → points[k]? = some r →
    volume (cellRegion M (at_ L c)) = ENNReal.ofReal (|det3 (q - p) (r - p) (A (L + 1) - A L)| / 2)
  triangles : ∀ (c t i j k : ℕ) p q r, cells[c]? = some (t, [i, j, k]) →
    points[i]? = some p → points[j]? = some q → points[k]? = some r →
    ∑ L ∈ Finset.range m, volume (cellRegion M (at_ L c)) = ENNReal.ofReal (|det3 (q - p) (r - p) vs.sum| / 2)

end Spec

/-- A set in a plane sweeps out, between two of its parallels, a volume proportional to their distance. -/
theorem volume_between {f : V3 ℝ →ₗ[ℝ] ℝ} {z : ℝ} {S : Set (V3 ℝ)} (hS : ∀ p ∈ S, f p = z) {a b n : V3 ℝ} (hn : f n = 1)
    (hab : f a < f b) : volume {x | ∃ p ∈ S, ∃ y ∈ segment ℝ a b, x = p + y} =
      ENNReal.ofReal (f b - f a) * volume (swept S n) := by
  have hdet : LinearMap.det (LinearMap.transvection f (b - a - n)) = f b - f a := by
    rw [LinearMap.transvection.det, map_sub, map_sub, hn]; ring
  have := volume_affine (a - z • (b - a - n)) (LinearMap.transvection f (b - a - n)) (swept S n)
  rw [hdet, abs_of_pos (sub_pos.2 hab)] at this
  rw [← this]
  congr 1
  have key : ∀ p ∈ S, ∀ t : ℝ, a - z • (b - a - n) + LinearMap.transvection f (b - a - n) (p + t • n) = p + (a + t • (b - a)) := by
    intro p hp t
    rw [LinearMap.transvection.apply, map_add, map_smul, hS p hp, hn]
    funext i
    simp only [Pi.add_apply, Pi.sub_apply, Pi.smul_apply, smul_eq_mul]
    ring
  ext x
  constructor
  · rintro ⟨p, hp, y, hy, rfl⟩
    rw [segment_eq_image'] at hy
    obtain ⟨t, ⟨t0, t1⟩, rfl⟩ := hy
    exact ⟨p + t • n, ⟨p, hp, t, t0, t1, rfl⟩, key p hp t⟩
  · rintro ⟨_, ⟨p, hp, t, t0, t1, rfl⟩, rfl⟩
    refine ⟨p, hp, a + t • (b - a), ?_, key p hp t⟩
    rw [segment_eq_image']
    exact ⟨t, ⟨t0, t1⟩, rfl⟩

theorem triangle_hull (p q r x : V3 ℝ) : x ∈ convexHull ℝ {p, q, r} ↔
    ∃ u v : ℝ, 0 ≤ u ∧ 0 ≤ v ∧ u + v ≤ 1 ∧ x = p + u • (q - p) + v • (r - p) := by
  constructor
  · intro hx
    refine convexHull_min (t := {x | ∃ u v : ℝ, 0 ≤ u ∧ 0 ≤ v ∧ u + v ≤ 1 ∧ x = p + u • (q - p) + v • (r - p)}) ?_ ?_ hx
    · intro y hy
      simp only [Set.mem_insert_iff, Set.mem_singleton_iff] at hy
      rcases hy with rfl | rfl | rfl
      · exact ⟨0, 0, le_rfl, le_rfl, by norm_num, by simp⟩
      · exact ⟨1, 0, zero_le_one, le_rfl, by norm_num, by simp⟩
      · exact ⟨0, 1, le_rfl, zero_le_one, by norm_num, by simp⟩
    · rintro _ ⟨u, v, u0, v0, h, rfl⟩ _ ⟨u', v', u0', v0', h', rfl⟩ a b a0 b0 hab
      refine ⟨a * u + b * u', a * v + b * v', by positivity, by positivity, by nlinarith, ?_⟩
      funext i
      simp only [Pi.add_apply, Pi.sub_apply, Pi.smul_apply, smul_eq_mul]
      have : p i = (a + b) * p i := by rw [hab, one_mul]
      linear_combination (p i) * hab
  · rintro ⟨u, v, u0, v0, h, rfl⟩
    have := (convex_convexHull ℝ ({p, q, r} : Set (V3 ℝ))).sum_mem (t := Finset.univ) (w := ![1 - u - v, u, v]) (z := ![p, q, r])
      (by intro i _; fin_cases i <;> simp <;> linarith) (by simp [Fin.sum_univ_three]; ring)
      (by intro i _; fin_cases i <;> exact subset_convexHull ℝ _ (by simp))
    convert this using 1
    funext i
    simp [Fin.sum_univ_three]
    ring

/-- What a triangle sweeps out along a vector. -/
theorem volume_swept (p q r n : V3 ℝ) : volume (swept (convexHull ℝ {p, q, r}) n) = ENNReal.ofReal (|det3 (q - p) (r - p) n| / 2) := by
  have e : swept (convexHull ℝ {p, q, r}) n =
      (fun y => p + spanMap (q - p) (r - p) n y) '' unitPrism (fun _ => 0) fun _ => 1 := by
    ext x
    constructor
    · rintro ⟨y, hy, t, t0, t1, rfl⟩
      obtain ⟨u, v, u0, v0, h, rfl⟩ := (triangle_hull p q r y).1 hy
      refine ⟨![u, v, t], ⟨u0, v0, h, by simpa using t0, by simp; linarith⟩, ?_⟩
      simp only [spanMap_apply]
      simp [add_assoc]
    · rintro ⟨y, ⟨a, b, c, d, e⟩, rfl⟩
      refine ⟨_, (triangle_hull p q r _).2 ⟨y 0, y 1, a, b, c, rfl⟩, y 2, by simpa using d, ?_, ?_⟩
      · simp only [mul_one] at e; linarith
      · simp only [spanMap_apply]
        simp [add_assoc]
  rw [e, volume_affine, spanMap_det, volume_unitPrism (fun _ => zero_le_one), ← ENNReal.ofReal_mul (abs_nonneg _)]
  congr 1
  norm_num
  ring

theorem baseRegion_triangle {points : List (V3 ℝ)} {i j k : ℕ} {p q r : V3 ℝ} (hp : points[i]? = some p) (hq : points[j]? = some q)
    (hr : points[k]? = some r) : baseRegion points [i, j, k] = convexHull ℝ {p, q, r} := by
  rw [baseRegion]
  congr 1
  ext x
  simp only [Set.mem_ofPred_eq, List.mem_cons, List.not_mem_nil, or_false, Set.mem_insert_iff, Set.mem_singleton_iff]
  constructor
  · rintro ⟨y, rfl | rfl | rfl, hy⟩
    · left; rw [hp] at hy; exact (Option.some.inj hy).symm
    · right; left; rw [hq] at hy; exact (Option.some.inj hy).symm
    · right; right; rw [hr] at hy; exact (Option.some.inj hy).symm
  · rintro (rfl | rfl | rfl)
    · exact ⟨i, .inl rfl, hp⟩
    · exact ⟨j, .inr (.inl rfl), hq⟩
    · exact ⟨k, .inr (.inr rfl), hr⟩

theorem det3_smul (a b n : V3 ℝ) (s : ℝ) : det3 a b (s • n) = s * det3 a b n := by
  simp only [det3_eq, Pi.smul_apply, smul_eq_mul]
  ring

/-- The volumes of the prisms of an extruded surface. -/
theorem swept_volumes {points : List (V3 ℝ)} {cells : List (ℕ × List ℕ)} {f : V3 ℝ →ₗ[ℝ] ℝ} {z : ℝ} {vs : List (V3 ℝ)}
    {M : UMesh ℝ} {m : ℕ} {at_ : ℕ → ℕ → ℕ} {A : ℕ → V3 ℝ} (hflat : ∀ p ∈ points, f p = z) (hvs : vs ≠ []) (hup : ∀ v ∈ vs, 0 < f v)
    (h : PrismTiling points cells vs M m at_ A) : SweptVolumes points cells f vs M m at_ A := by
  have hrise : ∀ L < m, f (A L) < f (A (L + 1)) := by
    intro L hL
    obtain ⟨v, hv, s, hs, e⟩ := h.along L hL
    rw [e, map_add, map_smul, smul_eq_mul]
    have := mul_pos hs (hup v hv)
    linarith
  have hcell : ∀ L (c t : ℕ) conn n, L < m → cells[c]? = some (t, conn) → f n = 1 → volume (cellRegion M (at_ L c)) =
      ENNReal.ofReal (f (A (L + 1)) - f (A L)) * volume (swept (baseRegion points conn) n) := by
    intro L c t conn n hL hc hn
    rw [h.region L c t conn hL hc]
    exact volume_between (fun p hp => base_flat hflat hp) hn (hrise L hL)
  have hcol : ∀ (c t : ℕ) conn n, cells[c]? = some (t, conn) → f n = 1 →
      ∑ L ∈ Finset.range m, volume (cellRegion M (at_ L c)) =
        ENNReal.ofReal (f vs.sum) * volume (swept (baseRegion points conn) n) := by
    intro c t conn n hc hn
    rw [Finset.sum_congr rfl fun L hL => hcell L c t conn n (Finset.mem_range.1 hL) hc hn, ← Finset.sum_mul,
      ← ENNReal.ofReal_sum_of_nonneg fun L hL => (sub_pos.2 (hrise L (Finset.mem_range.1 hL))).le,
      Finset.sum_range_sub (fun L => f (A L)), h.first, h.last, map_zero, sub_zero]
  have hsum : 0 < f vs.sum := by
    rw [map_list_sum]
    exact List.sum_pos _ (by simpa using hup) (by simpa using hvs)
  refine ⟨hcell, hcol, ?_, ?_, ?_⟩
  · intro n hn
    rw [sum_over_layers h.size h.cover h.inj, ← Fin.sum_univ_eq_sum_range (fun c => ∑ L ∈ Finset.range m, volume (cellRegion M (at_ L c))),
      Finset.sum_congr rfl fun (c : Fin cells.length) _ => hcol c _ _ n (List.getElem?_eq_getElem c.2) hn, ← Finset.mul_sum,
      ← Fin.sum_univ_fun_getElem]
    rfl
  · intro L c t i j k p q r hL hc hp hq hr
    have hd := hrise L hL
    have hn : f ((f (A (L + 1)) - f (A L))⁻¹ • (A (L + 1) - A L)) = 1 := by
      rw [map_smul, map_sub, smul_eq_mul, inv_mul_cancel₀ (sub_pos.2 hd).ne']
    rw [hcell L c t _ _ hL hc hn, baseRegion_triangle hp hq hr, volume_swept, ← ENNReal.ofReal_mul (sub_pos.2 hd).le, det3_smul,
      abs_mul, abs_of_pos (inv_pos.2 (sub_pos.2 hd))]
    congr 1
    have := (sub_pos.2 hd).ne'
    field_simp
  · intro c t i j k p q r hc hp hq hr
    have hn : f ((f vs.sum)⁻¹ • vs.sum) = 1 := by
      rw [map_smul, smul_eq_mul, inv_mul_cancel₀ hsum.ne']
    rw [hcol c t _ _ hc hn, baseRegion_triangle hp hq hr, volume_swept, ← ENNReal.ofReal_mul hsum.le, det3_smul,
      abs_mul, abs_of_pos (inv_pos.2 hsum)]
    congr 1
    field_simp

/-- **C140 (extruded surfaces).** A surface that lies in a plane is extruded along vectors that all leave the plane to the same side, with
any subdivisions and groups.  If the groups fit, the mesh is generated, and the volume (Lebesgue measure) of each prism is the distance between
the planes of its layer, in units of `f`, times what its base cell sweeps out along any vector of unit height.  The volumes over a cell, and
those of the whole mesh, add up to the height of the sum of the vectors times the same, however the items are subdivided and whatever
the broken line between its ends.  Over a triangle they are half the determinant of two edges and the vector of the layer, or the sum of the
vectors. -/
theorem C140_extruded {vtk : VtkOracle ℝ} (ho : AppendsAll vtk.order) (hc : Cleans Eq vtk.clean)
    (rot : V3 ℝ → ℝ → V3 ℝ → V3 ℝ → V3 ℝ) (ignore : List String) (dflt : String) (mesh : Surf ℝ UTopo)
    (hmesh : StackSurf mesh) (xs : List (V3 ℝ × Opts (Resolution ℝ × Option String))) (hxs : xs ≠ [])
    (hres : ∀ x ∈ xs, ∃ n ts, resolutionToPerc x.2.sub.1 x.2.sub.2 = .ok ts ∧ Subdivision n ts)
    (f : V3 ℝ →ₗ[ℝ] ℝ) (z : ℝ) (hflat : ∀ p ∈ mesh.points, f p = z) (hup : ∀ x ∈ xs, 0 < f x.1) :
    ∃ e, (Extr.new mesh none none).run rot (xs.map fun x => step (x.1, none, x.2)) = .ok e ∧
      ((∀ x ∈ xs, Acceptable mesh.topo.cells.length x.2.group) → ∃ r, extrudeU vtk ignore dflt e = .ok r) ∧
      ∀ M table, extrudeU vtk ignore dflt e = .ok (M, table) → ∃ m at_ A,
        PrismTiling mesh.points mesh.topo.cells (xs.map (·.1)) M m at_ A ∧
        SweptVolumes mesh.points mesh.topo.cells f (xs.map (·.1)) M m at_ A := by
  obtain ⟨e, h1, h2, h3⟩ := C132_extruded ho hc rot ignore dflt mesh hmesh xs hxs hres f z hflat hup
  refine ⟨e, h1, h2, fun M table h => ?_⟩
  obtain ⟨m, at_, A, hT⟩ := h3 M table h
  exact ⟨m, at_, A, hT, swept_volumes hflat (by simpa using hxs)
    (fun v hv => by obtain ⟨x, hx, rfl⟩ := List.mem_map.1 hv; exact hup x hx) hT⟩

section
variable {ι : Type _} [Fintype ι]

theorem column_measurable (axis : Fin 3) {W : Set (ι → ℝ)} (hc : IsCompact W) (hW : W ⊆ stdSimplex ℝ ι) (q : ι → V3 ℝ) {lo hi : ι → ℝ}
    (h : ∀ i, lo i ≤ hi i) : MeasurableSet (column axis W q lo hi) := by
  have hg : Continuous fun x : (ι → ℝ) × ℝ => Function.update (∑ i, x.1 i • q i) axis
      ((1 - x.2) * ∑ i, x.1 i * lo i + x.2 * ∑ i, x.1 i * hi i) := by
    refine Continuous.update ?_ axis ?_ <;> fun_prop
  have : column axis W q lo hi = (fun x : (ι → ℝ) × ℝ => Function.update (∑ i, x.1 i • q i) axis
      ((1 - x.2) * ∑ i, x.1 i * lo i + x.2 * ∑ i, x.1 i * hi i)) '' (W ×ˢ Set.Icc (0 : ℝ) 1) := by
    ext x
    constructor
    · rintro ⟨w, hw, y, h1, h2, rfl⟩
      obtain ⟨t, t0, t1, ht⟩ : ∃ t : ℝ, 0 ≤ t ∧ t ≤ 1 ∧ (1 - t) * ∑ i, w i * lo i + t * ∑ i, w i * hi i = y := by
        rcases eq_or_lt_of_le (h1.trans h2) with e | hlt
        · exact ⟨0, le_rfl, zero_le_one, by simp; exact le_antisymm h1 (by rw [e]; exact h2)⟩
        · have hd := sub_pos.2 hlt
          refine ⟨(y - ∑ i, w i * lo i) / (∑ i, w i * hi i - ∑ i, w i * lo i), div_nonneg (by linarith) hd.le,
            (div_le_one hd).2 (by linarith), ?_⟩
          have := hd.ne'
          field_simp
          ring
      exact ⟨(w, t), ⟨hw, t0, t1⟩, by simp only [ht]⟩
    · rintro ⟨⟨w, t⟩, ⟨hw, t0, t1⟩, rfl⟩
      have hl := sum_le_of_le (hW hw).1 h
      simp only at t0 t1
      exact ⟨w, hw, _, by nlinarith, by nlinarith, rfl⟩
  rw [this]
  exact ((hc.prod isCompact_Icc).image hg).measurableSet

end

theorem quadWeights_compact : IsCompact quadWeights := by
  have : quadWeights = (fun x : ℝ × ℝ => fun e : Fin 2 × Fin 2 => blend x.1 e.1 * blend x.2 e.2) '' (Set.Icc 0 1 ×ˢ Set.Icc 0 1) := by
    ext w
    constructor
    · rintro ⟨u, v, u0, u1, v0, v1, rfl⟩
      exact ⟨(u, v), ⟨⟨u0, u1⟩, v0, v1⟩, rfl⟩
    · rintro ⟨⟨u, v⟩, ⟨⟨u0, u1⟩, v0, v1⟩, rfl⟩
      exact ⟨u, v, u0, u1, v0, v1, rfl⟩
  rw [this]
  refine (isCompact_Icc.prod isCompact_Icc).image (continuous_pi fun e => ?_)
  refine Continuous.mul ?_ ?_ <;> unfold blend <;> split_ifs <;> fun_prop

/-- The weight of an end along the unit interval. -/
noncomputable def blendOn (a : Fin 2) (u : ℝ) : ENNReal := (Set.Icc (0 : ℝ) 1).indicator (fun u => ENNReal.ofReal (blend u a)) u

theorem blend_continuous (a : Fin 2) : Continuous fun u => blend u a := by
  unfold blend; split_ifs <;> fun_prop

theorem blendOn_measurable (a : Fin 2) : Measurable (blendOn a) :=
  (ENNReal.measurable_ofReal.comp (blend_continuous a).measurable).indicator measurableSet_Icc

theorem blend_nonneg {u : ℝ} (h0 : 0 ≤ u) (h1 : u ≤ 1) (a : Fin 2) : 0 ≤ blend u a := by
  fin_cases a <;> simp [blend] <;> linarith

theorem blendOn_integral (a : Fin 2) : ∫⁻ u, blendOn a u = ENNReal.ofReal (1 / 2) := by
  simp only [blendOn]
  rw [integral_unit (blend_continuous a) fun x h0 h1 => blend_nonneg h0 h1 a]
  congr 1
  fin_cases a
  · simp only [blend, Fin.zero_eta, if_true]
    rw [intervalIntegral.integral_sub (Continuous.intervalIntegrable (by fun_prop) _ _) (Continuous.intervalIntegrable (by fun_prop) _ _)]
    simp
    norm_num
  · simp [blend]

/-- The map from the unit square, times the heights, to a quad. -/
noncomputable def quadMap (axis : Fin 3) (q : Fin 2 × Fin 2 → V3 ℝ) (y : V3 ℝ) : V3 ℝ :=
  Function.update (q (0, 0)) axis 0 + y 0 • Function.update (q (1, 0) - q (0, 0)) axis 0 + y 1 • Function.update (q (0, 1) - q (0, 0)) axis 0 +
    (y 0 * y 1) • Function.update (q (1, 1) - q (1, 0) - q (0, 1) + q (0, 0)) axis 0 + y 2 • Pi.single axis 1

theorem quadMap_deriv (axis : Fin 3) (q : Fin 2 × Fin 2 → V3 ℝ) (y : V3 ℝ) : HasFDerivAt (quadMap axis q)
    (LinearMap.toContinuousLinearMap (spanMap
      (Function.update (q (1, 0) - q (0, 0)) axis 0 + y 1 • Function.update (q (1, 1) - q (1, 0) - q (0, 1) + q (0, 0)) axis 0)
      (Function.update (q (0, 1) - q (0, 0)) axis 0 + y 0 • Function.update (q (1, 1) - q (1, 0) - q (0, 1) + q (0, 0)) axis 0)
      (Pi.single axis 1))) y := by
  have p : ∀ k : Fin 3, HasFDerivAt (fun y : V3 ℝ => y k) (ContinuousLinearMap.proj (R := ℝ) (φ := fun _ : Fin 3 => ℝ) k) y := fun k =>
    hasFDerivAt_apply k y
  have key := ((((hasFDerivAt_const (Function.update (q (0, 0)) axis 0) y).add
    ((p 0).smul_const (Function.update (q (1, 0) - q (0, 0)) axis 0))).add
    ((p 1).smul_const (Function.update (q (0, 1) - q (0, 0)) axis 0))).add
    (((p 0).mul (p 1)).smul_const (Function.update (q (1, 1) - q (1, 0) - q (0, 1) + q (0, 0)) axis 0))).add
    ((p 2).smul_const (Pi.single axis (1 : ℝ) : V3 ℝ))
  refine key.congr_fderiv ?_
  ext z i
  simp [spanMap_apply]
  ring

theorem quadMap_det (axis : Fin 3) (q : Fin 2 × Fin 2 → V3 ℝ) (y : V3 ℝ) : (LinearMap.toContinuousLinearMap (spanMap
      (Function.update (q (1, 0) - q (0, 0)) axis 0 + y 1 • Function.update (q (1, 1) - q (1, 0) - q (0, 1) + q (0, 0)) axis 0)
      (Function.update (q (0, 1) - q (0, 0)) axis 0 + y 0 • Function.update (q (1, 1) - q (1, 0) - q (0, 1) + q (0, 0)) axis 0)
      (Pi.single axis 1))).det = ∑ e : Fin 2 × Fin 2, blend (y 0) e.1 * blend (y 1) e.2 * cornerArea axis q e := by
  rw [LinearMap.det_toContinuousLinearMap, spanMap_det, det3_eq]
  fin_cases axis <;> simp [cornerArea, crossAlong, Fintype.sum_prod_type, Fin.sum_univ_two, blend] <;> ring

theorem blend_pair (a b : Fin 2) :
    ∫⁻ u, (Set.Icc (0 : ℝ) 1).indicator (fun u => ENNReal.ofReal (blend u a * blend u b)) u = ENNReal.ofReal (share a b) := by
  rw [integral_unit (g := fun u => blend u a * blend u b) ((blend_continuous a).mul (blend_continuous b)) fun x h0 h1 => mul_nonneg (blend_nonneg h0 h1 a) (blend_nonneg h0 h1 b)]
  congr 1
  have e1 : ∫ x in (0 : ℝ)..1, (1 - x) * (1 - x) = 1 / 3 := by
    have := intervalIntegral.integral_comp_sub_left (a := 0) (b := 1) (fun x : ℝ => x ^ 2) 1
    simp only [sub_self, sub_zero, integral_pow] at this
    simp only [← pow_two]
    rw [this]
    norm_num
  have e2 : ∫ x in (0 : ℝ)..1, (1 - x) * x = 1 / 6 := by
    have : ∀ x : ℝ, (1 - x) * x = x - x ^ 2 := fun x => by ring
    simp only [this]
    rw [intervalIntegral.integral_sub (Continuous.intervalIntegrable (by fun_prop) _ _) (Continuous.intervalIntegrable (by fun_prop) _ _)]
    simp
    norm_num
  have e3 : ∫ x in (0 : ℝ)..1, x * (1 - x) = 1 / 6 := by
    rw [← e2]; simp only [mul_comm]
  have e4 : ∫ x in (0 : ℝ)..1, x * x = 1 / 3 := by
    have : ∀ x : ℝ, x * x = x ^ 2 := fun x => by ring
    simp only [this]
    simp
    norm_num
  rcases Fin.exists_fin_two.1 ⟨a, rfl⟩ with rfl | rfl <;> rcases Fin.exists_fin_two.1 ⟨b, rfl⟩ with rfl | rfl
  · simpa [blend, share] using e1
  · simpa [blend, share] using e2
  · simpa [blend, share] using e3
  · simpa [blend, share] using e4


/-- The box over the unit square. -/
def unitCorner (e : Fin 2 × Fin 2) : V3 ℝ := ![((e.1 : ℕ) : ℝ), ((e.2 : ℕ) : ℝ), 0]

theorem unitCorner_sum (u v : ℝ) : ∑ e : Fin 2 × Fin 2, (blend u e.1 * blend v e.2) • unitCorner e = ![u, v, 0] := by
  funext i
  fin_cases i <;> simp [unitCorner, Fintype.sum_prod_type, Fin.sum_univ_two, blend] <;> ring

theorem mem_unitBox {lo hi : Fin 2 × Fin 2 → ℝ} {y : V3 ℝ} : y ∈ column 2 quadWeights unitCorner lo hi ↔
    (0 ≤ y 0 ∧ y 0 ≤ 1) ∧ (0 ≤ y 1 ∧ y 1 ≤ 1) ∧ ∑ e, blend (y 0) e.1 * blend (y 1) e.2 * lo e ≤ y 2 ∧
      y 2 ≤ ∑ e, blend (y 0) e.1 * blend (y 1) e.2 * hi e := by
  constructor
  · rintro ⟨_, ⟨u, v, u0, u1, v0, v1, rfl⟩, x', h1, h2, hx⟩
    rw [unitCorner_sum] at hx
    have e0 := congrFun hx 0
    have e1 := congrFun hx 1
    have e2 := congrFun hx 2
    simp at e0 e1 e2
    rw [e0, e1, e2]
    exact ⟨⟨u0, u1⟩, ⟨v0, v1⟩, h1, h2⟩
  · rintro ⟨⟨a, b⟩, ⟨c, d⟩, h1, h2⟩
    refine ⟨_, ⟨y 0, y 1, a, b, c, d, rfl⟩, y 2, h1, h2, ?_⟩
    rw [unitCorner_sum]
    funext i
    fin_cases i <;> simp

theorem insert_two (y : Fin 2 → ℝ) (h : ℝ) : ((2 : Fin 3).insertNth h y : Fin 3 → ℝ) = ![y 0, y 1, h] := by
  funext i
  fin_cases i
  · exact Fin.insertNth_apply_succAbove (α := fun _ => ℝ) (2 : Fin 3) h y 0
  · exact Fin.insertNth_apply_succAbove (α := fun _ => ℝ) (2 : Fin 3) h y 1
  · exact Fin.insertNth_apply_same (α := fun _ => ℝ) (2 : Fin 3) h y

theorem quadMap_update (axis : Fin 3) (q : Fin 2 × Fin 2 → V3 ℝ) (y : V3 ℝ) :
    quadMap axis q y = Function.update (∑ e, (blend (y 0) e.1 * blend (y 1) e.2) • q e) axis (y 2) := by
  funext i
  by_cases hi : i = axis
  · subst hi; simp [quadMap]
  · simp [quadMap, Function.update_of_ne hi, Pi.single_eq_of_ne hi, Fintype.sum_prod_type, Fin.sum_univ_two, blend]
    ring

theorem quadMap_image (axis : Fin 3) (q : Fin 2 × Fin 2 → V3 ℝ) (lo hi : Fin 2 × Fin 2 → ℝ) :
    column axis quadWeights q lo hi = quadMap axis q '' column 2 quadWeights unitCorner lo hi := by
  ext x
  constructor
  · rintro ⟨_, ⟨u, v, u0, u1, v0, v1, rfl⟩, x', h1, h2, rfl⟩
    exact ⟨![u, v, x'], mem_unitBox.2 ⟨⟨u0, u1⟩, ⟨v0, v1⟩, h1, h2⟩, quadMap_update _ _ _⟩
  · rintro ⟨y, hy, rfl⟩
    obtain ⟨⟨a, b⟩, ⟨c, d⟩, h1, h2⟩ := mem_unitBox.1 hy
    exact ⟨_, ⟨y 0, y 1, a, b, c, d, rfl⟩, y 2, h1, h2, quadMap_update _ _ _⟩

/-- The area of a quad at a point. -/
noncomputable def pointArea (axis : Fin 3) (q : Fin 2 × Fin 2 → V3 ℝ) (u v : ℝ) : ℝ :=
  ∑ e : Fin 2 × Fin 2, blend u e.1 * blend v e.2 * cornerArea axis q e

theorem pointArea_abs {axis : Fin 3} {q : Fin 2 × Fin 2 → V3 ℝ} (hq : TurnsOneWay axis q) {u v : ℝ} (hu : 0 ≤ u ∧ u ≤ 1) (hv : 0 ≤ v ∧ v ≤ 1) :
    |pointArea axis q u v| = ∑ e : Fin 2 × Fin 2, blend u e.1 * blend v e.2 * |cornerArea axis q e| := by
  have hc : ∀ e : Fin 2 × Fin 2, 0 ≤ blend u e.1 * blend v e.2 := fun e =>
    mul_nonneg (blend_nonneg hu.1 hu.2 _) (blend_nonneg hv.1 hv.2 _)
  rw [pointArea]
  rcases hq with hs | hs
  · rw [abs_of_nonneg (Finset.sum_nonneg fun e _ => mul_nonneg (hc e) (hs e))]
    exact Finset.sum_congr rfl fun e _ => by rw [abs_of_nonneg (hs e)]
  · rw [abs_of_nonpos (Finset.sum_nonpos fun e _ => mul_nonpos_of_nonneg_of_nonpos (hc e) (hs e)), ← Finset.sum_neg_distrib]
    exact Finset.sum_congr rfl fun e _ => by rw [abs_of_nonpos (hs e), mul_neg]

theorem blend_mid (u u' : ℝ) (a : Fin 2) : blend ((u + u') / 2) a = (blend u a + blend u' a) / 2 := by
  unfold blend; split <;> ring

/-- Half way from a point where the quad has area, it has area. -/
theorem pointArea_mid {axis : Fin 3} {q : Fin 2 × Fin 2 → V3 ℝ} (hq : TurnsOneWay axis q) {u v u' v' : ℝ} (hu : 0 ≤ u ∧ u ≤ 1)
    (hv : 0 ≤ v ∧ v ≤ 1) (hu' : 0 ≤ u' ∧ u' ≤ 1) (hv' : 0 ≤ v' ∧ v' ≤ 1) (h : pointArea axis q u v ≠ 0) :
    pointArea axis q ((u + u') / 2) ((v + v') / 2) ≠ 0 := by
  have h := abs_pos.2 h
  rw [pointArea_abs hq hu hv] at h
  refine abs_pos.1 ?_
  rw [pointArea_abs hq ⟨by linarith [hu.1, hu'.1], by linarith [hu.2, hu'.2]⟩ ⟨by linarith [hv.1, hv'.1], by linarith [hv.2, hv'.2]⟩]
  have key : (∑ e : Fin 2 × Fin 2, blend u e.1 * blend v e.2 * |cornerArea axis q e|) / 4 ≤
      ∑ e : Fin 2 × Fin 2, blend ((u + u') / 2) e.1 * blend ((v + v') / 2) e.2 * |cornerArea axis q e| := by
    rw [Finset.sum_div]
    refine Finset.sum_le_sum fun e _ => ?_
    rw [blend_mid, blend_mid]
    have a1 := blend_nonneg hu.1 hu.2 e.1
    have a2 := blend_nonneg hv.1 hv.2 e.2
    have a3 := blend_nonneg hu'.1 hu'.2 e.1
    have a4 := blend_nonneg hv'.1 hv'.2 e.2
    have a5 := abs_nonneg (cornerArea axis q e)
    have : blend u e.1 * blend v e.2 / 4 ≤ (blend u e.1 + blend u' e.1) / 2 * ((blend v e.2 + blend v' e.2) / 2) := by
      have b1 := mul_nonneg a1 a4
      have b2 := mul_nonneg a3 a2
      have b3 := mul_nonneg a3 a4
      nlinarith
    calc _ = blend u e.1 * blend v e.2 / 4 * |cornerArea axis q e| := by ring
      _ ≤ _ := mul_le_mul_of_nonneg_right this a5
  linarith

theorem quadMap_inj {axis : Fin 3} {q : Fin 2 × Fin 2 → V3 ℝ} (hq : TurnsOneWay axis q) (lo hi : Fin 2 × Fin 2 → ℝ) :
    Set.InjOn (quadMap axis q) (column 2 quadWeights unitCorner lo hi ∩ {y | pointArea axis q (y 0) (y 1) = 0}ᶜ) := by
  rintro y ⟨hy, hJ⟩ y' ⟨hy', -⟩ he
  obtain ⟨hu, hv, -, -⟩ := mem_unitBox.1 hy
  obtain ⟨hu', hv', -, -⟩ := mem_unitBox.1 hy'
  have hm := pointArea_mid hq hu hv hu' hv' hJ
  rw [quadMap_update, quadMap_update] at he
  have e2 : y 2 = y' 2 := by simpa using congrFun he axis
  obtain ⟨n1, n2, _⟩ := axes_ne axis
  have ea := congrFun he (axis + 1)
  have eb := congrFun he (axis + 2)
  simp [Fintype.sum_prod_type, Fin.sum_univ_two, blend] at ea eb
  have e0 : (y 0 - y' 0) * pointArea axis q ((y 0 + y' 0) / 2) ((y 1 + y' 1) / 2) = 0 := by
    simp [-mul_eq_zero, pointArea, cornerArea, crossAlong, Fintype.sum_prod_type, Fin.sum_univ_two, blend]
    linear_combination ((1 - (y 0 + y' 0) / 2) * (q (0, 1) (axis + 2) - q (0, 0) (axis + 2)) + (y 0 + y' 0) / 2 * (q (1, 1) (axis + 2) - q (1, 0) (axis + 2))) * ea - ((1 - (y 0 + y' 0) / 2) * (q (0, 1) (axis + 1) - q (0, 0) (axis + 1)) + (y 0 + y' 0) / 2 * (q (1, 1) (axis + 1) - q (1, 0) (axis + 1))) * eb
  have e1 : (y 1 - y' 1) * pointArea axis q ((y 0 + y' 0) / 2) ((y 1 + y' 1) / 2) = 0 := by
    simp [-mul_eq_zero, pointArea, cornerArea, crossAlong, Fintype.sum_prod_type, Fin.sum_univ_two, blend]
    linear_combination ((1 - (y 1 + y' 1) / 2) * (q (1, 0) (axis + 1) - q (0, 0) (axis + 1)) + (y 1 + y' 1) / 2 * (q (1, 1) (axis + 1) - q (0, 1) (axis + 1))) * eb - ((1 - (y 1 + y' 1) / 2) * (q (1, 0) (axis + 2) - q (0, 0) (axis + 2)) + (y 1 + y' 1) / 2 * (q (1, 1) (axis + 2) - q (0, 1) (axis + 2))) * ea
  funext i
  fin_cases i
  · exact sub_eq_zero.1 ((mul_eq_zero.1 e0).resolve_right hm)
  · exact sub_eq_zero.1 ((mul_eq_zero.1 e1).resolve_right hm)
  · exact e2

theorem unitBox_fibre {lo hi : Fin 2 × Fin 2 → ℝ} (h : ∀ e, lo e ≤ hi e) (y : Fin 2 → ℝ) :
    volume {h : ℝ | ![y 0, y 1, h] ∈ column 2 quadWeights unitCorner lo hi} =
      ∑ e : Fin 2 × Fin 2, ENNReal.ofReal (hi e - lo e) * (blendOn e.1 (y 0) * blendOn e.2 (y 1)) := by
  by_cases hz : (0 ≤ y 0 ∧ y 0 ≤ 1) ∧ 0 ≤ y 1 ∧ y 1 ≤ 1
  · obtain ⟨⟨a, b⟩, c, d⟩ := hz
    have : {h : ℝ | ![y 0, y 1, h] ∈ column 2 quadWeights unitCorner lo hi} =
        Set.Icc (∑ e, blend (y 0) e.1 * blend (y 1) e.2 * lo e) (∑ e, blend (y 0) e.1 * blend (y 1) e.2 * hi e) := by
      ext x
      exact mem_unitBox.trans ⟨fun h => h.2.2, fun h => ⟨⟨a, b⟩, ⟨c, d⟩, h⟩⟩
    rw [this, Real.volume_Icc, ← Finset.sum_sub_distrib]
    have nn : ∀ e : Fin 2 × Fin 2, 0 ≤ (hi e - lo e) * (blend (y 0) e.1 * blend (y 1) e.2) := fun e =>
      mul_nonneg (sub_nonneg.2 (h e)) (mul_nonneg (blend_nonneg a b _) (blend_nonneg c d _))
    rw [show ∑ e, (blend (y 0) e.1 * blend (y 1) e.2 * hi e - blend (y 0) e.1 * blend (y 1) e.2 * lo e) =
      ∑ e, (hi e - lo e) * (blend (y 0) e.1 * blend (y 1) e.2) from Finset.sum_congr rfl fun e _ => by ring,
      ENNReal.ofReal_sum_of_nonneg fun e _ => nn e]
    refine Finset.sum_congr rfl fun e _ => ?_
    rw [ENNReal.ofReal_mul (sub_nonneg.2 (h e)), ENNReal.ofReal_mul (blend_nonneg a b _), blendOn, blendOn,
      Set.indicator_of_mem (show y 0 ∈ Set.Icc (0 : ℝ) 1 from ⟨a, b⟩), Set.indicator_of_mem (show y 1 ∈ Set.Icc (0 : ℝ) 1 from ⟨c, d⟩)]
  · have : {h : ℝ | ![y 0, y 1, h] ∈ column 2 quadWeights unitCorner lo hi} = ∅ := by
      ext x
      simp only [Set.mem_ofPred_eq, Set.mem_empty_iff_false, iff_false]
      intro hx
      obtain ⟨a, b, -⟩ := mem_unitBox.1 hx
      exact hz ⟨a, b⟩
    rw [this, measure_empty]
    refine (Finset.sum_eq_zero fun e _ => ?_).symm
    rcases not_and_or.1 hz with hz | hz
    · rw [blendOn, Set.indicator_of_notMem (s := Set.Icc (0 : ℝ) 1) (a := y 0) (fun hh => hz hh), zero_mul, mul_zero]
    · rw [blendOn, blendOn, Set.indicator_of_notMem (s := Set.Icc (0 : ℝ) 1) (a := y 1) (fun hh => hz hh), mul_zero, mul_zero]

/-- The volume over the unit square, between heights that are interpolated from its corners. -/
theorem volume_unitBox {lo hi : Fin 2 × Fin 2 → ℝ} (h : ∀ e, lo e ≤ hi e) :
    volume (column 2 quadWeights unitCorner lo hi) = ENNReal.ofReal ((∑ e, (hi e - lo e)) / 4) := by
  rw [volume_fibres 2 (column_measurable 2 quadWeights_compact quadWeights_simplex _ h)]
  obtain ⟨G, hG⟩ : ∃ G : ℝ × ℝ → ENNReal, G = fun z => ∑ e : Fin 2 × Fin 2, ENNReal.ofReal (hi e - lo e) *
      (blendOn e.1 z.1 * blendOn e.2 z.2) := ⟨_, rfl⟩
  have key : ∀ y : Fin 2 → ℝ, volume {h : ℝ | ((2 : Fin 3).insertNth h y : Fin 3 → ℝ) ∈ column 2 quadWeights unitCorner lo hi} =
      G (y 0, y 1) := by
    intro y
    simp only [insert_two, hG]
    exact unitBox_fibre h y
  refine (lintegral_congr key).trans ((integral_twoArrow _).trans ?_)
  have mm : ∀ e : Fin 2 × Fin 2, Measurable fun z : ℝ × ℝ => blendOn e.1 z.1 * blendOn e.2 z.2 := fun e =>
    ((blendOn_measurable e.1).comp measurable_fst).mul ((blendOn_measurable e.2).comp measurable_snd)
  rw [hG, lintegral_finsetSum _ fun e _ => (mm e).const_mul _]
  simp only [lintegral_const_mul _ (mm _)]
  have : ∀ e : Fin 2 × Fin 2, ∫⁻ z : ℝ × ℝ, blendOn e.1 z.1 * blendOn e.2 z.2 = ENNReal.ofReal (1 / 4) := by
    intro e
    rw [Measure.volume_eq_prod, lintegral_prod_mul (blendOn_measurable e.1).aemeasurable (blendOn_measurable e.2).aemeasurable,
      blendOn_integral, blendOn_integral, ← ENNReal.ofReal_mul (by norm_num)]
    norm_num
  simp only [this]
  rw [← Finset.sum_mul, ← ENNReal.ofReal_sum_of_nonneg fun e _ => sub_nonneg.2 (h e),
    ← ENNReal.ofReal_mul (Finset.sum_nonneg fun e _ => sub_nonneg.2 (h e))]
  congr 1
  ring

noncomputable def blendsOn (a b : Fin 2) (u : ℝ) : ENNReal :=
  (Set.Icc (0 : ℝ) 1).indicator (fun u => ENNReal.ofReal (blend u a * blend u b)) u

theorem blendsOn_measurable (a b : Fin 2) : Measurable (blendsOn a b) :=
  (ENNReal.measurable_ofReal.comp ((blend_continuous a).mul (blend_continuous b)).measurable).indicator measurableSet_Icc

theorem blendsOn_eq (a b : Fin 2) (u : ℝ) : blendsOn a b u = blendOn a u * ENNReal.ofReal (blend u b) := by
  by_cases hu : u ∈ Set.Icc (0 : ℝ) 1
  · rw [blendsOn, blendOn, Set.indicator_of_mem hu, Set.indicator_of_mem hu, ENNReal.ofReal_mul (blend_nonneg hu.1 hu.2 _)]
  · rw [blendsOn, blendOn, Set.indicator_of_notMem hu, Set.indicator_of_notMem hu, zero_mul]

theorem share_nonneg (a b : Fin 2) : 0 ≤ share a b := by unfold share; split <;> norm_num

theorem convex_turns {axis : Fin 3} {q : Fin 2 × Fin 2 → V3 ℝ} (hq : ConvexAlong axis q) :
    TurnsOneWay axis q := by
  obtain ⟨s, h1, h2, h3, h4⟩ := hq
  rcases lt_trichotomy s 0 with hs | hs | hs
  · right
    rintro ⟨i, j⟩
    fin_cases i <;> fin_cases j <;> simp only [cornerArea] <;> by_contra hc <;>
      [skip; skip; skip; skip] <;> push Not at hc <;> have := mul_neg_of_neg_of_pos hs hc <;> simp at * <;> linarith
  · subst hs; simp at h1
  · left
    rintro ⟨i, j⟩
    fin_cases i <;> fin_cases j <;> simp only [cornerArea] <;> by_contra hc <;>
      [skip; skip; skip; skip] <;> push Not at hc <;> have := mul_neg_of_pos_of_neg hs hc <;> simp at * <;> linarith

/-- Over a convex quad, the volume between surfaces at the same distance everywhere is the area times the distance. -/
theorem quadVolume_even {axis : Fin 3} {q : Fin 2 × Fin 2 → V3 ℝ} (hq : TurnsOneWay axis q) (c : ℝ) :
    quadVolume axis q (fun _ => c) = |crossAlong axis (q (1, 1) - q (0, 0)) (q (0, 1) - q (1, 0))| / 2 * c := by
  have e1 : quadVolume axis q (fun _ => c) = (∑ e, |cornerArea axis q e|) / 4 * c := by
    simp [quadVolume, Fintype.sum_prod_type, Fin.sum_univ_two, share]
    ring
  have e2 : ∑ e, cornerArea axis q e = 2 * crossAlong axis (q (1, 1) - q (0, 0)) (q (0, 1) - q (1, 0)) := by
    simp [cornerArea, crossAlong, Fintype.sum_prod_type, Fin.sum_univ_two]
    ring
  have e3 : ∑ e, |cornerArea axis q e| = 2 * |crossAlong axis (q (1, 1) - q (0, 0)) (q (0, 1) - q (1, 0))| := by
    rw [show ∀ x : ℝ, 2 * |x| = |2 * x| from fun x => by rw [abs_mul, abs_two], ← e2]
    rcases hq with hs | hs
    · rw [abs_of_nonneg (Finset.sum_nonneg fun e _ => hs e)]
      exact Finset.sum_congr rfl fun e _ => abs_of_nonneg (hs e)
    · rw [abs_of_nonpos (Finset.sum_nonpos fun e _ => hs e), ← Finset.sum_neg_distrib]
      exact Finset.sum_congr rfl fun e _ => abs_of_nonpos (hs e)
  rw [e1, e3]
  ring

/-- The volume over a convex quad. -/
theorem volume_quad {axis : Fin 3} {q : Fin 2 × Fin 2 → V3 ℝ} (hq : TurnsOneWay axis q) {lo hi : Fin 2 × Fin 2 → ℝ} (h : ∀ e, lo e ≤ hi e) :
    volume (column axis quadWeights q lo hi) = ENNReal.ofReal (quadVolume axis q fun e => hi e - lo e) := by
  have hB : MeasurableSet (column 2 quadWeights unitCorner lo hi) := column_measurable 2 quadWeights_compact quadWeights_simplex _ h
  have hC : Continuous fun y : V3 ℝ => pointArea axis q (y 0) (y 1) := by
    refine continuous_finsetSum _ fun e _ => ?_
    exact (((blend_continuous e.1).comp (continuous_apply 0)).mul ((blend_continuous e.2).comp (continuous_apply 1))).mul continuous_const
  have hZ : MeasurableSet {y : V3 ℝ | pointArea axis q (y 0) (y 1) = 0} := (isClosed_singleton.preimage hC).measurableSet
  have hdet : ∀ y : V3 ℝ, (LinearMap.toContinuousLinearMap (spanMap
      (Function.update (q (1, 0) - q (0, 0)) axis 0 + y 1 • Function.update (q (1, 1) - q (1, 0) - q (0, 1) + q (0, 0)) axis 0)
      (Function.update (q (0, 1) - q (0, 0)) axis 0 + y 0 • Function.update (q (1, 1) - q (1, 0) - q (0, 1) + q (0, 0)) axis 0)
      (Pi.single axis 1))).det = pointArea axis q (y 0) (y 1) := fun y => quadMap_det axis q y
  have hnull : volume (quadMap axis q '' (column 2 quadWeights unitCorner lo hi ∩ {y | pointArea axis q (y 0) (y 1) = 0})) = 0 :=
    addHaar_image_eq_zero_of_det_fderivWithin_eq_zero volume (fun y _ => (quadMap_deriv axis q y).hasFDerivWithinAt) fun y hy =>
      (hdet y).trans hy.2
  have hvol : volume (quadMap axis q '' column 2 quadWeights unitCorner lo hi) =
      volume (quadMap axis q '' (column 2 quadWeights unitCorner lo hi ∩ {y | pointArea axis q (y 0) (y 1) = 0}ᶜ)) := by
    refine le_antisymm ?_ (measure_mono (Set.image_mono Set.inter_subset_left))
    conv_lhs => rw [← Set.inter_union_compl (column 2 quadWeights unitCorner lo hi) {y | pointArea axis q (y 0) (y 1) = 0}, Set.image_union]
    exact (measure_union_le _ _).trans (by rw [hnull, zero_add])
  have hint : ∫⁻ y in column 2 quadWeights unitCorner lo hi ∩ {y | pointArea axis q (y 0) (y 1) = 0}ᶜ,
      ENNReal.ofReal |pointArea axis q (y 0) (y 1)| = ∫⁻ y in column 2 quadWeights unitCorner lo hi,
      ENNReal.ofReal |pointArea axis q (y 0) (y 1)| := by
    rw [← lintegral_indicator (hB.inter hZ.compl), ← lintegral_indicator hB]
    refine lintegral_congr fun y => ?_
    by_cases h1 : y ∈ column 2 quadWeights unitCorner lo hi
    · by_cases h2 : pointArea axis q (y 0) (y 1) = 0
      · rw [Set.indicator_of_notMem (fun h => h.2 h2), Set.indicator_of_mem h1, h2, abs_zero, ENNReal.ofReal_zero]
      · rw [Set.indicator_of_mem (show y ∈ _ ∩ _ from ⟨h1, h2⟩), Set.indicator_of_mem h1]
    · rw [Set.indicator_of_notMem (fun h => h1 h.1), Set.indicator_of_notMem h1]
  rw [quadMap_image, hvol, ← lintegral_abs_det_fderiv_eq_addHaar_image volume (hB.inter hZ.compl)
    (fun y _ => (quadMap_deriv axis q y).hasFDerivWithinAt) (quadMap_inj hq lo hi)]
  simp only [hdet]
  rw [hint]
  have mJ : Measurable fun y : V3 ℝ => ENNReal.ofReal |pointArea axis q (y 0) (y 1)| :=
    ENNReal.measurable_ofReal.comp (continuous_abs.comp hC).measurable
  rw [← lintegral_indicator hB, lintegral_fibres 2 (mJ.indicator hB)]
  obtain ⟨G, hG⟩ : ∃ G : ℝ × ℝ → ENNReal, G = fun z => ∑ e : Fin 2 × Fin 2, ∑ e' : Fin 2 × Fin 2,
    ENNReal.ofReal (|cornerArea axis q e'| * (hi e - lo e)) * (blendsOn e.1 e'.1 z.1 * blendsOn e.2 e'.2 z.2) := ⟨_, rfl⟩
  have key : ∀ y : Fin 2 → ℝ, (∫⁻ h : ℝ, (column 2 quadWeights unitCorner lo hi).indicator
      (fun y => ENNReal.ofReal |pointArea axis q (y 0) (y 1)|)
      ((2 : Fin 3).insertNth h y)) = G (y 0, y 1) := by
    intro y
    simp only [insert_two]
    have e1 : ∀ h : ℝ, (column 2 quadWeights unitCorner lo hi).indicator
        (fun y => ENNReal.ofReal |pointArea axis q (y 0) (y 1)|) ![y 0, y 1, h] =
        {h : ℝ | ![y 0, y 1, h] ∈ column 2 quadWeights unitCorner lo hi}.indicator
          (fun _ => ENNReal.ofReal |pointArea axis q (y 0) (y 1)|) h := fun h => rfl
    have hm : MeasurableSet {h : ℝ | ![y 0, y 1, h] ∈ column 2 quadWeights unitCorner lo hi} := by
      refine hB.preimage (f := fun h : ℝ => ![y 0, y 1, h]) (measurable_pi_iff.2 fun i => ?_)
      fin_cases i
      · exact measurable_const
      · exact measurable_const
      · exact measurable_id
    simp only [e1]
    rw [lintegral_indicator_const hm, unitBox_fibre h, hG, Finset.mul_sum]
    refine Finset.sum_congr rfl fun e _ => ?_
    by_cases hz : y 0 ∈ Set.Icc (0 : ℝ) 1 ∧ y 1 ∈ Set.Icc (0 : ℝ) 1
    · obtain ⟨⟨a, b⟩, c, d⟩ := hz
      rw [pointArea_abs hq ⟨a, b⟩ ⟨c, d⟩,
        ENNReal.ofReal_sum_of_nonneg fun e _ => mul_nonneg (mul_nonneg (blend_nonneg a b _) (blend_nonneg c d _)) (abs_nonneg _),
        Finset.sum_mul]
      refine Finset.sum_congr rfl fun e' _ => ?_
      rw [blendsOn_eq, blendsOn_eq, ENNReal.ofReal_mul (mul_nonneg (blend_nonneg a b _) (blend_nonneg c d _)),
        ENNReal.ofReal_mul (blend_nonneg a b _), ENNReal.ofReal_mul (abs_nonneg _)]
      ring
    · have z0 : blendOn e.1 (y 0) * blendOn e.2 (y 1) = 0 := by
        rcases not_and_or.1 hz with hz | hz
        · rw [blendOn, Set.indicator_of_notMem hz, zero_mul]
        · rw [blendOn, blendOn, Set.indicator_of_notMem hz, mul_zero]
      rw [z0, mul_zero, mul_zero]
      refine (Finset.sum_eq_zero fun e' _ => ?_).symm
      rw [blendsOn_eq, blendsOn_eq, mul_mul_mul_comm, z0, zero_mul, mul_zero]
  refine (lintegral_congr key).trans ((integral_twoArrow _).trans ?_)
  have mm : ∀ e e' : Fin 2 × Fin 2, Measurable fun z : ℝ × ℝ => blendsOn e.1 e'.1 z.1 * blendsOn e.2 e'.2 z.2 := fun e e' =>
    ((blendsOn_measurable e.1 e'.1).comp measurable_fst).mul ((blendsOn_measurable e.2 e'.2).comp measurable_snd)
  have hi' : ∀ e e' : Fin 2 × Fin 2, ∫⁻ z : ℝ × ℝ, blendsOn e.1 e'.1 z.1 * blendsOn e.2 e'.2 z.2 =
      ENNReal.ofReal (share e.1 e'.1 * share e.2 e'.2) := by
    intro e e'
    rw [Measure.volume_eq_prod, lintegral_prod_mul (blendsOn_measurable e.1 e'.1).aemeasurable (blendsOn_measurable e.2 e'.2).aemeasurable,
      ENNReal.ofReal_mul (share_nonneg _ _)]
    exact congrArg₂ (· * ·) (blend_pair _ _) (blend_pair _ _)
  rw [hG, lintegral_finsetSum _ fun e _ => Finset.measurable_sum _ fun e' _ => (mm e e').const_mul _]
  simp only [lintegral_finsetSum _ fun e' _ => (mm _ e').const_mul _, lintegral_const_mul _ (mm _ _), hi']
  have nn : ∀ e e' : Fin 2 × Fin 2, 0 ≤ share e.1 e'.1 * share e.2 e'.2 * |cornerArea axis q e'| * (hi e - lo e) := fun e e' =>
    mul_nonneg (mul_nonneg (mul_nonneg (share_nonneg _ _) (share_nonneg _ _)) (abs_nonneg _)) (sub_nonneg.2 (h e))
  rw [quadVolume, ENNReal.ofReal_sum_of_nonneg fun e _ => Finset.sum_nonneg fun e' _ => nn e e']
  refine Finset.sum_congr rfl fun e _ => ?_
  rw [ENNReal.ofReal_sum_of_nonneg fun e' _ => nn e e']
  refine Finset.sum_congr rfl fun e' _ => ?_
  rw [← ENNReal.ofReal_mul (mul_nonneg (abs_nonneg _) (sub_nonneg.2 (h e)))]
  congr 1
  ring

theorem quadVolume_nonneg {axis : Fin 3} {q : Fin 2 × Fin 2 → V3 ℝ} {gap : Fin 2 × Fin 2 → ℝ} (h : ∀ e, 0 ≤ gap e) :
    0 ≤ quadVolume axis q gap :=
  Finset.sum_nonneg fun e _ => Finset.sum_nonneg fun _ _ =>
    mul_nonneg (mul_nonneg (mul_nonneg (share_nonneg _ _) (share_nonneg _ _)) (abs_nonneg _)) (h e)

/-- Part of the height, part of the volume. -/
theorem quad_fraction {axis : Fin 3} {q : Fin 2 × Fin 2 → V3 ℝ} (hq : TurnsOneWay axis q) {lo hi : Fin 2 × Fin 2 → ℝ} (h : ∀ e, lo e ≤ hi e)
    {t t' : ℝ} (ht : t ≤ t') :
    volume (column axis quadWeights q (fun e => (1 - t) * lo e + t * hi e) fun e => (1 - t') * lo e + t' * hi e) =
      ENNReal.ofReal (t' - t) * volume (column axis quadWeights q lo hi) := by
  rw [volume_quad hq h, volume_quad hq fun e => by nlinarith [h e], ← ENNReal.ofReal_mul (sub_nonneg.2 ht)]
  congr 1
  simp only [quadVolume, Finset.mul_sum]
  exact Finset.sum_congr rfl fun e _ => Finset.sum_congr rfl fun e' _ => by ring

/-- Layers over each other. -/
theorem quad_columns {axis : Fin 3} {q : Fin 2 × Fin 2 → V3 ℝ} (hq : TurnsOneWay axis q) {m : ℕ} {Z : ℕ → Fin 2 × Fin 2 → ℝ}
    (h : ∀ L < m, ∀ e, Z L e ≤ Z (L + 1) e) :
    ∑ L ∈ Finset.range m, volume (column axis quadWeights q (Z L) (Z (L + 1))) = volume (column axis quadWeights q (Z 0) (Z m)) := by
  have hle : ∀ e, Z 0 e ≤ Z m e := by
    intro e
    have : ∀ L ≤ m, Z 0 e ≤ Z L e := by
      intro L
      induction L with
      | zero => intro _; exact le_rfl
      | succ L ih => intro hL; exact (ih (by omega)).trans (h L (by omega) e)
    exact this m le_rfl
  rw [volume_quad hq hle, Finset.sum_congr rfl fun L hL => volume_quad hq (h L (Finset.mem_range.1 hL)),
    ← ENNReal.ofReal_sum_of_nonneg fun L hL => quadVolume_nonneg fun e => sub_nonneg.2 (h L (Finset.mem_range.1 hL) e)]
  congr 1
  simp only [quadVolume]
  rw [Finset.sum_comm]
  refine Finset.sum_congr rfl fun e _ => ?_
  rw [Finset.sum_comm]
  refine Finset.sum_congr rfl fun e' _ => ?_
  rw [← Finset.mul_sum, Finset.sum_range_sub fun L => Z L e]

/-- The volume over a parallelogram. -/
theorem volume_parallelogram (axis : Fin 3) {q : Fin 2 × Fin 2 → V3 ℝ} (hq : q (1, 1) = q (1, 0) + q (0, 1) - q (0, 0))
    {lo hi : Fin 2 × Fin 2 → ℝ} (h : ∀ e, lo e ≤ hi e) :
    volume (column axis quadWeights q lo hi) = ENNReal.ofReal (|crossAlong axis (q (1, 0) - q (0, 0)) (q (0, 1) - q (0, 0))| *
      ((∑ e, (hi e - lo e)) / 4)) := by
  have e : quadMap axis q = fun y => Function.update (q (0, 0)) axis 0 +
      spanMap (Function.update (q (1, 0) - q (0, 0)) axis 0) (Function.update (q (0, 1) - q (0, 0)) axis 0) (Pi.single axis 1) y := by
    funext y ax
    rw [spanMap_apply]
    by_cases hax : ax = axis
    · subst hax; simp [quadMap]
    · simp [quadMap, Function.update_of_ne hax, Pi.single_eq_of_ne hax, hq]
      ring
  rw [quadMap_image, e, volume_affine, spanMap_det, det3_along, volume_unitBox h, ← ENNReal.ofReal_mul (abs_nonneg _)]

namespace Spec

/-- The volumes of the hexahedra of a grid of nodes over a surface, in layers that divide the space between surfaces at heights
`H 0`, `H 1`, …, at the fractions `subs`.  Over a quad that turns one way each layer takes its fraction of the volume between its surfaces, and all layers
add up to the volume between the first and the last surface; both follow from the quad and the distance of the surfaces at its corners.
Over a parallelogram this is its area times the mean distance of the surfaces at the corners; between surfaces that are at the same distance at
all corners it is the area times the distance. -/
structure HexVolumes (axis : Fin 3) (d : Fin 3 → ℕ) (points : List (Fin 3 → ℝ)) (H : ℕ → (Fin 3 → ℝ) → ℝ) (subs : List (List ℝ)) (m : ℕ)
    (node : (Fin 3 → ℕ) → Fin 3 → ℝ) : Prop where
  layer : ∀ i, QuadOf d axis i → TurnsOneWay axis (baseQuad d axis points i) → ∀ (k s : ℕ) ts t t', subs[k]? = some ts →
    ts[s]? = some t → ts[s + 1]? = some t' →
    volume (hexRegion node (Function.update i axis (layersIn subs k + s))) = ENNReal.ofReal (t' - t) *
      volume (quadColumn axis (baseQuad d axis points i) (H k ∘ baseQuad d axis points i) (H (k + 1) ∘ baseQuad d axis points i))
  column : ∀ i, QuadOf d axis i → TurnsOneWay axis (baseQuad d axis points i) →
    ∑ L ∈ Finset.range m, volume (hexRegion node (Function.update i axis L)) =
      volume (quadColumn axis (baseQuad d axis points i) (H 0 ∘ baseQuad d axis points i) (H subs.length ∘ baseQuad d axis points i))
  box : ∀ i, QuadOf d axis i → ∀ (k s : ℕ) ts t t', subs[k]? = some ts → ts[s]? = some t → ts[s + 1]? = some t' →
    ∀ q, q = baseQuad d axis points i → q (1, 1) = q (1, 0) + q (0, 1) - q (0, 0) →
    volume (hexRegion node (Function.update i axis (layersIn subs k + s))) =
      ENNReal.ofReal (|crossAlong axis (q (1, 0) - q (0, 0)) (q (0, 1) - q (0, 0))| * ((t' - t) * ((∑ e, (H (k + 1) (q e) - H k (q e))) / 4)))
  boxes : ∀ i, QuadOf d axis i → ∀ q, q = baseQuad d axis points i → q (1, 1) = q (1, 0) + q (0, 1) - q (0, 0) →
    volume (quadColumn axis q (H 0 ∘ q) (H subs.length ∘ q)) =
      ENNReal.ofReal (|crossAlong axis (q (1, 0) - q (0, 0)) (q (0, 1) - q (0, 0))| * ((∑ e, (H subs.length (q e) - H 0 (q e))) / 4))
  solid : ∀ i, QuadOf d axis i → ∀ q, q = baseQuad d axis points i → TurnsOneWay axis q → ∀ (k s : ℕ) ts t t', subs[k]? = some ts →
    ts[s]? = some t → ts[s + 1]? = some t' → volume (hexRegion node (Function.update i axis (layersIn subs k + s))) =
      ENNReal.ofReal ((t' - t) * quadVolume axis q fun e => H (k + 1) (q e) - H k (q e))
  solids : ∀ i, QuadOf d axis i → ∀ q, q = baseQuad d axis points i → TurnsOneWay axis q →
    ∑ L ∈ Finset.range m, volume (hexRegion node (Function.update i axis L)) =
      ENNReal.ofReal (quadVolume axis q fun e => H subs.length (q e) - H 0 (q e))
  even : ∀ i, QuadOf d axis i → ∀ q, q = baseQuad d axis points i → TurnsOneWay axis q → ∀ c, (∀ e, H subs.length (q e) - H 0 (q e) = c) →
    ∑ L ∈ Finset.range m, volume (hexRegion node (Function.update i axis L)) =
      ENNReal.ofReal (|crossAlong axis (q (1, 1) - q (0, 0)) (q (0, 1) - q (1, 0))| / 2 * c)

end Spec

/-- The volumes of layers of nodes at rising heights over a structured surface. -/
theorem profile_volumes {axis : Fin 3} {d : Ix} (hd : d axis = 1) {base : List (V3 ℝ)} (hn : base.length = count d) {h : ℕ → V3 ℝ → ℝ}
    {args : List (Resolution ℝ × Option String)} (hargs : args ≠ [])
    (hsub : ∀ a ∈ args, ∃ m ts, resolutionToPerc a.1 a.2 = .ok ts ∧ Subdivision m ts)
    (hord : ∀ p ∈ base, ∀ k < args.length, h k p ≤ h (k + 1) p) {M : SGrid ℝ ℤ} (hM : ProfileGrid d axis base h args M)
    {m : ℕ} {node : Ix → V3 ℝ} (hm : M.nodes.d = Function.update d axis (m + 1))
    (hnode : ∀ i, InShape M.nodes.d i → M.points[vtkId M.nodes.d i]? = some (node i)) :
    ∃ subs, subs.length = args.length ∧
      (∀ (k : ℕ) a, args[k]? = some a → ∃ ts, resolutionToPerc a.1 a.2 = .ok ts ∧ subs[k]? = some ts) ∧
      HexVolumes axis d base h subs m node := by
  obtain ⟨subs, s1, s2, s3, s4⟩ := hM
  obtain rfl : m = (subs.map fun ts => ts.length - 1).sum := by
    have := congrFun (hm.symm.trans s3) axis
    simp only [Function.update_self] at this
    omega
  refine ⟨subs, s1, s2, ?_⟩
  set m := (subs.map fun ts => ts.length - 1).sum with hmdef
  have hsubs : ∀ (k : ℕ) ts, subs[k]? = some ts → ∃ m', Subdivision m' ts := by
    intro k ts hk
    have hk' : k < args.length := by rw [← s1]; exact (List.getElem?_eq_some_iff.1 hk).1
    obtain ⟨ts', t1, t2⟩ := s2 k _ (List.getElem?_eq_getElem hk')
    obtain ⟨m', ts'', r1, r2⟩ := hsub _ (List.getElem_mem hk')
    obtain rfl : ts' = ts'' := Except.ok.inj (t1.symm.trans r1)
    rw [hk] at t2
    cases t2
    exact ⟨m', r2⟩
  have hlen : 0 < args.length := List.length_pos_iff.2 hargs
  obtain ⟨ts0, hts0⟩ : ∃ ts, subs[(0 : ℕ)]? = some ts := ⟨_, List.getElem?_eq_getElem (by omega)⟩
  obtain ⟨tsl, htsl⟩ : ∃ ts, subs[args.length - 1]? = some ts := ⟨_, List.getElem?_eq_getElem (by omega)⟩
  obtain ⟨m0, hm0⟩ := hsubs _ _ hts0
  obtain ⟨ml, hml⟩ := hsubs _ _ htsl
  have hlast : layersIn subs (args.length - 1) + (tsl.length - 1) = m := by
    rw [← layersIn_succ htsl, Nat.sub_add_cancel hlen, ← s1, layersIn, List.take_length]
  set P : Ix → V3 ℝ := fun j => base.getD (vtkId d j) 0 with hP
  have hbase : ∀ j, InShape d j → base[vtkId d j]? = some (P j) := by
    intro j hj
    have : vtkId d j < base.length := by rw [hn]; exact vtkId_lt hj
    simp only [hP, List.getD_eq_getElem?_getD, List.getElem?_eq_getElem this, Option.getD_some]
  have hPm : ∀ j, InShape d j → P j ∈ base := fun j hj => List.mem_of_getElem? (hbase j hj)
  have hshape : ∀ j, InShape d j → ∀ L ≤ m, InShape M.nodes.d (Function.update j axis L) := by
    intro j hj L hL ax
    rw [hm]
    by_cases hax : ax = axis
    · subst hax; simp; omega
    · rw [Function.update_of_ne hax, Function.update_of_ne hax]; exact hj ax
  have hat : ∀ j, InShape d j → ∀ (k s : ℕ) ts t, subs[k]? = some ts → ts[s]? = some t →
      node (Function.update j axis (layersIn subs k + s)) = Function.update (P j) axis ((1 - t) * h k (P j) + t * h (k + 1) (P j)) := by
    intro j hj k s ts t hk hs
    have hle : layersIn subs k + s ≤ m := by
      have := layersIn_le hk
      have h2 := (List.getElem?_eq_some_iff.1 hs).1
      omega
    have := s4 k ts hk j s t _ hj hs (hbase j hj)
    rw [hnode _ (hshape j hj _ hle)] at this
    exact Option.some.inj this
  have hin : ∀ L < m, ∃ (k : ℕ) (ts : List ℝ) (s : ℕ) (t t' : ℝ), subs[k]? = some ts ∧ L = layersIn subs k + s ∧
      ts[s]? = some t ∧ ts[s + 1]? = some t' ∧ t < t' := by
    intro L hL
    obtain ⟨k, ts, s, k1, k2, k3⟩ := exists_part subs L hL
    obtain ⟨m', hm'⟩ := hsubs k ts k1
    refine ⟨k, ts, s, ts[s], ts[s + 1], k1, k3, List.getElem?_eq_getElem _, List.getElem?_eq_getElem _, ?_⟩
    exact List.pairwise_iff_getElem.1 hm'.increasing s (s + 1) _ _ (Nat.lt_succ_self s)
  have hstep : ∀ (k s : ℕ) ts t t', subs[k]? = some ts → ts[s]? = some t → ts[s + 1]? = some t' → t < t' := by
    intro k s ts t t' hk hs hs'
    obtain ⟨m', hm'⟩ := hsubs k ts hk
    obtain ⟨l1, rfl⟩ := List.getElem?_eq_some_iff.1 hs
    obtain ⟨l2, rfl⟩ := List.getElem?_eq_some_iff.1 hs'
    exact List.pairwise_iff_getElem.1 hm'.increasing s (s + 1) _ _ (Nat.lt_succ_self s)
  have hup : ∀ j, InShape d j → ∀ (k : ℕ) ts, subs[k]? = some ts → h k (P j) ≤ h (k + 1) (P j) := fun j hj k ts hk =>
    hord _ (hPm j hj) k (by rw [← s1]; exact (List.getElem?_eq_some_iff.1 hk).1)
  -- the hexahedra
  have hlay : ∀ i, QuadOf d axis i → ∀ (k s : ℕ) ts t t', subs[k]? = some ts → ts[s]? = some t → ts[s + 1]? = some t' →
      hexRegion node (Function.update i axis (layersIn subs k + s)) = column axis quadWeights (baseQuad d axis base i)
        (fun e => (1 - t) * h k (baseQuad d axis base i e) + t * h (k + 1) (baseQuad d axis base i e))
        (fun e => (1 - t') * h k (baseQuad d axis base i e) + t' * h (k + 1) (baseQuad d axis base i e)) := by
    intro i hi k s ts t t' hk hs hs'
    have hins := corner_inShape hd hi
    refine hexRegion_column ?_ ?_ fun e => ?_
    · intro e
      rw [corner_at hi.1, Nat.add_zero]
      exact hat _ (hins e) k s ts t hk hs
    · intro e
      rw [corner_at hi.1, Nat.add_assoc]
      exact hat _ (hins e) k (s + 1) ts t' hk hs'
    · have a := hup _ (hins e) k ts hk
      have b := hstep k s ts t t' hk hs hs'
      change (1 - t) * h k (P (i + corner axis e 0)) + t * h (k + 1) (P (i + corner axis e 0)) ≤
        (1 - t') * h k (P (i + corner axis e 0)) + t' * h (k + 1) (P (i + corner axis e 0))
      nlinarith
  have hup' : ∀ i, QuadOf d axis i → ∀ (k : ℕ) ts, subs[k]? = some ts → ∀ e,
      h k (baseQuad d axis base i e) ≤ h (k + 1) (baseQuad d axis base i e) := fun i hi k ts hk e =>
    hup _ (corner_inShape hd hi e) k ts hk
  have hends : ∀ i, QuadOf d axis i → ∀ e, h 0 (baseQuad d axis base i e) ≤ h subs.length (baseQuad d axis base i e) := by
    intro i hi e
    have : ∀ k ≤ subs.length, h 0 (baseQuad d axis base i e) ≤ h k (baseQuad d axis base i e) := by
      intro k
      induction k with
      | zero => intro _; exact le_rfl
      | succ k ih => intro hk; exact (ih (by omega)).trans (hup' i hi k _ (List.getElem?_eq_getElem (by omega)) e)
    exact this _ le_rfl
  have hlayer : ∀ i, QuadOf d axis i → TurnsOneWay axis (baseQuad d axis base i) → ∀ (k s : ℕ) ts t t', subs[k]? = some ts →
      ts[s]? = some t → ts[s + 1]? = some t' →
      volume (hexRegion node (Function.update i axis (layersIn subs k + s))) = ENNReal.ofReal (t' - t) *
        volume (quadColumn axis (baseQuad d axis base i) (h k ∘ baseQuad d axis base i) (h (k + 1) ∘ baseQuad d axis base i)) := by
    intro i hi hconv k s ts t t' hk hs hs'
    rw [hlay i hi k s ts t t' hk hs hs', ← quadColumn_eq]
    exact quad_fraction hconv (hup' i hi k ts hk)
      (hstep k s ts t t' hk hs hs').le
  have hcolumn : ∀ i, QuadOf d axis i → TurnsOneWay axis (baseQuad d axis base i) →
      ∑ L ∈ Finset.range m, volume (hexRegion node (Function.update i axis L)) =
        volume (quadColumn axis (baseQuad d axis base i) (h 0 ∘ baseQuad d axis base i) (h subs.length ∘ baseQuad d axis base i)) := by
    intro i hi hconv
    have hins := corner_inShape hd hi
    set Z : ℕ → Fin 2 × Fin 2 → ℝ := fun L e => node (Function.update (i + corner axis e 0) axis L) axis with hZ
    have hZat : ∀ (k s : ℕ) ts t, subs[k]? = some ts → ts[s]? = some t → Z (layersIn subs k + s) =
        fun e => (1 - t) * h k (baseQuad d axis base i e) + t * h (k + 1) (baseQuad d axis base i e) := by
      intro k s ts t hk hs
      funext e
      simp only [hZ]
      rw [hat _ (hins e) k s ts t hk hs, Function.update_self]
      rfl
    have hcol : ∀ L < m, hexRegion node (Function.update i axis L) = column axis quadWeights (baseQuad d axis base i) (Z L) (Z (L + 1)) ∧
        ∀ e, Z L e ≤ Z (L + 1) e := by
      intro L hL
      obtain ⟨k, ts, s, t, t', k1, rfl, k3, k4, k5⟩ := hin L hL
      have e1 := hZat k s ts t k1 k3
      have e2 := hZat k (s + 1) ts t' k1 k4
      rw [← Nat.add_assoc] at e2
      rw [hlay i hi k s ts t t' k1 k3 k4, e1, e2]
      refine ⟨rfl, fun e => ?_⟩
      have a := hup' i hi k ts k1 e
      simp only
      nlinarith
    rw [Finset.sum_congr rfl fun L hL => congrArg volume (hcol L (Finset.mem_range.1 hL)).1,
      quad_columns hconv fun L hL => (hcol L hL).2, ← quadColumn_eq]
    have z0 := hZat 0 0 ts0 0 hts0 (subdivision_zeroOne hm0).2.1
    have z1 := hZat _ _ tsl 1 htsl (subdivision_zeroOne hml).2.2
    rw [hlast] at z1
    rw [show layersIn subs 0 + 0 = 0 from rfl] at z0
    rw [z0, z1, Nat.sub_add_cancel hlen, s1]
    congr 2
    · funext e; simp
    · funext e; simp
  have hsolids : ∀ i, QuadOf d axis i → ∀ q, q = baseQuad d axis base i → TurnsOneWay axis q →
      ∑ L ∈ Finset.range m, volume (hexRegion node (Function.update i axis L)) =
        ENNReal.ofReal (quadVolume axis q fun e => h subs.length (q e) - h 0 (q e)) := by
    rintro i hi q rfl hq
    rw [hcolumn i hi hq, ← quadColumn_eq, volume_quad (lo := h 0 ∘ baseQuad d axis base i) (hi := h subs.length ∘ baseQuad d axis base i) hq
      fun e => hends i hi e]
    rfl
  refine ⟨hlayer, hcolumn, ?_, ?_, ?_, hsolids, ?_⟩
  · rintro i hi k s ts t t' hk hs hs' q rfl hq
    rw [hlay i hi k s ts t t' hk hs hs', volume_parallelogram axis hq]
    · congr 2
      rw [← mul_div_assoc, Finset.mul_sum]
      congr 1
      exact Finset.sum_congr rfl fun e _ => by ring
    · intro e
      have a := hup' i hi k ts hk e
      have b := hstep k s ts t t' hk hs hs'
      nlinarith
  · rintro i hi q rfl hq
    rw [← quadColumn_eq]
    exact volume_parallelogram axis hq fun e => hends i hi e
  · rintro i hi q rfl hq k s ts t t' hk hs hs'
    rw [hlayer i hi hq k s ts t t' hk hs hs', ← quadColumn_eq, volume_quad (lo := h k ∘ baseQuad d axis base i)
      (hi := h (k + 1) ∘ baseQuad d axis base i) hq fun e => hup' i hi k ts hk e,
      ← ENNReal.ofReal_mul (sub_nonneg.2 (hstep k s ts t t' hk hs hs').le)]
    rfl
  · rintro i hi q rfl hq c hc
    rw [hsolids i hi _ rfl hq, show (fun e => h subs.length (baseQuad d axis base i e) - h 0 (baseQuad d axis base i e)) = fun _ => c from
      funext hc, quadVolume_even hq]

/-- **C140 (structured stacks).** The same for a 3D stack on a structured surface, whose cells are hexahedra.  Over a quad that turns one way,
seen along the axis (convex quads, and triangles with a double corner), a layer that takes a fraction of the thickness of its item takes this fraction of its volume, and the volumes of the cells over
the quad add up to the volume between the first and the last surface, which is given in closed form (`quadVolume`).  Over a parallelogram the volume of a cell is the area
times the mean thickness at the four corners, and that between two surfaces the area times their mean distance.
Missing: surfaces that cross, for which it is false (`C140_crossing_refuted`). -/
theorem C140_hexahedra_partial (vol : Arr3 (V3 ℝ) → List ℝ) (hvol : ∀ x, (vol x).length = count (cells x.d))
    (ignore : List String) (dflt : String) (o : InterpOracle ℝ) (d : Fin 3 → ℕ) (mesh : Surf ℝ GridTopo)
    (hmesh : StackGrid d mesh) (axis : Fin 3) (hd : FlatAlong d axis)
    (as : List (Profile × Rest ℝ (Opts (Resolution ℝ × Option String)))) (has : 2 ≤ as.length)
    (hres : ∀ a ∈ as.tail, ∃ m ts, resolutionToPerc a.2.opts.sub.1 a.2.opts.sub.2 = .ok ts ∧ Subdivision m ts)
    (hord : ∀ p ∈ mesh.points, ∀ k, k + 1 < as.length → cutHeight (as.map fun a => (a.1, a.2.thickness, a.2.priority)) k p ≤
      cutHeight (as.map fun a => (a.1, a.2.thickness, a.2.priority)) (k + 1) p) :
    ∃ s, (Stack.new mesh axis true).run o ((profileAdds as).map addCall) = .ok s ∧
      ((∀ a ∈ as.tail, Acceptable (count (cells d)) a.2.opts.group) → ∃ R, stack3D vol ignore dflt s = .ok R) ∧
      ∀ M table s', stack3D vol ignore dflt s = .ok ((M, table), s') →
        ∃ m node subs, M.nodes.d = Function.update d axis (m + 1) ∧
          (∀ i, InShape M.nodes.d i → M.points[vtkId M.nodes.d i]? = some (node i)) ∧
          subs.length + 1 = as.length ∧
          (∀ (k : ℕ) a, as[k + 1]? = some a → ∃ ts, resolutionToPerc a.2.opts.sub.1 a.2.opts.sub.2 = .ok ts ∧ subs[k]? = some ts) ∧
          HexVolumes axis d mesh.points (cutHeight (as.map fun a => (a.1, a.2.thickness, a.2.priority))) subs m node := by
  obtain ⟨s, h1, h2, h3⟩ := C124_stack3d_partial vol hvol ignore dflt o d mesh hmesh axis hd as has
    (fun a ha => by obtain ⟨m, ts, t1, t2⟩ := hres a ha; exact ⟨ts, t1, subdivision_zeroOne t2⟩)
  refine ⟨s, h1, h2, fun M table s' hM => ?_⟩
  obtain ⟨_, hP⟩ := h3 M table s' hM
  have hlen : (as.tail.map fun a => a.2.opts.sub).length = as.length - 1 := by simp
  have hne : (as.tail.map fun a => a.2.opts.sub) ≠ [] := by
    intro h; have := congrArg List.length h; simp at this; omega
  have hres' : ∀ a ∈ as.tail.map fun a => a.2.opts.sub, ∃ m ts, resolutionToPerc a.1 a.2 = .ok ts ∧ Subdivision m ts := by
    intro a ha
    obtain ⟨x, hx, rfl⟩ := List.mem_map.1 ha
    exact hres x hx
  have hord' : ∀ p ∈ mesh.points, ∀ k < (as.tail.map fun a => a.2.opts.sub).length,
      cutHeight (as.map fun a => (a.1, a.2.thickness, a.2.priority)) k p ≤
        cutHeight (as.map fun a => (a.1, a.2.thickness, a.2.priority)) (k + 1) p := by
    intro p hp k hk
    rw [hlen] at hk
    exact hord p hp k (by omega)
  obtain ⟨m, node, e1, e2, _⟩ := profile_body hd.1 hmesh.size hne hres' hord' hP
  obtain ⟨subs, u1, u2, u3⟩ := profile_volumes hd.1 hmesh.size hne hres' hord' hP e1 e2
  refine ⟨m, node, subs, e1, e2, by rw [u1, hlen]; omega, fun k a ha => ?_, u3⟩
  exact u2 k a.2.opts.sub (by rw [List.getElem?_map, List.getElem?_tail, ha]; rfl)

/-- **C140 refuted for surfaces that cross.** On every unstructured surface, with default priorities and thicknesses: four surfaces, the third
below all others.  The mesh is generated, and over every triangle the volumes of its three cells add up to more than the volume of what they
fill. -/
theorem C140_crossing_refuted {vtk : VtkOracle ℝ} (ho : AppendsAll vtk.order) (hc : Cleans Eq vtk.clean) (invert : Bool)
    (ignore : List String) (dflt : String) (o : InterpOracle ℝ) (mesh : Surf ℝ UTopo) (hmesh : StackSurf mesh) (axis : Fin 3)
    (f g k l : V3 ℝ → ℝ) (hf : ∀ p ∈ mesh.points, k p < f p) (hg : ∀ p ∈ mesh.points, k p < g p) (hl : ∀ p ∈ mesh.points, k p < l p) :
    ∃ s, (Stack.new mesh axis true).run o ((profileAdds [(.height f, oneLayer), (.height g, oneLayer), (.height k, oneLayer),
        (.height l, oneLayer)]).map addCall) = .ok s ∧
      ∃ M table s', stack3DU vtk invert ignore dflt s = .ok ((M, table), s') ∧ ∃ at_ : ℕ → ℕ → ℕ,
        M.cells.length = 3 * mesh.topo.cells.length ∧
        (∀ n, n < M.cells.length → ∃ L c, L < 3 ∧ c < mesh.topo.cells.length ∧ at_ L c = n) ∧
        ∀ (c t a b e : ℕ) p q r, mesh.topo.cells[c]? = some (t, [a, b, e]) → mesh.points[a]? = some p → mesh.points[b]? = some q →
          mesh.points[e]? = some r →
          ∑ L ∈ Finset.range 3, volume (cellRegion M (at_ L c)) =
            ENNReal.ofReal (volumeOver axis p q r fun x => (min (f x) (g x) - k x) + (l x - k x)) ∧
          (crossAlong axis (q - p) (r - p) ≠ 0 →
            volume (⋃ L, ⋃ (_ : L < 3), cellRegion M (at_ L c)) < ∑ L ∈ Finset.range 3, volume (cellRegion M (at_ L c))) := by
  obtain ⟨s, h1, h2, h3⟩ := stack_layers ho hc invert ignore dflt o mesh hmesh axis
    [(.height f, oneLayer), (.height g, oneLayer), (.height k, oneLayer), (.height l, oneLayer)] (by simp)
    (by
      intro a ha
      refine ⟨1, [0, 1], ?_, ⟨rfl, rfl, rfl, by simp⟩⟩
      simp only [List.tail_cons, List.mem_cons, List.not_mem_nil, or_false] at ha
      rcases ha with rfl | rfl | rfl <;> exact oneLayer_res)
  refine ⟨s, h1, ?_⟩
  obtain ⟨⟨⟨M, table⟩, s'⟩, hR⟩ := h2 (by
    intro a ha
    simp only [List.tail_cons, List.mem_cons, List.not_mem_nil, or_false] at ha
    rcases ha with rfl | rfl | rfl <;> simp [oneLayer, Acceptable, entries])
  refine ⟨M, table, s', hR, ?_⟩
  obtain ⟨flip, key, base, surfs, subs, names, pos, node, e1, e2, e3, e4, _, _, e7⟩ := h3 M table s' hR
  have hsubs : subs = [[0, 1], [0, 1], [0, 1]] := by
    refine List.ext_getElem? fun i => ?_
    by_cases hi : i < 3
    · have hi' : ([[0, 1], [0, 1], [0, 1]] : List (List ℝ))[i]? = some [0, 1] := by
        have : i = 0 ∨ i = 1 ∨ i = 2 := by omega
        rcases this with rfl | rfl | rfl <;> rfl
      rw [hi']
      have : i = 0 ∨ i = 1 ∨ i = 2 := by omega
      rcases this with rfl | rfl | rfl
      · obtain ⟨ts, t1, t2⟩ := e7 0 _ rfl
        rw [t2, ← Except.ok.inj (oneLayer_res.symm.trans t1)]
      · obtain ⟨ts, t1, t2⟩ := e7 1 _ rfl
        rw [t2, ← Except.ok.inj (oneLayer_res.symm.trans t1)]
      · obtain ⟨ts, t1, t2⟩ := e7 2 _ rfl
        rw [t2, ← Except.ok.inj (oneLayer_res.symm.trans t1)]
    · rw [List.getElem?_eq_none (by rw [e2]; simp; omega), List.getElem?_eq_none (by simp; omega)]
  subst hsubs
  set c := cutHeight ([(Profile.height f, oneLayer), (.height g, oneLayer), (.height k, oneLayer),
    (.height l, oneLayer)].map fun a => (a.1, a.2.thickness, a.2.priority)) with hcut
  have c0 : ∀ p, c 0 p = min (f p) (g p) := by intro p; simp [hcut, cutHeight, pushedHeight, profileHeight, oneLayer]
  have c1 : ∀ p ∈ mesh.points, c 1 p = k p := by
    intro p hp; simp [hcut, cutHeight, pushedHeight, profileHeight, oneLayer, (hg p hp).le]
  have c2 : ∀ p ∈ mesh.points, c 2 p = k p := by
    intro p hp; simp [hcut, cutHeight, pushedHeight, profileHeight, oneLayer, (hl p hp).le]
  have c3 : ∀ p, c 3 p = l p := by intro p; simp [hcut, cutHeight, pushedHeight, profileHeight]
  set Z : ℕ → ℕ → ℝ := fun L j => c L (mesh.points.getD j 0) with hZ
  have hZp : ∀ (L j : ℕ) p, mesh.points[j]? = some p → Z L j = c L p := by
    intro L j p hp
    simp only [hZ, List.getD_eq_getElem?_getD, hp, Option.getD_some]
  have hat : ∀ L ≤ 3, ∀ (j : ℕ) p, NodeOf mesh.topo.cells j → mesh.points[j]? = some p →
      M.points[node L j]? = some (Function.update p axis (Z L j)) := by
    intro L hL j p hj hp
    rw [hZp L j p hp]
    rcases Nat.lt_or_ge L 3 with hL' | hL'
    · have hk : ([[0, 1], [0, 1], [0, 1]] : List (List ℝ))[L]? = some [0, 1] := by
        have : L = 0 ∨ L = 1 ∨ L = 2 := by omega
        rcases this with rfl | rfl | rfl <;> rfl
      have hlay : layersIn ([[0, 1], [0, 1], [0, 1]] : List (List ℝ)) L = L := by
        have : L = 0 ∨ L = 1 ∨ L = 2 := by omega
        rcases this with rfl | rfl | rfl <;> simp [layersIn]
      have := e4 L _ hk j 0 0 p hj rfl hp
      rw [hlay] at this
      simpa using this
    · obtain rfl : L = 3 := by omega
      have := e4 2 _ rfl j 1 1 p hj rfl hp
      rw [show layersIn ([[0, 1], [0, 1], [0, 1]] : List (List ℝ)) 2 + 1 = 3 by simp [layersIn]] at this
      simpa using this
  have hthree : (([[0, 1], [0, 1], [0, 1]] : List (List ℝ)).map fun ts => ts.length - 1).sum = 3 := by simp
  have hsize := e1.size
  have hcover := e1.cover
  rw [hthree] at hsize hcover
  refine ⟨pos, hsize, hcover, fun n t a b e p q r hn hp hq hr => ?_⟩
  have hmem := List.mem_of_getElem? hn
  have hin := hmesh.ids _ hmem
  simp only at hin
  have hreg : ∀ L < 3, cellRegion M (pos L n) = convexHull ℝ (movedNodes axis mesh.points [a, b, e] (Z L) ∪
      movedNodes axis mesh.points [a, b, e] (Z (L + 1))) := fun L hL =>
    layer_heights hmesh.ids e1 (fun j p hj hp => ⟨hat L (by omega) j p hj hp, hat (L + 1) (by omega) j p hj hp⟩)
      (by rw [hthree]; exact hL) hn
  have hpt : ∀ x ∈ [a, b, e], ∃ y ∈ mesh.points, mesh.points[x]? = some y := fun x hx =>
    ⟨_, List.getElem_mem (hin x hx), List.getElem?_eq_getElem _⟩
  have hmov : ∀ Z Z' : ℕ → ℝ, (∀ x ∈ [a, b, e], Z x = Z' x) → movedNodes axis mesh.points [a, b, e] Z =
      movedNodes axis mesh.points [a, b, e] Z' := by
    intro Z Z' h
    ext x
    constructor
    · rintro ⟨j, hj, y, hy, rfl⟩; exact ⟨j, hj, y, hy, by rw [h j hj]⟩
    · rintro ⟨j, hj, y, hy, rfl⟩; exact ⟨j, hj, y, hy, by rw [h j hj]⟩
  have h12 : ∀ x ∈ [a, b, e], Z 2 x = Z 1 x := by
    intro x hx
    obtain ⟨y, hy, hxy⟩ := hpt x hx
    rw [hZp _ _ _ hxy, hZp _ _ _ hxy, c1 _ hy, c2 _ hy]
  have h10 : ∀ x ∈ [a, b, e], Z 1 x < Z 0 x := by
    intro x hx
    obtain ⟨y, hy, hxy⟩ := hpt x hx
    rw [hZp _ _ _ hxy, hZp _ _ _ hxy, c1 _ hy, c0]
    exact lt_min (hf _ hy) (hg _ hy)
  have h13 : ∀ x ∈ [a, b, e], Z 1 x < Z 3 x := by
    intro x hx
    obtain ⟨y, hy, hxy⟩ := hpt x hx
    rw [hZp _ _ _ hxy, hZp _ _ _ hxy, c1 _ hy, c3]
    exact hl _ hy
  have r0 := hreg 0 (by omega)
  have r1 := hreg 1 (by omega)
  have r2 := hreg 2 (by omega)
  rw [Set.union_comm] at r0
  rw [hmov _ _ h12] at r1 r2
  have v0 := volume_moved (axis := axis) hin fun x hx => (h10 x hx).le
  have v1 := volume_moved (axis := axis) hin (lo := Z 1) (hi := Z 1) fun x hx => le_rfl
  have v2 := volume_moved (axis := axis) hin fun x hx => (h13 x hx).le
  have v3 := volume_moved (axis := axis) hin (lo := Z 1) (hi := fun x => min (Z 0 x) (Z 3 x)) fun x hx =>
    (lt_min (h10 x hx) (h13 x hx)).le
  have hcolumn : ∀ hi : ℕ → ℝ, (∀ x ∈ [a, b, e], Z 1 x ≤ hi x) →
      convexHull ℝ (movedNodes axis mesh.points [a, b, e] (Z 1) ∪ movedNodes axis mesh.points [a, b, e] hi) =
        column axis (stdSimplex ℝ (Fin [a, b, e].length)) (fun i => mesh.points.getD [a, b, e][i] 0) (fun i => Z 1 [a, b, e][i])
          fun i => hi [a, b, e][i] := by
    intro hi h
    rw [movedNodes_range hin, movedNodes_range hin]
    exact column_hull axis _ fun i => h _ (List.getElem_mem i.2)
  have hsub : convexHull ℝ (movedNodes axis mesh.points [a, b, e] (Z 1) ∪
      movedNodes axis mesh.points [a, b, e] fun x => min (Z 0 x) (Z 3 x)) ⊆ cellRegion M (pos 0 n) ∩ cellRegion M (pos 2 n) := by
    rw [r0, r2, hcolumn _ fun x hx => (lt_min (h10 x hx) (h13 x hx)).le, hcolumn _ fun x hx => (h10 x hx).le,
      hcolumn _ fun x hx => (h13 x hx).le]
    exact Set.subset_inter (column_subset subset_rfl (fun _ => le_rfl) fun _ => min_le_left _ _)
      (column_subset subset_rfl (fun _ => le_rfl) fun _ => min_le_right _ _)
  have hmeas : MeasurableSet (cellRegion M (pos 2 n)) := by
    rw [r2, hcolumn _ fun x hx => (h13 x hx).le]
    exact column_measurable axis (isCompact_stdSimplex ℝ _) subset_rfl _ fun i => (h13 _ (List.getElem_mem i.2)).le
  rw [← r0] at v0
  rw [← r1] at v1
  rw [← r2] at v2
  simp only [sub_self, add_zero, zero_div, mul_zero, ENNReal.ofReal_zero] at v1
  have gp : mesh.points.getD a 0 = p := by simp [List.getD_eq_getElem?_getD, hp]
  have gq : mesh.points.getD b 0 = q := by simp [List.getD_eq_getElem?_getD, hq]
  have gr : mesh.points.getD e 0 = r := by simp [List.getD_eq_getElem?_getD, hr]
  rw [gp, gq, gr] at v0 v2 v3
  have ha := h10 a (by simp)
  have hb := h10 b (by simp)
  have he := h10 e (by simp)
  have ha' := h13 a (by simp)
  have hb' := h13 b (by simp)
  have he' := h13 e (by simp)
  simp only [Finset.sum_range_succ, Finset.sum_range_zero, zero_add]
  constructor
  · rw [v0, v1, v2, add_zero, ← ENNReal.ofReal_add]
    · congr 1
      simp only [hZp _ _ _ hp, hZp _ _ _ hq, hZp _ _ _ hr, c0, c3, c1 _ (List.mem_of_getElem? hp), c1 _ (List.mem_of_getElem? hq),
        c1 _ (List.mem_of_getElem? hr), volumeOver]
      ring
    · have : 0 ≤ (Z 0 a - Z 1 a + (Z 0 b - Z 1 b) + (Z 0 e - Z 1 e)) / 3 := by linarith
      positivity
    · have : 0 ≤ (Z 3 a - Z 1 a + (Z 3 b - Z 1 b) + (Z 3 e - Z 1 e)) / 3 := by linarith
      positivity
  · intro hne
    have hpos : 0 < volume (cellRegion M (pos 0 n) ∩ cellRegion M (pos 2 n)) := by
      refine lt_of_lt_of_le ?_ (measure_mono hsub)
      rw [v3, ENNReal.ofReal_pos]
      have k1 := lt_min ha ha'
      have k2 := lt_min hb hb'
      have k3 := lt_min he he'
      have : 0 < (min (Z 0 a) (Z 3 a) - Z 1 a + (min (Z 0 b) (Z 3 b) - Z 1 b) + (min (Z 0 e) (Z 3 e) - Z 1 e)) / 3 := by linarith
      have := abs_pos.2 hne
      positivity
    have hun : volume (⋃ L, ⋃ (_ : L < 3), cellRegion M (pos L n)) ≤ volume (cellRegion M (pos 0 n) ∪ cellRegion M (pos 2 n)) := by
      have : (⋃ L, ⋃ (_ : L < 3), cellRegion M (pos L n)) ⊆
          (cellRegion M (pos 0 n) ∪ cellRegion M (pos 2 n)) ∪ cellRegion M (pos 1 n) := by
        intro x hx
        simp only [Set.mem_iUnion] at hx
        obtain ⟨L, hL, hx⟩ := hx
        have : L = 0 ∨ L = 1 ∨ L = 2 := by omega
        rcases this with rfl | rfl | rfl
        · exact .inl (.inl hx)
        · exact .inr hx
        · exact .inl (.inr hx)
      refine (measure_mono this).trans ((measure_union_le _ _).trans ?_)
      rw [v1, add_zero]
    have hadd := measure_union_add_inter (μ := volume) (cellRegion M (pos 0 n)) hmeas
    rw [v1, add_zero, ← hadd]
    refine lt_of_le_of_lt hun (ENNReal.lt_add_right ?_ hpos.ne')
    refine ne_top_of_le_ne_top ?_ (measure_union_le _ _)
    rw [v0, v2]
    finiteness

/-- The profiles of the examples are subdivided. -/
theorem someProfiles_sub : ∀ a ∈ someProfiles.tail, ∃ m ts, resolutionToPerc a.2.opts.sub.1 a.2.opts.sub.2 = .ok ts ∧ Subdivision m ts := by
  intro a ha
  simp only [someProfiles, List.tail_cons, List.mem_cons, List.not_mem_nil, or_false] at ha
  rcases ha with rfl | rfl
  · obtain ⟨p, p1, p2, _⟩ := C11_integer_resolution 2 none (.inl rfl)
    exact ⟨_, p, p1, p2⟩
  · obtain ⟨p, p1, p2, _⟩ := C11_integer_resolution 3 (some "log") (.inr (.inl rfl))
    exact ⟨_, p, p1, p2⟩

/-- Concrete case of C140: three profiles of different priorities on a triangle and a quad. -/
example (o : InterpOracle ℝ) : ∃ s M table s' m at_ Z,
    (Stack.new kiteXY 2 true).run o ((profileAdds someProfiles).map addCall) = .ok s ∧
      stack3DU exactVtk true [] "default" s = .ok ((M, table), s') ∧
      VolumesAddUp 2 kiteXY.points kiteXY.topo.cells (cutHeight (someProfiles.map fun a => (a.1, a.2.thickness, a.2.priority)) 0)
        (cutHeight (someProfiles.map fun a => (a.1, a.2.thickness, a.2.priority)) 2) M m at_ Z := by
  obtain ⟨p1, _, p4⟩ := someProfiles_ok
  obtain ⟨s, hs, g, h⟩ := C140_columns_partial exactVtk_ok.1 exactVtk_ok.2 true [] "default" o kiteXY kiteXY_ok 2 someProfiles p1
    someProfiles_sub
    (by
      intro p hp k hk
      simp only [kiteXY, List.mem_cons, List.not_mem_nil, or_false] at hp
      have hk' : k = 0 ∨ k = 1 := by simp [someProfiles] at hk; omega
      rcases hp with rfl | rfl | rfl | rfl | rfl <;> rcases hk' with rfl | rfl <;>
        simp [cutHeight, pushedHeight, someProfiles, profileHeight] <;> norm_num)
  obtain ⟨⟨⟨M, table⟩, s'⟩, hR⟩ := g p4
  obtain ⟨m, at_, Z, _, hv⟩ := h M table s' hR
  exact ⟨s, M, table, s', m, at_, Z, hs, hR, hv⟩

/-- Concrete case of C140 for an extrusion: the prisms over the triangle, of area 1/2, moved up by 1 and then obliquely by 2, have together
the volume 3/2. -/
example (rot : V3 ℝ → ℝ → V3 ℝ → V3 ℝ → V3 ℝ) : ∃ e M table, (Extr.new kiteXY none none).run rot
      ([((![0, 0, 1] : V3 ℝ), (⟨(.int 2, none), .none⟩ : Opts (Resolution ℝ × Option String))),
        (![1, 0, 2], ⟨(.int 3, none), .none⟩)].map fun x => step (x.1, none, x.2)) = .ok e ∧
    extrudeU exactVtk [] "default" e = .ok (M, table) ∧
    ∃ (m : ℕ) (at_ : ℕ → ℕ → ℕ), ∑ L ∈ Finset.range m, volume (cellRegion M (at_ L 0)) = ENNReal.ofReal (3 / 2) := by
  have key : ∀ r : ℤ, ∃ n ts, resolutionToPerc (.int r) none = .ok ts ∧ Subdivision n ts := by
    intro r
    obtain ⟨p, h1, h2, _⟩ := C11_integer_resolution r none (.inl rfl)
    exact ⟨_, p, h1, h2⟩
  obtain ⟨e, h1, h2, h3⟩ := C140_extruded exactVtk_ok.1 exactVtk_ok.2 rot [] "default" kiteXY kiteXY_ok
    [((![0, 0, 1] : V3 ℝ), ⟨(.int 2, none), .none⟩), (![1, 0, 2], ⟨(.int 3, none), .none⟩)] (by simp)
    (by
      intro x hx
      simp only [List.mem_cons, List.not_mem_nil, or_false] at hx
      rcases hx with rfl | rfl
      · exact key 2
      · exact key 3)
    (LinearMap.proj 2) 0
    (by
      intro p hp
      simp only [kiteXY, List.mem_cons, List.not_mem_nil, or_false] at hp
      rcases hp with rfl | rfl | rfl | rfl | rfl <;> rfl)
    (by
      intro x hx
      simp only [List.mem_cons, List.not_mem_nil, or_false] at hx
      rcases hx with rfl | rfl <;> simp [LinearMap.proj_apply])
  obtain ⟨⟨M, table⟩, hr⟩ := h2 (by
    intro x hx
    simp only [List.mem_cons, List.not_mem_nil, or_false] at hx
    rcases hx with rfl | rfl <;> simp [Acceptable, entries])
  obtain ⟨m, at_, A, _, hv⟩ := h3 M table hr
  refine ⟨e, M, table, h1, hr, m, at_, ?_⟩
  rw [hv.triangles 0 5 0 1 2 ![0, 0, 0] ![1, 0, 0] ![0, 1, 0] rfl rfl rfl rfl]
  congr 1
  rw [det3_eq]
  simp
  norm_num

/-- Concrete case of C140 on a structured surface: over each of its two quads the volumes add up to the area, 1, times the mean height. -/
example (vol : Arr3 (V3 ℝ) → List ℝ) (hvol : ∀ x, (vol x).length = count (cells x.d)) (o : InterpOracle ℝ) :
    ∃ s M table s' m node subs, (Stack.new (squareXY ℝ) 2 true).run o ((profileAdds someProfiles).map addCall) = .ok s ∧
      stack3D vol [] "default" s = .ok ((M, table), s') ∧ subs.length = 2 ∧
      HexVolumes 2 ![3, 2, 1] (squareXY ℝ).points (cutHeight (someProfiles.map fun a => (a.1, a.2.thickness, a.2.priority))) subs m node ∧
      ∀ j : Fin 2, ∑ L ∈ Finset.range m, volume (hexRegion node (Function.update ![(j : ℕ), 0, 0] 2 L)) = volume (quadColumn 2
        (baseQuad ![3, 2, 1] 2 (squareXY ℝ).points ![(j : ℕ), 0, 0])
        (cutHeight (someProfiles.map fun a => (a.1, a.2.thickness, a.2.priority)) 0 ∘ baseQuad ![3, 2, 1] 2 (squareXY ℝ).points ![(j : ℕ), 0, 0])
        (cutHeight (someProfiles.map fun a => (a.1, a.2.thickness, a.2.priority)) 2 ∘
          baseQuad ![3, 2, 1] 2 (squareXY ℝ).points ![(j : ℕ), 0, 0])) := by
  obtain ⟨p1, _, p4⟩ := someProfiles_ok
  obtain ⟨s, hs, g, h⟩ := C140_hexahedra_partial vol hvol [] "default" o ![3, 2, 1] (squareXY ℝ) squareXY_ok 2 ⟨rfl, by decide⟩
    someProfiles p1 someProfiles_sub
    (by
      intro p hp k hk
      simp only [squareXY, List.mem_cons, List.not_mem_nil, or_false] at hp
      have hk' : k = 0 ∨ k = 1 := by simp [someProfiles] at hk; omega
      rcases hp with rfl | rfl | rfl | rfl | rfl | rfl <;> rcases hk' with rfl | rfl <;>
        simp [cutHeight, pushedHeight, someProfiles, profileHeight])
  obtain ⟨⟨⟨M, table⟩, s'⟩, hR⟩ := g p4
  obtain ⟨m, node, subs, _, _, hl, _, hv⟩ := h M table s' hR
  have hl : subs.length = 2 := by simp [someProfiles] at hl; omega
  refine ⟨s, M, table, s', m, node, subs, hs, hR, hl, hv, fun j => ?_⟩
  have := hv.column _ (square_convex j).1 (convex_turns (square_convex j).2)
  rwa [hl] at this

/-- A structured surface of one cell, a trapezium. -/
def trapezium : Surf ℝ GridTopo := ⟨[![0, 0, 0], ![2, 0, 0], ![0, 1, 0], ![1, 1, 0]], ![2, 2, 1], [], [], none⟩

theorem trapezium_ok : StackGrid ![2, 2, 1] trapezium :=
  ⟨rfl, rfl, by simp [trapezium, Arrays], ⟨by simp [trapezium], by simp [trapezium]⟩, by simp [trapezium]⟩

/-- Concrete case of C140 over a quad that is no parallelogram: the two layers under the plane `z = 1 + x` have the volume 8/3. -/
example (vol : Arr3 (V3 ℝ) → List ℝ) (hvol : ∀ x, (vol x).length = count (cells x.d)) (o : InterpOracle ℝ) :
    ∃ s M table s' m node, (Stack.new trapezium 2 true).run o ((profileAdds [(.height fun _ => 0, oneLayer),
        (.height fun p => 1 + p 0, ⟨none, ⟨(.int 2, none), .none⟩, 0, 0⟩)]).map addCall) = .ok s ∧
      stack3D vol [] "default" s = .ok ((M, table), s') ∧ M.nodes.d = Function.update ![2, 2, 1] 2 (m + 1) ∧
      (∀ i, InShape M.nodes.d i → M.points[vtkId M.nodes.d i]? = some (node i)) ∧
      ∑ L ∈ Finset.range m, volume (hexRegion node (Function.update 0 2 L)) = ENNReal.ofReal (8 / 3) := by
  obtain ⟨s, hs, g, h⟩ := C140_hexahedra_partial vol hvol [] "default" o ![2, 2, 1] trapezium trapezium_ok 2 ⟨rfl, by decide⟩
    [(.height fun _ => 0, oneLayer), (.height fun p => 1 + p 0, ⟨none, ⟨(.int 2, none), .none⟩, 0, 0⟩)] (by simp)
    (by
      intro a ha
      simp only [List.tail_cons, List.mem_cons, List.not_mem_nil, or_false] at ha
      subst ha
      obtain ⟨p, p1, p2, _⟩ := C11_integer_resolution 2 none (.inl rfl)
      exact ⟨_, p, p1, p2⟩)
    (by
      intro p hp k hk
      simp only [trapezium, List.mem_cons, List.not_mem_nil, or_false] at hp
      obtain rfl : k = 0 := by simp at hk; omega
      rcases hp with rfl | rfl | rfl | rfl <;> simp [cutHeight, pushedHeight, profileHeight] <;> norm_num)
  obtain ⟨⟨⟨M, table⟩, s'⟩, hR⟩ := g (by
    intro a ha
    simp only [List.tail_cons, List.mem_cons, List.not_mem_nil, or_false] at ha
    subst ha
    simp [Acceptable, entries])
  obtain ⟨m, node, subs, e1, e2, hl, _, hv⟩ := h M table s' hR
  have hl : subs.length = 1 := by simpa using hl
  refine ⟨s, M, table, s', m, node, hs, hR, e1, e2, ?_⟩
  rw [hv.solids 0 ⟨rfl, fun ax hax => by fin_cases ax <;> simp at hax ⊢⟩ _ rfl (convex_turns ⟨1, by
    simp [crossAlong, baseQuad, corner, vtkId, trapezium]⟩), hl]
  congr 1
  simp [quadVolume, share, cornerArea, Fintype.sum_prod_type, Fin.sum_univ_two, crossAlong, baseQuad, corner, vtkId, trapezium, cutHeight,
    pushedHeight, profileHeight]
  norm_num

/-- Concrete case of the refutation: surfaces added at heights 0, 3, -1 and 5 over a triangle of area 1/2; the volumes of the three cells add up
to 7/2, those of what they fill to less. -/
example (o : InterpOracle ℝ) : ∃ s M table s', (Stack.new kiteXY 2 true).run o ((profileAdds [(.height fun _ => 0, oneLayer),
        (.height fun _ => 3, oneLayer), (.height fun _ => -1, oneLayer), (.height fun _ => 5, oneLayer)]).map addCall) = .ok s ∧
      stack3DU exactVtk true [] "default" s = .ok ((M, table), s') ∧ ∃ at_ : ℕ → ℕ → ℕ,
        ∑ L ∈ Finset.range 3, volume (cellRegion M (at_ L 0)) = ENNReal.ofReal (7 / 2) ∧
        volume (⋃ L, ⋃ (_ : L < 3), cellRegion M (at_ L 0)) < ENNReal.ofReal (7 / 2) := by
  obtain ⟨s, h1, M, table, s', h2, at_, _, _, h3⟩ := C140_crossing_refuted exactVtk_ok.1 exactVtk_ok.2 true [] "default" o kiteXY kiteXY_ok 2
    (fun _ => 0) (fun _ => 3) (fun _ => -1) (fun _ => 5) (by intros; norm_num) (by intros; norm_num) (by intros; norm_num)
  obtain ⟨h4, h5⟩ := h3 0 5 0 1 2 ![0, 0, 0] ![1, 0, 0] ![0, 1, 0] rfl rfl rfl rfl
  have h6 := h5 (by simp [crossAlong])
  have hv : volumeOver 2 ![0, 0, 0] ![1, 0, 0] ![0, 1, 0] (fun _ => (min 0 3 - -1) + (5 - -1)) = 7 / 2 := by
    simp [volumeOver, crossAlong]
    norm_num
  rw [hv] at h4
  exact ⟨s, M, table, s', h1, h2, at_, h4, by rw [← h4]; exact h6⟩

end Gridder
