import Verif.Props.Shapes
import Mathlib.Tactic.IntervalCases

/-!
# C120: shapes that share a boundary have the same nodes on it

The shapes of `load_well_2d` (`examples/examples.py:154-176`) are made one by one and merged; the merged mesh is
conforming only if the nodes of two neighbours coincide along the boundary between them.
-/

namespace Gridder
open Spec

variable {δ : Type _} [OfNat δ 0] [OfNat δ 32]

/-- Two methods whose subdivisions are mirror images: constant with itself, log with log_r. -/
def Spec.MirrorMethods (m m' : Option String) : Prop :=
  (methodName m = "constant" ∧ methodName m' = "constant") ∨
  (methodName m = "log" ∧ methodName m' = "log_r") ∨ (methodName m = "log_r" ∧ methodName m' = "log")

theorem Spec.MirrorMethods.left {m m' : Option String} (h : MirrorMethods m m') : Supported m := by
  rcases h with h | h | h
  · exact Or.inl h.1
  · exact Or.inr (Or.inl h.1)
  · exact Or.inr (Or.inr h.1)

theorem Spec.MirrorMethods.right {m m' : Option String} (h : MirrorMethods m m') : Supported m' := by
  rcases h with h | h | h
  · exact Or.inl h.2
  · exact Or.inr (Or.inr h.2)
  · exact Or.inr (Or.inl h.2)

theorem posOf_mirror {m m' : Option String} (h : MirrorMethods m m') (x : ℝ) :
    posOf (methodName m') (1 - x) = 1 - posOf (methodName m) x := by
  rcases h with ⟨h, h'⟩ | ⟨h, h'⟩ | ⟨h, h'⟩ <;> rw [h, h'] <;> simp [posOf]
  · congr 1; ring
  · congr 1; ring

/-- The two subdivisions of an integer resolution with mirror methods. -/
theorem perc_mirror {n : ℤ} {m m' : Option String} (h : MirrorMethods m m') {ls ls' : List ℝ}
    (h1 : resolutionToPerc (.int n) m = .ok ls) (h2 : resolutionToPerc (.int n) m' = .ok ls') {p : ℕ}
    (hp : p ≤ (max 1 n).toNat) :
    ∃ l, ls[p]? = some l ∧ ls'[(max 1 n).toNat - p]? = some (1 - l) := by
  rw [resolutionToPerc_int h.left n] at h1
  rw [resolutionToPerc_int h.right n] at h2
  cases h1
  cases h2
  have hn : ((max 1 n).toNat : ℝ) ≠ 0 := by
    have : 0 < (max 1 n).toNat := by omega
    exact_mod_cast this.ne'
  refine ⟨posOf (methodName m) ((p : ℝ) / ((max 1 n).toNat : ℝ)), ?_, ?_⟩
  · rw [List.getElem?_map, List.getElem?_range (by omega)]; rfl
  · rw [List.getElem?_map, List.getElem?_range (by omega), ← posOf_mirror h]
    simp only [Option.map_some]
    congr 2
    rw [Nat.cast_sub hp]
    field_simp

/-! ## Around the axis -/

/-- **C120 (sector and ring).** The arc of a sector and the inner arc of the annular sector around it, made with the
same angles and the same subdivision of the angle, have the same nodes. -/
theorem C120_sector_ring {area : Arr3 (V3 ℝ) → List ℝ} {r ro a b : ℝ} {tres : Resolution ℝ} {nr : ℤ}
    {tm rm : Option String} (hrm : Supported rm) {c : Option (List ℝ)} {S : TriMesh ℝ} {M : SGrid ℝ δ}
    (hS : sector r a b tres tm c = .ok S) (hM : annularSector area r ro a b (.int nr) tres rm tm c = .ok M) :
    M.nodes.d 0 + 1 = S.points.length ∧
      ∀ p < M.nodes.d 0, ∃ x, S.points[p + 1]? = some x ∧ M.points[vtkId M.nodes.d ![p, 0, 0]]? = some x := by
  obtain ⟨ts, v, h1, h2, h3, _, h4, _⟩ := C63_sector hS
  obtain ⟨ts', rs, v', k1, k2, k3, k4, k5, _⟩ := C63_annularSector hM
  rw [h1] at k1; cases k1
  cases centre_unique h2 k3
  obtain ⟨rs', g, subR, _⟩ := C11_integer_resolution nr rm hrm
  rw [g] at k2; cases k2
  refine ⟨by rw [k4, h3]; rfl, ?_⟩
  intro p hp
  have hp' : p < ts.length := by simpa [k4] using hp
  have ht := List.getElem?_eq_getElem hp'
  refine ⟨_, h4 p _ ht, ?_⟩
  rw [k5 p 0 _ 0 ht subR.first]
  simp

/-- **C120 (rings).** The outer arc of an annular sector and the inner arc of the next one, made with the same angles
and the same subdivision of the angle, have the same nodes; the radial resolutions may differ. -/
theorem C120_rings {area : Arr3 (V3 ℝ) → List ℝ} {ri r ro a b : ℝ} {tres : Resolution ℝ} {nr nr' : ℤ}
    {tm rm rm' : Option String} (hrm : Supported rm) (hrm' : Supported rm') {c : Option (List ℝ)}
    {M M' : SGrid ℝ δ} (hM : annularSector area ri r a b (.int nr) tres rm tm c = .ok M)
    (hM' : annularSector area r ro a b (.int nr') tres rm' tm c = .ok M') :
    M.nodes.d 0 = M'.nodes.d 0 ∧
      ∀ p < M.nodes.d 0, ∃ x, M.points[vtkId M.nodes.d ![p, (max 1 nr).toNat, 0]]? = some x ∧
        M'.points[vtkId M'.nodes.d ![p, 0, 0]]? = some x := by
  obtain ⟨ts, rs, v, h1, h2, h3, h4, h5, _⟩ := C63_annularSector hM
  obtain ⟨ts', rs', v', k1, k2, k3, k4, k5, _⟩ := C63_annularSector hM'
  rw [h1] at k1; cases k1
  cases centre_unique h3 k3
  obtain ⟨_, g, subR, _⟩ := C11_integer_resolution nr rm hrm
  rw [g] at h2; cases h2
  obtain ⟨_, g', subR', _⟩ := C11_integer_resolution nr' rm' hrm'
  rw [g'] at k2; cases k2
  refine ⟨by rw [h4, k4]; rfl, ?_⟩
  intro p hp
  have ht := List.getElem?_eq_getElem (show p < ts.length by simpa [h4] using hp)
  refine ⟨_, h5 p _ _ 1 ht subR.last, ?_⟩
  rw [k5 p 0 _ 0 ht subR'.first]
  congr 3
  ring

/-- **C120 (angles).** The last radial line of an annular sector and the first one of the annular sector that starts
at its end angle have the same nodes if they have the same radii and radial subdivision; the subdivisions of the
angles may differ. -/
theorem C120_angles {area : Arr3 (V3 ℝ) → List ℝ} {ri ro a b b' : ℝ} {rres : Resolution ℝ} {nt nt' : ℤ}
    {tm tm' rm : Option String} (htm : Supported tm) (htm' : Supported tm') {c : Option (List ℝ)}
    {M M' : SGrid ℝ δ} (hM : annularSector area ri ro a b rres (.int nt) rm tm c = .ok M)
    (hM' : annularSector area ri ro b b' rres (.int nt') rm tm' c = .ok M') :
    M.nodes.d 1 = M'.nodes.d 1 ∧
      ∀ q < M.nodes.d 1, ∃ x, M.points[vtkId M.nodes.d ![(max 1 nt).toNat, q, 0]]? = some x ∧
        M'.points[vtkId M'.nodes.d ![0, q, 0]]? = some x := by
  obtain ⟨ts, rs, v, h1, h2, h3, h4, h5, _⟩ := C63_annularSector hM
  obtain ⟨ts', rs', v', k1, k2, k3, k4, k5, _⟩ := C63_annularSector hM'
  rw [h2] at k2; cases k2
  cases centre_unique h3 k3
  obtain ⟨_, g, subT, _⟩ := C11_integer_resolution nt tm htm
  rw [g] at h1; cases h1
  obtain ⟨_, g', subT', _⟩ := C11_integer_resolution nt' tm' htm'
  rw [g'] at k1; cases k1
  refine ⟨by rw [h4, k4]; rfl, ?_⟩
  intro q hq
  have hs := List.getElem?_eq_getElem (show q < rs.length by simpa [h4] using hq)
  refine ⟨_, h5 _ q 1 _ subT.last hs, ?_⟩
  rw [k5 0 q 0 _ subT'.first hs]
  congr 3
  ring

/-! ## From the ring to the rectangle -/

/-- **C120 (ring and sector-rectangle), partial.** The outer arc of a quarter of a ring with `2 n` equal parts and the
arc of a SectorRectangle with `n` parts per half have the same nodes: the lower half counts them down from 45°, the
upper half up.  Missing: the methods log and log_r, see `C120_ring_rectangle_refuted`. -/
theorem C120_ring_rectangle_partial {area : Arr3 (V3 ℝ) → List ℝ} {ri r dx dy : ℝ} {nr nr' : ℤ} {n : ℕ} (hn : 1 ≤ n)
    {tm tm' rm rm' : Option String} (htm : methodName tm = "constant") (hrm : Supported rm)
    (hrm' : Supported rm') {c : Option (List ℝ)} {M A B : SGrid ℝ δ}
    (hM : annularSector area ri r 0 90 (.int nr) (.int (2 * n)) rm tm c = .ok M)
    (hAB : sectorRectangle area r dx dy (.int nr') (.int n) rm' tm' c = .ok (A, B)) :
    M.nodes.d 0 = 2 * n + 1 ∧
    (∀ p ≤ n, ∃ x, M.points[vtkId M.nodes.d ![p, (max 1 nr).toNat, 0]]? = some x ∧
      A.points[vtkId A.nodes.d ![n - p, 0, 0]]? = some x) ∧
    (∀ p, n ≤ p → p ≤ 2 * n → ∃ x, M.points[vtkId M.nodes.d ![p, (max 1 nr).toNat, 0]]? = some x ∧
      B.points[vtkId B.nodes.d ![p - n, 0, 0]]? = some x) := by
  obtain ⟨ts, rs, v, h1, h2, h3, h4, h5, _⟩ := C63_annularSector hM
  obtain ⟨_, _, _, ls, us, rs', v', k1, k2, k3, k4, _, _, k7, k8⟩ := C63_sectorRectangle_nodes hAB
  cases centre_unique h3 k4
  obtain ⟨_, g, subR, _⟩ := C11_integer_resolution nr rm hrm
  rw [g] at h2; cases h2
  obtain ⟨_, g', subR', _⟩ := C11_integer_resolution nr' rm' hrm'
  rw [g'] at k3; cases k3
  obtain ⟨_, g1, subT, c1, _⟩ := C11_integer_resolution (2 * n) tm (Or.inl htm)
  rw [g1] at h1; cases h1
  obtain ⟨_, g2, subU, c2, _⟩ := C11_integer_resolution n none (Or.inl rfl)
  rw [g2] at k2; cases k2
  have c1 := c1 htm
  have c2 := c2 rfl
  have m1 : max (1 : ℤ) (2 * n) = ((2 * n : ℕ) : ℤ) := by push_cast; omega
  have m2 : max (1 : ℤ) n = (n : ℤ) := by omega
  simp only [m1, m2, Int.toNat_natCast, Int.cast_natCast] at c1 c2
  have hn0 : (n : ℝ) ≠ 0 := by exact_mod_cast (by omega : n ≠ 0)
  have hlu : us.length = n + 1 := by rw [subU.size, m2]; simp
  have hls : ∀ p ≤ n, ∃ l, ls[p]? = some l := fun p hp =>
    ⟨_, List.getElem?_eq_getElem (show p < ls.length by omega)⟩
  refine ⟨?_, ?_, ?_⟩
  · rw [h4]; show ts.length = _; rw [subT.size, m1, Int.toNat_natCast]
  · intro p hp
    obtain ⟨l, hl⟩ := hls (n - p) (by omega)
    refine ⟨_, h5 p _ _ 1 (c1 p (by omega)) subR.last, ?_⟩
    rw [(k8 (n - p) 0 l _ 0 hl (c2 (n - p) (by omega)) subR'.first).1]
    have e1 : ri + 1 * (r - ri) = r := by ring
    have e2 : (45 : ℝ) - 45 * (((n - p : ℕ) : ℝ) / n) = 0 + (p : ℝ) / ((2 * n : ℕ) : ℝ) * (90 - 0) := by
      rw [Nat.cast_sub hp]; push_cast; field_simp; ring
    rw [e1, e2]
    congr 1
    funext ax; simp [between]
  · intro p hp hp'
    obtain ⟨l, hl⟩ := hls (p - n) (by omega)
    refine ⟨_, h5 p _ _ 1 (c1 p (by omega)) subR.last, ?_⟩
    rw [(k8 (p - n) 0 l _ 0 hl (c2 (p - n) (by omega)) subR'.first).2]
    have e1 : ri + 1 * (r - ri) = r := by ring
    have e2 : (45 : ℝ) + 45 * (((p - n : ℕ) : ℝ) / n) = 0 + (p : ℝ) / ((2 * n : ℕ) : ℝ) * (90 - 0) := by
      rw [Nat.cast_sub hp]; push_cast; field_simp; ring
    rw [e1, e2]
    congr 1
    funext ax; simp [between]

/-- **C120 (sector-rectangle and rectangle), partial.** The right edge of a SectorRectangle and the left edge of the
rectangle beside it have the same nodes, and so have its upper edge and the lower edge of the rectangle above it, if
the rectangle has the same number of parts and the *mirror* method.  Missing: the same method, when it is not the
constant one, see `C120_same_method_refuted`. -/
theorem C120_rectangles_partial {area : Arr3 (V3 ℝ) → List ℝ} {r dx dy w : ℝ} {nr nt n' : ℤ}
    {tm tm' rm m' : Option String} (hrm : Supported rm) (hmm : MirrorMethods tm tm') (hm' : Supported m')
    {c : Option (List ℝ)} {v : V3 ℝ} (hc : IsCentre c v) {A B : SGrid ℝ δ}
    (hAB : sectorRectangle area r dx dy (.int nr) (.int nt) rm tm c = .ok (A, B)) :
    (∀ R : SGrid ℝ δ, rectangle area w dy (.int n') (.int nt) m' tm' (some [v 0 + dx, v 1, v 2]) = .ok R →
      A.nodes.d 0 = R.nodes.d 1 ∧ ∀ p ≤ (max 1 nt).toNat, ∃ x,
        A.points[vtkId A.nodes.d ![p, (max 1 nr).toNat, 0]]? = some x ∧
        R.points[vtkId R.nodes.d ![0, (max 1 nt).toNat - p, 0]]? = some x) ∧
    (∀ R : SGrid ℝ δ, rectangle area dx w (.int nt) (.int n') tm' m' (some [v 0, v 1 + dy, v 2]) = .ok R →
      B.nodes.d 0 = R.nodes.d 0 ∧ ∀ p ≤ (max 1 nt).toNat, ∃ x,
        B.points[vtkId B.nodes.d ![p, (max 1 nr).toNat, 0]]? = some x ∧
        R.points[vtkId R.nodes.d ![(max 1 nt).toNat - p, 0, 0]]? = some x) := by
  obtain ⟨_, _, _, ls, us, rs, v', k1, k2, k3, k4, k5, k6, k7, k8⟩ := C63_sectorRectangle_nodes hAB
  cases centre_unique hc k4
  obtain ⟨_, g, subR, _⟩ := C11_integer_resolution nr rm hrm
  rw [g] at k3; cases k3
  obtain ⟨_, gl, subL, _⟩ := C11_integer_resolution nt tm hmm.left
  rw [gl] at k1; cases k1
  have us_at : ∀ p ≤ (max 1 nt).toNat, ∃ u, us[p]? = some u := fun p hp =>
    ⟨_, List.getElem?_eq_getElem (show p < us.length by rw [← k7, subL.size]; omega)⟩
  obtain ⟨xs', gx, subX, _⟩ := C11_integer_resolution n' m' hm'
  obtain ⟨ls', gl', subL', _⟩ := C11_integer_resolution nt tm' hmm.right
  constructor
  · intro R hR
    obtain ⟨xs, ys, w', h1, h2, h3, h4, h5⟩ := C84_rectangle_nodes hR
    rw [gx] at h1; cases h1
    rw [gl'] at h2; cases h2
    cases centre_unique h3 (v := w') (w := ![v 0 + dx, v 1, v 2]) (Or.inr (Or.inl (by simp)))
    refine ⟨?_, ?_⟩
    · rw [k5, h4]; show us.length = ls'.length; rw [← k7, subL.size, subL'.size]
    · intro p hp
      obtain ⟨l, hl, hl'⟩ := perc_mirror hmm gl gl' hp
      obtain ⟨u, hu⟩ := us_at p hp
      refine ⟨_, (k8 p _ l u 1 hl hu subR.last).1, ?_⟩
      rw [h5 0 _ 0 _ subX.first hl']
      congr 1
      funext ax; fin_cases ax <;> simp [between]
  · intro R hR
    obtain ⟨xs, ys, w', h1, h2, h3, h4, h5⟩ := C84_rectangle_nodes hR
    rw [gl'] at h1; cases h1
    rw [gx] at h2; cases h2
    cases centre_unique h3 (v := w') (w := ![v 0, v 1 + dy, v 2]) (Or.inr (Or.inl (by simp)))
    refine ⟨?_, ?_⟩
    · rw [k6, h4]; show us.length = ls'.length; rw [← k7, subL.size, subL'.size]
    · intro p hp
      obtain ⟨l, hl, hl'⟩ := perc_mirror hmm gl gl' hp
      obtain ⟨u, hu⟩ := us_at p hp
      refine ⟨_, (k8 p _ l u 1 hl hu subR.last).2, ?_⟩
      rw [h5 _ 0 _ 0 hl' subX.first]
      congr 1
      funext ax; fin_cases ax <;> simp [between]

/-- **C120 (rectangle and rectangle-sector), partial.** A rectangle and the RectangleSector around it have the same nodes
on the right and on the upper edge of the rectangle if they are made with the same numbers of parts and *mirror*
methods.  Missing: the same method, when it is not the constant one, see `C120_same_method_refuted`. -/
theorem C120_rectangle_sector_partial {area : Arr3 (V3 ℝ) → List ℝ} {r dx dy : ℝ} {nx ny nr : ℤ}
    {xm ym xm' ym' rm : Option String} (hrm : Supported rm) (hx : MirrorMethods xm xm') (hy : MirrorMethods ym ym')
    {c : Option (List ℝ)} {R A B : SGrid ℝ δ}
    (hAB : rectangleSector area dx dy r (.int nx) (.int ny) (.int nr) xm ym rm c = .ok (A, B))
    (hR : rectangle area dx dy (.int nx) (.int ny) xm' ym' c = .ok R) :
    (∀ p ≤ (max 1 ny).toNat, ∃ x, A.points[vtkId A.nodes.d ![p, 0, 0]]? = some x ∧
      R.points[vtkId R.nodes.d ![(max 1 nx).toNat, (max 1 ny).toNat - p, 0]]? = some x) ∧
    (∀ p ≤ (max 1 nx).toNat, ∃ x, B.points[vtkId B.nodes.d ![p, 0, 0]]? = some x ∧
      R.points[vtkId R.nodes.d ![(max 1 nx).toNat - p, (max 1 ny).toNat, 0]]? = some x) := by
  obtain ⟨xs, ys, rs, v, k1, k2, k3, k4, k5, k6, k7, k8⟩ := C63_rectangleSector_nodes hAB
  obtain ⟨xs', ys', w, h1, h2, h3, h4, h5⟩ := C84_rectangle_nodes hR
  cases centre_unique k4 h3
  obtain ⟨_, g, subR, _⟩ := C11_integer_resolution nr rm hrm
  rw [g] at k3; cases k3
  obtain ⟨_, gx, subX, _⟩ := C11_integer_resolution nx xm' hx.right
  rw [gx] at h1; cases h1
  obtain ⟨_, gy, subY, _⟩ := C11_integer_resolution ny ym' hy.right
  rw [gy] at h2; cases h2
  constructor
  · intro p hp
    obtain ⟨l, hl, hl'⟩ := perc_mirror hy k2 gy hp
    refine ⟨_, k7 p 0 l 0 hl subR.first, ?_⟩
    rw [h5 _ _ 1 _ subX.last hl']
    congr 1
    funext ax; fin_cases ax <;> simp [between]
  · intro p hp
    obtain ⟨l, hl, hl'⟩ := perc_mirror hx k1 gx hp
    refine ⟨_, k8 p 0 l 0 hl subR.first, ?_⟩
    rw [h5 _ _ _ 1 hl' subY.last]
    congr 1
    funext ax; fin_cases ax <;> simp [between]

/-- **C120 (rectangles).** Two rectangles side by side, or one above the other, have the same nodes on the common edge
if they are made with the same subdivision of it. -/
theorem C120_side_by_side {area : Arr3 (V3 ℝ) → List ℝ} {dx dy w : ℝ} {res : Resolution ℝ} {n n' : ℤ}
    {m m₁ m₂ : Option String} (hm₁ : Supported m₁) (hm₂ : Supported m₂)
    {c : Option (List ℝ)} {v : V3 ℝ} (hc : IsCentre c v) :
    (∀ R R' : SGrid ℝ δ, rectangle area dx dy (.int n) res m₁ m c = .ok R →
      rectangle area w dy (.int n') res m₂ m (some [v 0 + dx, v 1, v 2]) = .ok R' →
      R.nodes.d 1 = R'.nodes.d 1 ∧ ∀ q < R.nodes.d 1, ∃ x,
        R.points[vtkId R.nodes.d ![(max 1 n).toNat, q, 0]]? = some x ∧
        R'.points[vtkId R'.nodes.d ![0, q, 0]]? = some x) ∧
    (∀ R R' : SGrid ℝ δ, rectangle area dx dy res (.int n) m m₁ c = .ok R →
      rectangle area dx w res (.int n') m m₂ (some [v 0, v 1 + dy, v 2]) = .ok R' →
      R.nodes.d 0 = R'.nodes.d 0 ∧ ∀ p < R.nodes.d 0, ∃ x,
        R.points[vtkId R.nodes.d ![p, (max 1 n).toNat, 0]]? = some x ∧
        R'.points[vtkId R'.nodes.d ![p, 0, 0]]? = some x) := by
  obtain ⟨zs, g, sub, _⟩ := C11_integer_resolution n m₁ hm₁
  obtain ⟨zs', g', sub', _⟩ := C11_integer_resolution n' m₂ hm₂
  constructor
  · intro R R' hR hR'
    obtain ⟨xs, ys, w', h1, h2, h3, h4, h5⟩ := C84_rectangle_nodes hR
    obtain ⟨xs', ys', w'', k1, k2, k3, k4, k5⟩ := C84_rectangle_nodes hR'
    rw [h2] at k2; cases k2
    rw [g] at h1; cases h1
    rw [g'] at k1; cases k1
    cases centre_unique hc h3
    cases centre_unique k3 (v := w'') (w := ![v 0 + dx, v 1, v 2]) (Or.inr (Or.inl (by simp)))
    refine ⟨by rw [h4, k4]; rfl, ?_⟩
    intro q hq
    have hs := List.getElem?_eq_getElem (show q < ys.length by simpa [h4] using hq)
    refine ⟨_, h5 _ q 1 _ sub.last hs, ?_⟩
    rw [k5 0 q 0 _ sub'.first hs]
    congr 1
    funext ax; fin_cases ax <;> simp
  · intro R R' hR hR'
    obtain ⟨xs, ys, w', h1, h2, h3, h4, h5⟩ := C84_rectangle_nodes hR
    obtain ⟨xs', ys', w'', k1, k2, k3, k4, k5⟩ := C84_rectangle_nodes hR'
    rw [h1] at k1; cases k1
    rw [g] at h2; cases h2
    rw [g'] at k2; cases k2
    cases centre_unique hc h3
    cases centre_unique k3 (v := w'') (w := ![v 0, v 1 + dy, v 2]) (Or.inr (Or.inl (by simp)))
    refine ⟨by rw [h4, k4]; rfl, ?_⟩
    intro p hp
    have hs := List.getElem?_eq_getElem (show p < xs.length by simpa [h4] using hp)
    refine ⟨_, h5 p _ _ 1 hs sub.last, ?_⟩
    rw [k5 p 0 _ 0 hs sub'.first]
    congr 1
    funext ax; fin_cases ax <;> simp

/-! ## Counterexamples -/

theorem log_half_ne : posOf "log" (1 / 2) ≠ 1 / 2 := by
  have e : posOf "log" (1 / 2) = 1 - Real.logb 10 (11 / 2) := by
    simp only [posOf]
    rw [if_neg (by decide), if_neg (by decide)]
    norm_num
  rw [e]
  intro h
  have h' : Real.logb 10 (11 / 2) = 1 / 2 := by linarith
  have h2 : Real.logb 10 ((11 / 2) ^ 2) = 1 := by
    rw [Real.logb_pow, h']; norm_num
  have h3 := (Real.logb_eq_iff_rpow_eq (by norm_num) (by norm_num) (by norm_num)).1 h2
  norm_num at h3

theorem log_two_middle {ls : List ℝ} (h : resolutionToPerc (.int 2) (some "log") = .ok ls) :
    ls[1]? = some (posOf "log" (1 / 2)) := by
  have e1 := resolutionToPerc_int (Or.inr (Or.inl rfl) : Supported (some "log")) 2
  rw [h] at e1
  have e1 := Except.ok.inj e1
  have e2 : ((max 1 2 : ℤ)).toNat = 2 := by decide
  have e3 : methodName (some "log") = "log" := rfl
  rw [e1, e2, e3, List.getElem?_map, List.getElem?_range (by decide)]
  norm_num

/-- The fractions of an integer resolution. -/
theorem frac_nodes {n : ℤ} {m : Option String} (hm : Supported m) {ls : List ℝ}
    (h : resolutionToPerc (.int n) m = .ok ls) : Subdivision (max 1 n).toNat ls := by
  obtain ⟨_, g, sub, _⟩ := C11_integer_resolution n m hm
  rw [g] at h; cases h
  exact sub

/-- No fraction of two parts with the method log is the mirror image of the middle one. -/
theorem log_middle_apart {ls : List ℝ} (h : resolutionToPerc (.int 2) (some "log") = .ok ls) {q : ℕ} {t : ℝ}
    (ht : ls[q]? = some t) : t ≠ 1 - posOf "log" (1 / 2) := by
  have sub := frac_nodes (Or.inr (Or.inl rfl)) h
  have hmid := log_two_middle h
  obtain ⟨m0, m1, m2⟩ := subdivision_range sub hmid
  have m2 := m2 (by decide)
  have hl : ls[2]? = some 1 := sub.last
  have h3 : ls.length = 3 := sub.size
  have hlt : posOf "log" (1 / 2) < 1 := by
    have := List.pairwise_iff_getElem.1 sub.increasing 1 2 (by omega) (by omega) (by omega)
    rw [List.getElem?_eq_getElem (by omega)] at hmid hl
    rwa [Option.some.inj hmid, Option.some.inj hl] at this
  have hq : q < 3 := by
    obtain ⟨hq, _⟩ := List.getElem?_eq_some_iff.1 ht
    omega
  have hf : ls[0]? = some 0 := sub.first
  interval_cases q
  · rw [hf] at ht; cases ht
    intro e; linarith
  · rw [hmid] at ht; cases ht
    intro e
    exact log_half_ne (by linarith)
  · rw [hl] at ht; cases ht
    intro e; linarith

/-- **C120 is false for rectangles beside a SectorRectangle made with the same method log**: whatever the sizes, with
two parts the middle node of the right edge of the SectorRectangle is no node of the rectangle's left edge. -/
theorem C120_same_method_refuted {area : Arr3 (V3 ℝ) → List ℝ} {r dx dy w : ℝ} {nr n' : ℤ}
    {rm m' : Option String} (hrm : Supported rm) (hm' : Supported m') {A B R : SGrid ℝ δ}
    (hAB : sectorRectangle area r dx dy (.int nr) (.int 2) rm (some "log") none = .ok (A, B))
    (hR : rectangle area w dy (.int n') (.int 2) m' (some "log") (some [dx, 0, 0]) = .ok R) :
    ∃ x, A.points[vtkId A.nodes.d ![1, (max 1 nr).toNat, 0]]? = some x ∧
      ∀ q < R.nodes.d 1, R.points[vtkId R.nodes.d ![0, q, 0]]? ≠ some x := by
  obtain ⟨r0, _, ry, ls, us, rs, v, k1, k2, k3, k4, _, _, k7, k8⟩ := C63_sectorRectangle_nodes hAB
  cases centre_unique k4 (Or.inl ⟨rfl, rfl⟩)
  obtain ⟨xs, ys, w', h1, h2, h3, h4, h5⟩ := C84_rectangle_nodes hR
  rw [k1] at h2; cases h2
  cases centre_unique h3 (v := w') (w := ![dx, 0, 0]) (Or.inr (Or.inl (by simp)))
  have subR := frac_nodes hrm k3
  have subX := frac_nodes hm' h1
  have subL := frac_nodes (Or.inr (Or.inl rfl)) k1
  have hmid := log_two_middle k1
  have hlen : ls.length = 3 := subL.size
  have hu := List.getElem?_eq_getElem (show 1 < us.length by omega)
  refine ⟨_, (k8 1 _ _ _ 1 hmid hu subR.last).1, ?_⟩
  intro q hq
  have ht := List.getElem?_eq_getElem (show q < ls.length by simpa [h4] using hq)
  rw [h5 0 q 0 _ subX.first ht]
  intro e
  have ey := congrFun (Option.some.inj e) 1
  simp [between] at ey
  have dy0 : dy ≠ 0 := by intro h; linarith
  rcases ey with ey | ey
  · exact log_middle_apart k1 ht (by rw [ey]; norm_num)
  · exact dy0 ey

/-- **C120 is false for a rectangle inside a RectangleSector made with the same method log**: whatever the sizes, with
two parts the middle node of the right edge of the rectangle is no node of the RectangleSector's inner edge. -/
theorem C120_rectangle_sector_refuted {area : Arr3 (V3 ℝ) → List ℝ} {r dx dy : ℝ} (hdy : dy ≠ 0) {nx nr : ℤ}
    {xm rm : Option String} (hxm : Supported xm) (hrm : Supported rm) {A B R : SGrid ℝ δ}
    (hAB : rectangleSector area dx dy r (.int nx) (.int 2) (.int nr) xm (some "log") rm none = .ok (A, B))
    (hR : rectangle area dx dy (.int nx) (.int 2) xm (some "log") none = .ok R) :
    ∃ x, A.points[vtkId A.nodes.d ![1, 0, 0]]? = some x ∧
      ∀ q < R.nodes.d 1, R.points[vtkId R.nodes.d ![(max 1 nx).toNat, q, 0]]? ≠ some x := by
  obtain ⟨xs, ys, rs, v, k1, k2, k3, k4, k5, k6, k7, k8⟩ := C63_rectangleSector_nodes hAB
  obtain ⟨xs', ys', w, h1, h2, h3, h4, h5⟩ := C84_rectangle_nodes hR
  cases centre_unique k4 (Or.inl ⟨rfl, rfl⟩)
  cases centre_unique h3 (Or.inl ⟨rfl, rfl⟩)
  rw [k2] at h2; cases h2
  have subR := frac_nodes hrm k3
  have subX := frac_nodes hxm h1
  refine ⟨_, k7 1 0 _ 0 (log_two_middle k2) subR.first, ?_⟩
  intro q hq
  have ht := List.getElem?_eq_getElem (show q < ys.length by simpa [h4] using hq)
  rw [h5 _ q 1 _ subX.last ht]
  intro e
  have ey := congrFun (Option.some.inj e) 1
  simp [between] at ey
  rcases ey with ey | ey
  · exact log_middle_apart k2 ht (by rw [ey]; norm_num)
  · exact hdy ey

/-- Angles of the first quarter with the same cosine are equal. -/
theorem polar_quarter {r : ℝ} (hr : r ≠ 0) {a b : ℝ} (a0 : 0 ≤ a) (a1 : a ≤ 90) (b0 : 0 ≤ b) (b1 : b ≤ 90)
    (h : polar r a = polar r b) : a = b := by
  have hx := congrFun h 0
  simp only [polar, Matrix.cons_val_zero] at hx
  have hx := mul_left_cancel₀ hr hx
  have hpi := Real.pi_pos
  have e := Real.injOn_cos (x₁ := Real.pi * a / 180) (x₂ := Real.pi * b / 180)
    ⟨by positivity, by nlinarith⟩ ⟨by positivity, by nlinarith⟩ hx
  have e : Real.pi * (a - b) = 0 := by linarith
  rcases mul_eq_zero.1 e with h | h
  · linarith
  · linarith

/-- **C120 is false for a ring and a SectorRectangle made with the method log**: whatever the sizes, the middle node of
the outer arc of the quarter of a ring in two parts is no node of the arc of the SectorRectangle with one part per
half. -/
theorem C120_ring_rectangle_refuted {area : Arr3 (V3 ℝ) → List ℝ} {ri r dx dy : ℝ} {nr nr' : ℤ}
    {rm rm' : Option String} (hrm : Supported rm) (hrm' : Supported rm') {M A B : SGrid ℝ δ}
    (hM : annularSector area ri r 0 90 (.int nr) (.int 2) rm (some "log") none = .ok M)
    (hAB : sectorRectangle area r dx dy (.int nr') (.int 1) rm' (some "log") none = .ok (A, B)) :
    ∃ x, M.points[vtkId M.nodes.d ![1, (max 1 nr).toNat, 0]]? = some x ∧
      ∀ p ≤ 1, A.points[vtkId A.nodes.d ![p, 0, 0]]? ≠ some x ∧ B.points[vtkId B.nodes.d ![p, 0, 0]]? ≠ some x := by
  obtain ⟨ts, rs, v, h1, h2, h3, h4, h5, _⟩ := C63_annularSector hM
  obtain ⟨r0, _, _, ls, us, rs', v', k1, k2, k3, k4, _, _, k7, k8⟩ := C63_sectorRectangle_nodes hAB
  cases centre_unique h3 (Or.inl ⟨rfl, rfl⟩)
  cases centre_unique k4 (Or.inl ⟨rfl, rfl⟩)
  have subR := frac_nodes hrm h2
  have subR' := frac_nodes hrm' k3
  have subT := frac_nodes (Or.inr (Or.inl rfl)) h1
  have subU := frac_nodes (Or.inl rfl) k2
  have hmid := log_two_middle h1
  obtain ⟨m0, m1, m2⟩ := subdivision_range subT hmid
  have m2 := m2 (by decide)
  have hlt : posOf "log" (1 / 2) < 1 := by
    have h3 : ts.length = 3 := subT.size
    have hl : ts[2]? = some 1 := subT.last
    have := List.pairwise_iff_getElem.1 subT.increasing 1 2 (by omega) (by omega) (by omega)
    have hmid' := hmid
    rw [List.getElem?_eq_getElem (by omega)] at hmid' hl
    rwa [Option.some.inj hmid', Option.some.inj hl] at this
  refine ⟨_, h5 1 _ _ 1 hmid subR.last, ?_⟩
  intro p hp
  have hlu : us.length = 2 := subU.size
  have hl := List.getElem?_eq_getElem (show p < ls.length by omega)
  have hu : us[p]? = some (p : ℝ) := by
    interval_cases p
    · rw [show us[0]? = some 0 from subU.first]; norm_num
    · rw [show us[1]? = some 1 from subU.last]; norm_num
  have e1 : ri + 1 * (r - ri) = r := by ring
  have z : ∀ (a : ℝ) (e : V3 ℝ), (0 : V3 ℝ) + between 0 (polar r a) e = polar r a := by
    intro a e; funext ax; simp [between]
  obtain ⟨kA, kB⟩ := k8 p 0 _ _ 0 hl hu subR'.first
  rw [kA, kB, e1, z, z, zero_add]
  have hp0 : (0 : ℝ) ≤ p := by positivity
  have hp1 : (p : ℝ) ≤ 1 := by exact_mod_cast hp
  constructor
  · intro e
    have := polar_quarter r0.ne' (by nlinarith) (by nlinarith) (by nlinarith) (by nlinarith) (Option.some.inj e)
    interval_cases p
    · exact log_half_ne (by norm_num at this ⊢; linarith)
    · norm_num at this; norm_num at m2; linarith
  · intro e
    have := polar_quarter r0.ne' (by nlinarith) (by nlinarith) (by nlinarith) (by nlinarith) (Option.some.inj e)
    interval_cases p
    · exact log_half_ne (by norm_num at this ⊢; linarith)
    · norm_num at this; norm_num at hlt; linarith

/-- The quarter of the example `load_well_2d` around the arc of radius 1.2: the ring of 8 parts, the SectorRectangle with
4 parts per half and log radial spacing, and the rectangle beside it all exist, so that C120 applies to them. -/
example (area : Arr3 (V3 ℝ) → List ℝ) :
    ∃ M A B : SGrid ℝ δ, annularSector area 1 (6 / 5) 0 90 (.int 1) (.int (2 * (4 : ℕ))) none none none = .ok M ∧
      sectorRectangle area (6 / 5) 5 5 (.int 8) (.int (4 : ℕ)) (some "log") none none = .ok (A, B) ∧
      M.nodes.d 0 = 9 ∧
      (∀ p ≤ 4, ∃ x, M.points[vtkId M.nodes.d ![p, 1, 0]]? = some x ∧
        A.points[vtkId A.nodes.d ![4 - p, 0, 0]]? = some x) := by
  obtain ⟨M, hM⟩ := C63_annularSector_exists (δ := δ) area (ri := 1) (ro := 6 / 5) (by norm_num) (by norm_num) 0 90 1
    (2 * (4 : ℕ)) (rm := none) (tm := none) (Or.inl rfl) (Or.inl rfl) (c := none) (v := 0) (Or.inl ⟨rfl, rfl⟩)
  obtain ⟨A, B, hAB⟩ := C63_sectorRectangle_exists (δ := δ) area (radius := 6 / 5) (dx := 5) (dy := 5) (by norm_num)
    (by norm_num) (by norm_num) 8 (4 : ℕ) (rm := some "log") (tm := none) (Or.inr (Or.inl rfl)) (Or.inl rfl)
    (c := none) (v := 0) (Or.inl ⟨rfl, rfl⟩)
  obtain ⟨e1, e2, _⟩ := C120_ring_rectangle_partial (n := 4) (by norm_num) rfl (Or.inl rfl) (Or.inr (Or.inl rfl)) hM hAB
  exact ⟨M, A, B, hM, hAB, e1, e2⟩

end Gridder
