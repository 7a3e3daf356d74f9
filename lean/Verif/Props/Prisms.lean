import Verif.Props.StackU
import Verif.Props.MeshExtrude
import Verif.Props.Tiling
import Mathlib.Analysis.Convex.Combination
import Mathlib.Algebra.Group.Pointwise.Set.Basic

/-!
# C132: the prisms of an extruded mesh fill what the surface sweeps out
-/

namespace Gridder
open Spec
open scoped Pointwise

namespace Spec

/-- The points of a cell: all convex combinations of its nodes. -/
def cellRegion (M : UMesh ℝ) (i : ℕ) : Set (Fin 3 → ℝ) :=
  convexHull ℝ {x | ∃ t cell, M.cells[i]? = some (t, cell) ∧ ∃ id ∈ cell.ids, M.points[id]? = some x}

/-- The points of a cell of a surface. -/
def baseRegion (points : List (Fin 3 → ℝ)) (conn : List ℕ) : Set (Fin 3 → ℝ) :=
  convexHull ℝ {x | ∃ j ∈ conn, points[j]? = some x}

/-- The broken line from the origin along the vectors, one after the other. -/
def brokenLine (vs : List (Fin 3 → ℝ)) : Set (Fin 3 → ℝ) :=
  {x | ∃ k < vs.length, x ∈ segment ℝ (vs.take k).sum (vs.take (k + 1)).sum}

/-- The cells of `M` are `m` layers over the cells of a surface that is moved along a broken line; cell `c` of layer `L`
is cell `at_ L c` of the mesh and lies between the surfaces moved by `A L` and `A (L + 1)`. -/
structure PrismTiling (points : List (Fin 3 → ℝ)) (cells : List (ℕ × List ℕ)) (vs : List (Fin 3 → ℝ)) (M : UMesh ℝ)
    (m : ℕ) (at_ : ℕ → ℕ → ℕ) (A : ℕ → Fin 3 → ℝ) : Prop where
  size : M.cells.length = m * cells.length
  cover : ∀ n, n < M.cells.length → ∃ L c, L < m ∧ c < cells.length ∧ at_ L c = n
  inj : ∀ L L' c c', L < m → L' < m → c < cells.length → c' < cells.length → at_ L c = at_ L' c' → L = L' ∧ c = c'
  first : A 0 = 0
  last : A m = vs.sum
  along : ∀ L < m, ∃ v ∈ vs, ∃ s : ℝ, 0 < s ∧ A (L + 1) = A L + s • v
  region : ∀ L c t conn, L < m → cells[c]? = some (t, conn) →
    cellRegion M (at_ L c) = {x | ∃ p ∈ baseRegion points conn, ∃ a ∈ segment ℝ (A L) (A (L + 1)), x = p + a}
  fills : ∀ (c t : ℕ) conn, cells[c]? = some (t, conn) →
    {x | ∃ L < m, x ∈ cellRegion M (at_ L c)} = {x | ∃ p ∈ baseRegion points conn, ∃ a ∈ brokenLine vs, x = p + a}
  apart : ∀ L L' (c c' t t' : ℕ) conn conn', L ≤ L' → L' < m → cells[c]? = some (t, conn) → cells[c']? = some (t', conn') →
    ∀ x, x ∈ cellRegion M (at_ L c) → x ∈ cellRegion M (at_ L' c') → L' ≤ L + 1 ∧
      ∃ p a, x = p + a ∧ p ∈ baseRegion points conn ∧ p ∈ baseRegion points conn' ∧
        a ∈ segment ℝ (A L) (A (L + 1)) ∧ (L' = L + 1 → a = A L')

end Spec

/-- Position on the broken line of the nodes of layer `L`. -/
noncomputable def pathAt : List (List ℝ × V3 ℝ) → ℕ → V3 ℝ
  | [], _ => 0
  | (ts, v) :: rest, L => if L < ts.length - 1 then ts.getD L 0 • v else v + pathAt rest (L - (ts.length - 1))

theorem pathAt_zero : ∀ (z : List (List ℝ × V3 ℝ)), (∀ x ∈ z, fromZeroToOne x.1) → pathAt z 0 = 0
  | [], _ => rfl
  | (ts, v) :: rest, h => by
    obtain ⟨h1, h2, _⟩ := h _ List.mem_cons_self
    simp only at h1 h2
    rw [pathAt, if_pos (by omega), List.getD_eq_getElem?_getD, h2]
    simp

theorem pathAt_part : ∀ (subs : List (List ℝ)) (vs : List (V3 ℝ)), subs.length = vs.length →
    (∀ ts ∈ subs, fromZeroToOne ts) → ∀ (k s : ℕ) ts v t, subs[k]? = some ts → vs[k]? = some v → ts[s]? = some t →
    pathAt (subs.zip vs) (layersIn subs k + s) = (vs.take k).sum + t • v
  | [], _, _, _, k, _, _, _, _, h, _, _ => by simp at h
  | _ :: _, [], h, _, _, _, _, _, _, _, _, _ => by simp at h
  | a :: subs, w :: vs, hl, h01, k, s, ts, v, t, hk, hv, hs => by
    obtain ⟨h1, h2, h3⟩ := h01 a List.mem_cons_self
    have hl' : subs.length = vs.length := by simpa using hl
    have h01' : ∀ ts ∈ subs, fromZeroToOne ts := fun ts h => h01 ts (List.mem_cons_of_mem _ h)
    have hz : ∀ x ∈ subs.zip vs, fromZeroToOne x.1 := fun x hx => h01' _ (List.of_mem_zip hx).1
    rw [List.zip_cons_cons, pathAt]
    cases k with
    | zero =>
      simp only [List.getElem?_cons_zero, Option.some.injEq] at hk hv
      subst hk; subst hv
      simp only [layersIn, List.take_zero, List.map_nil, List.sum_nil, Nat.zero_add, zero_add]
      have hlt := (List.getElem?_eq_some_iff.1 hs).1
      by_cases hc : s < a.length - 1
      · rw [if_pos hc, List.getD_eq_getElem?_getD, hs]; rfl
      · rw [if_neg hc]
        obtain rfl : s = a.length - 1 := by omega
        rw [hs] at h3
        obtain rfl := Option.some.inj h3
        rw [Nat.sub_self, pathAt_zero _ hz, one_smul, add_zero]
    | succ k =>
      simp only [List.getElem?_cons_succ] at hk hv
      have e : layersIn (a :: subs) (k + 1) + s = (a.length - 1) + (layersIn subs k + s) := by
        simp only [layersIn, List.take_succ_cons, List.map_cons, List.sum_cons]; omega
      rw [e, if_neg (by omega), Nat.add_sub_cancel_left, pathAt_part subs vs hl' h01' k s ts v t hk hv hs]
      simp only [List.take_succ_cons, List.sum_cons]
      abel

/-- The corners of a prism are those of its base, moved by two vectors. -/
theorem layer_region {flip : Bool} {key : String} {mesh : Surf ℝ UTopo} (hids : ∀ tc ∈ mesh.topo.cells, ∀ x ∈ tc.2, x < mesh.points.length)
    {base : Dict String (DArr ℤ)} {surfs : List (List (V3 ℝ))} {subs : List (List ℝ)} {names : List (ℕ → String)} {M : UMesh ℝ}
    {table : List (String × Int)} {pos node : ℕ → ℕ → ℕ}
    (h : LayeredU Eq flip key mesh.points.length mesh.topo.cells base surfs subs names M table pos node)
    {A : ℕ → V3 ℝ} {L : ℕ}
    (hA : ∀ (j : ℕ) p, NodeOf mesh.topo.cells j → mesh.points[j]? = some p → M.points[node L j]? = some (p + A L) ∧
      M.points[node (L + 1) j]? = some (p + A (L + 1)))
    {c t : ℕ} {conn : List ℕ} (hL : L < (subs.map fun ts => ts.length - 1).sum) (hc : mesh.topo.cells[c]? = some (t, conn)) :
    cellRegion M (pos L c) = baseRegion mesh.points conn + segment ℝ (A L) (A (L + 1)) := by
  obtain ⟨t', cell, h1, h2⟩ := h.cell L c t conn hL hc
  have hmem := List.mem_of_getElem? hc
  rw [cellRegion, baseRegion, ← convexHull_pair, ← convexHull_add]
  congr 1
  ext x
  have hdm : ∀ (l j : ℕ), j < mesh.points.length → (l * mesh.points.length + j) / mesh.points.length = l ∧
      (l * mesh.points.length + j) % mesh.points.length = j := by
    intro l j hj
    rw [Nat.mul_comm]
    exact ⟨by rw [Nat.mul_add_div (by omega), Nat.div_eq_of_lt hj, Nat.add_zero], by rw [Nat.mul_add_mod, Nat.mod_eq_of_lt hj]⟩
  simp only [Set.mem_setOf_eq, Set.mem_add, Set.mem_insert_iff, Set.mem_singleton_iff, h2, Option.some.injEq, Prod.mk.injEq]
  constructor
  · rintro ⟨_, _, ⟨rfl, rfl⟩, id, hid, hx⟩
    rw [renamed_ids, List.mem_map] at hid
    obtain ⟨i, hi, rfl⟩ := hid
    obtain ⟨j, hj, hij⟩ := (prismOver_ids_mem h1 i).1 hi
    have hjl := hids _ hmem j hj
    obtain ⟨a1, a2⟩ := hA j mesh.points[j] ⟨_, hmem, hj⟩ (List.getElem?_eq_getElem hjl)
    refine ⟨mesh.points[j], ⟨j, hj, List.getElem?_eq_getElem hjl⟩, ?_⟩
    rcases hij with rfl | rfl
    · rw [(hdm _ _ hjl).1, (hdm _ _ hjl).2, a1] at hx
      exact ⟨_, .inl rfl, Option.some.inj hx⟩
    · rw [(hdm _ _ hjl).1, (hdm _ _ hjl).2, a2] at hx
      exact ⟨_, .inr rfl, Option.some.inj hx⟩
  · rintro ⟨p, ⟨j, hj, hp⟩, a, ha, rfl⟩
    have hjl := hids _ hmem j hj
    obtain ⟨a1, a2⟩ := hA j p ⟨_, hmem, hj⟩ hp
    refine ⟨_, _, ⟨rfl, rfl⟩, ?_⟩
    simp only [renamed_ids, List.mem_map]
    rcases ha with rfl | rfl
    · refine ⟨_, ⟨_, (prismOver_ids_mem h1 _).2 ⟨j, hj, .inl rfl⟩, rfl⟩, ?_⟩
      rw [(hdm _ _ hjl).1, (hdm _ _ hjl).2, a1]
    · refine ⟨_, ⟨_, (prismOver_ids_mem h1 _).2 ⟨j, hj, .inr rfl⟩, rfl⟩, ?_⟩
      rw [(hdm _ _ hjl).1, (hdm _ _ hjl).2, a2]

/-- A linear function that has one value on the corners has it on the whole cell. -/
theorem base_flat {points : List (V3 ℝ)} {f : V3 ℝ →ₗ[ℝ] ℝ} {z : ℝ} (h : ∀ p ∈ points, f p = z) {conn : List ℕ} {p : V3 ℝ}
    (hp : p ∈ baseRegion points conn) : f p = z := by
  have : baseRegion points conn ⊆ f ⁻¹' {z} := by
    refine convexHull_min ?_ ((convex_singleton z).linear_preimage f)
    rintro x ⟨j, _, hx⟩
    exact h x (List.mem_of_getElem? hx)
  exact this hp

theorem seg_value {f : V3 ℝ →ₗ[ℝ] ℝ} {a b x : V3 ℝ} (hx : x ∈ segment ℝ a b) (hab : f a < f b) :
    f a ≤ f x ∧ f x ≤ f b ∧ ∀ y ∈ segment ℝ a b, f y = f x → y = x := by
  rw [segment_eq_image'] at hx ⊢
  obtain ⟨t, ⟨t0, t1⟩, rfl⟩ := hx
  have hv : ∀ t : ℝ, f (a + t • (b - a)) = f a + t * (f b - f a) := by intro t; simp
  refine ⟨by rw [hv]; nlinarith, by rw [hv]; nlinarith, ?_⟩
  rintro y ⟨u, _, rfl⟩ hy
  simp only [hv] at hy
  have : u = t := by
    have : (u - t) * (f b - f a) = 0 := by linear_combination hy
    rcases mul_eq_zero.1 this with h | h <;> linarith
  rw [this]

theorem rising {f : ℕ → ℝ} {m : ℕ} (h : ∀ L < m, f L < f (L + 1)) : ∀ a b, a ≤ b → b ≤ m → f a ≤ f b := by
  intro a b hab
  induction b, hab using Nat.le_induction with
  | base => intro _; exact le_rfl
  | succ b _ ih => intro hb; exact (ih (by omega)).trans (h b (by omega)).le

/-- The nodes of the layers between copies of the surface moved along a broken line that rises from the plane of the surface. -/
theorem layered_path {flip : Bool} {key : String} {mesh : Surf ℝ UTopo}
    {base : Dict String (DArr ℤ)} {surfs : List (List (V3 ℝ))} {subs : List (List ℝ)} {names : List (ℕ → String)} {M : UMesh ℝ}
    {table : List (String × Int)} {pos node : ℕ → ℕ → ℕ}
    (h : LayeredU Eq flip key mesh.points.length mesh.topo.cells base surfs subs names M table pos node)
    {vs : List (V3 ℝ)} (hlen : subs.length = vs.length) (hsubs : ∀ ts ∈ subs, ∃ n, Subdivision n ts)
    (hsurfs : ∀ k ≤ vs.length, surfs[k]? = some (mesh.points.map fun p => p + (vs.take k).sum))
    {f : V3 ℝ →ₗ[ℝ] ℝ} (hup : ∀ v ∈ vs, 0 < f v) :
    (∀ L < (subs.map fun ts => ts.length - 1).sum, ∃ (k s : ℕ) (ts : List ℝ) (v : V3 ℝ) (t t' : ℝ), subs[k]? = some ts ∧ vs[k]? = some v ∧
      L = layersIn subs k + s ∧ ts[s]? = some t ∧ ts[s + 1]? = some t' ∧ t < t' ∧ 0 ≤ t ∧ t' ≤ 1 ∧
      pathAt (subs.zip vs) L = (vs.take k).sum + t • v ∧ pathAt (subs.zip vs) (L + 1) = (vs.take k).sum + t' • v) ∧
    (∀ L < (subs.map fun ts => ts.length - 1).sum, f (pathAt (subs.zip vs) L) < f (pathAt (subs.zip vs) (L + 1))) ∧
    ∀ L < (subs.map fun ts => ts.length - 1).sum, ∀ (j : ℕ) p, NodeOf mesh.topo.cells j → mesh.points[j]? = some p →
      M.points[node L j]? = some (p + pathAt (subs.zip vs) L) ∧ M.points[node (L + 1) j]? = some (p + pathAt (subs.zip vs) (L + 1)) := by
  set m := (subs.map fun ts => ts.length - 1).sum with hm
  set A := pathAt (subs.zip vs) with hAdef
  have h01 : ∀ ts ∈ subs, fromZeroToOne ts := fun ts ht => by
    obtain ⟨n, hn⟩ := hsubs ts ht
    exact ⟨by
      rcases Nat.eq_zero_or_pos n with rfl | h0
      · have := hn.first.symm.trans hn.last; simp at this
      · rw [hn.size]; omega, hn.first, by rw [hn.size]; exact hn.last⟩
  have hpart : ∀ L < m, ∃ (k s : ℕ) (ts : List ℝ) (v : V3 ℝ) (t t' : ℝ), subs[k]? = some ts ∧ vs[k]? = some v ∧
      L = layersIn subs k + s ∧ ts[s]? = some t ∧ ts[s + 1]? = some t' ∧ t < t' ∧ 0 ≤ t ∧ t' ≤ 1 ∧
      A L = (vs.take k).sum + t • v ∧ A (L + 1) = (vs.take k).sum + t' • v := by
    intro L hL
    obtain ⟨k, ts, s, k1, k2, k3⟩ := exists_part subs L hL
    have hk : k < vs.length := hlen ▸ (List.getElem?_eq_some_iff.1 k1).1
    obtain ⟨n, hn⟩ := hsubs ts (List.mem_of_getElem? k1)
    have hinc := List.pairwise_iff_getElem.1 hn.increasing
    have e1 : ts[s]? = some ts[s] := List.getElem?_eq_getElem _
    have e2 : ts[s + 1]? = some ts[s + 1] := List.getElem?_eq_getElem _
    have e3 : vs[k]? = some vs[k] := List.getElem?_eq_getElem hk
    refine ⟨k, s, ts, vs[k], ts[s], ts[s + 1], k1, e3, k3, e1, e2, hinc s (s + 1) _ _ (Nat.lt_succ_self s), ?_, ?_, ?_, ?_⟩
    · have h0 := (List.getElem?_eq_some_iff.1 hn.first).2
      rcases Nat.eq_zero_or_pos s with rfl | hs
      · exact h0.ge
      · rw [← h0]; exact (hinc 0 s _ _ hs).le
    · obtain ⟨hl, h1⟩ := List.getElem?_eq_some_iff.1 hn.last
      have := hn.size
      rcases Nat.lt_or_ge (s + 1) n with hs | hs
      · rw [← h1]; exact (hinc (s + 1) n _ _ hs).le
      · have : s + 1 = n := by omega
        simp only [this]; exact h1.le
    · rw [k3]; exact pathAt_part subs vs hlen h01 k s ts _ _ k1 e3 e1
    · rw [k3, Nat.add_assoc]; exact pathAt_part subs vs hlen h01 k (s + 1) ts _ _ k1 e3 e2
  have hrise : ∀ L < m, f (A L) < f (A (L + 1)) := by
    intro L hL
    obtain ⟨k, s, ts, v, t, t', _, e2, _, _, _, htt, _, _, a1, a2⟩ := hpart L hL
    have := hup v (List.mem_of_getElem? e2)
    rw [a1, a2]
    simp only [map_add, map_smul, smul_eq_mul]
    nlinarith
  have hnode : ∀ L < m, ∀ (j : ℕ) p, NodeOf mesh.topo.cells j → mesh.points[j]? = some p →
      M.points[node L j]? = some (p + A L) ∧ M.points[node (L + 1) j]? = some (p + A (L + 1)) := by
    intro L hL j p hj hp
    obtain ⟨k, s, ts, v, t, t', e1, e2, e3, e4, e5, _, _, _, a1, a2⟩ := hpart L hL
    have hk := (List.getElem?_eq_some_iff.1 e2).1
    have hsum : (vs.take (k + 1)).sum = (vs.take k).sum + v := by
      rw [List.take_add_one, e2]; simp
    have key : ∀ s t, ts[s]? = some t → M.points[node (layersIn subs k + s) j]? = some (p + ((vs.take k).sum + t • v)) := by
      intro s t hs
      obtain ⟨q, hq, rfl⟩ := h.nodes k _ _ ts (hsurfs k hk.le) (hsurfs (k + 1) hk) e1 j s t (p + (vs.take k).sum)
        (p + (vs.take (k + 1)).sum) hj hs (by simp [hp]) (by simp [hp])
      rw [hq, hsum]
      congr 1
      funext ax
      simp only [between, Pi.add_apply, Pi.smul_apply, smul_eq_mul]
      ring
    rw [a1, a2, e3]
    exact ⟨key s t e4, by rw [Nat.add_assoc]; exact key (s + 1) t' e5⟩
  exact ⟨hpart, hrise, hnode⟩

/-- Layers between copies of the surface moved along a broken line that rises from the plane of the surface. -/
theorem layered_tiling {flip : Bool} {key : String} {mesh : Surf ℝ UTopo}
    (hids : ∀ tc ∈ mesh.topo.cells, ∀ x ∈ tc.2, x < mesh.points.length)
    {base : Dict String (DArr ℤ)} {surfs : List (List (V3 ℝ))} {subs : List (List ℝ)} {names : List (ℕ → String)} {M : UMesh ℝ}
    {table : List (String × Int)} {pos node : ℕ → ℕ → ℕ}
    (h : LayeredU Eq flip key mesh.points.length mesh.topo.cells base surfs subs names M table pos node)
    {vs : List (V3 ℝ)} (hlen : subs.length = vs.length) (hsubs : ∀ ts ∈ subs, ∃ n, Subdivision n ts)
    (hsurfs : ∀ k ≤ vs.length, surfs[k]? = some (mesh.points.map fun p => p + (vs.take k).sum))
    {f : V3 ℝ →ₗ[ℝ] ℝ} {z : ℝ} (hflat : ∀ p ∈ mesh.points, f p = z) (hup : ∀ v ∈ vs, 0 < f v) :
    PrismTiling mesh.points mesh.topo.cells vs M (subs.map fun ts => ts.length - 1).sum pos (pathAt (subs.zip vs)) := by
  obtain ⟨hpart, hrise, hnode⟩ := layered_path h hlen hsubs hsurfs hup
  set m := (subs.map fun ts => ts.length - 1).sum with hm
  set A := pathAt (subs.zip vs) with hAdef
  have h01 : ∀ ts ∈ subs, fromZeroToOne ts := fun ts ht => by
    obtain ⟨n, hn⟩ := hsubs ts ht
    exact ⟨by
      rcases Nat.eq_zero_or_pos n with rfl | h0
      · have := hn.first.symm.trans hn.last; simp at this
      · rw [hn.size]; omega, hn.first, by rw [hn.size]; exact hn.last⟩
  have hz : ∀ x ∈ subs.zip vs, fromZeroToOne x.1 := fun x hx => h01 _ (List.of_mem_zip hx).1
  have hregion : ∀ L c t conn, L < m → mesh.topo.cells[c]? = some (t, conn) →
      cellRegion M (pos L c) = {x | ∃ p ∈ baseRegion mesh.points conn, ∃ a ∈ segment ℝ (A L) (A (L + 1)), x = p + a} := by
    intro L c t conn hL hc
    rw [layer_region hids h (hnode L hL) hL hc]
    ext x
    simp only [Set.mem_add, Set.mem_setOf_eq, eq_comm]
  have hlay : ∀ k ≤ vs.length, layersIn subs k ≤ m ∧ A (layersIn subs k) = (vs.take k).sum := by
    intro k hk
    rcases Nat.lt_or_ge k vs.length with hk' | hk'
    · have hs : subs[k]? = some subs[k] := List.getElem?_eq_getElem (by omega)
      have e3 : vs[k]? = some vs[k] := List.getElem?_eq_getElem hk'
      refine ⟨by have := layersIn_le hs; omega, ?_⟩
      have := pathAt_part subs vs hlen h01 k 0 _ _ _ hs e3 (h01 _ (List.mem_of_getElem? hs)).2.1
      simpa using this
    · obtain rfl : k = vs.length := by omega
      rcases Nat.eq_zero_or_pos vs.length with h0 | h0
      · have : vs = [] := List.eq_nil_of_length_eq_zero h0
        subst this
        have : subs = [] := List.eq_nil_of_length_eq_zero (by simpa using hlen)
        subst this
        exact ⟨by simp [layersIn], by simp [hAdef, pathAt]⟩
      · have hs : subs[vs.length - 1]? = some subs[vs.length - 1] := List.getElem?_eq_getElem (by omega)
        have e3 : vs[vs.length - 1]? = some vs[vs.length - 1] := List.getElem?_eq_getElem (by omega)
        have hsucc := layersIn_succ hs
        have hle := layersIn_le hs
        have hp := pathAt_part subs vs hlen h01 (vs.length - 1) _ _ _ _ hs e3 (h01 _ (List.mem_of_getElem? hs)).2.2
        rw [Nat.sub_add_cancel h0] at hsucc
        refine ⟨by omega, ?_⟩
        rw [hsucc, hAdef, hp]
        have : vs.take vs.length = vs.take (vs.length - 1) ++ [vs[vs.length - 1]] := by
          conv_lhs => rw [← Nat.sub_add_cancel h0]
          rw [List.take_add_one, e3]; rfl
        rw [this, List.sum_append, List.sum_singleton, one_smul]
  have hmlay : layersIn subs vs.length = m := by
    rw [layersIn, ← hlen, List.take_length]
  have hmono := rising (f := fun L => f (A L)) hrise
  have halong : ∀ L < m, ∃ v ∈ vs, ∃ s : ℝ, 0 < s ∧ A (L + 1) = A L + s • v := by
    intro L hL
    obtain ⟨k, s, ts, v, t, t', _, e2, _, _, _, htt, _, _, a1, a2⟩ := hpart L hL
    exact ⟨v, List.mem_of_getElem? e2, t' - t, sub_pos.2 htt, by rw [a1, a2, sub_smul]; abel⟩
  refine ⟨h.size, h.cover, h.inj, pathAt_zero _ hz, ?_, halong, hregion, ?_, ?_⟩
  · have := (hlay vs.length le_rfl).2
    rwa [hmlay, List.take_length] at this
  · intro c t conn hc
    ext x
    simp only [Set.mem_setOf_eq]
    constructor
    · rintro ⟨L, hL, hx⟩
      rw [hregion L c t conn hL hc] at hx
      obtain ⟨p, hp, a, ha, rfl⟩ := hx
      refine ⟨p, hp, a, ?_, rfl⟩
      obtain ⟨k, s, ts, v, t, t', e1, e2, _, _, _, htt, h0, h1, a1, a2⟩ := hpart L hL
      refine ⟨k, (List.getElem?_eq_some_iff.1 e2).1, ?_⟩
      have hsum : (vs.take (k + 1)).sum = (vs.take k).sum + v := by
        rw [List.take_add_one, e2]; simp
      have hin : ∀ u : ℝ, 0 ≤ u → u ≤ 1 → (vs.take k).sum + u • v ∈ segment ℝ (vs.take k).sum (vs.take (k + 1)).sum := by
        intro u u0 u1
        rw [hsum, segment_eq_image']
        exact ⟨u, ⟨u0, u1⟩, by simp only [add_sub_cancel_left]⟩
      refine (convex_segment _ _).segment_subset (hin t h0 (by linarith)) (hin t' (by linarith) h1) ?_
      rwa [a1, a2] at ha
    · rintro ⟨p, hp, a, ⟨k, hk, ha⟩, rfl⟩
      obtain ⟨l1, l2⟩ := hlay k hk.le
      obtain ⟨l3, l4⟩ := hlay (k + 1) hk
      have hs : subs[k]? = some subs[k] := List.getElem?_eq_getElem (by omega)
      have e3 : vs[k]? = some vs[k] := List.getElem?_eq_getElem hk
      have hsucc := layersIn_succ hs
      have hsum : (vs.take (k + 1)).sum = (vs.take k).sum + vs[k] := by
        rw [List.take_add_one, e3, List.sum_append]
        simp only [Option.toList_some, List.sum_singleton]
      obtain ⟨hlen2, hf0, hf1⟩ := h01 _ (List.mem_of_getElem? hs)
      rw [hsum, segment_eq_image'] at ha
      obtain ⟨u, ⟨u0, u1⟩, rfl⟩ := ha
      -- the sublayer of `u`
      obtain ⟨s, hsl, b1, b2⟩ := exists_step (f := fun s => (subs[k]).getD s 0) (h := u) (m := (subs[k]).length - 1) (by omega)
        (by simpa [List.getD_eq_getElem?_getD, hf0] using u0) (by simpa [List.getD_eq_getElem?_getD, hf1] using u1)
      have g1 : (subs[k])[s]? = some ((subs[k]).getD s 0) := by
        rw [List.getD_eq_getElem?_getD, List.getElem?_eq_getElem (by omega)]; rfl
      have g2 : (subs[k])[s + 1]? = some ((subs[k]).getD (s + 1) 0) := by
        rw [List.getD_eq_getElem?_getD, List.getElem?_eq_getElem (by omega)]; rfl
      have hL : layersIn subs k + s < m := by omega
      refine ⟨layersIn subs k + s, hL, ?_⟩
      rw [hregion _ c t conn hL hc]
      refine ⟨p, hp, _, ?_, rfl⟩
      rw [hAdef, pathAt_part subs vs hlen h01 k s _ _ _ hs e3 g1, Nat.add_assoc,
        pathAt_part subs vs hlen h01 k (s + 1) _ _ _ hs e3 g2]
      rw [add_sub_cancel_left]
      set t0 := (subs[k]).getD s 0
      set t1 := (subs[k]).getD (s + 1) 0
      have : ∀ w : ℝ, (vs.take k).sum + w • vs[k] = AffineMap.lineMap (k := ℝ) (vs.take k).sum ((vs.take k).sum + vs[k]) w := by
        intro w; simp [AffineMap.lineMap_apply, add_comm]
      show (vs.take k).sum + u • vs[k] ∈ _
      rw [this, this, this, ← image_segment, segment_eq_Icc (b1.trans b2)]
      exact ⟨u, ⟨b1, b2⟩, rfl⟩
  · intro L L' c c' t t' conn conn' hLL hL' hc hc' x hx hx'
    rw [hregion L c t conn (by omega) hc] at hx
    rw [hregion L' c' t' conn' hL' hc'] at hx'
    obtain ⟨p, hp, a, ha, rfl⟩ := hx
    obtain ⟨p', hp', a', ha', he⟩ := hx'
    have hfp := base_flat hflat hp
    have hfp' := base_flat hflat hp'
    have hfe : f a = f a' := by
      have := congrArg f he
      simp only [map_add, hfp, hfp'] at this
      linarith
    obtain ⟨a1, a2, a3⟩ := seg_value ha (hrise L (by omega))
    obtain ⟨b1, b2, b3⟩ := seg_value ha' (hrise L' hL')
    have hle : L' ≤ L + 1 := by
      by_contra hcon
      have h1 := hmono (L + 2) L' (by omega) hL'.le
      have h2 := hrise (L + 1) (by omega)
      have : L + 1 + 1 = L + 2 := rfl
      rw [this] at h2
      linarith
    have haa : a = a' ∧ (L' = L + 1 → a = A L') := by
      rcases Nat.lt_or_ge L L' with hlt | hge
      · obtain rfl : L' = L + 1 := by omega
        have e1 : a = A (L + 1) := (a3 _ (right_mem_segment ℝ _ _) (by linarith)).symm
        have e2 : a' = A (L + 1) := (b3 _ (left_mem_segment ℝ _ _) (by linarith)).symm
        exact ⟨e1.trans e2.symm, fun _ => e1⟩
      · obtain rfl : L' = L := by omega
        exact ⟨(a3 _ ha' hfe.symm).symm, fun h => by omega⟩
    have hpp : p = p' := by
      rw [← haa.1] at he
      exact add_right_cancel he
    exact ⟨hle, p, a, rfl, hp, hpp ▸ hp', ha, haa.2⟩

/-- Extrusions without scaling and rotation move the points. -/
theorem run_moves {τ ω : Type _} (rot : V3 ℝ → ℝ → V3 ℝ → V3 ℝ → V3 ℝ) : ∀ (xs : List (V3 ℝ × ω)) (e : Extr ℝ τ ω)
    (m : Surf ℝ τ) (w : Option ω), e.scale = none → e.angle = none → e.items.getLast? = some (m, w) →
    ∃ e' new, e.run rot (xs.map fun x => step (x.1, none, x.2)) = .ok e' ∧ e'.items = e.items ++ new ∧
      new.length = xs.length ∧ ∀ (i : ℕ) it, new[i]? = some it →
        it.1.points = m.points.map fun p => p + ((xs.map (·.1)).take (i + 1)).sum
  | [], e, _, _, _, _, _ => ⟨e, [], rfl, by simp, rfl, by simp⟩
  | (v, o) :: xs, e, m, w, hs, ha, hl => by
    have hv : (![v 0, v 1, v 2] : V3 ℝ) = v := by
      funext ax; fin_cases ax <;> rfl
    obtain ⟨e1, he1, hi1, hs1, ha1⟩ : ∃ e1, e.add rot 1 [v 0, v 1, v 2] none none o = .ok e1 ∧
        e1.items = e.items ++ [({ m with points := m.points.map fun p => p + v }, some o)] ∧ e1.scale = none ∧
        e1.angle = none := by
      simp only [Extr.add, hl, hs, ha, hv, Option.or_none, ne_eq, not_true_eq_false, if_false]
      exact ⟨_, rfl, rfl, rfl, rfl⟩
    obtain ⟨e', new, h1, h2, h3, h4⟩ := run_moves rot xs e1 _ (some o) hs1 ha1 (by rw [hi1, List.getLast?_concat])
    refine ⟨e', ({ m with points := m.points.map fun p => p + v }, some o) :: new, ?_, ?_, ?_, ?_⟩
    · simp only [List.map_cons, step, Extr.run, he1]
      exact h1
    · rw [h2, hi1]; simp
    · simp [h3]
    · intro i it hit
      cases i with
      | zero =>
        simp only [List.getElem?_cons_zero, Option.some.injEq] at hit
        subst hit
        simp
      | succ i =>
        simp only [List.getElem?_cons_succ] at hit
        rw [h4 i it hit]
        simp only [List.map_map, List.map_cons, List.take_succ_cons, List.sum_cons]
        refine List.map_congr_left fun p _ => ?_
        simp only [Function.comp]
        abel

/-- The layers of an extrusion along vectors. -/
theorem extruded_layers {vtk : VtkOracle ℝ} (ho : AppendsAll vtk.order) (hc : Cleans Eq vtk.clean)
    (rot : V3 ℝ → ℝ → V3 ℝ → V3 ℝ → V3 ℝ) (ignore : List String) (dflt : String) (mesh : Surf ℝ UTopo)
    (hmesh : StackSurf mesh) (xs : List (V3 ℝ × Opts (Resolution ℝ × Option String))) (hxs : xs ≠ [])
    (hres : ∀ x ∈ xs, ∃ n ts, resolutionToPerc x.2.sub.1 x.2.sub.2 = .ok ts ∧ Subdivision n ts) :
    ∃ e, (Extr.new mesh none none).run rot (xs.map fun x => step (x.1, none, x.2)) = .ok e ∧
      ((∀ x ∈ xs, Acceptable mesh.topo.cells.length x.2.group) → ∃ r, extrudeU vtk ignore dflt e = .ok r) ∧
      ∀ M table, extrudeU vtk ignore dflt e = .ok (M, table) → ∃ flip key base surfs subs names pos node,
        LayeredU Eq flip key mesh.points.length mesh.topo.cells base surfs subs names M table pos node ∧
        subs.length = (xs.map (·.1)).length ∧ (∀ ts ∈ subs, ∃ n, Subdivision n ts) ∧
        ∀ k ≤ (xs.map (·.1)).length, surfs[k]? = some (mesh.points.map fun p => p + ((xs.map (·.1)).take k).sum) := by
  obtain ⟨e, new, h1, h2, h3, h4⟩ := run_moves rot xs (Extr.new mesh none none) mesh none rfl rfl rfl
  obtain ⟨g1, g2⟩ := C98_unstructured_partial ho hc rot ignore dflt mesh hmesh none none _ (by simpa using hxs)
    (by
      intro y hy
      obtain ⟨x, hx, rfl⟩ := List.mem_map.1 hy
      obtain ⟨n, ts, r1, r2⟩ := hres x hx
      exact ⟨ts, r1, subdivision_zeroOne r2⟩) e h1
  refine ⟨e, h1, fun hacc => g1 fun y hy => ?_, fun M table h => ?_⟩
  · obtain ⟨x, hx, rfl⟩ := List.mem_map.1 hy
    exact hacc x hx
  · obtain ⟨subs, names, pos, node, s1, _, s3, s4⟩ := g2 M table h
    refine ⟨_, _, _, _, subs, names, pos, node, s4, by simpa using s1, ?_, ?_⟩
    · intro ts hts
      obtain ⟨k, hk, rfl⟩ := List.mem_iff_getElem.1 hts
      have hk' : k < xs.length := by simpa [s1] using hk
      obtain ⟨ts, _, r1, r2, _⟩ := s3 k ((xs[k]).2.sub, (xs[k]).2.group)
        (by simp [step, List.getElem?_eq_getElem hk'])
      obtain ⟨n, ts', r3, r4⟩ := hres _ (List.getElem_mem hk')
      rw [List.getElem?_eq_getElem hk] at r2
      obtain rfl := Option.some.inj r2
      rw [r1] at r3
      obtain rfl := Except.ok.inj r3
      exact ⟨n, r4⟩
    · intro k hk
      rw [h2]
      cases k with
      | zero => simp [Extr.new]
      | succ k =>
        have hk' : k < new.length := by
          rw [h3]; simpa using hk
        have := h4 k new[k] (List.getElem?_eq_getElem hk')
        simp only [Extr.new, List.singleton_append, List.map_cons, List.getElem?_cons_succ, List.getElem?_map,
          List.getElem?_eq_getElem hk', Option.map_some, this]

/-- **C132.** A surface that lies in a plane is extruded along vectors that all leave the plane to the same side, with any
subdivisions and groups.  If the groups fit, the mesh is generated; and then over each cell of the surface its prisms fill
exactly what the cell sweeps out along the vectors; two prisms meet only where their cells in the surface meet, moved by one
vector, and only if they are in the same layer, or in consecutive layers and on the surface between them.  (Cells are the convex hulls
of their nodes: for polygons that are not convex this is about their hulls.) -/
theorem C132_extruded {vtk : VtkOracle ℝ} (ho : AppendsAll vtk.order) (hc : Cleans Eq vtk.clean)
    (rot : V3 ℝ → ℝ → V3 ℝ → V3 ℝ → V3 ℝ) (ignore : List String) (dflt : String) (mesh : Surf ℝ UTopo)
    (hmesh : StackSurf mesh) (xs : List (V3 ℝ × Opts (Resolution ℝ × Option String))) (hxs : xs ≠ [])
    (hres : ∀ x ∈ xs, ∃ n ts, resolutionToPerc x.2.sub.1 x.2.sub.2 = .ok ts ∧ Subdivision n ts)
    (f : V3 ℝ →ₗ[ℝ] ℝ) (z : ℝ) (hflat : ∀ p ∈ mesh.points, f p = z) (hup : ∀ x ∈ xs, 0 < f x.1) :
    ∃ e, (Extr.new mesh none none).run rot (xs.map fun x => step (x.1, none, x.2)) = .ok e ∧
      ((∀ x ∈ xs, Acceptable mesh.topo.cells.length x.2.group) → ∃ r, extrudeU vtk ignore dflt e = .ok r) ∧
      ∀ M table, extrudeU vtk ignore dflt e = .ok (M, table) → ∃ m at_ A,
        PrismTiling mesh.points mesh.topo.cells (xs.map (·.1)) M m at_ A := by
  obtain ⟨e, h1, h2, h3⟩ := extruded_layers ho hc rot ignore dflt mesh hmesh xs hxs hres
  refine ⟨e, h1, h2, fun M table h => ?_⟩
  obtain ⟨flip, key, base, surfs, subs, names, pos, node, s1, s2, s3, s4⟩ := h3 M table h
  exact ⟨_, _, _, layered_tiling hmesh.ids s1 s2 s3 s4 hflat
    (fun v hv => by obtain ⟨x, hx, rfl⟩ := List.mem_map.1 hv; exact hup x hx)⟩

/-- Concrete case: the kite in the plane `z = 0`, extruded in 2 layers along `(0, 0, 1)` and 3 layers along `(1, 0, 2)`. -/
example (rot : V3 ℝ → ℝ → V3 ℝ → V3 ℝ → V3 ℝ) : ∃ e M table, (Extr.new kiteXY none none).run rot
      ([((![0, 0, 1] : V3 ℝ), (⟨(.int 2, none), .none⟩ : Opts (Resolution ℝ × Option String))),
        (![1, 0, 2], ⟨(.int 3, none), .none⟩)].map fun x => step (x.1, none, x.2)) = .ok e ∧
    extrudeU exactVtk [] "default" e = .ok (M, table) ∧
    ∃ m at_ A, PrismTiling kiteXY.points kiteXY.topo.cells [![0, 0, 1], ![1, 0, 2]] M m at_ A := by
  have key : ∀ r : ℤ, ∃ n ts, resolutionToPerc (.int r) none = .ok ts ∧ Subdivision n ts := by
    intro r
    obtain ⟨p, h1, h2, _⟩ := C11_integer_resolution r none (.inl rfl)
    exact ⟨_, p, h1, h2⟩
  obtain ⟨e, h1, h2, h3⟩ := C132_extruded exactVtk_ok.1 exactVtk_ok.2 rot [] "default" kiteXY kiteXY_ok
    [((![0, 0, 1] : V3 ℝ), ⟨(.int 2, none), .none⟩), (![1, 0, 2], ⟨(.int 3, none), .none⟩)] (by simp)
    (by
      intro x hx
      simp only [List.mem_cons, List.not_mem_nil, or_false] at hx
      rcases hx with rfl | rfl
      · exact key 2
      · exact key 3)
    (LinearMap.proj 2) 0
    (by
      intro p hp
      simp only [kiteXY, List.mem_cons, List.not_mem_nil, or_false] at hp
      rcases hp with rfl | rfl | rfl | rfl | rfl <;> rfl)
    (by
      intro x hx
      simp only [List.mem_cons, List.not_mem_nil, or_false] at hx
      rcases hx with rfl | rfl <;> simp [LinearMap.proj_apply])
  obtain ⟨⟨M, table⟩, hr⟩ := h2 (by
    intro x hx
    simp only [List.mem_cons, List.not_mem_nil, or_false] at hx
    rcases hx with rfl | rfl <;> simp [Acceptable, entries])
  exact ⟨e, M, table, h1, hr, h3 M table hr⟩

end Gridder
