import Verif.Model.MeshExtrude
import Mathlib.Tactic.Linarith
import Mathlib.Tactic.Ring
import Mathlib.Tactic.FieldSimp
import Mathlib.Order.Bounds.Basic
import Mathlib.Algebra.BigOperators.Group.List.Basic
import Mathlib.Algebra.Order.Field.Basic

/-!
# C32, C62: extrusion items, point arrays
-/

namespace Gridder

variable {K τ ω : Type _} [Field K] [LinearOrder K]

namespace Spec

/-- `c` is the centre of the bounding box of the points. -/
def BoxCentre (pts : List (Fin 3 → K)) (c : Fin 3 → K) : Prop :=
  ∀ ax, ∃ lo hi, IsLeast {x | ∃ p ∈ pts, p ax = x} lo ∧ IsGreatest {x | ∃ p ∈ pts, p ax = x} hi ∧
    c ax = (lo + hi) / 2

/-- Sum of vectors. -/
def total (vs : List (Fin 3 → K)) : Fin 3 → K := fun ax => (vs.map fun v => v ax).sum

end Spec
open Spec

theorem colMin_isLeast (ax : Fin 3) : ∀ (pts : List (V3 K)), pts ≠ [] →
    IsLeast {x | ∃ p ∈ pts, p ax = x} (colMin ax pts) := by
  intro pts hne
  cases pts with
  | nil => exact absurd rfl hne
  | cons p ps =>
    have : ∀ (ps : List (V3 K)) (m : K),
        (ps.foldl (fun m q => min m (q ax)) m = m ∨
          ∃ q ∈ ps, q ax = ps.foldl (fun m q => min m (q ax)) m) ∧
        ps.foldl (fun m q => min m (q ax)) m ≤ m ∧
        ∀ q ∈ ps, ps.foldl (fun m q => min m (q ax)) m ≤ q ax := by
      intro ps
      induction ps with
      | nil => intro m; simp
      | cons q ps ih =>
        intro m
        obtain ⟨h1, h2, h3⟩ := ih (min m (q ax))
        simp only [List.foldl_cons]
        refine ⟨?_, h2.trans (min_le_left _ _), ?_⟩
        · rcases h1 with h1 | ⟨r, hr, h1⟩
          · rcases min_choice m (q ax) with h | h
            · left; rw [h1]; exact h
            · right; exact ⟨q, by simp, by rw [h1]; exact h.symm⟩
          · exact .inr ⟨r, by simp [hr], h1⟩
        · intro r hr
          rcases List.mem_cons.1 hr with rfl | hr
          · exact h2.trans (min_le_right _ _)
          · exact h3 r hr
    obtain ⟨h1, h2, h3⟩ := this ps (p ax)
    constructor
    · rcases h1 with h1 | ⟨q, hq, h1⟩
      · exact ⟨p, by simp, h1.symm⟩
      · exact ⟨q, by simp [hq], h1⟩
    · rintro x ⟨q, hq, rfl⟩
      rcases List.mem_cons.1 hq with rfl | hq
      · exact h2
      · exact h3 q hq

theorem colMax_isGreatest (ax : Fin 3) : ∀ (pts : List (V3 K)), pts ≠ [] →
    IsGreatest {x | ∃ p ∈ pts, p ax = x} (colMax ax pts) := by
  intro pts hne
  cases pts with
  | nil => exact absurd rfl hne
  | cons p ps =>
    have : ∀ (ps : List (V3 K)) (m : K),
        (ps.foldl (fun m q => max m (q ax)) m = m ∨
          ∃ q ∈ ps, q ax = ps.foldl (fun m q => max m (q ax)) m) ∧
        m ≤ ps.foldl (fun m q => max m (q ax)) m ∧
        ∀ q ∈ ps, q ax ≤ ps.foldl (fun m q => max m (q ax)) m := by
      intro ps
      induction ps with
      | nil => intro m; simp
      | cons q ps ih =>
        intro m
        obtain ⟨h1, h2, h3⟩ := ih (max m (q ax))
        simp only [List.foldl_cons]
        refine ⟨?_, (le_max_left _ _).trans h2, ?_⟩
        · rcases h1 with h1 | ⟨r, hr, h1⟩
          · rcases max_choice m (q ax) with h | h
            · left; rw [h1]; exact h
            · right; exact ⟨q, by simp, by rw [h1]; exact h.symm⟩
          · exact .inr ⟨r, by simp [hr], h1⟩
        · intro r hr
          rcases List.mem_cons.1 hr with rfl | hr
          · exact (le_max_right _ _).trans h2
          · exact h3 r hr
    obtain ⟨h1, h2, h3⟩ := this ps (p ax)
    constructor
    · rcases h1 with h1 | ⟨q, hq, h1⟩
      · exact ⟨p, by simp, h1.symm⟩
      · exact ⟨q, by simp [hq], h1⟩
    · rintro x ⟨q, hq, rfl⟩
      rcases List.mem_cons.1 hq with rfl | hq
      · exact h2
      · exact h3 q hq

theorem boxCenter_spec (pts : List (V3 K)) (h : pts ≠ []) : BoxCentre pts (boxCenter pts) :=
  fun ax => ⟨_, _, colMin_isLeast ax pts h, colMax_isGreatest ax pts h, rfl⟩

theorem Spec.BoxCentre.unique {pts : List (V3 K)} {c c' : V3 K} (h : BoxCentre pts c)
    (h' : BoxCentre pts c') : c = c' := by
  funext ax
  obtain ⟨lo, hi, h1, h2, h3⟩ := h ax
  obtain ⟨lo', hi', h1', h2', h3'⟩ := h' ax
  rw [h3, h3', h1.unique h1', h2.unique h2']

/-- The centre follows an affine map with the same factor on every axis. -/
theorem Spec.BoxCentre.affine [IsStrictOrderedRing K] {pts : List (V3 K)} {c : V3 K}
    (h : BoxCentre pts c) (s : K) (d : V3 K) :
    BoxCentre (pts.map fun p ax => p ax * s + d ax) (fun ax => c ax * s + d ax) := by
  intro ax
  obtain ⟨lo, hi, ⟨⟨p, hp, hlo⟩, h1⟩, ⟨⟨q, hq, hhi⟩, h2⟩, h3⟩ := h ax
  have hle : ∀ r ∈ pts, lo ≤ r ax ∧ r ax ≤ hi := fun r hr => ⟨h1 ⟨r, hr, rfl⟩, h2 ⟨r, hr, rfl⟩⟩
  rcases le_total 0 s with hs | hs
  · refine ⟨lo * s + d ax, hi * s + d ax, ⟨⟨_, List.mem_map.2 ⟨p, hp, rfl⟩, by simp [hlo]⟩, ?_⟩,
      ⟨⟨_, List.mem_map.2 ⟨q, hq, rfl⟩, by simp [hhi]⟩, ?_⟩, by simp only [h3]; ring⟩
    · rintro x ⟨r, hr, rfl⟩
      obtain ⟨r', hr', rfl⟩ := List.mem_map.1 hr
      have := mul_le_mul_of_nonneg_right (hle r' hr').1 hs
      simp only; linarith
    · rintro x ⟨r, hr, rfl⟩
      obtain ⟨r', hr', rfl⟩ := List.mem_map.1 hr
      have := mul_le_mul_of_nonneg_right (hle r' hr').2 hs
      simp only; linarith
  · refine ⟨hi * s + d ax, lo * s + d ax, ⟨⟨_, List.mem_map.2 ⟨q, hq, rfl⟩, by simp [hhi]⟩, ?_⟩,
      ⟨⟨_, List.mem_map.2 ⟨p, hp, rfl⟩, by simp [hlo]⟩, ?_⟩, by simp only [h3]; ring⟩
    · rintro x ⟨r, hr, rfl⟩
      obtain ⟨r', hr', rfl⟩ := List.mem_map.1 hr
      have := mul_le_mul_of_nonpos_right (hle r' hr').2 hs
      simp only; linarith
    · rintro x ⟨r, hr, rfl⟩
      obtain ⟨r', hr', rfl⟩ := List.mem_map.1 hr
      have := mul_le_mul_of_nonpos_right (hle r' hr').1 hs
      simp only; linarith

theorem boxCenter_affine [IsStrictOrderedRing K] (pts : List (V3 K)) (h : pts ≠ []) (s : K)
    (d : V3 K) : boxCenter (pts.map fun p ax => p ax * s + d ax) =
      fun ax => boxCenter pts ax * s + d ax :=
  Spec.BoxCentre.unique (boxCenter_spec _ (by simpa using h)) (Spec.BoxCentre.affine (boxCenter_spec _ h) s d)

/-- The factor of a step: its own scale, else the default one, else 1. -/
def Spec.factor (dflt : Option K) (s : Option K) : K := (s.or dflt).getD 1

theorem extr_add [IsStrictOrderedRing K] (rot : V3 K → K → V3 K → V3 K → V3 K) (e : Extr K τ ω)
    (m : Surf K τ) (w : Option ω) (hl : e.items.getLast? = some (m, w)) (hm : m.points ≠ [])
    (hang : e.angle = none) (v : V3 K) (s : Option K) (o : ω) :
    e.add rot 1 [v 0, v 1, v 2] s none o = .ok { e with items := e.items ++ [(⟨m.points.map fun p ax =>
      (p ax - boxCenter m.points ax) * factor e.scale s + (boxCenter m.points ax + v ax), m.topo⟩,
      some o)] } := by
  have hv : ![v 0, v 1, v 2] = v := by
    funext i; fin_cases i <;> rfl
  simp only [Extr.add, ne_eq, not_true_eq_false, if_false, hl, hang, Option.or_none, hv]
  congr 3
  cases hs : s.or e.scale with
  | none =>
    simp only [factor, hs, Option.getD_none, List.cons.injEq, Prod.mk.injEq, Surf.mk.injEq, and_true]
    apply List.map_congr_left
    intro p _; funext ax; ring
  | some x =>
    simp only [factor, hs, Option.getD_some, List.cons.injEq, Prod.mk.injEq, Surf.mk.injEq, and_true,
      scalePoints]
    have hb : boxCenter (m.points.map fun p ax => p ax + v ax) =
        fun ax => boxCenter m.points ax + v ax := by
      have := boxCenter_affine m.points hm 1 v
      simpa using this
    rw [hb, List.map_map]
    apply List.map_congr_left
    intro p _; funext ax
    simp only [Function.comp]; ring

/-- One step of an extrusion without rotation: vector, scale, options. -/
def step (x : (Fin 3 → K) × Option K × ω) : ExtrArgs K ω := ⟨1, [x.1 0, x.1 1, x.1 2], x.2.1, none, x.2.2⟩

/-- **C32.** In a `MeshExtrude` without rotation, whatever the scales (given per item or by default),
item `i` is the base mesh scaled by the product of the first `i` factors about the centre `c` of its
bounding box and translated by the sum of the first `i` vectors; without scaling it is the base mesh
translated by that sum.  The centre of its bounding box is `c` plus that sum.  Vectors not of shape
(3,) are rejected. -/
theorem C32_cumulative [IsStrictOrderedRing K] (rot : V3 K → K → V3 K → V3 K → V3 K)
    (mesh : Surf K τ) (hm : mesh.points ≠ []) (scale : Option K) :
    (∀ steps : List ((Fin 3 → K) × Option K × ω), ∃ e c, BoxCentre mesh.points c ∧
      (Extr.new mesh scale none : Extr K τ ω).run rot (steps.map step) = .ok e ∧
      e.items.length = steps.length + 1 ∧
      ∀ (i : ℕ) (it : Surf K τ × Option ω), e.items[i]? = some it →
        it.1.topo = mesh.topo ∧ it.1.points.length = mesh.points.length ∧
        BoxCentre it.1.points (fun ax => c ax + total ((steps.take i).map (·.1)) ax) ∧
        ∀ (j : ℕ) (p : V3 K), mesh.points[j]? = some p →
          it.1.points[j]? = some fun ax => c ax + total ((steps.take i).map (·.1)) ax +
            ((steps.take i).map fun x => factor scale x.2.1).prod * (p ax - c ax)) ∧
    (∀ (e : Extr K τ ω) n (v : List K) s a o, n ≠ 1 ∨ v.length ≠ 3 →
      e.add rot n v s a o = .error .valueError) := by
  constructor
  · intro steps
    set c := boxCenter mesh.points with hc
    have hcs := boxCenter_spec mesh.points hm
    -- general form
    have key : ∀ (steps : List ((Fin 3 → K) × Option K × ω)) (e : Extr K τ ω) (m : Surf K τ)
        (w : Option ω) (T : V3 K) (F : K), e.items.getLast? = some (m, w) → e.angle = none →
        e.scale = scale → m.topo = mesh.topo →
        m.points = mesh.points.map (fun p ax => c ax + T ax + F * (p ax - c ax)) →
        ∃ e' new, e.run rot (steps.map step) = .ok e' ∧ e'.items = e.items ++ new ∧
          new.length = steps.length ∧
          ∀ (i : ℕ) (it : Surf K τ × Option ω), new[i]? = some it → it.1.topo = mesh.topo ∧
            it.1.points = mesh.points.map (fun p ax => c ax + (T ax +
              total ((steps.take (i + 1)).map (·.1)) ax) +
              (F * ((steps.take (i + 1)).map fun x => factor scale x.2.1).prod) * (p ax - c ax)) := by
      intro steps
      induction steps with
      | nil => intro e m w T F _ _ _ _ _; exact ⟨e, [], rfl, by simp, rfl, by simp⟩
      | cons x steps ih =>
        intro e m w T F hl ha hs ht hp
        have hmne : m.points ≠ [] := by rw [hp]; simpa using hm
        have hadd := extr_add rot e m w hl hmne ha x.1 x.2.1 x.2.2
        have hcen : boxCenter m.points = fun ax => c ax + T ax := by
          rw [hp]
          have := boxCenter_affine mesh.points hm F (fun ax => c ax + T ax - F * c ax)
          rw [show (fun (p : V3 K) (ax : Fin 3) => c ax + T ax + F * (p ax - c ax)) =
            fun p ax => p ax * F + (c ax + T ax - F * c ax) by funext p ax; ring, this]
          funext ax; rw [hc]; ring
        rw [hcen, hp, List.map_map, hs] at hadd
        obtain ⟨e', new, h1, h2, h3, h4⟩ := ih
          { e with items := e.items ++ [(⟨mesh.points.map fun p ax =>
            c ax + (T ax + x.1 ax) + (F * factor scale x.2.1) * (p ax - c ax), m.topo⟩, some x.2.2)] }
          ⟨mesh.points.map fun p ax =>
            c ax + (T ax + x.1 ax) + (F * factor scale x.2.1) * (p ax - c ax), m.topo⟩
          (some x.2.2) (fun ax => T ax + x.1 ax) (F * factor scale x.2.1) (by simp) ha hs ht rfl
        refine ⟨e', (⟨mesh.points.map fun p ax =>
            c ax + (T ax + x.1 ax) + (F * factor scale x.2.1) * (p ax - c ax), m.topo⟩,
            some x.2.2) :: new, ?_, by simp [h2], by simp [h3], ?_⟩
        · simp only [List.map_cons, Extr.run, step]
          rw [hadd]
          simp only
          rw [← h1]
          rw [← hs]
          congr 6
          apply List.map_congr_left
          intro p _; funext ax
          simp only [Function.comp]; ring
        · intro i it hit
          cases i with
          | zero =>
            simp only [List.getElem?_cons_zero, Option.some.injEq] at hit
            subst hit
            refine ⟨ht, ?_⟩
            simp [total]
          | succ i =>
            obtain ⟨g1, g2⟩ := h4 i it (by simpa using hit)
            refine ⟨g1, ?_⟩
            rw [g2]
            apply List.map_congr_left
            intro p _; funext ax
            simp only [total, List.take_succ_cons, List.map_cons, List.sum_cons, List.prod_cons]
            ring
    obtain ⟨e, new, h1, h2, h3, h4⟩ := key steps (Extr.new mesh scale none) mesh none
      (fun _ => 0) 1 rfl rfl rfl rfl (by simp)
    refine ⟨e, c, hcs, h1, by simp [h2, h3, Extr.new], ?_⟩
    intro i it hit
    have hit' : it.1.topo = mesh.topo ∧ it.1.points = mesh.points.map (fun p ax => c ax +
        total ((steps.take i).map (·.1)) ax +
        ((steps.take i).map fun x => factor scale x.2.1).prod * (p ax - c ax)) := by
      rw [h2] at hit
      cases i with
      | zero =>
        simp only [Extr.new, List.cons_append, List.nil_append, List.getElem?_cons_zero,
          Option.some.injEq] at hit
        subst hit
        simp [total]
      | succ i =>
        obtain ⟨g1, g2⟩ := h4 i it (by simpa [Extr.new] using hit)
        refine ⟨g1, ?_⟩
        rw [g2]
        simp
    refine ⟨hit'.1, by rw [hit'.2]; simp, ?_, ?_⟩
    · rw [hit'.2]
      have := Spec.BoxCentre.affine hcs ((steps.take i).map fun x => factor scale x.2.1).prod
        (fun ax => c ax + total ((steps.take i).map (·.1)) ax -
          ((steps.take i).map fun x => factor scale x.2.1).prod * c ax)
      convert this using 2
      · funext p ax; ring
      · rw [← hc]; ring
    · intro j p hp
      rw [hit'.2, List.getElem?_map, hp]; rfl
  · intro e n v s a o h
    simp only [Extr.add]
    split
    · rfl
    · rename_i hn
      have hv : v.length ≠ 3 := by
        rcases h with h | h
        · exact absurd h hn
        · exact h
      split
      · simp at hv
      · rfl

/-- Concrete case: a segment scaled by 2, then moved without scaling. -/
example : (((Extr.new (τ := Unit) (ω := Unit) ⟨[![0, 0, 0], ![2, 0, 0]], ()⟩ none none).run (K := ℚ)
    (fun _ _ _ p => p) [⟨1, [0, 0, 1], some 2, none, ()⟩, ⟨1, [5, 0, 0], none, none, ()⟩]).toOption.map
    fun e => e.items.map fun it => it.1.points.map fun p => (p 0, p 1, p 2)) =
    some [[(0, 0, 0), (2, 0, 0)], [(-1, 0, 1), (3, 0, 1)], [(4, 0, 1), (8, 0, 1)]] := by
  decide +kernel

/-! ### C62 -/

/-- **C62.** Point arrays are accepted exactly when they are 1D of size 2 or 3 or 2D with 2 or 3 columns.
Arrays with 3 components are returned unchanged; with 2 components a zero is inserted at `axis`, and
removing it gives the input back. -/
theorem C62_point_arrays (axis : ℕ) (hax : axis ≤ 2) (pts : PointArray K) :
    ((∃ out, checkPointArray axis pts = .ok out) ↔
      (∃ v, pts = .d1 v ∧ (v.length = 2 ∨ v.length = 3)) ∨
      (∃ n rows, pts = .d2 n rows ∧ (n = 2 ∨ n = 3))) ∧
    (¬ (∃ out, checkPointArray axis pts = .ok out) → checkPointArray axis pts = .error .valueError) ∧
    (∀ v out, pts = .d1 v → checkPointArray axis pts = .ok out → ∃ w, out = .d1 w ∧ w.length = 3 ∧
      ((v.length = 3 ∧ w = v) ∨ (v.length = 2 ∧ w[axis]? = some 0 ∧ w.eraseIdx axis = v))) ∧
    (∀ n rows out, pts = .d2 n rows → (∀ r ∈ rows, r.length = n) → checkPointArray axis pts = .ok out →
      ∃ rows', out = .d2 3 rows' ∧ rows'.length = rows.length ∧
        ∀ (j : ℕ) (v : List K), rows[j]? = some v → ∃ w, rows'[j]? = some w ∧ w.length = 3 ∧
          ((n = 3 ∧ w = v) ∨ (n = 2 ∧ w[axis]? = some 0 ∧ w.eraseIdx axis = v))) := by
  have hins : ∀ v : List K, v.length = 2 → (insertZero axis v).length = 3 ∧
      (insertZero axis v)[axis]? = some 0 ∧ (insertZero axis v).eraseIdx axis = v := by
    intro v hv
    unfold insertZero
    refine ⟨?_, ?_, ?_⟩
    · rw [List.length_insertIdx]; split <;> omega
    · rw [List.getElem?_insertIdx_self]; rw [if_pos (by omega)]
    · exact List.eraseIdx_insertIdx_self _
  refine ⟨?_, ?_, ?_, ?_⟩
  · cases pts with
    | d1 v =>
      simp only [checkPointArray]
      by_cases h2 : v.length = 2
      · simp [h2, (hins v h2).1]
      · by_cases h3 : v.length = 3
        · simp [h3]
        · simp [h2, h3]
    | d2 n rows =>
      simp only [checkPointArray]
      by_cases h2 : n = 2
      · simp [h2]
      · by_cases h3 : n = 3
        · simp [h3]
        · simp [h2, h3]
    | other n => simp [checkPointArray]
  · intro h
    cases hc : checkPointArray axis pts with
    | ok out => exact absurd ⟨out, hc⟩ h
    | error e =>
      cases pts with
      | d1 v =>
        simp only [checkPointArray] at hc
        split at hc <;> split at hc <;> cases hc <;> rfl
      | d2 n rows =>
        simp only [checkPointArray] at hc
        split at hc <;> split at hc <;> cases hc <;> rfl
      | other n => simp only [checkPointArray] at hc; cases hc; rfl
  · rintro v out rfl h
    simp only [checkPointArray] at h
    by_cases h2 : v.length = 2
    · obtain ⟨i1, i2, i3⟩ := hins v h2
      simp only [h2, if_true, i1, ne_eq, not_true_eq_false, if_false] at h
      cases h
      exact ⟨_, rfl, i1, .inr ⟨h2, i2, i3⟩⟩
    · simp only [h2, if_false] at h
      split at h
      · cases h
      · rename_i h3
        cases h
        exact ⟨v, rfl, by simpa using h3, .inl ⟨by simpa using h3, rfl⟩⟩
  · rintro n rows out rfl hrows h
    simp only [checkPointArray] at h
    by_cases h2 : n = 2
    · simp only [h2, if_true, ne_eq, not_true_eq_false, if_false] at h
      cases h
      refine ⟨_, rfl, by simp, ?_⟩
      intro j v hv
      have hl : v.length = 2 := by rw [← h2]; exact hrows v (List.mem_of_getElem? hv)
      obtain ⟨i1, i2, i3⟩ := hins v hl
      exact ⟨insertZero axis v, by simp [hv], i1, .inr ⟨h2, i2, i3⟩⟩
    · simp only [h2, if_false] at h
      split at h
      · cases h
      · rename_i h3
        have h3 : n = 3 := by simpa using h3
        cases h
        subst h3
        exact ⟨rows, rfl, rfl, fun j v hv => ⟨v, hv, hrows v (List.mem_of_getElem? hv), .inl ⟨rfl, rfl⟩⟩⟩

/-- Concrete case: two 2D points given to a class whose axis is 1. -/
example : (checkPointArray (K := ℚ) 1 (.d2 2 [[3, 4], [5, 6]])).toOption = some (.d2 3 [[3, 0, 4], [5, 0, 6]]) := by
  decide +kernel

omit [LinearOrder K] in
/-- Translation adds the vector, completed by z = 0; other sizes are rejected. -/
theorem C62_translate (pts : List (V3 K)) (x y z : K) :
    translatePoints pts none = .ok pts ∧
    translatePoints pts (some [x, y]) = translatePoints pts (some [x, y, 0]) ∧
    (∃ out, translatePoints pts (some [x, y, z]) = .ok out ∧ out.length = pts.length ∧
      ∀ (j : ℕ) (p : V3 K), pts[j]? = some p → ∃ q, out[j]? = some q ∧
        q 0 = p 0 + x ∧ q 1 = p 1 + y ∧ q 2 = p 2 + z) ∧
    (∀ v : List K, v.length ≠ 2 → v.length ≠ 3 →
      translatePoints pts (some v) = .error .valueError) := by
  refine ⟨rfl, rfl, ⟨_, rfl, by simp, ?_⟩, ?_⟩
  · intro j p hp
    exact ⟨_, by rw [List.getElem?_map, hp]; rfl, rfl, rfl, rfl⟩
  · intro v h2 h3
    unfold translatePoints
    split
    · rename_i h; cases h
    · rename_i h; cases h; simp at h3
    · rename_i h; cases h; simp at h2
    · rfl

end Gridder
