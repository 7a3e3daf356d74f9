import Verif.Lemmas.Stack
import Mathlib.Algebra.BigOperators.Group.List.Basic

/-!
# C26-C31: stacks
-/

namespace Gridder

variable {K τ ω : Type _} [Field K] [LinearOrder K]

/-! ### C26: scalars -/

/-- The arguments of `add` but the first one. -/
structure Spec.Rest (K ω : Type _) where
  extrapolation : Option String
  opts : ω
  priority : Int
  thickness : K

/-- `add(x, ...)` with a scalar. -/
def scalarCall (x : K × Spec.Rest K ω) : Call K τ ω :=
  .add (.scalar x.1) x.2.extrapolation x.2.opts x.2.priority x.2.thickness

theorem run_scalars (o : InterpOracle K) : ∀ (as : List (K × Spec.Rest K ω)) (s : Stack K τ ω)
    (it : Item K τ ω), s.items.getLast? = some it →
    ∃ s' new, s.run o (as.map scalarCall) = .ok s' ∧ s'.items = s.items ++ new ∧
      new.length = as.length ∧ s'.mesh = s.mesh ∧ s'.axis = s.axis ∧ s'.bottomUp = s.bottomUp ∧
      ∀ (i : ℕ) (y : Item K τ ω), new[i]? = some y → y.mesh = ⟨it.mesh.points.map fun p =>
        Function.update p s.axis (p s.axis + (if s.bottomUp then 1 else -1) *
          ((as.take (i + 1)).map fun a => |a.1|).sum), it.mesh.topo⟩ := by
  intro as
  induction as with
  | nil => intro s it _; exact ⟨s, [], rfl, by simp, rfl, rfl, rfl, rfl, by simp⟩
  | cons a as ih =>
    intro s it hit
    have hne : s.items.isEmpty = false := by
      cases h : s.items with
      | nil => rw [h] at hit; cases hit
      | cons _ _ => rfl
    set it' : Item K τ ω := ⟨⟨it.mesh.points.map fun p =>
      Function.update p s.axis (p s.axis + |a.1| * (if s.bottomUp then 1 else -1)), it.mesh.topo⟩,
      a.2.priority, a.2.thickness, s.flag, some a.2.opts⟩ with hit'
    obtain ⟨s', new, h1, h2, h3, h4, h5, h6, h7⟩ := ih
      { s with items := s.items ++ [it'], flag := false } it' (by simp)
    refine ⟨s', it' :: new, ?_, by simp [h2], by simp [h3], h4, h5, h6, ?_⟩
    · simp only [List.map_cons, Stack.run, Stack.call, scalarCall, Stack.add, newMesh, hit, hne]
      exact h1
    · intro i y hy
      cases i with
      | zero =>
        simp only [List.getElem?_cons_zero, Option.some.injEq] at hy
        subst hy
        simp [hit', mul_comm]
      | succ i =>
        rw [h7 i y (by simpa using hy)]
        simp only [hit', List.map_map, Surf.mk.injEq, and_true]
        apply List.map_congr_left
        intro p _
        simp only [Function.comp, Function.update_self, Function.update_idem, List.take_succ_cons,
          List.map_cons, List.sum_cons]
        congr 1
        ring

/-- **C26.** In a stack built from scalars `z0, a1, ..., ak`, whatever the other arguments, surface `i`
is the base mesh with its coordinate along the axis set to `z0` plus (bottom-up) or minus (top-down)
`|a1| + ... + |ai|`. -/
theorem C26_scalar_heights (o : InterpOracle K) (mesh : Surf K τ) (axis : Fin 3) (bottomUp : Bool)
    (z0 : K) (r0 : Spec.Rest K ω) (as : List (K × Spec.Rest K ω)) :
    ∃ s, (Stack.new mesh axis bottomUp).run o (scalarCall (z0, r0) :: as.map scalarCall) = .ok s ∧
      s.items.length = as.length + 1 ∧
      ∀ (i : ℕ) (y : Item K τ ω), s.items[i]? = some y →
        y.mesh.topo = mesh.topo ∧ y.mesh.points.length = mesh.points.length ∧
        ∀ (j : ℕ) (p : V3 K), mesh.points[j]? = some p → ∃ q, y.mesh.points[j]? = some q ∧
          (q axis = if bottomUp then z0 + ((as.take i).map fun a => |a.1|).sum
            else z0 - ((as.take i).map fun a => |a.1|).sum) ∧
          ∀ ax, ax ≠ axis → q ax = p ax := by
  set it0 : Item K τ ω := ⟨⟨mesh.points.map fun p => Function.update p axis z0, mesh.topo⟩,
    r0.priority, 0, false, none⟩ with hit0
  obtain ⟨s', new, h1, h2, h3, h4, h5, h6, h7⟩ := run_scalars o as
    ⟨mesh, axis, bottomUp, false, [it0]⟩ it0 rfl
  refine ⟨s', ?_, by simp [h2, h3], ?_⟩
  · simp only [Stack.run, Stack.call, scalarCall, Stack.add, newMesh, Stack.new,
      List.getLast?_nil, List.isEmpty_nil, if_true, List.nil_append]
    exact h1
  · intro i y hy
    rw [h2] at hy
    cases i with
    | zero =>
      simp only [List.cons_append, List.nil_append, List.getElem?_cons_zero,
        Option.some.injEq] at hy
      subst hy
      refine ⟨rfl, by simp [hit0], ?_⟩
      intro j p hp
      refine ⟨Function.update p axis z0, by simp [hit0, hp], by simp, ?_⟩
      intro ax hax; simp [Function.update_of_ne hax]
    | succ i =>
      have := h7 i y (by simpa using hy)
      rw [this]
      refine ⟨rfl, by simp [hit0], ?_⟩
      intro j p hp
      refine ⟨_, by simp [hit0, hp]; rfl, ?_, ?_⟩
      · cases bottomUp <;> simp [sub_eq_add_neg]
      · intro ax hax; simp [Function.update_of_ne hax]

/-- Concrete case: 2, then -3, then 4, top-down. -/
example :
    (((Stack.new (τ := Unit) (ω := Unit) ⟨[![5, 6, 7]], ()⟩ 2 false).run (K := ℚ)
      ⟨fun _ _ => .error .valueError, fun _ _ _ => 0⟩ [scalarCall (2, ⟨none, (), 0, 0⟩), scalarCall (-3, ⟨none, (), 0, 0⟩),
        scalarCall (4, ⟨none, (), 0, 0⟩)]).toOption.map fun s =>
      s.items.map fun it => it.mesh.points.map fun p => (p 0, p 1, p 2)) =
    some [[(5, 6, 2)], [(5, 6, -1)], [(5, 6, -5)]] := by
  decide +kernel

/-! ### C27-C29: the cut pass -/

namespace Spec

/-- At every node the second surface lies at least `thickness` above the first one. -/
def Above (axis : Fin 3) (thickness : K) (lower upper : List (V3 K)) : Prop :=
  lower.length = upper.length ∧ ∀ (j : ℕ) (p q : V3 K), lower[j]? = some p → upper[j]? = some q →
    p axis + thickness ≤ q axis

end Spec
open Spec

theorem generate_inv {M : Type _} {build : List (Item K τ ω) → Py M} {s s' : Stack K τ ω} {mesh : M}
    (h : s.generate build = .ok (mesh, s')) :
    ∃ a rest, s.items = a :: rest ∧ cutFrom s.axis s.bottomUp a rest = .ok s'.items ∧
      build s'.items = .ok mesh ∧ s' = { s with items := s'.items } ∧ rest ≠ [] := by
  unfold Stack.generate at h
  split at h
  · rename_i a b rest hi
    split at h
    · cases h
    split at h
    · cases h
    rename_i items hc _ _ hb
    cases h
    exact ⟨a, b :: rest, hi, hc, hb, rfl, by simp⟩
  · cases h

theorem cutPair_gap [IsStrictOrderedRing K] {axis : Fin 3} {a b a' b' : Item K τ ω}
    (h : cutPair axis true a b = .ok (a', b')) :
    Above axis b.thickness a'.mesh.points b'.mesh.points := by
  obtain ⟨hl, sa, sb, _, _, hn⟩ := cutPair_spec h
  refine ⟨by rw [sa.length, sb.length, hl], ?_⟩
  intro j p' q' hp' hq'
  have hja : j < a.mesh.points.length := by rw [← sa.length]; exact (List.getElem?_eq_some_iff.1 hp').1
  have hjb : j < b.mesh.points.length := hl ▸ hja
  obtain ⟨h1, h2⟩ := hn j _ _ p' q' (List.getElem?_eq_getElem hja) (List.getElem?_eq_getElem hjb)
    hp' hq'
  by_cases hs : shiftAt true (a.mesh.points[j] axis) (b.mesh.points[j] axis) b.thickness < 0
  · by_cases hpr : b.priority < a.priority
    · obtain ⟨e1, e2⟩ := (h2 hs).1 hpr
      rw [e1, e2, Function.update_self]
      simp only [shiftAt, if_true]
      linarith
    · obtain ⟨e1, e2⟩ := (h2 hs).2 hpr
      rw [e1, e2, Function.update_self]
      simp only [shiftAt, if_true]
      linarith
  · obtain ⟨e1, e2⟩ := h1 hs
    rw [e1, e2]
    simp only [shiftAt, if_true] at hs
    linarith

theorem cutFrom_gap [IsStrictOrderedRing K] {axis : Fin 3} : ∀ {rest : List (Item K τ ω)}
    {a : Item K τ ω} {out : List (Item K τ ω)}, cutFrom axis true a rest = .ok out →
    ∀ (i : ℕ) (x y : Item K τ ω), out[i]? = some x → out[i + 1]? = some y → y.transition = false →
      (∀ z, out[i + 2]? = some z → z.transition = false → z.priority < y.priority) →
      Above axis y.thickness x.mesh.points y.mesh.points := by
  intro rest
  induction rest with
  | nil =>
    intro a out h i x y hx hy
    simp only [cutFrom] at h
    cases h
    simp at hy
  | cons b rest ih =>
    intro a out h i x y hx hy hty hz
    rcases cutFrom_cons h with ⟨ht, out', ho, rfl⟩ | ⟨ht, a', b', out', hc, ho, rfl⟩
    · cases i with
      | zero =>
        exfalso
        obtain ⟨y', hy', sy⟩ := (cutFrom_same ho).2 0 b rfl
        simp only [List.getElem?_cons_succ] at hy
        rw [hy] at hy'; cases hy'
        rw [sy.transition, ht] at hty; cases hty
      | succ i => exact ih ho i x y (by simpa using hx) (by simpa using hy) hty (by simpa using hz)
    · cases i with
      | zero =>
        obtain ⟨hl, sa, sb, _⟩ := cutPair_spec hc
        have hhead : out'.head? = some b' := by
          apply cutFrom_head ho
          intro z hz' htz
          obtain ⟨y', hy', sy⟩ := (cutFrom_same ho).2 0 b' rfl
          simp only [List.getElem?_cons_succ] at hy
          rw [hy] at hy'; cases hy'
          cases rest with
          | nil => cases hz'
          | cons z' rest' =>
            simp only [List.head?_cons, Option.some.injEq] at hz'
            subst hz'
            obtain ⟨w, hw, sw⟩ := (cutFrom_same ho).2 1 z' rfl
            have := hz w (by simpa using hw) (by rw [sw.transition]; exact htz)
            rw [sw.priority, sy.priority] at this
            exact this
        simp only [List.getElem?_cons_zero, Option.some.injEq] at hx
        subst hx
        have hy0 : out'.head? = some y := by
          rw [List.head?_eq_getElem?]
          simpa using hy
        rw [hhead] at hy0
        cases hy0
        rw [sb.thickness]
        exact cutPair_gap hc
      | succ i => exact ih ho i x y (by simpa using hx) (by simpa using hy) hty (by simpa using hz)

/-- **C27 (partial).** After `generate_mesh` on a bottom-up stack, item `i + 1` lies at every node at
least its minimum thickness above item `i`, provided the item after it (if any, and not a transition)
has a lower priority than it.
Missing: item `i + 2` with the same or a higher priority crossing item `i + 1`: then it pushes item
`i + 1` down, below item `i`, which is not looked at again (`C27_three_surfaces_refuted`). -/
theorem C27_min_thickness_partial [IsStrictOrderedRing K] {M : Type _}
    (build : List (Item K τ ω) → Py M) (s s' : Stack K τ ω) (mesh : M) (hbu : s.bottomUp = true)
    (h : s.generate build = .ok (mesh, s')) (i : ℕ) (x y : Item K τ ω)
    (hx : s'.items[i]? = some x) (hy : s'.items[i + 1]? = some y) (ht : y.transition = false)
    (hnext : ∀ z, s'.items[i + 2]? = some z → z.transition = false → z.priority < y.priority) :
    Above s.axis y.thickness x.mesh.points y.mesh.points := by
  obtain ⟨a, rest, _, hc, _⟩ := generate_inv h
  rw [hbu] at hc
  exact cutFrom_gap hc i x y hx hy ht hnext

/-- In particular the whole stack is in order when priorities strictly decrease, and for two
surfaces always. -/
theorem C27_decreasing_priorities [IsStrictOrderedRing K] {M : Type _}
    (build : List (Item K τ ω) → Py M) (s s' : Stack K τ ω) (mesh : M) (hbu : s.bottomUp = true)
    (h : s.generate build = .ok (mesh, s'))
    (hdec : ∀ i (x y : Item K τ ω), s.items[i + 1]? = some x → s.items[i + 2]? = some y →
      y.priority < x.priority)
    (i : ℕ) (x y : Item K τ ω)
    (hx : s'.items[i]? = some x) (hy : s'.items[i + 1]? = some y) (ht : y.transition = false) :
    Above s.axis y.thickness x.mesh.points y.mesh.points := by
  refine C27_min_thickness_partial build s s' mesh hbu h i x y hx hy ht ?_
  intro z hz _
  obtain ⟨a, rest, hi, hc, _⟩ := generate_inv h
  obtain ⟨hlen, hsame⟩ := cutFrom_same hc
  rw [← hi] at hsame
  have hl : s.items.length = s'.items.length := by rw [hi, hlen]; simp
  have l1 : i + 1 < s.items.length := by rw [hl]; exact (List.getElem?_eq_some_iff.1 hy).1
  have l2 : i + 2 < s.items.length := by rw [hl]; exact (List.getElem?_eq_some_iff.1 hz).1
  obtain ⟨y', hy', sy⟩ := hsame (i + 1) _ (List.getElem?_eq_getElem l1)
  obtain ⟨z', hz', sz⟩ := hsame (i + 2) _ (List.getElem?_eq_getElem l2)
  rw [hy] at hy'; cases hy'
  rw [hz] at hz'; cases hz'
  rw [sy.priority, sz.priority]
  exact hdec i _ _ (List.getElem?_eq_getElem l1) (List.getElem?_eq_getElem l2)

/-- One-node items at given heights, with priority and minimum thickness. -/
def col (l : List (ℚ × Int × ℚ)) : List (Item ℚ Unit Unit) :=
  l.map fun x => ⟨⟨[![0, 0, x.1]], ()⟩, x.2.1, x.2.2, false, some ()⟩

/-- The stack of such items. -/
def colStack (bottomUp : Bool) (l : List (ℚ × Int × ℚ)) : Stack ℚ Unit Unit :=
  ⟨⟨[![0, 0, 0]], ()⟩, 2, bottomUp, false, col l⟩

/-- Heights after `generate_mesh`. -/
def heightsAfter (s : Stack ℚ Unit Unit) : Option (List ℚ) :=
  ((s.generate fun items => .ok items).toOption).map fun r =>
    r.2.items.flatMap fun it => it.mesh.points.map fun p => p 2

/-- Concrete case: the third surface crosses both others; priorities 2, 1, 0 and thickness 1. -/
example : heightsAfter (colStack true [(0, 2, 0), (-1, 1, 1), (-2, 0, 1)]) = some [0, 1, 2] := by
  decide +kernel

/-- **C27 (refuted).** Three surfaces at 0, 1 and -1 with the default priority and thickness: the
second one is pushed down to -1 by the third one, below the first one at 0. -/
theorem C27_three_surfaces_refuted :
    heightsAfter (colStack true [(0, 0, 0), (1, 0, 0), (-1, 0, 0)]) = some [0, -1, -1] := by
  decide +kernel

/-- With priorities that never decrease, each surface ends at the lower of its own height and the
height of the next one less the latter's thickness; this says exactly when C27 holds. -/
theorem cutFrom_nondecreasing [IsStrictOrderedRing K] {axis : Fin 3} : ∀ {rest : List (Item K τ ω)}
    {a : Item K τ ω} {out : List (Item K τ ω)}, cutFrom axis true a rest = .ok out →
    List.IsChain (fun x y : Item K τ ω => x.priority ≤ y.priority) (a :: rest) →
    ∀ (i : ℕ) (x y z : Item K τ ω) (j : ℕ) (p q r : V3 K), (a :: rest)[i]? = some x →
      (a :: rest)[i + 1]? = some y → y.transition = false → out[i]? = some z →
      x.mesh.points[j]? = some p → y.mesh.points[j]? = some q → z.mesh.points[j]? = some r →
      r axis = min (p axis) (q axis - y.thickness) := by
  intro rest
  induction rest with
  | nil => intro a out _ _ i x y z j p q r _ hy; simp at hy
  | cons b rest ih =>
    intro a out h hch i x y z j p q r hx hy hty hz hp hq hr
    rw [List.isChain_cons_cons] at hch
    rcases cutFrom_cons h with ⟨ht, out', ho, rfl⟩ | ⟨ht, a', b', out', hc, ho, rfl⟩
    · cases i with
      | zero =>
        simp only [List.getElem?_cons_succ, List.getElem?_cons_zero, Option.some.injEq] at hy
        subst hy; rw [ht] at hty; cases hty
      | succ i =>
        exact ih ho hch.2 i x y z j p q r (by simpa using hx) (by simpa using hy) hty
          (by simpa using hz) hp hq hr
    · obtain ⟨hl, sa, sb, _, hb, hn⟩ := cutPair_spec hc
      have hbe : b' = b := hb (by have := hch.1; omega)
      subst hbe
      cases i with
      | zero =>
        simp only [List.getElem?_cons_succ, List.getElem?_cons_zero, Option.some.injEq] at hx hy hz
        subst hx hy hz
        obtain ⟨h1, h2⟩ := hn j p q r q hp hq hr hq
        by_cases hs : shiftAt true (p axis) (q axis) b'.thickness < 0
        · obtain ⟨_, e⟩ := (h2 hs).2 (by have := hch.1; omega)
          rw [e, Function.update_self]
          simp only [shiftAt, if_true] at hs ⊢
          rw [min_eq_right (by linarith)]; ring
        · rw [(h1 hs).1]
          simp only [shiftAt, if_true] at hs
          rw [min_eq_left (by linarith)]
      | succ i =>
        exact ih ho hch.2 i x y z j p q r (by simpa using hx) (by simpa using hy) hty
          (by simpa using hz) hp hq hr

/-- **C28 (partial).** On a top-down stack whose surfaces are already in order (each one at least its
minimum thickness below the previous one), `generate_mesh` moves nothing and they stay so.
Missing: surfaces that cross or are too thin, where it is false: the offset is added with the wrong
sign and moves the surface further away (`C28_crossing_refuted`), and a gap smaller than the minimum
thickness is not noticed (`C28_thickness_refuted`). -/
theorem C28_top_down_partial [IsStrictOrderedRing K] {M : Type _}
    (build : List (Item K τ ω) → Py M) (s : Stack K τ ω) (hbu : s.bottomUp = false)
    (h2 : 2 ≤ s.items.length) (hth : ∀ x ∈ s.items, 0 ≤ x.thickness)
    (hord : ∀ (i : ℕ) (x y : Item K τ ω), s.items[i]? = some x → s.items[i + 1]? = some y →
      y.transition = false → Above s.axis y.thickness y.mesh.points x.mesh.points) :
    (∀ mesh, build s.items = .ok mesh → s.generate build = .ok (mesh, s)) ∧
    ∀ mesh s', s.generate build = .ok (mesh, s') → s' = s := by
  obtain ⟨a, b, rest, hi⟩ : ∃ a b rest, s.items = a :: b :: rest := by
    match hm : s.items, h2 with
    | a :: b :: rest, _ => exact ⟨a, b, rest, rfl⟩
  have hcut : cutFrom s.axis s.bottomUp a (b :: rest) = .ok (a :: b :: rest) := by
    apply cutFrom_id
    rw [← hi, List.isChain_iff_getElem]
    intro i hil
    have hx := List.getElem?_eq_getElem (l := s.items) (i := i) (by omega)
    have hy := List.getElem?_eq_getElem (l := s.items) (i := i + 1) hil
    cases ht : s.items[i + 1].transition with
    | true => exact .inl rfl
    | false =>
      right
      obtain ⟨o1, o2⟩ := hord i _ _ hx hy ht
      refine ⟨o1.symm, ?_⟩
      intro j p q hp hq
      have := o2 j q p hq hp
      have := hth _ (List.mem_of_getElem? hy)
      rw [hbu]
      simp only [shiftAt, Bool.false_eq_true, if_false]
      linarith
  constructor
  · intro mesh hb
    unfold Stack.generate
    rw [hi]
    simp only [hcut]
    rw [← hi, hb]
  · intro mesh s' hg
    obtain ⟨a', rest', hi', hc, _, hs, _⟩ := generate_inv hg
    rw [hi] at hi'; cases hi'
    rw [hcut] at hc
    simp only [Except.ok.injEq] at hc
    rw [hs, ← hc, ← hi]

/-- Concrete case: a top-down stack in order. -/
example : heightsAfter (colStack false [(0, 0, 0), (-1, 0, 1), (-3, 0, 1)]) = some [0, -1, -3] := by
  decide +kernel

/-- **C28 (refuted).** Top-down, second surface one unit above the first one: it ends two units
above it, with either priority. -/
theorem C28_crossing_refuted :
    heightsAfter (colStack false [(0, 0, 0), (1, 0, 0)]) = some [-1, 1] ∧
    heightsAfter (colStack false [(0, 1, 0), (1, 0, 0)]) = some [0, 2] := by
  constructor <;> decide +kernel

/-- **C28 (refuted).** Top-down, coincident surfaces with a minimum thickness of 1 stay coincident. -/
theorem C28_thickness_refuted :
    heightsAfter (colStack false [(0, 0, 0), (0, 0, 1)]) = some [0, 0] := by
  decide +kernel

/-- The step on two consecutive surfaces: the one with priority stays, the other one moves only at
nodes where the gap is smaller than the thickness (bottom-up; top-down: where they cross). -/
theorem C29_step [IsStrictOrderedRing K] (axis : Fin 3) (bu : Bool) (a b a' b' : Item K τ ω)
    (hth : 0 ≤ b.thickness) (h : cutPair axis bu a b = .ok (a', b')) :
    (b.priority < a.priority → a' = a) ∧ (a.priority ≤ b.priority → b' = b) ∧
    ∀ (j : ℕ) (p q p' q' : V3 K), a.mesh.points[j]? = some p → b.mesh.points[j]? = some q →
      a'.mesh.points[j]? = some p' → b'.mesh.points[j]? = some q' → (p' ≠ p ∨ q' ≠ q) →
      if bu then q axis < p axis + b.thickness else p axis < q axis := by
  obtain ⟨_, _, _, h1, h2, h3⟩ := cutPair_spec h
  refine ⟨h1, fun hle => h2 (by omega), ?_⟩
  intro j p q p' q' hp hq hp' hq' hne
  have := (h3 j p q p' q' hp hq hp' hq').1
  by_cases hs : shiftAt bu (p axis) (q axis) b.thickness < 0
  · cases bu <;> simp only [shiftAt, if_true, Bool.false_eq_true, if_false] at hs ⊢ <;> linarith
  · obtain ⟨e1, e2⟩ := this hs
    rcases hne with hne | hne
    · exact absurd e1 hne
    · exact absurd e2 hne

/-- An item with priority over both its neighbours stays where it is. -/
theorem cutFrom_priority {axis : Fin 3} {bu : Bool} : ∀ {rest : List (Item K τ ω)}
    {a : Item K τ ω} {out : List (Item K τ ω)}, cutFrom axis bu a rest = .ok out →
    ∀ (i : ℕ) (y : Item K τ ω), (a :: rest)[i]? = some y →
      (∀ k x, i = k + 1 → (a :: rest)[k]? = some x → y.transition = false →
        x.priority ≤ y.priority) →
      (∀ z, (a :: rest)[i + 1]? = some z → z.transition = false → z.priority < y.priority) →
      out[i]? = some y := by
  intro rest
  induction rest with
  | nil =>
    intro a out h i y hy _ _
    simp only [cutFrom] at h
    cases h; exact hy
  | cons b rest ih =>
    intro a out h i y hy hprev hnext
    rcases cutFrom_cons h with ⟨ht, out', ho, rfl⟩ | ⟨ht, a', b', out', hc, ho, rfl⟩
    · cases i with
      | zero => simpa using hy
      | succ i =>
        simp only [List.getElem?_cons_succ] at hy ⊢
        refine ih ho i y hy ?_ (by simpa using hnext)
        intro k x hk hx hty
        exact hprev (k + 1) x (by omega) (by simpa using hx) hty
    · obtain ⟨hl, sa, sb, ha, hb, hn⟩ := cutPair_spec hc
      cases i with
      | zero =>
        simp only [List.getElem?_cons_zero, Option.some.injEq] at hy ⊢
        subst hy
        exact ha (hnext b rfl ht)
      | succ i =>
        simp only [List.getElem?_cons_succ] at hy ⊢
        cases i with
        | zero =>
          simp only [List.getElem?_cons_zero, Option.some.injEq] at hy
          subst hy
          have := hprev 0 a rfl rfl ht
          have hbe := hb (by omega)
          subst hbe
          refine ih ho 0 _ rfl ?_ (by simpa using hnext)
          intro k x hk; omega
        | succ i =>
          refine ih ho (i + 1) y (by simpa using hy) ?_ (by simpa using hnext)
          intro k x hk hx hty
          cases k with
          | zero =>
            simp only [List.getElem?_cons_zero, Option.some.injEq] at hx
            subst hx
            rw [sb.priority]
            exact hprev 1 b (by omega) rfl hty
          | succ k => exact hprev (k + 2) x (by omega) (by simpa using hx) hty

/-- At a node where consecutive surfaces are in order nothing moves. -/
theorem cutFrom_node {axis : Fin 3} {bu : Bool} (j : ℕ) : ∀ {rest : List (Item K τ ω)}
    {a : Item K τ ω} {out : List (Item K τ ω)}, cutFrom axis bu a rest = .ok out →
    (∀ (i : ℕ) (x y : Item K τ ω) (p q : V3 K), (a :: rest)[i]? = some x →
      (a :: rest)[i + 1]? = some y → y.transition = false → x.mesh.points[j]? = some p →
      y.mesh.points[j]? = some q → ¬ shiftAt bu (p axis) (q axis) y.thickness < 0) →
    ∀ (i : ℕ) (x y : Item K τ ω), (a :: rest)[i]? = some x → out[i]? = some y →
      y.mesh.points[j]? = x.mesh.points[j]? := by
  intro rest
  induction rest with
  | nil =>
    intro a out h _ i x y hx hy
    simp only [cutFrom] at h
    cases h; rw [hx] at hy; cases hy; rfl
  | cons b rest ih =>
    intro a out h hord i x y hx hy
    rcases cutFrom_cons h with ⟨ht, out', ho, rfl⟩ | ⟨ht, a', b', out', hc, ho, rfl⟩
    · cases i with
      | zero =>
        simp only [List.getElem?_cons_zero, Option.some.injEq] at hx hy
        subst hx hy; rfl
      | succ i =>
        exact ih ho (fun i x y p q h1 h2 => hord (i + 1) x y p q (by simpa using h1) (by simpa using h2))
          i x y (by simpa using hx) (by simpa using hy)
    · obtain ⟨hl, sa, sb, ha, hb, hn⟩ := cutPair_spec hc
      have hsame : a'.mesh.points[j]? = a.mesh.points[j]? ∧
          b'.mesh.points[j]? = b.mesh.points[j]? := by
        by_cases hj : j < a.mesh.points.length
        · have e1 := List.getElem?_eq_getElem hj
          have e2 := List.getElem?_eq_getElem (hl ▸ hj : j < b.mesh.points.length)
          have e3 := List.getElem?_eq_getElem (by rw [sa.length]; exact hj : j < a'.mesh.points.length)
          have e4 := List.getElem?_eq_getElem
            (by rw [sb.length]; exact hl ▸ hj : j < b'.mesh.points.length)
          obtain ⟨f1, f2⟩ := (hn j _ _ _ _ e1 e2 e3 e4).1 (hord 0 a b _ _ rfl rfl ht e1 e2)
          rw [e1, e2, e3, e4, f1, f2]; exact ⟨rfl, rfl⟩
        · have l1 : a.mesh.points.length ≤ j := by omega
          rw [List.getElem?_eq_none (by rw [sa.length]; omega), List.getElem?_eq_none l1,
            List.getElem?_eq_none (by rw [sb.length]; omega), List.getElem?_eq_none (by omega)]
          exact ⟨rfl, rfl⟩
      cases i with
      | zero =>
        simp only [List.getElem?_cons_zero, Option.some.injEq] at hx hy
        subst hx hy; exact hsame.1
      | succ i =>
        simp only [List.getElem?_cons_succ] at hx hy
        have hord' : ∀ (i : ℕ) (x y : Item K τ ω) (p q : V3 K), (b' :: rest)[i]? = some x →
            (b' :: rest)[i + 1]? = some y → y.transition = false → x.mesh.points[j]? = some p →
            y.mesh.points[j]? = some q → ¬ shiftAt bu (p axis) (q axis) y.thickness < 0 := by
          intro i x y p q h1 h2 h3 h4 h5
          cases i with
          | zero =>
            simp only [List.getElem?_cons_zero, Option.some.injEq] at h1
            subst h1
            rw [hsame.2] at h4
            exact hord 1 b y p q rfl (by simpa using h2) h3 h4 h5
          | succ i => exact hord (i + 2) x y p q (by simpa using h1) (by simpa using h2) h3 h4 h5
        cases i with
        | zero =>
          simp only [List.getElem?_cons_zero, Option.some.injEq] at hx
          subst hx
          rw [ih ho hord' 0 b' y rfl hy, hsame.2]
        | succ i => exact ih ho hord' (i + 1) x y (by simpa using hx) hy

/-- **C29.** `generate_mesh` moves nodes along the stacking axis only; a surface with priority over
both its neighbours (the last of two equals takes priority) is not moved at all; and at a node
where all consecutive surfaces are in order no surface is moved.  (`C29_step` says the same of each
pair of surfaces as it is processed.) -/
theorem C29_priority_stays [IsStrictOrderedRing K] {M : Type _} (build : List (Item K τ ω) → Py M) (s s' : Stack K τ ω)
    (mesh : M) (h : s.generate build = .ok (mesh, s')) :
    (∀ (i : ℕ) (x : Item K τ ω), s.items[i]? = some x → ∃ y, s'.items[i]? = some y ∧
      y.mesh.topo = x.mesh.topo ∧ y.mesh.points.length = x.mesh.points.length ∧
      ∀ (j : ℕ) (p q : V3 K), x.mesh.points[j]? = some p → y.mesh.points[j]? = some q →
        ∀ ax, ax ≠ s.axis → q ax = p ax) ∧
    (∀ (i : ℕ) (y : Item K τ ω), s.items[i]? = some y →
      (∀ k x, i = k + 1 → s.items[k]? = some x → y.transition = false →
        x.priority ≤ y.priority) →
      (∀ z, s.items[i + 1]? = some z → z.transition = false → z.priority < y.priority) →
      s'.items[i]? = some y) ∧
    (∀ j : ℕ, (∀ (i : ℕ) (x y : Item K τ ω) (p q : V3 K), s.items[i]? = some x →
        s.items[i + 1]? = some y → y.transition = false → x.mesh.points[j]? = some p →
        y.mesh.points[j]? = some q →
        if s.bottomUp then y.thickness ≤ q s.axis - p s.axis
          else q s.axis - p s.axis ≤ y.thickness) →
      ∀ (i : ℕ) (x y : Item K τ ω), s.items[i]? = some x → s'.items[i]? = some y →
        y.mesh.points[j]? = x.mesh.points[j]?) := by
  obtain ⟨a, rest, hi, hc, _⟩ := generate_inv h
  rw [hi]
  refine ⟨?_, cutFrom_priority hc, ?_⟩
  · intro i x hx
    obtain ⟨y, hy, sy⟩ := (cutFrom_same hc).2 i x hx
    exact ⟨y, hy, sy.topo, sy.length, sy.coords⟩
  · intro j hord
    apply cutFrom_node j hc
    intro i x y p q h1 h2 h3 h4 h5
    have := hord i x y p q h1 h2 h3 h4 h5
    cases hb : s.bottomUp <;> rw [hb] at this <;>
      simp only [shiftAt, if_true, Bool.false_eq_true, if_false, not_lt] at this ⊢
    · linarith
    · linarith

/-- Concrete case: the middle surface has the highest priority and stays; its neighbours move. -/
example : heightsAfter (colStack true [(2, 0, 0), (1, 5, 0), (-1, 0, 3)]) = some [1, 1, 4] := by
  decide +kernel

/-! ### C30: repeated generation -/

/-- **C30 (partial).** When the surfaces are in order after `generate_mesh` (for instance under the
hypotheses of C27), calling it again gives the same mesh and leaves the stack as it is.
Missing: stacks where the cut pass does not put the surfaces in order; then the second call moves
them again (`C30_refuted`). -/
theorem C30_repeat_partial [IsStrictOrderedRing K] {M : Type _} (build : List (Item K τ ω) → Py M)
    (s s' : Stack K τ ω) (mesh : M) (h : s.generate build = .ok (mesh, s'))
    (hord : ∀ (i : ℕ) (x y : Item K τ ω), s'.items[i]? = some x → s'.items[i + 1]? = some y →
      y.transition = false →
      if s.bottomUp then Above s.axis y.thickness x.mesh.points y.mesh.points
      else 0 ≤ y.thickness ∧ Above s.axis 0 y.mesh.points x.mesh.points) :
    s'.generate build = .ok (mesh, s') := by
  obtain ⟨a, rest, hi, hc, hb, hs, hne⟩ := generate_inv h
  obtain ⟨hl, _⟩ := cutFrom_same hc
  obtain ⟨a', b', rest', hi'⟩ : ∃ a b rest, s'.items = a :: b :: rest := by
    have : 2 ≤ s'.items.length := by
      rw [hl]
      have := List.length_pos_iff.2 hne
      omega
    match s'.items, this with
    | a :: b :: rest, _ => exact ⟨a, b, rest, rfl⟩
  have hax : s'.axis = s.axis := by rw [hs]
  have hbu : s'.bottomUp = s.bottomUp := by rw [hs]
  have hcut : cutFrom s'.axis s'.bottomUp a' (b' :: rest') = .ok (a' :: b' :: rest') := by
    apply cutFrom_id
    rw [← hi', List.isChain_iff_getElem]
    intro i hil
    have hx := List.getElem?_eq_getElem (l := s'.items) (i := i) (by omega)
    have hy := List.getElem?_eq_getElem (l := s'.items) (i := i + 1) hil
    cases ht : s'.items[i + 1].transition with
    | true => exact .inl rfl
    | false =>
      right
      have := hord i _ _ hx hy ht
      rw [hax, hbu]
      cases hb' : s.bottomUp with
      | true =>
        rw [hb'] at this
        simp only [if_true] at this
        refine ⟨this.1, fun j p q hp hq => ?_⟩
        have := this.2 j p q hp hq
        simp only [shiftAt, if_true]; linarith
      | false =>
        rw [hb'] at this
        simp only [Bool.false_eq_true, if_false] at this
        refine ⟨this.2.1.symm, fun j p q hp hq => ?_⟩
        have h1 := this.1
        have := this.2.2 j q p hq hp
        simp only [shiftAt, Bool.false_eq_true, if_false]; linarith
  unfold Stack.generate
  rw [hi']
  simp only [hcut]
  rw [← hi', hb]

/-- A bottom-up stack whose priorities strictly decrease after the first item can be generated any
number of times. -/
theorem C30_decreasing [IsStrictOrderedRing K] {M : Type _} (build : List (Item K τ ω) → Py M)
    (s s' : Stack K τ ω) (mesh : M) (hbu : s.bottomUp = true)
    (h : s.generate build = .ok (mesh, s'))
    (hdec : ∀ i (x y : Item K τ ω), s.items[i + 1]? = some x → s.items[i + 2]? = some y →
      y.priority < x.priority) :
    s'.generate build = .ok (mesh, s') := by
  apply C30_repeat_partial build s s' mesh h
  intro i x y hx hy ht
  rw [hbu]
  simp only [if_true]
  exact C27_decreasing_priorities build s s' mesh hbu h hdec i x y hx hy ht

/-- Concrete case of C30: two crossing surfaces. -/
example : heightsAfter (colStack true [(0, 0, 0), (-1, 0, 0)]) = some [-1, -1] ∧
    heightsAfter (colStack true [(-1, 0, 0), (-1, 0, 0)]) = some [-1, -1] := by
  constructor <;> decide +kernel

/-- **C30 (refuted).** Surfaces at 0, 1, -1: the first call leaves them at 0, -1, -1, the second one
at -1, -1, -1. -/
theorem C30_refuted :
    (((colStack true [(0, 0, 0), (1, 0, 0), (-1, 0, 0)]).generate (M := List (Item ℚ Unit Unit))
      fun items => .ok items).toOption.map fun r =>
        (r.1.flatMap fun it => it.mesh.points.map fun p => p 2, heightsAfter r.2)) =
    some ([0, -1, -1], some [-1, -1, -1]) := by
  decide +kernel

/-! ### C31: transitions -/

namespace Spec

/-- Not a scalar. -/
def NotScalar : AddArg K → Prop
  | .scalar _ => False
  | _ => True

end Spec

theorem interpolate_length {o : InterpOracle K} {axis : Fin 3} {base data : List (V3 K)}
    {e : Option String} {v : List K} (h : interpolate o axis base data e = .ok v) :
    v.length = base.length := by
  unfold interpolate at h
  simp only at h
  split at h
  · split at h
    · cases h
    split at h
    · split at h
      · cases h
      split at h
      · cases h; simp
      · cases h
    · cases h; simp
  · split at h
    · cases h
    · split at h
      · split at h
        · cases h
        · cases h; simp
      · cases h

/-- Everything but scalars uses the base mesh. -/
theorem newMesh_base {o : InterpOracle K} {s : Stack K τ ω} {arg : AddArg K} {e : Option String}
    {m : Surf K τ} (h : newMesh o s arg e = .ok m) (hn : NotScalar arg) :
    m.topo = s.mesh.topo ∧ m.points.length = s.mesh.points.length ∧
    ∀ (j : ℕ) (p q : V3 K), s.mesh.points[j]? = some p → m.points[j]? = some q →
      ∀ ax, ax ≠ s.axis → q ax = p ax := by
  have key : ∀ vals : List K, vals.length = s.mesh.points.length →
      (setCoord s.axis s.mesh.points vals).length = s.mesh.points.length ∧
      ∀ (j : ℕ) (p q : V3 K), s.mesh.points[j]? = some p →
        (setCoord s.axis s.mesh.points vals)[j]? = some q → ∀ ax, ax ≠ s.axis → q ax = p ax := by
    intro vals hv
    refine ⟨by simp [setCoord, hv], ?_⟩
    intro j p q hp hq ax hax
    have hj : j < vals.length := by rw [hv]; exact (List.getElem?_eq_some_iff.1 hp).1
    simp only [setCoord, List.getElem?_zipWith, hp, List.getElem?_eq_getElem hj,
      Option.some.injEq] at hq
    rw [← hq, Function.update_of_ne hax]
  cases arg with
  | scalar x => exact absurd hn id
  | dataset pts =>
    simp only [newMesh] at h
    split at h
    · cases h
    · rename_i v hv; cases h; exact ⟨rfl, key _ (interpolate_length hv)⟩
  | callable f =>
    simp only [newMesh] at h
    split at h
    · cases h
    · cases h; exact ⟨rfl, key _ (by simp)⟩
    · simp only [assignCoord] at h
      split at h
      · cases h
      · rename_i pts hp
        cases h
        split at hp
        · rename_i hl; cases hp; exact ⟨rfl, key _ hl⟩
        · split at hp
          · cases hp; exact ⟨rfl, key _ (by simp)⟩
          · cases hp
  | array2 n rows =>
    simp only [newMesh] at h
    split at h
    · cases h
    · split at h
      · cases h
      · rename_i v hv; cases h; exact ⟨rfl, key _ (interpolate_length hv)⟩
  | arrayN n => simp only [newMesh] at h; cases h

/-- Later items keep the topology of the base mesh once one of them has it. -/
theorem run_topo {o : InterpOracle K} : ∀ (cs : List (Call K τ ω)) (s s' : Stack K τ ω),
    (∀ c ∈ cs, ∃ arg e w p t, c = .add arg e w p t) → s.run o cs = .ok s' → s.flag = false →
    (∃ it, s.items.getLast? = some it ∧ it.mesh.topo = s.mesh.topo ∧
      it.mesh.points.length = s.mesh.points.length) →
    ∃ new, s'.items = s.items ++ new ∧ new.length = cs.length ∧ s'.mesh = s.mesh ∧
      s'.flag = false ∧
      ∀ it ∈ new, it.transition = false ∧ it.mesh.topo = s.mesh.topo ∧
        it.mesh.points.length = s.mesh.points.length := by
  intro cs
  induction cs with
  | nil =>
    intro s s' _ h hf _
    simp only [Stack.run] at h; cases h
    exact ⟨[], by simp, rfl, rfl, hf, by simp⟩
  | cons c cs ih =>
    intro s s' hcs h hf hit
    obtain ⟨arg, e, w, p, t, rfl⟩ := hcs c (by simp)
    obtain ⟨it, hlast, htopo, hlen⟩ := hit
    have hne : s.items.isEmpty = false := by
      cases h : s.items with
      | nil => rw [h] at hlast; cases hlast
      | cons _ _ => rfl
    simp only [Stack.run, Stack.call, Stack.add, hne] at h
    cases hm : newMesh o s arg e with
    | error _ => rw [hm] at h; cases h
    | ok m =>
      rw [hm] at h
      simp only [Bool.false_eq_true, if_false] at h
      have hmm : m.topo = s.mesh.topo ∧ m.points.length = s.mesh.points.length := by
        by_cases hn : NotScalar arg
        · exact ⟨(newMesh_base hm hn).1, (newMesh_base hm hn).2.1⟩
        · cases arg with
          | scalar x =>
            simp only [newMesh, hlast] at hm
            cases hm
            exact ⟨htopo, by simpa using hlen⟩
          | _ => exact absurd trivial hn
      obtain ⟨new, h1, h2, h3, h4, h5⟩ := ih _ s' (fun c hc => hcs c (List.mem_cons_of_mem _ hc)) h rfl
        ⟨⟨m, p, t, s.flag, some w⟩, by simp, hmm.1, hmm.2⟩
      refine ⟨⟨m, p, t, s.flag, some w⟩ :: new, by simp [h1], by simp [h2], h3, h4, ?_⟩
      intro x hx
      rcases List.mem_cons.1 hx with rfl | hx
      · exact ⟨hf, hmm⟩
      · exact h5 x hx

/-- **C31 (partial).** After `set_transition(mesh)` on a stack that has items, when the first item added
is not given by a scalar, all items added (by any kind of argument) have the cells and number of
points of the new mesh, the first one is a transition item and the others are not; the earlier items
are unchanged.
Missing: a scalar right after `set_transition`, which copies the previous item
(`C31_scalar_refuted`). -/
theorem C31_transition_partial (o : InterpOracle K) (s s' : Stack K τ ω) (mesh : Surf K τ)
    (hs : s.items ≠ []) (arg : AddArg K) (e : Option String) (w : ω) (p : Int) (t : K)
    (hn : NotScalar arg) (cs : List (Call K τ ω)) (hcs : ∀ c ∈ cs, ∃ arg e w p t, c = .add arg e w p t)
    (h : s.run o (.setTransition mesh :: .add arg e w p t :: cs) = .ok s') :
    ∃ first new, s'.items = s.items ++ first :: new ∧ new.length = cs.length ∧
      first.transition = true ∧ (∀ it ∈ new, it.transition = false) ∧
      (∀ it ∈ first :: new, it.mesh.topo = mesh.topo ∧
        it.mesh.points.length = mesh.points.length) ∧
      (∀ (j : ℕ) (p q : V3 K), mesh.points[j]? = some p → first.mesh.points[j]? = some q →
        ∀ ax, ax ≠ s.axis → q ax = p ax) := by
  have hne : s.items.isEmpty = false := by
    cases h : s.items with
    | nil => exact absurd h hs
    | cons _ _ => rfl
  simp only [Stack.run, Stack.call, Stack.setTransition, Stack.add] at h
  cases hm : newMesh o { s with mesh := mesh, flag := true } arg e with
  | error _ => rw [hm] at h; cases h
  | ok m =>
    rw [hm] at h
    simp only [hne, Bool.false_eq_true, if_false] at h
    obtain ⟨b1, b2, b3⟩ := newMesh_base hm hn
    simp only at b1 b2 b3
    obtain ⟨new, h1, h2, h3, h4, h5⟩ := run_topo cs _ s' hcs h rfl
      ⟨⟨m, p, t, true, some w⟩, by simp, b1, b2⟩
    refine ⟨⟨m, p, t, true, some w⟩, new, by simp [h1], h2, rfl, fun it hit => (h5 it hit).1, ?_, b3⟩
    intro it hit
    rcases List.mem_cons.1 hit with rfl | hit
    · exact ⟨b1, b2⟩
    · exact (h5 it hit).2

/-- Concrete case: a stack on a mesh of one point, then on one of two points (given by a
callable, then a scalar). -/
example :
    (((Stack.new (τ := Unit) (ω := Unit) ⟨[![5, 6, 7]], ()⟩ 2 true).run (K := ℚ)
      ⟨fun _ _ => .error .valueError, fun _ _ _ => 0⟩
      [scalarCall (2, ⟨none, (), 0, 0⟩), .setTransition ⟨[![1, 0, 0], ![2, 0, 0]], ()⟩,
        .add (.callable fun pts => .ok (.inr (pts.map fun p => 10 * p 0))) none () 0 0,
        scalarCall (4, ⟨none, (), 0, 0⟩)]).toOption.map fun s =>
      s.items.map fun it => (it.transition, it.mesh.points.map fun p => p 2)) =
    some [(false, [2]), (true, [10, 20]), (false, [14, 24])] := by
  decide +kernel

/-- **C31 (refuted).** A scalar added right after `set_transition` gives an item with the points of
the previous mesh, not of the new one. -/
theorem C31_scalar_refuted :
    (((Stack.new (τ := String) (ω := Unit) ⟨[![5, 6, 7]], "old"⟩ 2 true).run (K := ℚ)
      ⟨fun _ _ => .error .valueError, fun _ _ _ => 0⟩
      [scalarCall (2, ⟨none, (), 0, 0⟩), .setTransition ⟨[![1, 0, 0], ![2, 0, 0]], "new"⟩,
        scalarCall (4, ⟨none, (), 0, 0⟩)]).toOption.map fun s =>
      s.items.map fun it => (it.transition, it.mesh.topo, it.mesh.points.length)) =
    some [(false, "old", 1), (true, "old", 1)] := by
  decide +kernel

end Gridder
