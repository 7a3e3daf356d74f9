import Verif.Props.Stack

/-!
# C27, C28, C30: exactly when the surfaces of a stack come out in order
-/

namespace Gridder
open Spec

namespace Spec
variable {K τ ω : Type _} [Field K] [LinearOrder K]

/-- At node `j` each surface (but transitions) lies at least its minimum thickness beyond the one before it. -/
def InOrderAt (axis : Fin 3) (bottomUp : Bool) (j : ℕ) (items : List (Item K τ ω)) : Prop :=
  ∀ (i : ℕ) (x y : Item K τ ω) (p q : V3 K), items[i]? = some x → items[i + 1]? = some y → y.transition = false →
    x.mesh.points[j]? = some p → y.mesh.points[j]? = some q →
    if bottomUp then p axis + y.thickness ≤ q axis else q axis + y.thickness ≤ p axis

/-- Priorities never decrease from an item to the next one; in particular all are the default. -/
def PrioritiesUp (items : List (Item K τ ω)) : Prop :=
  ∀ (i : ℕ) (x y : Item K τ ω), items[i]? = some x → items[i + 1]? = some y → x.priority ≤ y.priority

end Spec

section
variable {K τ ω : Type _} [Field K] [LinearOrder K] [IsStrictOrderedRing K]

omit [IsStrictOrderedRing K] in
theorem inOrderAt_tail {axis : Fin 3} {bu : Bool} {j : ℕ} {a : Item K τ ω} {l : List (Item K τ ω)}
    (h : InOrderAt axis bu j (a :: l)) : InOrderAt axis bu j l :=
  fun i x y p q hx hy => h (i + 1) x y p q (by simpa using hx) (by simpa using hy)

omit [IsStrictOrderedRing K] in
theorem inOrderAt_cons {axis : Fin 3} {bu : Bool} {j : ℕ} {a b : Item K τ ω} {l : List (Item K τ ω)}
    (h : InOrderAt axis bu j (b :: l))
    (hab : b.transition = false → ∀ p q, a.mesh.points[j]? = some p → b.mesh.points[j]? = some q →
      if bu then p axis + b.thickness ≤ q axis else q axis + b.thickness ≤ p axis) :
    InOrderAt axis bu j (a :: b :: l) := by
  intro i x y p q hx hy ht hp hq
  cases i with
  | zero =>
    simp only [List.getElem?_cons_zero, Option.some.injEq, Nat.zero_add, List.getElem?_cons_succ] at hx hy
    subst hx; subst hy
    exact hab ht p q hp hq
  | succ i => exact h i x y p q (by simpa using hx) (by simpa using hy) ht hp hq

omit [IsStrictOrderedRing K] in
/-- Only the node of the first item and its thickness and kind matter. -/
theorem inOrderAt_congr {axis : Fin 3} {bu : Bool} {j : ℕ} {b b' : Item K τ ω} {l : List (Item K τ ω)}
    (h : InOrderAt axis bu j (b' :: l)) (hn : b'.mesh.points[j]? = b.mesh.points[j]?) :
    InOrderAt axis bu j (b :: l) := by
  intro i x y p q hx hy ht hp hq
  cases i with
  | zero =>
    simp only [List.getElem?_cons_zero, Option.some.injEq] at hx
    subst hx
    exact h 0 b' y p q rfl (by simpa using hy) ht (by rw [hn]; exact hp) hq
  | succ i => exact h (i + 1) x y p q (by simpa using hx) (by simpa using hy) ht hp hq

omit [IsStrictOrderedRing K] in
/-- Consecutive surfaces that are cut have the same number of points. -/
theorem cutFrom_lengths {axis : Fin 3} {bu : Bool} : ∀ {rest : List (Item K τ ω)} {a : Item K τ ω}
    {out : List (Item K τ ω)}, cutFrom axis bu a rest = .ok out →
    ∀ (i : ℕ) (x y : Item K τ ω), (a :: rest)[i]? = some x → (a :: rest)[i + 1]? = some y → y.transition = false →
      x.mesh.points.length = y.mesh.points.length := by
  intro rest
  induction rest with
  | nil => intro a out _ i x y _ hy; simp at hy
  | cons b rest ih =>
    intro a out h i x y hx hy ht
    rcases cutFrom_cons h with ⟨hb, out', ho, rfl⟩ | ⟨hb, a', b', out', hc, ho, rfl⟩
    · cases i with
      | zero =>
        simp only [Nat.zero_add, List.getElem?_cons_succ, List.getElem?_cons_zero, Option.some.injEq] at hy
        subst hy
        rw [hb] at ht; cases ht
      | succ i => exact ih ho i x y (by simpa using hx) (by simpa using hy) ht
    · obtain ⟨hlen, _, sb, _⟩ := cutPair_spec hc
      cases i with
      | zero =>
        simp only [Nat.zero_add, List.getElem?_cons_succ, List.getElem?_cons_zero, Option.some.injEq] at hx hy
        subst hx; subst hy
        exact hlen
      | succ i =>
        cases i with
        | zero =>
          simp only [Nat.zero_add, List.getElem?_cons_succ, List.getElem?_cons_zero, Option.some.injEq] at hx
          subst hx
          rw [← sb.length]
          exact ih ho 0 b' y rfl (by simpa using hy) ht
        | succ i => exact ih ho (i + 1) x y (by simpa using hx) (by simpa using hy) ht

/-- Top-down, surfaces that come out in order at a node were in order there. -/
theorem cutFrom_down {axis : Fin 3} (j : ℕ) : ∀ {rest : List (Item K τ ω)} {a : Item K τ ω}
    {out : List (Item K τ ω)}, cutFrom axis false a rest = .ok out → (∀ x ∈ a :: rest, 0 ≤ x.thickness) →
    InOrderAt axis false j out → InOrderAt axis false j (a :: rest) := by
  intro rest
  induction rest with
  | nil => intro a out _ _ _ i x y p q _ hy; simp at hy
  | cons b rest ih =>
    intro a out h hth hout
    rcases cutFrom_cons h with ⟨ht, out', ho, rfl⟩ | ⟨ht, a', b', out', hc, ho, rfl⟩
    · refine inOrderAt_cons (ih ho (fun x hx => hth x (List.mem_cons_of_mem _ hx)) (inOrderAt_tail hout)) ?_
      intro h'; rw [ht] at h'; cases h'
    · obtain ⟨hlen, sa, sb, _, _, hn⟩ := cutPair_spec hc
      have hth' : ∀ x ∈ b' :: rest, 0 ≤ x.thickness := by
        intro x hx
        rcases List.mem_cons.1 hx with rfl | hx
        · rw [sb.thickness]; exact hth b (by simp)
        · exact hth x (by simp [hx])
      have hb' := ih ho hth' (inOrderAt_tail hout)
      obtain ⟨hl, hsame⟩ := cutFrom_same ho
      obtain ⟨y, hy, sy⟩ := hsame 0 b' rfl
      have hy0 : y.mesh.points[j]? = b'.mesh.points[j]? := by
        refine cutFrom_node j ho ?_ 0 b' y rfl hy
        intro i u v p q hu hv htv hp hq
        have h1 := hb' i u v p q hu hv htv hp hq
        have h2 : 0 ≤ v.thickness := hth' v (List.mem_of_getElem? hv)
        simp only [Bool.false_eq_true, if_false, shiftAt] at h1 ⊢
        linarith
      cases hpa : a.mesh.points[j]? with
      | none =>
        have hb : b.mesh.points[j]? = none := by
          rw [List.getElem?_eq_none_iff] at hpa ⊢; omega
        have hb2 : b'.mesh.points[j]? = none := by
          rw [List.getElem?_eq_none_iff] at hb ⊢; rw [sb.length]; exact hb
        refine inOrderAt_cons (inOrderAt_congr hb' (by rw [hb, hb2])) ?_
        intro _ p q hp; rw [hpa] at hp; cases hp
      | some p =>
        have hj : j < a.mesh.points.length := (List.getElem?_eq_some_iff.1 hpa).1
        have hq := List.getElem?_eq_getElem (l := b.mesh.points) (i := j) (by omega)
        have hp' := List.getElem?_eq_getElem (l := a'.mesh.points) (i := j) (by rw [sa.length]; omega)
        have hq' := List.getElem?_eq_getElem (l := b'.mesh.points) (i := j) (by rw [sb.length]; omega)
        obtain ⟨n1, n2⟩ := hn j _ _ _ _ hpa hq hp' hq'
        have hfin := hout 0 a' y _ _ rfl (by simpa using hy) (by rw [sy.transition, sb.transition]; exact ht) hp'
          (by rw [hy0]; exact hq')
        rw [sy.thickness, sb.thickness] at hfin
        simp only [Bool.false_eq_true, if_false] at hfin
        have hb0 : 0 ≤ b.thickness := hth b (by simp)
        have hnot : ¬ shiftAt false (p axis) ((b.mesh.points[j]'(by omega)) axis) b.thickness < 0 := by
          intro hneg
          obtain ⟨m1, m2⟩ := n2 hneg
          simp only [shiftAt, Bool.false_eq_true, if_false] at hneg m1 m2
          by_cases hpr : b.priority < a.priority
          · obtain ⟨e1, e2⟩ := m1 hpr
            rw [e1, e2, Function.update_self] at hfin
            linarith
          · obtain ⟨e1, e2⟩ := m2 hpr
            rw [e1, e2, Function.update_self] at hfin
            linarith
        obtain ⟨e1, e2⟩ := n1 hnot
        refine inOrderAt_cons (inOrderAt_congr hb' (by rw [hq', hq, e2])) ?_
        intro _ p1 q1 hp1 hq1
        rw [hpa] at hp1; cases hp1
        rw [hq] at hq1; cases hq1
        rw [e1, e2] at hfin
        simpa using hfin

/-- **C28 (exact).** On a top-down stack `generate_mesh` repairs nothing: at every node the surfaces come out in order
exactly when they were in order before, and then they have not moved. -/
theorem C28_never_repairs {M : Type _} (build : List (Item K τ ω) → Py M) (s s' : Stack K τ ω) (mesh : M)
    (hbu : s.bottomUp = false) (hth : ∀ x ∈ s.items, 0 ≤ x.thickness) (h : s.generate build = .ok (mesh, s')) (j : ℕ) :
    (InOrderAt s.axis false j s'.items ↔ InOrderAt s.axis false j s.items) ∧
    (InOrderAt s.axis false j s.items → ∀ (i : ℕ) (x y : Item K τ ω), s.items[i]? = some x → s'.items[i]? = some y →
      y.mesh.points[j]? = x.mesh.points[j]?) := by
  obtain ⟨a, rest, hi, hc, _⟩ := generate_inv h
  rw [hbu] at hc
  have hstay : InOrderAt s.axis false j s.items → ∀ (i : ℕ) (x y : Item K τ ω), s.items[i]? = some x →
      s'.items[i]? = some y → y.mesh.points[j]? = x.mesh.points[j]? := by
    intro ho i x y hx hy
    rw [hi] at hx ho
    refine cutFrom_node j hc ?_ i x y hx hy
    intro i u v p q hu hv htv hp hq
    have h1 := ho i u v p q hu hv htv hp hq
    have h2 : 0 ≤ v.thickness := hth v (by rw [hi]; exact List.mem_of_getElem? hv)
    simp only [Bool.false_eq_true, if_false, shiftAt] at h1 ⊢
    linarith
  refine ⟨⟨fun ho => ?_, fun ho => ?_⟩, hstay⟩
  · rw [hi] at hth ⊢
    exact cutFrom_down j hc hth ho
  · obtain ⟨hl, hsame⟩ := cutFrom_same hc
    rw [← hi] at hsame
    have hlen : s.items.length = s'.items.length := by rw [hi, hl]; simp
    intro i x y p q hx hy ht hp hq
    have l1 : i < s.items.length := by rw [hlen]; exact (List.getElem?_eq_some_iff.1 hx).1
    have l2 : i + 1 < s.items.length := by rw [hlen]; exact (List.getElem?_eq_some_iff.1 hy).1
    have hx0 := List.getElem?_eq_getElem l1
    have hy0 := List.getElem?_eq_getElem l2
    obtain ⟨y', hy', sy⟩ := hsame (i + 1) _ hy0
    rw [hy] at hy'; cases hy'
    rw [sy.transition] at ht
    rw [hstay ho i _ x hx0 hx] at hp
    rw [hstay ho (i + 1) _ y hy0 hy] at hq
    rw [sy.thickness]
    exact ho i _ _ p q hx0 hy0 ht hp hq

omit [IsStrictOrderedRing K] in
theorem prioritiesUp_chain {items : List (Item K τ ω)} (h : PrioritiesUp items) :
    List.IsChain (fun x y : Item K τ ω => x.priority ≤ y.priority) items := by
  rw [List.isChain_iff_getElem]
  intro i hi
  exact h i _ _ (List.getElem?_eq_getElem (by omega)) (List.getElem?_eq_getElem hi)

/-- **C27 (exact for default priorities).** On a bottom-up stack whose priorities never decrease (the default): each
surface ends at the lower of its height and the height of the next one less its minimum thickness, and the surfaces come
out in order at a node exactly when there no surface is, less its minimum thickness, below both the surface before it and the
one before that one raised by the minimum thickness in between. -/
theorem C27_default_iff {M : Type _} (build : List (Item K τ ω) → Py M) (s s' : Stack K τ ω) (mesh : M)
    (hbu : s.bottomUp = true) (hup : PrioritiesUp s.items) (h : s.generate build = .ok (mesh, s')) (j : ℕ) :
    (∀ (i : ℕ) (x y x' : Item K τ ω) (p q p' : V3 K), s.items[i]? = some x → s.items[i + 1]? = some y →
      y.transition = false → s'.items[i]? = some x' → x.mesh.points[j]? = some p → y.mesh.points[j]? = some q →
      x'.mesh.points[j]? = some p' → p' s.axis = min (p s.axis) (q s.axis - y.thickness)) ∧
    (∀ (i : ℕ) (x : Item K τ ω), s.items[i]? = some x →
      (∀ y, s.items[i + 1]? = some y → y.transition = true) → s'.items[i]? = some x) ∧
    (InOrderAt s.axis true j s'.items ↔
      ∀ (i : ℕ) (x y z : Item K τ ω) (p q r : V3 K), s.items[i]? = some x → s.items[i + 1]? = some y →
        s.items[i + 2]? = some z → y.transition = false → z.transition = false → x.mesh.points[j]? = some p →
        y.mesh.points[j]? = some q → z.mesh.points[j]? = some r →
        min (p s.axis + y.thickness) (q s.axis) ≤ r s.axis - z.thickness) := by
  obtain ⟨a, rest, hi, hc, _⟩ := generate_inv h
  rw [hbu] at hc
  have hch := prioritiesUp_chain hup
  rw [hi] at hch
  have hclosed := fun i x y z => cutFrom_nondecreasing hc hch i x y z j
  rw [← hi] at hclosed
  have hstay : ∀ (i : ℕ) (x : Item K τ ω), s.items[i]? = some x →
      (∀ y, s.items[i + 1]? = some y → y.transition = true) → s'.items[i]? = some x := by
    intro i x hx hnext
    have := cutFrom_priority hc i x (by rw [← hi]; exact hx)
      (by
        rintro k u rfl hu _
        rw [← hi] at hu
        exact hup k u x hu hx)
      (by
        intro z hz htz
        rw [← hi] at hz
        rw [hnext z hz] at htz; cases htz)
    exact this
  obtain ⟨hl, hsame⟩ := cutFrom_same hc
  rw [← hi] at hsame
  have hlen : s.items.length = s'.items.length := by rw [hi, hl]; simp
  refine ⟨fun i x y x' p q p' hx hy ht hx' hp hq hp' => hclosed i x y x' p q p' hx hy ht hx' hp hq hp', hstay, ?_⟩
  constructor
  · intro ho i x y z p q r hx hy hz hty htz hp hq hr
    obtain ⟨x', hx', sx⟩ := hsame i x hx
    obtain ⟨y', hy', sy⟩ := hsame (i + 1) y hy
    have hp' := List.getElem?_eq_getElem (l := x'.mesh.points) (i := j)
      (by rw [sx.length]; exact (List.getElem?_eq_some_iff.1 hp).1)
    have hq' := List.getElem?_eq_getElem (l := y'.mesh.points) (i := j)
      (by rw [sy.length]; exact (List.getElem?_eq_some_iff.1 hq).1)
    have e1 := hclosed i x y x' p q _ hx hy hty hx' hp hq hp'
    have e2 := hclosed (i + 1) y z y' q r _ hy hz htz hy' hq hr hq'
    have := ho i x' y' _ _ hx' hy' (by rw [sy.transition]; exact hty) hp' hq'
    rw [if_pos rfl, e1, e2, sy.thickness] at this
    have h2 := le_trans this (min_le_right _ _)
    rcases le_total (p s.axis) (q s.axis - y.thickness) with hle | hle
    · rw [min_eq_left hle] at h2
      exact le_trans (min_le_left _ _) h2
    · rw [min_eq_right hle] at h2
      exact le_trans (min_le_right _ _) (by linarith)
  · intro hcond i x' y' p' q' hx' hy' ht hp' hq'
    have l1 : i < s.items.length := by rw [hlen]; exact (List.getElem?_eq_some_iff.1 hx').1
    have l2 : i + 1 < s.items.length := by rw [hlen]; exact (List.getElem?_eq_some_iff.1 hy').1
    have hx := List.getElem?_eq_getElem l1
    have hy := List.getElem?_eq_getElem l2
    obtain ⟨u, hu, sx⟩ := hsame i _ hx
    rw [hx'] at hu; cases hu
    obtain ⟨v, hv, sy⟩ := hsame (i + 1) _ hy
    rw [hy'] at hv; cases hv
    have hp := List.getElem?_eq_getElem (l := s.items[i].mesh.points) (i := j)
      (by rw [← sx.length]; exact (List.getElem?_eq_some_iff.1 hp').1)
    have hq := List.getElem?_eq_getElem (l := s.items[i + 1].mesh.points) (i := j)
      (by rw [← sy.length]; exact (List.getElem?_eq_some_iff.1 hq').1)
    rw [sy.transition] at ht
    have e1 := hclosed i _ _ x' _ _ p' hx hy ht hx' hp hq hp'
    rw [if_pos rfl, sy.thickness, e1]
    have hm1 := min_le_left ((s.items[i].mesh.points[j]'((List.getElem?_eq_some_iff.1 hp).1)) s.axis)
      ((s.items[i + 1].mesh.points[j]'((List.getElem?_eq_some_iff.1 hq).1)) s.axis - s.items[i + 1].thickness)
    have hm2 := min_le_right ((s.items[i].mesh.points[j]'((List.getElem?_eq_some_iff.1 hp).1)) s.axis)
      ((s.items[i + 1].mesh.points[j]'((List.getElem?_eq_some_iff.1 hq).1)) s.axis - s.items[i + 1].thickness)
    by_cases hnext : ∃ z, s.items[i + 2]? = some z ∧ z.transition = false
    · obtain ⟨z, hz, htz⟩ := hnext
      have hjr : j < z.mesh.points.length := by
        have := cutFrom_lengths hc (i + 1) s.items[i + 1] z (by rw [← hi]; exact hy) (by rw [← hi]; exact hz) htz
        rw [← this]; exact (List.getElem?_eq_some_iff.1 hq).1
      have hr := List.getElem?_eq_getElem hjr
      rw [hclosed (i + 1) _ z y' _ _ q' hy hz htz hy' hq hr hq']
      have := hcond i _ _ z _ _ _ hx hy hz ht htz hp hq hr
      refine le_min (by linarith) (le_trans ?_ this)
      exact le_min (by linarith) (by linarith)
    · have := hstay (i + 1) _ hy (by
        intro z hz
        by_contra hc'
        exact hnext ⟨z, hz, by simpa using hc'⟩)
      rw [hy'] at this
      have e := Option.some.inj this
      rw [e, hq] at hq'
      have e2 := congrFun (Option.some.inj hq') s.axis
      linarith

/-- **C30 (exact for default priorities).** On a bottom-up stack whose priorities never decrease, a second call of
`generate_mesh` gives the same mesh and leaves the items as they are exactly when the first one has put the surfaces in
order at all nodes. -/
theorem C30_default_iff {M : Type _} (build : List (Item K τ ω) → Py M) (s s' : Stack K τ ω) (mesh : M)
    (hbu : s.bottomUp = true) (hup : PrioritiesUp s.items) (h : s.generate build = .ok (mesh, s')) :
    s'.generate build = .ok (mesh, s') ↔ ∀ j, InOrderAt s.axis true j s'.items := by
  obtain ⟨a, rest, hi, hc, _, hs', _⟩ := generate_inv h
  obtain ⟨hl, hsame⟩ := cutFrom_same hc
  rw [← hi] at hsame
  have hlen : s.items.length = s'.items.length := by rw [hi, hl]; simp
  have hax : s'.axis = s.axis := by rw [hs']
  have hbu' : s'.bottomUp = true := by rw [hs']; exact hbu
  have hup' : PrioritiesUp s'.items := by
    intro i x y hx hy
    have l1 : i < s.items.length := by rw [hlen]; exact (List.getElem?_eq_some_iff.1 hx).1
    have l2 : i + 1 < s.items.length := by rw [hlen]; exact (List.getElem?_eq_some_iff.1 hy).1
    obtain ⟨u, hu, sx⟩ := hsame i _ (List.getElem?_eq_getElem l1)
    rw [hx] at hu; cases hu
    obtain ⟨v, hv, sy⟩ := hsame (i + 1) _ (List.getElem?_eq_getElem l2)
    rw [hy] at hv; cases hv
    rw [sx.priority, sy.priority]
    exact hup i _ _ (List.getElem?_eq_getElem l1) (List.getElem?_eq_getElem l2)
  constructor
  · intro h2 j i x y p q hx hy ht hp hq
    obtain ⟨h3, _, _⟩ := C27_default_iff build s' s' mesh hbu' hup' h2 j
    have := h3 i x y x p q p hx hy ht hx hp hq hp
    rw [hax] at this
    rw [if_pos rfl]
    have h4 := min_le_right (p s.axis) (q s.axis - y.thickness)
    rw [← this] at h4
    linarith
  · intro ho
    refine C30_repeat_partial build s s' mesh h ?_
    intro i x y hx hy ht
    rw [hbu, if_pos rfl]
    refine ⟨?_, fun j p q hp hq => ?_⟩
    · have l1 : i < s.items.length := by rw [hlen]; exact (List.getElem?_eq_some_iff.1 hx).1
      have l2 : i + 1 < s.items.length := by rw [hlen]; exact (List.getElem?_eq_some_iff.1 hy).1
      obtain ⟨u, hu, sx⟩ := hsame i _ (List.getElem?_eq_getElem l1)
      rw [hx] at hu; cases hu
      obtain ⟨v, hv, sy⟩ := hsame (i + 1) _ (List.getElem?_eq_getElem l2)
      rw [hy] at hv; cases hv
      rw [sx.length, sy.length]
      exact cutFrom_lengths hc i _ _ (by rw [← hi]; exact List.getElem?_eq_getElem l1)
        (by rw [← hi]; exact List.getElem?_eq_getElem l2) (by rw [← sy.transition]; exact ht)
    · have := ho j i x y p q hx hy ht hp hq
      rw [if_pos rfl] at this
      exact this

end

/-- Concrete cases: the condition of `C27_default_iff` fails for the surfaces 0, 1, -1 of `C27_three_surfaces_refuted` (-1
is below both 0 and 1) and holds for 0, 1, 1/2, which come out as 0, 1/2, 1/2. -/
example : PrioritiesUp (colStack true [(0, 0, 0), (1, 0, 0), (1 / 2, 0, 0)]).items ∧
    heightsAfter (colStack true [(0, 0, 0), (1, 0, 0), (1 / 2, 0, 0)]) = some [0, 1 / 2, 1 / 2] ∧
    (min (0 + 0) 1 : ℚ) ≤ 1 / 2 - 0 ∧ ¬ (min (0 + 0) 1 : ℚ) ≤ -1 - 0 := by
  refine ⟨?_, by decide +kernel, by decide +kernel, by decide +kernel⟩
  intro i x y hx hy
  have : ∀ it ∈ (colStack true [(0, 0, 0), (1, 0, 0), (1 / 2, 0, 0)]).items, it.priority = 0 := by
    simp [colStack, col]
  rw [this x (List.mem_of_getElem? hx), this y (List.mem_of_getElem? hy)]

namespace Spec
variable {K τ ω : Type _} [Field K] [LinearOrder K]

/-- `R i` is the height at node `j` to which surface `i` of a bottom-up stack is pushed up by those before it: a surface
with a lower priority than the one before it does not come closer to that one than its minimum thickness. -/
def PushedUp (axis : Fin 3) (j : ℕ) (items : List (Item K τ ω)) (R : ℕ → K) : Prop :=
  (∀ x p, items[(0 : ℕ)]? = some x → x.mesh.points[j]? = some p → R 0 = p axis) ∧
  ∀ (i : ℕ) x y q, items[i]? = some x → items[i + 1]? = some y → y.mesh.points[j]? = some q →
    R (i + 1) = if y.transition = false ∧ y.priority < x.priority then max (q axis) (R i + y.thickness) else q axis

end Spec

section
variable {K τ ω : Type _} [Field K] [LinearOrder K] [IsStrictOrderedRing K]

omit [IsStrictOrderedRing K] in
/-- There is such a function. -/
theorem pushedUp_exists (axis : Fin 3) (j : ℕ) (items : List (Item K τ ω)) : ∃ R, PushedUp axis j items R := by
  let h : ℕ → K := fun i => ((items[i]?.bind fun x => x.mesh.points[j]?).map fun p => p axis).getD 0
  let R : ℕ → K := fun n => Nat.rec (h 0) (fun i r =>
    match items[i]?, items[i + 1]? with
    | some x, some y => if y.transition = false ∧ y.priority < x.priority then max (h (i + 1)) (r + y.thickness) else h (i + 1)
    | _, _ => h (i + 1)) n
  refine ⟨R, ?_, ?_⟩
  · intro x p hx hp
    show h 0 = _
    simp [h, hx, hp]
  · intro i x y q hx hy hq
    have : h (i + 1) = q axis := by simp [h, hy, hq]
    show (match items[i]?, items[i + 1]? with
      | some x, some y => if y.transition = false ∧ y.priority < x.priority then max (h (i + 1)) (R i + y.thickness) else h (i + 1)
      | _, _ => h (i + 1)) = _
    simp only [hx, hy, this]

theorem cutFrom_heights {axis : Fin 3} (j : ℕ) : ∀ {rest : List (Item K τ ω)} {a : Item K τ ω} {out : List (Item K τ ω)}
    {R : ℕ → K}, cutFrom axis true a rest = .ok out → PushedUp axis j (a :: rest) R →
    ∀ (k : ℕ) x x' p', (a :: rest)[k]? = some x → out[k]? = some x' → x'.mesh.points[j]? = some p' →
      ((∀ y, rest[k]? = some y → y.transition = true) → p' axis = R k) ∧
      ∀ y q, rest[k]? = some y → y.transition = false → y.mesh.points[j]? = some q →
        p' axis = if y.priority < x.priority then R k else min (R k) (q axis - y.thickness) := by
  intro rest
  induction rest with
  | nil =>
    intro a out R h hR k x x' p' hx hx' hp'
    simp only [cutFrom] at h
    cases h
    rw [hx] at hx'
    cases hx'
    refine ⟨fun _ => ?_, fun y q hy => by simp at hy⟩
    obtain rfl : k = 0 := by
      have := (List.getElem?_eq_some_iff.1 hx).1
      simpa using this
    exact (hR.1 x p' hx hp').symm
  | cons b rest ih =>
    intro a out R h hR k x x' p' hx hx' hp'
    obtain ⟨hR0, hR1⟩ := hR
    rcases cutFrom_cons h with ⟨ht, out', ho, rfl⟩ | ⟨ht, a', b', out', hc, ho, rfl⟩
    · have hR' : PushedUp axis j (b :: rest) (fun i => R (i + 1)) := by
        refine ⟨?_, fun i x y q hx hy hq => hR1 (i + 1) x y q (by simpa using hx) (by simpa using hy) hq⟩
        intro x p hx hp
        simp only [List.getElem?_cons_zero, Option.some.injEq] at hx
        subst hx
        show R (0 + 1) = _
        rw [hR1 0 a b p rfl rfl hp, if_neg (by rw [ht]; simp)]
      cases k with
      | zero =>
        simp only [List.getElem?_cons_zero, Option.some.injEq] at hx hx'
        subst hx hx'
        refine ⟨fun _ => (hR0 a p' rfl hp').symm, fun y q hy hty => ?_⟩
        simp only [List.getElem?_cons_zero, Option.some.injEq] at hy
        subst hy; rw [ht] at hty; cases hty
      | succ k => exact ih ho hR' k x x' p' (by simpa using hx) (by simpa using hx') hp'
    · obtain ⟨hl, sa, sb, ha, hb, hn⟩ := cutPair_spec hc
      have hR' : PushedUp axis j (b' :: rest) (fun i => R (i + 1)) := by
        refine ⟨?_, ?_⟩
        · intro x q' hx hq'
          simp only [List.getElem?_cons_zero, Option.some.injEq] at hx
          subst hx
          have hjb : j < b.mesh.points.length := by rw [← sb.length]; exact (List.getElem?_eq_some_iff.1 hq').1
          have hq := List.getElem?_eq_getElem hjb
          have hp := List.getElem?_eq_getElem (l := a.mesh.points) (i := j) (by omega)
          have hpa := List.getElem?_eq_getElem (l := a'.mesh.points) (i := j) (by rw [sa.length]; omega)
          obtain ⟨h1, h2⟩ := hn j _ _ _ q' hp hq hpa hq'
          show R (0 + 1) = _
          rw [hR1 0 a b _ rfl rfl hq, hR0 a _ rfl hp]
          by_cases hpr : b.priority < a.priority
          · rw [if_pos ⟨ht, hpr⟩]
            by_cases hs : shiftAt true (a.mesh.points[j] axis) (b.mesh.points[j] axis) b.thickness < 0
            · obtain ⟨_, e⟩ := (h2 hs).1 hpr
              rw [e, Function.update_self]
              simp only [shiftAt, if_true] at hs ⊢
              rw [max_eq_right (by linarith)]; ring
            · rw [(h1 hs).2]
              simp only [shiftAt, if_true] at hs
              rw [max_eq_left (by linarith)]
          · rw [if_neg (fun hh => hpr hh.2)]
            have hbe := hb (by omega)
            subst hbe
            rw [hq] at hq'
            rw [Option.some.inj hq']
        · intro i x y q hx hy hq
          cases i with
          | zero =>
            simp only [List.getElem?_cons_zero, Option.some.injEq] at hx
            subst hx
            show R (1 + 1) = if _ then max _ (R 1 + _) else _
            rw [hR1 1 b y q rfl (by simpa using hy) hq, sb.priority]
          | succ i => exact hR1 (i + 2) x y q (by simpa using hx) (by simpa using hy) hq
      cases k with
      | zero =>
        simp only [List.getElem?_cons_zero, Option.some.injEq] at hx hx'
        subst hx hx'
        refine ⟨fun hy => absurd (hy b rfl) (by rw [ht]; simp), fun y q hy hty hq => ?_⟩
        simp only [List.getElem?_cons_zero, Option.some.injEq] at hy
        subst hy
        have hja : j < a.mesh.points.length := by rw [← sa.length]; exact (List.getElem?_eq_some_iff.1 hp').1
        have hp := List.getElem?_eq_getElem hja
        have hqb := List.getElem?_eq_getElem (l := b'.mesh.points) (i := j) (by rw [sb.length]; omega)
        obtain ⟨h1, h2⟩ := hn j _ q p' _ hp hq hp' hqb
        rw [hR0 a _ rfl hp]
        by_cases hpr : b.priority < a.priority
        · rw [if_pos hpr]
          have hae := ha hpr
          subst hae
          rw [hp] at hp'
          rw [Option.some.inj hp']
        · rw [if_neg hpr]
          by_cases hs : shiftAt true (a.mesh.points[j] axis) (q axis) b.thickness < 0
          · obtain ⟨_, e⟩ := (h2 hs).2 hpr
            rw [e, Function.update_self]
            simp only [shiftAt, if_true] at hs ⊢
            rw [min_eq_right (by linarith)]; ring
          · rw [(h1 hs).1]
            simp only [shiftAt, if_true] at hs
            rw [min_eq_left (by linarith)]
      | succ k =>
        obtain ⟨x2, hx2, hpr⟩ : ∃ x2, (b' :: rest)[k]? = some x2 ∧ x2.priority = x.priority := by
          cases k with
          | zero =>
            simp only [List.getElem?_cons_succ, List.getElem?_cons_zero, Option.some.injEq] at hx
            subst hx
            exact ⟨b', rfl, sb.priority⟩
          | succ k => exact ⟨x, by simpa using hx, rfl⟩
        have := ih ho hR' k x2 x' p' hx2 (by simpa using hx') hp'
        rw [hpr] at this
        simpa using this

/-- **C27 (heights).** What the cut pass of a bottom-up stack does, for all priorities: at each node a surface is first
pushed up by the ones before it, if its priority is lower (`PushedUp`), and then down by the next one, if that has no lower
priority, to the height at which it was added less its minimum thickness. -/
theorem C27_heights {M : Type _} (build : List (Item K τ ω) → Py M) (s s' : Stack K τ ω) (mesh : M)
    (hbu : s.bottomUp = true) (h : s.generate build = .ok (mesh, s')) (j : ℕ) (R : ℕ → K)
    (hR : PushedUp s.axis j s.items R) (k : ℕ) (x x' : Item K τ ω) (p' : V3 K) (hx : s.items[k]? = some x)
    (hx' : s'.items[k]? = some x') (hp' : x'.mesh.points[j]? = some p') :
    ((∀ y, s.items[k + 1]? = some y → y.transition = true) → p' s.axis = R k) ∧
    ∀ y q, s.items[k + 1]? = some y → y.transition = false → y.mesh.points[j]? = some q →
      p' s.axis = if y.priority < x.priority then R k else min (R k) (q s.axis - y.thickness) := by
  obtain ⟨a, rest, hi, hc, _⟩ := generate_inv h
  rw [hbu] at hc
  rw [hi] at hR hx ⊢
  simpa using cutFrom_heights j hc hR k x x' p' hx hx' hp'

/-- **C27 (exactly when).** For all priorities, the surfaces of a bottom-up stack come out in order at a node exactly when
there no surface with at least the priority of the one before it is, less its minimum thickness, below both that one and
the one before that one raised by the minimum thickness in between (for three surfaces in a row without transitions; if the
second has a lower priority than the first, only the latter counts). -/
theorem C27_order_iff {M : Type _} (build : List (Item K τ ω) → Py M) (s s' : Stack K τ ω) (mesh : M)
    (hbu : s.bottomUp = true) (h : s.generate build = .ok (mesh, s')) (j : ℕ) (R : ℕ → K)
    (hR : PushedUp s.axis j s.items R) :
    InOrderAt s.axis true j s'.items ↔
      ∀ (i : ℕ) (x y z : Item K τ ω) (p q r : V3 K), s.items[i]? = some x → s.items[i + 1]? = some y →
        s.items[i + 2]? = some z → y.transition = false → z.transition = false → x.mesh.points[j]? = some p →
        y.mesh.points[j]? = some q → z.mesh.points[j]? = some r → y.priority ≤ z.priority →
        (if y.priority < x.priority then R i + y.thickness else min (R i + y.thickness) (q s.axis)) ≤
          r s.axis - z.thickness := by
  obtain ⟨a, rest, hi, hc, _⟩ := generate_inv h
  obtain ⟨hl, hsame⟩ := cutFrom_same hc
  rw [← hi] at hsame
  have hlen : s.items.length = s'.items.length := by rw [hi, hl]; simp
  have hh := C27_heights build s s' mesh hbu h j R hR
  constructor
  · intro ho i x y z p q r hx hy hz hty htz hp hq hr hyz
    obtain ⟨x', hx', sx⟩ := hsame i x hx
    obtain ⟨y', hy', sy⟩ := hsame (i + 1) y hy
    have hp' := List.getElem?_eq_getElem (l := x'.mesh.points) (i := j)
      (by rw [sx.length]; exact (List.getElem?_eq_some_iff.1 hp).1)
    have hq' := List.getElem?_eq_getElem (l := y'.mesh.points) (i := j)
      (by rw [sy.length]; exact (List.getElem?_eq_some_iff.1 hq).1)
    have e1 := (hh i x x' _ hx hx' hp').2 y q hy hty hq
    have e2 := (hh (i + 1) y y' _ hy hy' hq').2 z r hz htz hr
    rw [if_neg (by omega)] at e2
    have := ho i x' y' _ _ hx' hy' (by rw [sy.transition]; exact hty) hp' hq'
    rw [if_pos rfl, e1, e2, sy.thickness] at this
    have h2 := le_trans this (min_le_right _ _)
    by_cases hxy : y.priority < x.priority
    · rw [if_pos hxy] at h2 ⊢
      exact h2
    · rw [if_neg hxy] at h2 ⊢
      rcases le_total (R i) (q s.axis - y.thickness) with hle | hle
      · rw [min_eq_left hle] at h2
        exact le_trans (min_le_left _ _) h2
      · rw [min_eq_right hle] at h2
        exact le_trans (min_le_right _ _) (by linarith)
  · intro hcond i x' y' p' q' hx' hy' ht hp' hq'
    have l1 : i < s.items.length := by rw [hlen]; exact (List.getElem?_eq_some_iff.1 hx').1
    have l2 : i + 1 < s.items.length := by rw [hlen]; exact (List.getElem?_eq_some_iff.1 hy').1
    have hx := List.getElem?_eq_getElem l1
    have hy := List.getElem?_eq_getElem l2
    obtain ⟨u, hu, sx⟩ := hsame i _ hx
    rw [hx'] at hu; cases hu
    obtain ⟨v, hv, sy⟩ := hsame (i + 1) _ hy
    rw [hy'] at hv; cases hv
    rw [if_pos rfl, sy.thickness]
    set x := s.items[i] with hxd
    set y := s.items[i + 1] with hyd
    have hty : y.transition = false := by rw [← sy.transition]; exact ht
    have hp := List.getElem?_eq_getElem (l := x.mesh.points) (i := j)
      (by rw [← sx.length]; exact (List.getElem?_eq_some_iff.1 hp').1)
    obtain ⟨q, hq⟩ : ∃ q, y.mesh.points[j]? = some q := ⟨_, List.getElem?_eq_getElem
      (by rw [← sy.length]; exact (List.getElem?_eq_some_iff.1 hq').1)⟩
    have e1 := (hh i x x' _ hx hx' hp').2 y _ hy hty hq
    have eR := hR.2 i x y _ hx hy hq
    -- the surface before pushing it down
    have hup : p' s.axis + y.thickness ≤ R (i + 1) := by
      rw [e1, eR]
      by_cases hxy : y.priority < x.priority
      · rw [if_pos hxy, if_pos ⟨hty, hxy⟩]; exact le_max_right _ _
      · rw [if_neg hxy, if_neg (fun hh => hxy hh.2)]
        linarith [min_le_right (R i) (q s.axis - y.thickness)]
    cases hz : s.items[i + 2]? with
    | none => rw [(hh (i + 1) y y' _ hy hy' hq').1 (fun z hz' => by rw [hz] at hz'; cases hz')]; exact hup
    | some z =>
      cases htz : z.transition with
      | true =>
        rw [(hh (i + 1) y y' _ hy hy' hq').1 (fun z' hz' => by rw [hz] at hz'; cases hz'; exact htz)]; exact hup
      | false =>
        have hlz := cutFrom_lengths hc (i + 1) y z (by rw [← hi]; exact hy) (by rw [← hi]; exact hz) htz
        have hr := List.getElem?_eq_getElem (l := z.mesh.points) (i := j)
          (by rw [← hlz]; exact (List.getElem?_eq_some_iff.1 hq).1)
        have e2 := (hh (i + 1) y y' _ hy hy' hq').2 z _ hz htz hr
        rw [e2]
        by_cases hyz : z.priority < y.priority
        · rw [if_pos hyz]; exact hup
        · rw [if_neg hyz]
          refine le_min hup ?_
          refine le_trans ?_ (hcond i x y z _ _ _ hx hy hz hty htz hp hq hr (by omega))
          rw [e1]
          by_cases hxy : y.priority < x.priority
          · rw [if_pos hxy, if_pos hxy]
          · rw [if_neg hxy, if_neg hxy]
            exact le_min (by linarith [min_le_left (R i) (q s.axis - y.thickness)])
              (by linarith [min_le_right (R i) (q s.axis - y.thickness)])

end

/-- Concrete case of `C27_heights`: surfaces added at 0, -1, -1/2 with priorities 2, 0, 1 and thickness 1 each.  The second
is pushed up to 1 (`R 1 = 1`) and then down by the third, to -3/2, below the first: not in order. -/
example : heightsAfter (colStack true [(0, 2, 1), (-1, 0, 1), (-1 / 2, 1, 1)]) = some [0, -3 / 2, -1 / 2] ∧
    PushedUp 2 0 (colStack true [(0, 2, 1), (-1, 0, 1), (-1 / 2, 1, 1)]).items (fun i => [0, 1, -1 / 2].getD i 0) := by
  refine ⟨by decide +kernel, ?_, ?_⟩
  · intro x p hx hp
    simp only [colStack, col, List.map_cons, List.getElem?_cons_zero, Option.some.injEq] at hx
    subst hx
    simp only [List.getElem?_cons_zero, Option.some.injEq] at hp
    subst hp
    rfl
  · intro i x y q hx hy hq
    match i with
    | 0 =>
      simp only [colStack, col, List.map_cons, List.getElem?_cons_zero, List.getElem?_cons_succ, Option.some.injEq] at hx hy
      subst hx hy
      simp only [List.getElem?_cons_zero, Option.some.injEq] at hq
      subst hq
      norm_num
      decide +kernel
    | 1 =>
      simp only [colStack, col, List.map_cons, List.getElem?_cons_zero, List.getElem?_cons_succ, Option.some.injEq] at hx hy
      subst hx hy
      simp only [List.getElem?_cons_zero, Option.some.injEq] at hq
      subst hq
      norm_num [show (![0, 0, -1 / 2] : V3 ℚ) 2 = -1 / 2 from rfl]
      rfl
    | i + 2 => simp [colStack, col] at hy

end Gridder
