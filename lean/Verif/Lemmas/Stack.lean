import Verif.Model.Stack
import Mathlib.Tactic.Linarith
import Mathlib.Tactic.Ring
import Mathlib.Tactic.Push
import Mathlib.Data.List.Chain
import Mathlib.Data.List.GetD
import Mathlib.Logic.Function.Basic
import Mathlib.Algebra.Order.Group.Abs

/-!
# Lemmas on the cut pass
-/

namespace Gridder

variable {K τ ω : Type _} [Field K] [LinearOrder K]

/-- What an item keeps through the cut pass. -/
structure SameBut (axis : Fin 3) (x y : Item K τ ω) : Prop where
  priority : y.priority = x.priority
  thickness : y.thickness = x.thickness
  transition : y.transition = x.transition
  opts : y.opts = x.opts
  topo : y.mesh.topo = x.mesh.topo
  length : y.mesh.points.length = x.mesh.points.length
  coords : ∀ (j : ℕ) (p q : V3 K), x.mesh.points[j]? = some p → y.mesh.points[j]? = some q →
    ∀ ax, ax ≠ axis → q ax = p ax

theorem SameBut.refl (axis : Fin 3) (x : Item K τ ω) : SameBut axis x x :=
  ⟨rfl, rfl, rfl, rfl, rfl, rfl, fun j p q h1 h2 ax _ => by rw [h1] at h2; cases h2; rfl⟩

theorem SameBut.trans {axis : Fin 3} {x y z : Item K τ ω} (h1 : SameBut axis x y)
    (h2 : SameBut axis y z) : SameBut axis x z := by
  refine ⟨by rw [h2.priority, h1.priority], by rw [h2.thickness, h1.thickness],
    by rw [h2.transition, h1.transition], by rw [h2.opts, h1.opts], by rw [h2.topo, h1.topo],
    by rw [h2.length, h1.length], ?_⟩
  intro j p r hp hr ax hax
  have hj : j < y.mesh.points.length := by
    rw [h1.length]; exact (List.getElem?_eq_some_iff.1 hp).1
  have hq := List.getElem?_eq_getElem hj
  rw [h2.coords j _ r hq hr ax hax, h1.coords j p _ hp hq ax hax]

/-- The step on two items, described node by node. -/
theorem cutPair_spec {axis : Fin 3} {bu : Bool} {a b a' b' : Item K τ ω}
    (h : cutPair axis bu a b = .ok (a', b')) :
    a.mesh.points.length = b.mesh.points.length ∧ SameBut axis a a' ∧ SameBut axis b b' ∧
    (b.priority < a.priority → a' = a) ∧ (¬ b.priority < a.priority → b' = b) ∧
    ∀ (j : ℕ) (p q p' q' : V3 K), a.mesh.points[j]? = some p → b.mesh.points[j]? = some q →
      a'.mesh.points[j]? = some p' → b'.mesh.points[j]? = some q' →
      (¬ shiftAt bu (p axis) (q axis) b.thickness < 0 → p' = p ∧ q' = q) ∧
      (shiftAt bu (p axis) (q axis) b.thickness < 0 →
        (b.priority < a.priority → p' = p ∧
          q' = Function.update q axis (q axis - shiftAt bu (p axis) (q axis) b.thickness)) ∧
        (¬ b.priority < a.priority → q' = q ∧
          p' = Function.update p axis (p axis + shiftAt bu (p axis) (q axis) b.thickness))) := by
  unfold cutPair at h
  split at h
  · cases h
  rename_i hlen
  have hlen : a.mesh.points.length = b.mesh.points.length := by simpa using hlen
  simp only at h
  split at h
  · rename_i hp
    cases h
    refine ⟨hlen, SameBut.refl _ _, ⟨rfl, rfl, rfl, rfl, rfl, by simp [hlen], ?_⟩, fun _ => rfl,
      fun hn => absurd hp hn, ?_⟩
    · intro j p q h1 h2 ax hax
      simp only [List.getElem?_zipWith, h1] at h2
      have hj : j < a.mesh.points.length := by rw [hlen]; exact (List.getElem?_eq_some_iff.1 h1).1
      rw [List.getElem?_eq_getElem hj] at h2
      simp only [Option.some.injEq] at h2
      rw [← h2, Function.update_of_ne hax]
    · intro j p q p' q' h1 h2 h3 h4
      rw [h1] at h3; cases h3
      simp only [List.getElem?_zipWith, h1, h2, Option.some.injEq] at h4
      constructor
      · intro hs; rw [if_neg hs] at h4; exact ⟨rfl, by rw [← h4, Function.update_eq_self]⟩
      · intro hs; rw [if_pos hs] at h4
        exact ⟨fun _ => ⟨rfl, h4.symm⟩, fun hn => absurd hp hn⟩
  · rename_i hp
    cases h
    refine ⟨hlen, ⟨rfl, rfl, rfl, rfl, rfl, by simp [hlen], ?_⟩, SameBut.refl _ _,
      fun hn => absurd hn hp, fun _ => rfl, ?_⟩
    · intro j p q h1 h2 ax hax
      simp only [List.getElem?_zipWith, h1] at h2
      have hj : j < b.mesh.points.length := by rw [← hlen]; exact (List.getElem?_eq_some_iff.1 h1).1
      rw [List.getElem?_eq_getElem hj] at h2
      simp only [Option.some.injEq] at h2
      rw [← h2, Function.update_of_ne hax]
    · intro j p q p' q' h1 h2 h3 h4
      rw [h2] at h4; cases h4
      simp only [List.getElem?_zipWith, h1, h2, Option.some.injEq] at h3
      constructor
      · intro hs; rw [if_neg hs] at h3; exact ⟨by rw [← h3, Function.update_eq_self], rfl⟩
      · intro hs; rw [if_pos hs] at h3
        exact ⟨fun hn => absurd hn hp, fun _ => ⟨rfl, h3.symm⟩⟩

/-- Unfolding of the cut pass. -/
theorem cutFrom_cons {axis : Fin 3} {bu : Bool} {a b : Item K τ ω} {rest out : List (Item K τ ω)}
    (h : cutFrom axis bu a (b :: rest) = .ok out) :
    (b.transition = true ∧ ∃ out', cutFrom axis bu b rest = .ok out' ∧ out = a :: out') ∨
    (b.transition = false ∧ ∃ a' b' out', cutPair axis bu a b = .ok (a', b') ∧
      cutFrom axis bu b' rest = .ok out' ∧ out = a' :: out') := by
  simp only [cutFrom] at h
  split at h
  · rename_i hb
    split at h
    · cases h
    · rename_i out' ho
      cases h
      exact .inl ⟨hb, out', ho, rfl⟩
  · rename_i hb
    split at h
    · cases h
    · rename_i a' b' hc
      split at h
      · cases h
      · rename_i out' ho
        cases h
        exact .inr ⟨by simpa using hb, a', b', out', hc, ho, rfl⟩

/-- Items keep everything but their coordinate along the axis. -/
theorem cutFrom_same {axis : Fin 3} {bu : Bool} : ∀ {rest : List (Item K τ ω)} {a : Item K τ ω}
    {out : List (Item K τ ω)}, cutFrom axis bu a rest = .ok out →
      out.length = rest.length + 1 ∧
      ∀ (i : ℕ) (x : Item K τ ω), (a :: rest)[i]? = some x →
        ∃ y, out[i]? = some y ∧ SameBut axis x y := by
  intro rest
  induction rest with
  | nil =>
    intro a out h
    simp only [cutFrom] at h
    cases h
    refine ⟨rfl, fun i x hx => ⟨x, hx, SameBut.refl _ _⟩⟩
  | cons b rest ih =>
    intro a out h
    rcases cutFrom_cons h with ⟨_, out', ho, rfl⟩ | ⟨_, a', b', out', hc, ho, rfl⟩
    · obtain ⟨h1, h2⟩ := ih ho
      refine ⟨by simp [h1], ?_⟩
      intro i x hx
      cases i with
      | zero => simp only [List.getElem?_cons_zero, Option.some.injEq] at hx; subst hx
                exact ⟨a, rfl, SameBut.refl _ _⟩
      | succ i => simpa using h2 i x (by simpa using hx)
    · obtain ⟨h1, h2⟩ := ih ho
      obtain ⟨_, sa, sb, _⟩ := cutPair_spec hc
      refine ⟨by simp [h1], ?_⟩
      intro i x hx
      cases i with
      | zero => simp only [List.getElem?_cons_zero, Option.some.injEq] at hx; subst hx
                exact ⟨a', rfl, sa⟩
      | succ i =>
        simp only [List.getElem?_cons_succ] at hx ⊢
        cases i with
        | zero =>
          simp only [List.getElem?_cons_zero, Option.some.injEq] at hx; subst hx
          obtain ⟨y, hy, sy⟩ := h2 0 b' rfl
          exact ⟨y, hy, sb.trans sy⟩
        | succ i => exact h2 (i + 1) x (by simpa using hx)

/-- The first item is only moved by the second one. -/
theorem cutFrom_head {axis : Fin 3} {bu : Bool} {a : Item K τ ω} {rest out : List (Item K τ ω)}
    (h : cutFrom axis bu a rest = .ok out)
    (hn : ∀ b, rest.head? = some b → b.transition = false → b.priority < a.priority) :
    out.head? = some a := by
  cases rest with
  | nil => simp only [cutFrom] at h; cases h; rfl
  | cons b rest =>
    rcases cutFrom_cons h with ⟨_, out', _, rfl⟩ | ⟨ht, a', b', out', hc, _, rfl⟩
    · rfl
    · obtain ⟨_, _, _, h1, _⟩ := cutPair_spec hc
      rw [h1 (hn b rfl ht)]; rfl

/-- When no node is to be moved the pass leaves everything unchanged. -/
theorem cutFrom_id {axis : Fin 3} {bu : Bool} : ∀ {rest : List (Item K τ ω)} {a : Item K τ ω},
    List.IsChain (fun x y : Item K τ ω => y.transition = true ∨
      (x.mesh.points.length = y.mesh.points.length ∧
        ∀ (j : ℕ) (p q : V3 K), x.mesh.points[j]? = some p → y.mesh.points[j]? = some q →
          ¬ shiftAt bu (p axis) (q axis) y.thickness < 0)) (a :: rest) →
    cutFrom axis bu a rest = .ok (a :: rest) := by
  intro rest
  induction rest with
  | nil => intro a _; rfl
  | cons b rest ih =>
    intro a h
    rw [List.isChain_cons_cons] at h
    obtain ⟨h1, h2⟩ := h
    simp only [cutFrom]
    cases hb : b.transition with
    | true => simp [ih h2]
    | false =>
      rcases h1 with h1 | ⟨hl, hs⟩
      · rw [hb] at h1; cases h1
      cases hc : cutPair axis bu a b with
      | error e =>
        exfalso
        simp only [cutPair, hl, ne_eq, not_true_eq_false, if_false] at hc
        split at hc <;> cases hc
      | ok ab =>
        obtain ⟨a', b'⟩ := ab
        obtain ⟨_, sa, sb, _, _, hnode⟩ := cutPair_spec hc
        have key : ∀ (x x' : Item K τ ω), SameBut axis x x' →
            (∀ (j : ℕ) (p p' : V3 K), x.mesh.points[j]? = some p → x'.mesh.points[j]? = some p' →
              p' = p) → x' = x := by
          intro x x' s hp
          have hpts : x'.mesh.points = x.mesh.points := by
            apply List.ext_getElem s.length
            intro j h1 h2
            exact hp j _ _ (List.getElem?_eq_getElem h2) (List.getElem?_eq_getElem h1)
          obtain ⟨⟨_, _⟩, _, _, _, _⟩ := x
          obtain ⟨⟨_, _⟩, _, _, _, _⟩ := x'
          have e1 := s.priority; have e2 := s.thickness; have e3 := s.transition
          have e4 := s.opts; have e5 := s.topo
          simp only at e1 e2 e3 e4 e5 hpts
          subst e1 e2 e3 e4 e5 hpts
          rfl
        have ha : a' = a := by
          apply key _ _ sa
          intro j p p' h1 h2
          have hj : j < b.mesh.points.length := by
            rw [← hl]; exact (List.getElem?_eq_some_iff.1 h1).1
          have hj' : j < b'.mesh.points.length := by rw [sb.length]; exact hj
          exact ((hnode j p _ p' _ h1 (List.getElem?_eq_getElem hj) h2
            (List.getElem?_eq_getElem hj')).1 (hs j p _ h1 (List.getElem?_eq_getElem hj))).1
        have hb' : b' = b := by
          apply key _ _ sb
          intro j q q' h1 h2
          have hj : j < a.mesh.points.length := by
            rw [hl]; exact (List.getElem?_eq_some_iff.1 h1).1
          have hj' : j < a'.mesh.points.length := by rw [sa.length]; exact hj
          exact ((hnode j _ q _ q' (List.getElem?_eq_getElem hj) h1
            (List.getElem?_eq_getElem hj') h2).1 (hs j _ q (List.getElem?_eq_getElem hj) h1)).2
        subst ha hb'
        simp [ih h2]

end Gridder
