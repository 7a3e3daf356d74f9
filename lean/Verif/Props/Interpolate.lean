import Verif.Model.Stack
import Mathlib.Tactic.Linarith
import Mathlib.Tactic.Ring
import Mathlib.Tactic.FieldSimp
import Mathlib.Tactic.FinCases
import Mathlib.Algebra.Order.Field.Basic

/-!
# C67: surfaces interpolated from data lines
-/

namespace Gridder

variable {K τ ω : Type _} [Field K] [LinearOrder K]

namespace Spec

/-- The data lie in one plane through the stacking axis and vary along `i` only. -/
def DataLine (axis i : Fin 3) (data : List (Fin 3 → K)) : Prop :=
  i ≠ axis ∧ (∃ p ∈ data, ∃ q ∈ data, p i ≠ q i) ∧
    ∀ k, k ≠ axis → k ≠ i → ∀ p ∈ data, ∀ q ∈ data, p k = q k

/-- The coordinates along `i` increase from each point to the next. -/
def Increasing (i : Fin 3) (data : List (Fin 3 → K)) : Prop :=
  data.Pairwise fun p q => p i < q i

end Spec
open Spec

theorem varies_iff (data : List (V3 K)) (i : Fin 3) :
    varies data i = true ↔ ∃ p ∈ data, ∃ q ∈ data, p i ≠ q i := by
  cases data with
  | nil => simp [varies]
  | cons p ps =>
    simp only [varies, List.any_eq_true, decide_eq_true_eq]
    constructor
    · rintro ⟨q, hq, h⟩
      exact ⟨q, by simp [hq], p, by simp, h⟩
    · rintro ⟨a, ha, b, hb, h⟩
      by_contra hn
      push Not at hn
      have : ∀ x ∈ p :: ps, x i = p i := by
        intro x hx
        rcases List.mem_cons.1 hx with rfl | hx
        · rfl
        · exact hn x hx
      exact h ((this a ha).trans (this b hb).symm)

/-- The columns used for interpolation. -/
theorem idx_line {axis i : Fin 3} {data : List (V3 K)} (h : DataLine axis i data) :
    ((List.finRange 3).filter fun k => k ≠ axis ∧ varies data k) = [i] := by
  obtain ⟨h1, h2, h3⟩ := h
  have hv : varies data i = true := (varies_iff _ _).2 h2
  have hn : ∀ k, k ≠ axis → k ≠ i → varies data k = false := by
    intro k hk hk'
    rw [Bool.eq_false_iff]
    intro hc
    obtain ⟨p, hp, q, hq, hne⟩ := (varies_iff _ _).1 hc
    exact hne (h3 k hk hk' p hp q hq)
  have e : ((List.finRange 3).filter fun k => k ≠ axis ∧ varies data k) =
      (List.finRange 3).filter fun k => k = i := by
    apply List.filter_congr
    intro k _
    by_cases hki : k = i
    · subst hki; simp [h1, hv]
    · by_cases hka : k = axis
      · subst hka; simp [Ne.symm h1]
      · simp [hki, hka, hn k hka hki]
  rw [e]
  clear e hn h3 hv h2 h1
  revert i; decide

theorem split_last {α : Type _} {l : List α} {a : α} (h : l.getLast? = some a) :
    l = l.dropLast ++ [a] := (List.dropLast_append_getLast? a (by simpa using h)).symm

theorem pairwise_of_chain_le {i : Fin 3} {l : List (V3 K)} (h : l.IsChain fun p q => p i ≤ q i) :
    l.Pairwise fun p q => p i ≤ q i := by
  haveI : IsTrans (V3 K) fun p q => p i ≤ q i := ⟨fun _ _ _ => le_trans⟩
  exact h.pairwise

theorem pairwise_of_chain_ge {i : Fin 3} {l : List (V3 K)} (h : l.IsChain fun p q => q i ≤ p i) :
    l.Pairwise fun p q => q i ≤ p i := by
  haveI : IsTrans (V3 K) fun p q => q i ≤ p i := ⟨fun _ _ _ h1 h2 => le_trans h2 h1⟩
  exact h.pairwise

section interp
variable [IsStrictOrderedRing K]

theorem interpFrom_between : ∀ (rest : List (K × K)) (x0 f0 x lo hi : K), x0 ≤ x →
    lo ≤ f0 → f0 ≤ hi → (∀ p ∈ rest, lo ≤ p.2 ∧ p.2 ≤ hi) →
    lo ≤ interpFrom x0 f0 rest x ∧ interpFrom x0 f0 rest x ≤ hi := by
  intro rest
  induction rest with
  | nil => intro x0 f0 x lo hi _ h1 h2 _; exact ⟨h1, h2⟩
  | cons p rest ih =>
    intro x0 f0 x lo hi hx h1 h2 hr
    obtain ⟨x1, f1⟩ := p
    have hp := hr (x1, f1) (by simp)
    simp only [interpFrom]
    split
    · rename_i hlt
      have hd : 0 < x1 - x0 := by linarith
      set t := (x - x0) / (x1 - x0) with ht
      have ht0 : 0 ≤ t := div_nonneg (by linarith) hd.le
      have ht1 : t ≤ 1 := (div_le_one hd).2 (by linarith)
      have e : (f1 - f0) / (x1 - x0) * (x - x0) + f0 = (1 - t) * f0 + t * f1 := by
        rw [ht]; field_simp; ring
      rw [e]
      simp only at hp
      constructor
      · nlinarith [hp.1, mul_nonneg ht0 (sub_nonneg.2 hp.1), mul_nonneg (sub_nonneg.2 ht1) (sub_nonneg.2 h1)]
      · nlinarith [hp.2, mul_nonneg ht0 (sub_nonneg.2 hp.2), mul_nonneg (sub_nonneg.2 ht1) (sub_nonneg.2 h2)]
    · rename_i hge
      exact ih x1 f1 x lo hi (not_lt.1 hge) hp.1 hp.2 fun q hq => hr q (by simp [hq])

omit [IsStrictOrderedRing K] in
/-- Between two data points, the straight line. -/
theorem interpFrom_segment : ∀ (rest : List (K × K)) (x0 f0 x : K),
    ((x0, f0) :: rest).Pairwise (fun p q => p.1 < q.1) → ∀ (k : ℕ) (a b : K × K),
    ((x0, f0) :: rest)[k]? = some a → ((x0, f0) :: rest)[k + 1]? = some b → a.1 ≤ x → x < b.1 →
    interpFrom x0 f0 rest x = (b.2 - a.2) / (b.1 - a.1) * (x - a.1) + a.2 := by
  intro rest
  induction rest with
  | nil => intro x0 f0 x _ k a b _ hb; simp at hb
  | cons p rest ih =>
    intro x0 f0 x hs k a b ha hb hax hxb
    obtain ⟨x1, f1⟩ := p
    have hs' := (List.pairwise_cons.1 hs).2
    cases k with
    | zero =>
      simp only [List.getElem?_cons_zero, Option.some.injEq, zero_add, List.getElem?_cons_succ] at ha hb
      subst ha hb
      simp only at hax hxb
      simp [interpFrom, hxb]
    | succ k =>
      simp only [List.getElem?_cons_succ] at ha hb
      have hge : x1 ≤ x := by
        rcases List.mem_cons.1 (List.mem_of_getElem? ha) with rfl | hm
        · exact hax
        · exact ((List.pairwise_cons.1 hs').1 a hm).le.trans hax
      simp only [interpFrom, not_lt.2 hge, if_false]
      exact ih x1 f1 x hs' k a b ha (by simpa using hb) hax hxb

omit [IsStrictOrderedRing K] in
/-- From the last data point on, its value. -/
theorem interpFrom_last : ∀ (rest : List (K × K)) (x0 f0 x : K),
    ((x0, f0) :: rest).Pairwise (fun p q => p.1 < q.1) → ∀ a : K × K,
    ((x0, f0) :: rest).getLast? = some a → a.1 ≤ x → interpFrom x0 f0 rest x = a.2 := by
  intro rest
  induction rest with
  | nil => intro x0 f0 x _ a ha _; simp at ha; subst ha; rfl
  | cons p rest ih =>
    intro x0 f0 x hs a ha hax
    obtain ⟨x1, f1⟩ := p
    have hs' := (List.pairwise_cons.1 hs).2
    have ha' : ((x1, f1) :: rest).getLast? = some a := by simpa [List.getLast?_cons_cons] using ha
    have hge : x1 ≤ x := by
      rcases List.mem_cons.1 (List.mem_of_getLast? ha') with rfl | hm
      · exact hax
      · exact ((List.pairwise_cons.1 hs').1 a hm).le.trans hax
    simp only [interpFrom, not_lt.2 hge, if_false]
    exact ih x1 f1 x hs' a ha' hax

end interp

/-- **C67 (partial).** Data line given in increasing order.  Whenever the interpolation succeeds it
gives one height per base node, between the lowest and the highest data height; between two data points
the height is on the straight line through them (so data heights are reproduced at data points); outside
the range it is the height at the nearest end.  Without extrapolation, it fails if the first or the last
base node is outside the range of the data; so a base line whose coordinates are monotonic is never
extrapolated silently.  It succeeds if both are inside, or if extrapolation is asked for.

Missing: data given in another order (rejected even if enclosing the base line), base lines going back
and forth (`C67_inner_node_refuted`), invalid extrapolation names (`C67_extrapolation_name_refuted`),
heights of 3D stacks (scipy). -/
theorem C67_line_partial [IsStrictOrderedRing K] (o : InterpOracle K) (axis i : Fin 3)
    (base data : List (V3 K)) (ex : Option String) (hd : DataLine axis i data)
    (hinc : Increasing i data) (hbase : base ≠ []) :
    (∀ vals, interpolate o axis base data ex = .ok vals →
      vals.length = base.length ∧
      ∀ (j : ℕ) (b : V3 K) (v : K), base[j]? = some b → vals[j]? = some v →
        (∃ p ∈ data, p axis ≤ v) ∧ (∃ p ∈ data, v ≤ p axis) ∧
        (∀ (k : ℕ) (p q : V3 K), data[k]? = some p → data[k + 1]? = some q → p i ≤ b i → b i ≤ q i →
          v = p axis + (b i - p i) / (q i - p i) * (q axis - p axis)) ∧
        (∀ p, data.head? = some p → b i ≤ p i → v = p axis) ∧
        (∀ p, data.getLast? = some p → p i ≤ b i → v = p axis)) ∧
    ((ex = none ∨ ex = some "") →
      (∃ vals, interpolate o axis base data ex = .ok vals) →
      (base.IsChain (fun p q => p i ≤ q i) ∨ base.IsChain (fun p q => q i ≤ p i)) →
      ∀ b ∈ base, (∃ p ∈ data, p i ≤ b i) ∧ ∃ p ∈ data, b i ≤ p i) ∧
    (ex ≠ none → ex ≠ some "" → ∃ vals, interpolate o axis base data ex = .ok vals) ∧
    ((∀ b ∈ base, (∃ p ∈ data, p i ≤ b i) ∧ ∃ p ∈ data, b i ≤ p i) →
      ∃ vals, interpolate o axis base data ex = .ok vals) ∧
    ∀ e, interpolate o axis base data ex = .error e → e = .valueError := by
  obtain ⟨p0, ps, hdata⟩ : ∃ p ps, data = p :: ps := by
    obtain ⟨_, ⟨p, hp, _⟩, _⟩ := hd
    cases data with
    | nil => cases hp
    | cons p ps => exact ⟨p, ps, rfl⟩
  obtain ⟨b0, bs, hb⟩ : ∃ b bs, base = b :: bs := by
    cases base with
    | nil => exact absurd rfl hbase
    | cons b bs => exact ⟨b, bs, rfl⟩
  obtain ⟨p1, hp1⟩ : ∃ p, data.getLast? = some p := by
    rw [hdata]; exact ⟨_, List.getLast?_eq_some_getLast (by simp)⟩
  obtain ⟨b1, hb1⟩ : ∃ b, base.getLast? = some b := by
    rw [hb]; exact ⟨_, List.getLast?_eq_some_getLast (by simp)⟩
  have hp0 : data.head? = some p0 := by rw [hdata]; rfl
  have hb0 : base.head? = some b0 := by rw [hb]; rfl
  have heq : interpolate o axis base data ex =
      if ¬ ((p0 i ≤ b0 i ∧ b0 i ≤ p1 i) ∧ (p0 i ≤ b1 i ∧ b1 i ≤ p1 i)) ∧ ¬ truthy ex then
        .error .valueError
      else .ok (base.map fun p => npInterp (data.map fun q => (q i, q axis)) (p i)) := by
    unfold interpolate
    simp only [idx_line hd, List.length_singleton, gt_iff_lt, lt_self_iff_false, if_false,
      hp0, hb0, hp1, hb1]
  have hsort : (data.map fun q : V3 K => (q i, q axis)).Pairwise fun p q => p.1 < q.1 := by
    rw [List.pairwise_map]; exact hinc
  -- first and last data points bound the others
  have hfirst : ∀ p ∈ data, p0 i ≤ p i := by
    intro p hp
    rw [hdata] at hp
    rcases List.mem_cons.1 hp with rfl | hm
    · exact le_refl _
    · have hinc' := hinc
      rw [Increasing, hdata] at hinc'
      exact ((List.pairwise_cons.1 hinc').1 p hm).le
  have hlast : ∀ p ∈ data, p i ≤ p1 i := by
    intro p hp
    have hl := split_last hp1
    have hinc' := hinc
    rw [Increasing, hl, List.pairwise_append] at hinc'
    rw [hl] at hp
    rcases List.mem_append.1 hp with hm | hm
    · exact (hinc'.2.2 p hm p1 (by simp)).le
    · simp only [List.mem_singleton] at hm; subst hm; exact le_refl _
  have hm0 : p0 ∈ data := by rw [hdata]; simp
  have hm1 : p1 ∈ data := List.mem_of_getLast? hp1
  refine ⟨?_, ?_, ?_, ?_, ?_⟩
  · intro vals h
    rw [heq] at h
    split at h
    · cases h
    cases h
    refine ⟨by simp, ?_⟩
    intro j b v hjb hjv
    rw [List.getElem?_map, hjb] at hjv
    simp only [Option.map_some, Option.some.injEq] at hjv
    have hmap : (data.map fun q : V3 K => (q i, q axis)) =
        (p0 i, p0 axis) :: ps.map fun q : V3 K => (q i, q axis) := by rw [hdata]; rfl
    have hlow : ∀ p, data.head? = some p → b i ≤ p i → v = p axis := by
      intro p hp hle
      rw [hp0] at hp; cases hp
      rw [← hjv, hmap, npInterp]
      rcases lt_or_eq_of_le hle with hlt | he
      · simp [hlt]
      · simp only [he, lt_self_iff_false, if_false]
        cases hps : ps with
        | nil => rfl
        | cons q qs =>
          have : p0 i < q i := by
            have := hinc
            rw [Increasing, hdata, hps] at this
            exact (List.pairwise_cons.1 this).1 q (by simp)
          simp [interpFrom, this]
    have hhigh : ∀ p, data.getLast? = some p → p i ≤ b i → v = p axis := by
      intro p hp hle
      rw [← hjv, hmap, npInterp]
      have hge : ¬ b i < p0 i := not_lt.2 ((hfirst p (List.mem_of_getLast? hp)).trans hle)
      simp only [hge, if_false]
      refine interpFrom_last _ _ _ _ (by rw [← hmap]; exact hsort) (p i, p axis) ?_ hle
      rw [← hmap, List.getLast?_map, hp]; rfl
    have hseg : ∀ (k : ℕ) (p q : V3 K), data[k]? = some p → data[k + 1]? = some q → p i ≤ b i →
        b i ≤ q i → v = p axis + (b i - p i) / (q i - p i) * (q axis - p axis) := by
      intro k p q hp hq hpb hbq
      have hpq : p i < q i := by
        obtain ⟨hk, e1⟩ := List.getElem?_eq_some_iff.1 hp
        obtain ⟨hk', e2⟩ := List.getElem?_eq_some_iff.1 hq
        rw [← e1, ← e2]
        exact List.pairwise_iff_getElem.1 hinc k (k + 1) hk hk' (by omega)
      rcases lt_or_eq_of_le hbq with hlt | he
      · rw [← hjv, hmap, npInterp]
        have hge : ¬ b i < p0 i := not_lt.2 ((hfirst p (List.mem_of_getElem? hp)).trans hpb)
        simp only [hge, if_false]
        rw [interpFrom_segment _ _ _ _ (by rw [← hmap]; exact hsort) k (p i, p axis) (q i, q axis)
          (by rw [← hmap, List.getElem?_map, hp]; rfl) (by rw [← hmap, List.getElem?_map, hq]; rfl)
          hpb hlt]
        ring
      · -- at the upper end
        have hne : q i - p i ≠ 0 := by intro h0; linarith
        have hv : v = q axis := by
          cases hq2 : data[k + 2]? with
          | some r =>
            have hqr : q i < r i := by
              obtain ⟨hk, e1⟩ := List.getElem?_eq_some_iff.1 hq
              obtain ⟨hk', e2⟩ := List.getElem?_eq_some_iff.1 hq2
              rw [← e1, ← e2]
              exact List.pairwise_iff_getElem.1 hinc (k + 1) (k + 2) hk hk' (by omega)
            rw [← hjv, hmap, npInterp]
            have hge : ¬ b i < p0 i := not_lt.2 ((hfirst p (List.mem_of_getElem? hp)).trans hpb)
            simp only [hge, if_false]
            rw [interpFrom_segment _ _ _ _ (by rw [← hmap]; exact hsort) (k + 1) (q i, q axis)
              (r i, r axis)
              (by rw [← hmap, List.getElem?_map, hq]; rfl)
              (by rw [← hmap, List.getElem?_map, hq2]; rfl) he.ge (by rw [he]; exact hqr)]
            simp [he]
          | none =>
            apply hhigh q _ he.ge
            rw [List.getLast?_eq_getElem?]
            have h1 := (List.getElem?_eq_some_iff.1 hq).1
            have h2 := List.getElem?_eq_none_iff.1 hq2
            rw [show data.length - 1 = k + 1 by omega]
            exact hq
        rw [hv, he, div_self hne]; ring
    refine ⟨?_, ?_, hseg, hlow, hhigh⟩
    · by_contra hn
      push Not at hn
      -- the least data height
      obtain ⟨m, hm, hmin⟩ : ∃ m ∈ data, ∀ p ∈ data, m axis ≤ p axis := by
        have hne : data ≠ [] := by rw [hdata]; simp
        clear * - hne
        induction data with
        | nil => exact absurd rfl hne
        | cons a l ih =>
          by_cases hl : l = []
          · subst hl; exact ⟨a, by simp, by simp⟩
          · obtain ⟨m, hm, h⟩ := ih hl
            rcases le_total (a axis) (m axis) with hle | hle
            · refine ⟨a, by simp, fun p hp => ?_⟩
              rcases List.mem_cons.1 hp with rfl | hp
              · exact le_refl _
              · exact hle.trans (h p hp)
            · refine ⟨m, by simp [hm], fun p hp => ?_⟩
              rcases List.mem_cons.1 hp with rfl | hp
              · exact hle
              · exact h p hp
      have hlt := hn m hm
      rcases lt_or_ge (b i) (p0 i) with hb' | hb'
      · have := hlow p0 hp0 hb'.le
        have := hmin p0 hm0
        linarith
      · rw [← hjv, hmap, npInterp] at hlt
        simp only [not_lt.2 hb', if_false] at hlt
        have := (interpFrom_between (ps.map fun q : V3 K => (q i, q axis)) (p0 i) (p0 axis) (b i)
          (m axis) (max (p0 axis) (((ps.map fun q : V3 K => q axis)).foldr max (p0 axis))) hb' (hmin _ hm0)
          (le_max_left _ _) ?_).1
        · linarith
        · intro q hq
          obtain ⟨q', hq', rfl⟩ := List.mem_map.1 hq
          refine ⟨hmin q' (by rw [hdata]; simp [hq']), ?_⟩
          apply le_max_of_le_right
          clear * - hq'
          induction ps with
          | nil => cases hq'
          | cons a l ih =>
            rcases List.mem_cons.1 hq' with rfl | hq'
            · exact le_max_left _ _
            · exact le_max_of_le_right (ih hq')
    · by_contra hn
      push Not at hn
      obtain ⟨m, hm, hmax⟩ : ∃ m ∈ data, ∀ p ∈ data, p axis ≤ m axis := by
        have hne : data ≠ [] := by rw [hdata]; simp
        clear * - hne
        induction data with
        | nil => exact absurd rfl hne
        | cons a l ih =>
          by_cases hl : l = []
          · subst hl; exact ⟨a, by simp, by simp⟩
          · obtain ⟨m, hm, h⟩ := ih hl
            rcases le_total (m axis) (a axis) with hle | hle
            · refine ⟨a, by simp, fun p hp => ?_⟩
              rcases List.mem_cons.1 hp with rfl | hp
              · exact le_refl _
              · exact (h p hp).trans hle
            · refine ⟨m, by simp [hm], fun p hp => ?_⟩
              rcases List.mem_cons.1 hp with rfl | hp
              · exact hle
              · exact h p hp
      have hlt := hn m hm
      rcases lt_or_ge (b i) (p0 i) with hb' | hb'
      · have := hlow p0 hp0 hb'.le
        have := hmax p0 hm0
        linarith
      · rw [← hjv, hmap, npInterp] at hlt
        simp only [not_lt.2 hb', if_false] at hlt
        have := (interpFrom_between (ps.map fun q : V3 K => (q i, q axis)) (p0 i) (p0 axis) (b i)
          (min (p0 axis) (((ps.map fun q : V3 K => q axis)).foldr min (p0 axis))) (m axis) hb'
          (min_le_left _ _) (hmax _ hm0) ?_).2
        · linarith
        · intro q hq
          obtain ⟨q', hq', rfl⟩ := List.mem_map.1 hq
          refine ⟨?_, hmax q' (by rw [hdata]; simp [hq'])⟩
          apply min_le_of_right_le
          clear * - hq'
          induction ps with
          | nil => cases hq'
          | cons a l ih =>
            rcases List.mem_cons.1 hq' with rfl | hq'
            · exact min_le_left _ _
            · exact min_le_of_right_le (ih hq')
  · rintro hex ⟨vals, h⟩ hmono b hbm
    have ht : truthy ex = false := by rcases hex with rfl | rfl <;> rfl
    rw [heq, ht] at h
    split at h
    · cases h
    rename_i hc
    simp only [Bool.false_eq_true, not_false_eq_true, and_true, not_not] at hc
    obtain ⟨⟨c1, c2⟩, c3, c4⟩ := hc
    refine ⟨⟨p0, hm0, ?_⟩, ⟨p1, hm1, ?_⟩⟩ <;>
      rcases hmono with hmono | hmono
    all_goals
      have hpw := by
        first | exact pairwise_of_chain_le hmono | exact pairwise_of_chain_ge hmono
      have hbl := split_last hb1
      have hA := hpw
      have hB := hpw
      rw [hb] at hA
      rw [hbl, List.pairwise_append] at hB
      have hcase0 : b = b0 ∨ b ∈ bs := by rw [hb] at hbm; simpa using hbm
      have hcase1 : b ∈ base.dropLast ∨ b = b1 := by rw [hbl] at hbm; simpa using hbm
    · rcases hcase0 with rfl | hm
      · exact c1
      · exact c1.trans ((List.pairwise_cons.1 hA).1 b hm)
    · rcases hcase1 with hm | rfl
      · exact c3.trans (hB.2.2 b hm b1 (by simp))
      · exact c3
    · rcases hcase1 with hm | rfl
      · exact (hB.2.2 b hm b1 (by simp)).trans c4
      · exact c4
    · rcases hcase0 with rfl | hm
      · exact c2
      · exact ((List.pairwise_cons.1 hA).1 b hm).trans c2
  · intro h1 h2
    have ht : truthy ex = true := by
      cases ex with
      | none => exact absurd rfl h1
      | some s => simp only [truthy, bne_iff_ne]; intro h; subst h; exact h2 rfl
    rw [heq, ht]; simp
  · intro hin
    rw [heq, if_neg]
    · exact ⟨_, rfl⟩
    · rintro ⟨hn, _⟩
      apply hn
      have h0 := hin b0 (by rw [hb]; simp)
      have h1 := hin b1 (List.mem_of_getLast? hb1)
      obtain ⟨⟨q, hq, h01⟩, r, hr, h02⟩ := h0
      obtain ⟨⟨q', hq', h11⟩, r', hr', h12⟩ := h1
      exact ⟨⟨(hfirst q hq).trans h01, h02.trans (hlast r hr)⟩,
        (hfirst q' hq').trans h11, h12.trans (hlast r' hr')⟩
  · intro e h
    rw [heq] at h
    split at h
    · cases h; rfl
    · cases h

/-- An oracle that is never asked. -/
def noOracle : InterpOracle ℚ := ⟨fun _ _ => .error .valueError, fun _ _ _ => 0⟩

/-- Concrete case. -/
example : DataLine 2 0 [(![0, 0, 1] : Fin 3 → ℚ), ![2, 0, 5]] ∧
    Increasing 0 [(![0, 0, 1] : Fin 3 → ℚ), ![2, 0, 5]] ∧
    (interpolate noOracle 2 [![0, 7, 0], ![1, 7, 0], ![2, 7, 0]] [![0, 0, 1], ![2, 0, 5]]
      none).toOption = some [1, 3, 5] := by
  refine ⟨⟨by decide, by decide, ?_⟩, ?_, by decide +kernel⟩
  · decide +kernel
  · simp [Increasing]

/-- **C67 (refuted).** Only the first and last base nodes are compared with the data: the inner node at
x = 5 is outside the data range [0, 1] and silently gets the height of the last data point. -/
theorem C67_inner_node_refuted :
    (interpolate noOracle 2 [![0, 0, 0], ![5, 0, 0], ![1, 0, 0]] [![0, 0, 1], ![1, 0, 2]]
      none).toOption = some [1, 2, 2] := by
  decide +kernel

/-- **C67 (refuted).** Data enclosing the base line but given from right to left are rejected. -/
theorem C67_reversed_data_refuted :
    interpolate noOracle 2 [![0, 0, 0], ![1, 0, 0]] [![1, 0, 2], ![0, 0, 1]] none =
      .error .valueError := by
  have hd : DataLine (K := ℚ) 2 0 [![1, 0, 2], ![0, 0, 1]] := by
    unfold DataLine; decide +kernel
  unfold interpolate
  simp only [idx_line hd]
  norm_num [truthy]

/-- **C67 (refuted).** In 2D stacks any non-empty extrapolation name is accepted. -/
theorem C67_extrapolation_name_refuted :
    (interpolate noOracle 2 [![0, 0, 0], ![3, 0, 0]] [![0, 0, 1], ![1, 0, 2]]
      (some "no such method")).toOption = some [1, 2] := by
  decide +kernel

/-- **C67, 3D stacks (partial).** Whatever scipy's interpolators return, a node where the linear one is
undefined makes `add` fail unless extrapolation is "nearest"; values defined by the linear one are kept. -/
theorem C67_surface_partial (o : InterpOracle K) (axis i j : Fin 3) (hij : i ≠ j) (hi : i ≠ axis)
    (hj : j ≠ axis) (base data : List (V3 K)) (ex : Option String)
    (hvi : ∃ p ∈ data, ∃ q ∈ data, p i ≠ q i) (hvj : ∃ p ∈ data, ∃ q ∈ data, p j ≠ q j)
    (vals : List K) (h : interpolate o axis base data ex = .ok vals) :
    vals.length = base.length ∧ ∃ idx f, i ∈ idx ∧ j ∈ idx ∧ axis ∉ idx ∧ o.linear idx data = .ok f ∧
      ∀ (k : ℕ) (b : V3 K) (v : K), base[k]? = some b → vals[k]? = some v →
        f b = some v ∨ (f b = none ∧ ex = some "nearest" ∧ v = o.nearest idx data b) := by
  unfold interpolate at h
  set idx := (List.finRange 3).filter fun k => k ≠ axis ∧ varies data k with hidx
  have mi : i ∈ idx := by simp [hidx, hi, (varies_iff data i).2 hvi]
  have mj : j ∈ idx := by simp [hidx, hj, (varies_iff data j).2 hvj]
  have ma : axis ∉ idx := by simp [hidx]
  clear_value idx
  have hlen : idx.length > 1 := by
    match idx, mi, mj with
    | [x], mi, mj =>
      simp only [List.mem_singleton] at mi mj
      exact absurd (mi.trans mj.symm) hij
    | _ :: _ :: _, _, _ => simp
  simp only [hlen, if_true] at h
  cases hf : o.linear idx data with
  | error e => rw [hf] at h; cases h
  | ok f =>
    rw [hf] at h
    simp only at h
    split at h
    · split at h
      · cases h
      · split at h
        · rename_i hex
          cases h
          refine ⟨by simp, idx, f, mi, mj, ma, hf, ?_⟩
          intro k b v hb hv
          rw [List.getElem?_map, hb] at hv
          simp only [Option.map_some, Option.some.injEq] at hv
          cases hfb : f b with
          | some w => rw [hfb] at hv; left; rw [← hv]; rfl
          | none => rw [hfb] at hv; right; exact ⟨rfl, hex, hv.symm⟩
        · cases h
    · rename_i hany
      cases h
      refine ⟨by simp, idx, f, mi, mj, ma, hf, ?_⟩
      intro k b v hb hv
      rw [List.getElem?_map, hb] at hv
      simp only [Option.map_some, Option.some.injEq] at hv
      left
      cases hfb : f b with
      | some w => rw [hfb] at hv; rw [← hv]; rfl
      | none =>
        exfalso; apply hany
        rw [List.any_map, List.any_eq_true]
        exact ⟨b, List.mem_of_getElem? hb, by simp [hfb]⟩

end Gridder
