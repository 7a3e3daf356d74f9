import Verif.Model.Picking
import Verif.Props.Lines
import Verif.Props.Rdp
import Verif.Props.Offset
import Mathlib.Tactic.LinearCombination
import Mathlib.Tactic.FieldSimp
import Mathlib.Data.List.Sort

/-! # C56, C70, C73: ray casting and interactive selection -/

namespace Gridder

open Spec

namespace Spec
variable {K : Type*} [Field K]

/-- The line through `a` and `b`. -/
def OnLine (a b p : Fin 3 → K) : Prop := ∃ t : K, ∀ ax, p ax = a ax + t * (b ax - a ax)

/-- The plane through `c` with normal `n`. -/
def OnPlane (c n p : Fin 3 → K) : Prop :=
  (p 0 - c 0) * n 0 + (p 1 - c 1) * n 1 + (p 2 - c 2) * n 2 = 0

/-- Four points in one plane (determinant). -/
def Coplanar4 (a b c d : Fin 3 → K) : Prop :=
  (b 0 - a 0) * ((c 1 - a 1) * (d 2 - a 2) - (c 2 - a 2) * (d 1 - a 1)) +
  (b 1 - a 1) * ((c 2 - a 2) * (d 0 - a 0) - (c 0 - a 0) * (d 2 - a 2)) +
  (b 2 - a 2) * ((c 0 - a 0) * (d 1 - a 1) - (c 1 - a 1) * (d 0 - a 0)) = 0

end Spec

section
variable {K : Type*} [Field K] [LinearOrder K] [IsStrictOrderedRing K]

theorem norm_pos {nrm : V3 K → K} (hn : IsNorm nrm) {v : V3 K} (h : v ≠ 0) : 0 < nrm v := by
  obtain ⟨h1, h2⟩ := hn v
  rcases lt_or_eq_of_le h1 with h3 | h3
  · exact h3
  · exfalso
    apply h
    rw [← h3] at h2
    have h4 : sqLen v = 0 := by rw [← h2]; ring
    unfold sqLen at h4
    have e0 : v 0 ^ 2 = 0 := by nlinarith [sq_nonneg (v 0), sq_nonneg (v 1), sq_nonneg (v 2)]
    have e1 : v 1 ^ 2 = 0 := by nlinarith [sq_nonneg (v 0), sq_nonneg (v 1), sq_nonneg (v 2)]
    have e2 : v 2 ^ 2 = 0 := by nlinarith [sq_nonneg (v 0), sq_nonneg (v 1), sq_nonneg (v 2)]
    funext ax
    fin_cases ax
    · exact pow_eq_zero_iff two_ne_zero |>.1 e0
    · exact pow_eq_zero_iff two_ne_zero |>.1 e1
    · exact pow_eq_zero_iff two_ne_zero |>.1 e2

theorem rayFace_spec {nrm : V3 K → K} (hn : IsNorm nrm) {a b c n : V3 K} (hab : a ≠ b)
    (hpar : (a 0 - b 0) * n 0 + (a 1 - b 1) * n 1 + (a 2 - b 2) * n 2 ≠ 0) :
    OnLine a b (rayFace a (unit3 nrm (a - b)) c n) ∧ OnPlane c n (rayFace a (unit3 nrm (a - b)) c n) := by
  have hp := norm_pos hn (sub_ne_zero.2 hab)
  set L := nrm (a - b) with hL
  have hd : ∀ ax, unit3 nrm (a - b) ax = (a ax - b ax) / L := fun ax => rfl
  constructor
  · refine ⟨- (dot3 (c - a) n / dot3 (unit3 nrm (a - b)) n / L), ?_⟩
    intro ax
    unfold rayFace
    rw [hd]
    ring
  · have hdot : dot3 (unit3 nrm (a - b)) n =
        ((a 0 - b 0) * n 0 + (a 1 - b 1) * n 1 + (a 2 - b 2) * n 2) / L := by
      unfold dot3
      rw [hd, hd, hd]
      ring
    have hne : dot3 (unit3 nrm (a - b)) n ≠ 0 := by rw [hdot]; exact div_ne_zero hpar hp.ne'
    unfold OnPlane rayFace
    have : ∀ t : K, (a 0 + unit3 nrm (a - b) 0 * t - c 0) * n 0 + (a 1 + unit3 nrm (a - b) 1 * t - c 1) * n 1 +
        (a 2 + unit3 nrm (a - b) 2 * t - c 2) * n 2 = t * dot3 (unit3 nrm (a - b)) n - dot3 (c - a) n := by
      intro t
      unfold dot3
      simp only [Pi.sub_apply]
      ring
    rw [this, div_mul_cancel₀ _ hne, sub_self]

/-- Decomposition of `w` along `v`, `d` and `v × d`. -/
theorem cross_decompose (w v d : V3 K) (ax : Fin 3) :
    sqLen (cross v d) * w ax = dot3 (cross w d) (cross v d) * v ax - dot3 (cross w v) (cross v d) * d ax +
      dot3 w (cross v d) * cross v d ax := by
  fin_cases ax <;> simp [sqLen, cross, dot3] <;> ring

theorem rayEdge_spec {nrm : V3 K → K} (hn : IsNorm nrm) {a b q0 q1 : V3 K} (hab : a ≠ b) (hq : q0 ≠ q1)
    (hpar : cross (q1 - q0) (a - b) ≠ 0) :
    OnLine q0 q1 (rayEdge nrm a (unit3 nrm (a - b)) q0 q1) ∧
    (Coplanar4 a b q0 q1 → OnLine a b (rayEdge nrm a (unit3 nrm (a - b)) q0 q1)) := by
  have hp := norm_pos hn (sub_ne_zero.2 hab)
  have hq' := norm_pos hn (sub_ne_zero.2 hq.symm)
  obtain ⟨L, hL⟩ : ∃ L, L = nrm (a - b) := ⟨_, rfl⟩
  obtain ⟨M, hM⟩ : ∃ M, M = nrm (q1 - q0) := ⟨_, rfl⟩
  rw [← hL] at hp
  rw [← hM] at hq'
  obtain ⟨d, hd⟩ : ∃ d, d = unit3 nrm (a - b) := ⟨_, rfl⟩
  obtain ⟨v, hv⟩ : ∃ v, v = unit3 nrm (q1 - q0) := ⟨_, rfl⟩
  have hdax : ∀ ax, d ax = (a ax - b ax) / L := fun ax => by rw [hd, hL]; rfl
  have hvax : ∀ ax, v ax = (q1 ax - q0 ax) / M := fun ax => by rw [hv, hM]; rfl
  have hc : ∀ ax, cross v d ax = cross (q1 - q0) (a - b) ax / (M * L) := by
    intro ax
    fin_cases ax <;> simp [cross, hdax, hvax] <;> field_simp
  have hne : cross v d ≠ 0 := by
    intro h0
    apply hpar
    funext ax
    have h1 := hc ax
    rw [h0] at h1
    have h2 := (div_eq_zero_iff.1 h1.symm).resolve_right (mul_pos hq' hp).ne'
    exact h2
  have hN := norm_pos hn hne
  have hN2 := (hn (cross v d)).2
  have hS : sqLen (cross v d) ≠ 0 := by rw [← hN2]; exact pow_ne_zero 2 hN.ne'
  have hpt : ∀ ax, rayEdge nrm a d q0 q1 ax =
      q0 ax - dot3 (cross (q0 - a) d) (cross v d) / sqLen (cross v d) * v ax := by
    intro ax
    rw [← hN2, hv]
    rfl
  rw [← hd]
  constructor
  · refine ⟨-(dot3 (cross (q0 - a) d) (cross v d) / sqLen (cross v d) / M), fun ax => ?_⟩
    rw [hpt, hvax]
    ring
  · intro hco
    have hw : dot3 (q0 - a) (cross v d) = 0 := by
      have e : dot3 (q0 - a) (cross v d) = dot3 (q0 - a) (cross (q1 - q0) (a - b)) / (M * L) := by
        unfold dot3
        rw [hc, hc, hc]
        ring
      rw [e, div_eq_zero_iff]
      left
      unfold Coplanar4 at hco
      simp only [dot3, cross, Pi.sub_apply, Matrix.cons_val]
      linear_combination -hco
    refine ⟨dot3 (cross (q0 - a) v) (cross v d) / sqLen (cross v d) / L, fun ax => ?_⟩
    have hdec := cross_decompose (q0 - a) v d ax
    rw [hw, Pi.sub_apply] at hdec
    have e : dot3 (cross (q0 - a) v) (cross v d) / sqLen (cross v d) / L * (b ax - a ax) =
        -(dot3 (cross (q0 - a) v) (cross v d) / sqLen (cross v d) * d ax) := by
      rw [hdax]
      ring
    rw [hpt, e]
    field_simp
    linear_combination hdec

/-- **C70**, faces: the ids are those found and retained, in increasing order (or their original numbers), and
every point lies on the ray and in the plane of its face. -/
theorem C70_faces {nrm : V3 K → K} (hn : IsNorm nrm) (found : List ℕ) (keep : V3 K → ℕ → Bool)
    (center normal : ℕ → V3 K) (orig : Option (List ℕ)) {a b : V3 K} (hab : a ≠ b)
    (hpar : ∀ i ∈ found, (a 0 - b 0) * normal i 0 + (a 1 - b 1) * normal i 1 + (a 2 - b 2) * normal i 2 ≠ 0)
    {ids : List ℕ} {pts : List (V3 K)}
    (h : rayCastFaces nrm found keep center normal orig a b = .ok (some (ids, pts))) :
    ∃ cells : List ℕ, cells.Pairwise (· ≤ ·) ∧ cells ≠ [] ∧
      (∀ i, i ∈ cells ↔ i ∈ found ∧ keep (fun ax => (a ax - b ax) / nrm (a - b)) i = true) ∧
      (match orig with | none => ids = cells | some orig => ids.map some = along orig cells) ∧
      List.Forall₂ (fun i p => OnLine a b p ∧ OnPlane (center i) (normal i) p) cells pts := by
  unfold rayCastFaces at h
  split at h
  · cases h
  · simp only at h
    split at h
    · cases h
    · rename_i hne
      refine ⟨(found.insertionSort (· ≤ ·)).filter (keep (unit3 nrm (a - b))), ?_, hne, ?_, ?_⟩
      · apply List.Pairwise.filter
        exact List.pairwise_insertionSort _ _
      · intro i
        rw [List.mem_filter, List.mem_insertionSort]
        rfl
      · have hpts : ∀ l : List ℕ, (∀ i ∈ l, i ∈ found) →
            List.Forall₂ (fun i p => OnLine a b p ∧ OnPlane (center i) (normal i) p) l
              (l.map fun i => rayFace a (unit3 nrm (a - b)) (center i) (normal i)) := by
          intro l hl
          rw [List.forall₂_map_right_iff, List.forall₂_same]
          exact fun i hi => rayFace_spec hn hab (hpar i (hl i hi))
        have hall := hpts ((found.insertionSort (· ≤ ·)).filter (keep (unit3 nrm (a - b))))
          (fun i hi => (List.mem_insertionSort _).1 (List.mem_of_mem_filter hi))
        cases orig with
        | none =>
          simp only [Except.ok.injEq, Option.some.injEq, Prod.mk.injEq] at h
          obtain ⟨rfl, rfl⟩ := h
          exact ⟨rfl, hall⟩
        | some orig =>
          simp only at h
          split at h
          · cases h
          · rename_i g hg
            simp only [Except.ok.injEq, Option.some.injEq, Prod.mk.injEq] at h
            obtain ⟨rfl, rfl⟩ := h
            exact ⟨gather_ok_iff.1 hg, hall⟩

/-- Without an intersection retained, and only then, nothing is returned. -/
theorem C70_none (nrm : V3 K → K) (found : List ℕ) (keep : V3 K → ℕ → Bool) (center normal : ℕ → V3 K)
    (orig : Option (List ℕ)) (a b : V3 K) :
    rayCastFaces nrm found keep center normal orig a b = .ok none ↔
      ∀ i ∈ found, keep (fun ax => (a ax - b ax) / nrm (a - b)) i = false := by
  unfold rayCastFaces
  constructor
  · intro h
    split at h
    · rename_i h0
      simp [h0]
    · simp only at h
      split at h
      · rename_i h1
        intro i hi
        rw [List.filter_eq_nil_iff] at h1
        exact Bool.eq_false_iff.2 (h1 i ((List.mem_insertionSort _).2 hi))
      · cases orig with
        | none => simp at h
        | some orig =>
          simp only at h
          split at h <;> simp at h
  · intro h
    split
    · rfl
    · simp only
      rw [if_pos]
      rw [List.filter_eq_nil_iff]
      intro i hi
      exact Bool.eq_false_iff.1 (h i ((List.mem_insertionSort _).1 hi))

/-- **C70**, edges: every point lies on the line of its edge, and on the ray if both are in one plane. -/
theorem C70_edges {nrm : V3 K → K} (hn : IsNorm nrm) (found : List ℕ) (edge : ℕ → V3 K × V3 K)
    (orig : Option (List ℕ)) {a b : V3 K} (hab : a ≠ b) (hedge : ∀ i ∈ found, (edge i).1 ≠ (edge i).2)
    (hpar : ∀ i ∈ found, cross ((edge i).2 - (edge i).1) (a - b) ≠ 0)
    {ids : List ℕ} {pts : List (V3 K)} (h : rayCastEdges nrm found edge orig a b = .ok (some (ids, pts))) :
    ∃ cells : List ℕ, cells.Pairwise (· ≤ ·) ∧ cells.Perm found ∧
      (match orig with | none => ids = cells | some orig => ids.map some = along orig cells) ∧
      List.Forall₂ (fun i p => OnLine (edge i).1 (edge i).2 p ∧
        (Coplanar4 a b (edge i).1 (edge i).2 → OnLine a b p)) cells pts := by
  unfold rayCastEdges at h
  split at h
  · cases h
  · refine ⟨found.insertionSort (· ≤ ·), ?_, List.perm_insertionSort _ _, ?_⟩
    · exact List.pairwise_insertionSort _ _
    · have hall : List.Forall₂ (fun i p => OnLine (edge i).1 (edge i).2 p ∧
          (Coplanar4 a b (edge i).1 (edge i).2 → OnLine a b p)) (found.insertionSort (· ≤ ·))
          ((found.insertionSort (· ≤ ·)).map fun i =>
            rayEdge nrm a (unit3 nrm (a - b)) (edge i).1 (edge i).2) := by
        rw [List.forall₂_map_right_iff, List.forall₂_same]
        intro i hi
        have hi' := (List.mem_insertionSort _).1 hi
        exact rayEdge_spec hn hab (hedge i hi') (hpar i hi')
      cases orig with
      | none =>
        simp only [Except.ok.injEq, Option.some.injEq, Prod.mk.injEq] at h
        obtain ⟨rfl, rfl⟩ := h
        exact ⟨rfl, hall⟩
      | some orig =>
        simp only at h
        split at h
        · cases h
        · rename_i g hg
          simp only [Except.ok.injEq, Option.some.injEq, Prod.mk.injEq] at h
          obtain ⟨rfl, rfl⟩ := h
          exact ⟨gather_ok_iff.1 hg, hall⟩

/-- The hypotheses of `C70_faces` hold for a vertical ray and two horizontal faces, and points are returned. -/
example : ∃ ids pts, rayCastFaces (K := ℝ) (fun v => Real.sqrt (sqLen v)) [4, 2] (fun _ _ => true)
      (fun i => ![7, 8, i]) (fun _ => ![0, 0, 1]) (some [10, 11, 12, 13, 14]) ![1, 2, 9] ![1, 2, -9] =
      .ok (some (ids, pts)) ∧
    IsNorm (fun v : V3 ℝ => Real.sqrt (sqLen v)) ∧ (![1, 2, 9] : V3 ℝ) ≠ ![1, 2, -9] ∧
    ∀ i ∈ [4, 2], ((1 : ℝ) - 1) * 0 + (2 - 2) * 0 + (9 - -9) * 1 ≠ 0 := by
  refine ⟨_, _, rfl, isNorm_real, ?_, ?_⟩
  · intro h
    have := congrFun h 2
    simp at this
    norm_num at this
  · intro i _
    norm_num

/-- The points themselves, for an axis-parallel ray (where the maximum norm is the Euclidean one). -/
example : (rayCastFaces (K := ℚ) (fun v => max |v 0| (max |v 1| |v 2|)) [4, 2] (fun _ i => i != 7)
      (fun i => ![7, 8, i]) (fun _ => ![0, 0, 1]) none ![1, 2, 9] ![1, 2, -9]).toOption.map
      (fun r => r.map fun r => (r.1, r.2.map fun p => [p 0, p 1, p 2])) =
    some (some ([2, 4], [[1, 2, 2], [1, 2, 4]])) := by decide +kernel

/-- A ray along x and an edge along y: they meet in (3, 0, 0). -/
example : (rayCastEdges (K := ℚ) (fun v => max |v 0| (max |v 1| |v 2|)) [0]
      (fun _ => (![3, -1, 0], ![3, 5, 0])) none ![0, 0, 0] ![9, 0, 0]).toOption.map
      (fun r => r.map fun r => (r.1, r.2.map fun p => [p 0, p 1, p 2])) =
    some (some ([0], [[3, 0, 0]])) := by decide +kernel

end

/-! ## Interactive selection -/

theorem interactive_append (l : List ℕ) (x : ℕ) :
    interactiveSelection (l ++ [x]) = togglePick (interactiveSelection l) x := by
  unfold interactiveSelection
  rw [List.foldl_append]
  rfl

/-- **C56**: the ids returned are those picked an odd number of times, each once, in the order of their last
picks. -/
theorem C56_toggle (picks : List ℕ) :
    (interactiveSelection picks).Nodup ∧
    (∀ id, id ∈ interactiveSelection picks ↔ picks.count id % 2 = 1) ∧
    (interactiveSelection picks).Pairwise fun a b =>
      ∃ u v, picks = u ++ v ∧ a ∈ u ∧ a ∉ v ∧ b ∈ v := by
  induction picks using List.reverseRecOn with
  | nil => simp [interactiveSelection]
  | append_singleton l x ih =>
    obtain ⟨h1, h2, h3⟩ := ih
    rw [interactive_append]
    unfold togglePick
    have hcount : ∀ id, (l ++ [x]).count id = l.count id + if x = id then 1 else 0 := by
      intro id
      rw [List.count_append, List.count_singleton]
      simp
    by_cases hx : x ∈ interactiveSelection l
    · rw [if_pos hx]
      refine ⟨h1.erase x, ?_, ?_⟩
      · intro id
        rw [h1.mem_erase_iff, h2, hcount]
        by_cases hid : x = id
        · subst hid
          have := (h2 x).1 hx
          simp
          omega
        · simp [hid, Ne.symm hid]
      · have hs : ((interactiveSelection l).erase x).Sublist (interactiveSelection l) := List.erase_sublist
        refine (h3.sublist hs).imp_of_mem ?_
        rintro a b ha hb ⟨u, v, e, hu, hv, hbv⟩
        have hax : a ≠ x := (h1.mem_erase_iff.1 ha).1
        exact ⟨u, v ++ [x], by rw [e, List.append_assoc], hu, by simp [hv, hax], by simp [hbv]⟩
    · rw [if_neg hx]
      refine ⟨?_, ?_, ?_⟩
      · rw [List.nodup_append]
        refine ⟨h1, by simp, ?_⟩
        intro a ha b hb hab
        rw [List.mem_singleton] at hb
        subst hb hab
        exact hx ha
      · intro id
        rw [List.mem_append, List.mem_singleton, h2, hcount]
        by_cases hid : x = id
        · subst hid
          have : ¬ l.count x % 2 = 1 := fun h => hx ((h2 x).2 h)
          simp
          omega
        · simp [hid, Ne.symm hid]
      · rw [List.pairwise_append]
        refine ⟨?_, by simp, ?_⟩
        · refine h3.imp_of_mem ?_
          rintro a b ha hb ⟨u, v, e, hu, hv, hbv⟩
          have hax : a ≠ x := fun h => hx (h ▸ ha)
          exact ⟨u, v ++ [x], by rw [e, List.append_assoc], hu, by simp [hv, hax], by simp [hbv]⟩
        · intro a ha b hb
          rw [List.mem_singleton] at hb
          subst hb
          have hal : a ∈ l := by
            have := (h2 a).1 ha
            rw [← List.count_pos_iff]
            omega
          exact ⟨l, [b], rfl, hal, by rw [List.mem_singleton]; rintro rfl; exact hx ha, by simp⟩

/-- Picks 5, 7, 5, 3, 5, 7: 3 and 5 remain. -/
example : interactiveSelection [5, 7, 5, 3, 5, 7] = [3, 5] := by decide

/-! ## Lasso -/

namespace Spec
/-- The axis along which a view looks. -/
def lookAxis : String → Option (Fin 3)
  | "xy" | "yx" | "-xy" | "-yx" => some 2
  | "xz" | "zx" | "-xz" | "-zx" => some 1
  | "yz" | "zy" | "-yz" | "-zy" => some 0
  | _ => none
end Spec

section
variable {K : Type*} [Field K]

/-- **C73** for views along z: exactly the locations whose projection is in the polygon of the clicks, in
increasing order. -/
theorem C73_xy_partial (inside : List (K × K) → K × K → Bool) (view : String) (hv : lookAxis view = some 2)
    (clicks locations : List (V3 K)) :
    ∃ ids, lassoSelection inside view clicks locations = .ok ids ∧ ids.Pairwise (· < ·) ∧
    ∀ i, i ∈ ids ↔ ∃ p, locations[i]? = some p ∧ inside (clicks.map (inPlane 2)) (inPlane 2 p) = true := by
  have hview : viewName view ∈ plotterViews ∧ viewAxis (viewName view) = 2 := by
    unfold lookAxis at hv
    split at hv <;> first | (cases hv; done) | (constructor <;> decide)
  unfold lassoSelection
  simp only [if_pos hview.1, hview.2]
  refine ⟨_, rfl, List.Pairwise.filter _ List.pairwise_lt_range, ?_⟩
  intro i
  rw [List.mem_filter, List.mem_range]
  have hring : clicks.map (dropAxis 2) = clicks.map (inPlane 2) := rfl
  rw [hring]
  constructor
  · rintro ⟨hi, hin⟩
    refine ⟨locations[i], List.getElem?_eq_getElem hi, ?_⟩
    rw [List.getD_eq_getElem?_getD, List.getElem?_eq_getElem hi] at hin
    exact hin
  · rintro ⟨p, hp, hin⟩
    obtain ⟨hi, rfl⟩ := List.getElem?_eq_some_iff.1 hp
    refine ⟨hi, ?_⟩
    rw [List.getD_eq_getElem?_getD, List.getElem?_eq_getElem hi]
    exact hin

/-- Invalid views are rejected. -/
theorem C73_invalid_view (inside : List (K × K) → K × K → Bool) (view : String)
    (hv : viewName view ∉ plotterViews) (clicks locations : List (V3 K)) :
    lassoSelection inside view clicks locations = .error .valueError := by
  unfold lassoSelection
  simp only [if_neg hv]

end

/-- Containment in the bounding box of a ring: the polygon itself if the ring is a rectangle. -/
def inBox (ring : List (ℚ × ℚ)) (x : ℚ × ℚ) : Bool :=
  (ring.any fun p => p.1 ≤ x.1) && (ring.any fun p => x.1 ≤ p.1) &&
  (ring.any fun p => p.2 ≤ x.2) && (ring.any fun p => x.2 ≤ p.2)

/-- The claim is false for the views `xz` (and `yz`): the rectangle clicked in the x, z plane is compared with
the x, y coordinates.  Cell 0 is in the rectangle but not selected, cell 1 is outside but selected. -/
theorem C73_xz_refuted :
    let clicks : List (V3 ℚ) := [![0, 9, 0], ![1, 9, 0], ![1, 9, 1], ![0, 9, 1]]
    let locations : List (V3 ℚ) := [![1 / 2, 5, 1 / 2], ![1 / 2, 1 / 2, 5]]
    lassoSelection inBox "xz" clicks locations = .ok [1] ∧
    inBox (clicks.map (inPlane 1)) (inPlane 1 ![1 / 2, 5, 1 / 2]) = true ∧
    inBox (clicks.map (inPlane 1)) (inPlane 1 ![1 / 2, 1 / 2, 5]) = false := by decide +kernel

theorem C73_yz_refuted :
    let clicks : List (V3 ℚ) := [![9, 0, 0], ![9, 1, 0], ![9, 1, 1], ![9, 0, 1]]
    let locations : List (V3 ℚ) := [![5, 1 / 2, 1 / 2], ![1 / 2, 1 / 2, 5]]
    lassoSelection inBox "-yz" clicks locations = .ok [1] ∧
    inBox (clicks.map (inPlane 0)) (inPlane 0 ![5, 1 / 2, 1 / 2]) = true ∧
    inBox (clicks.map (inPlane 0)) (inPlane 0 ![1 / 2, 1 / 2, 5]) = false := by decide +kernel

/-- In the view `xy`, the first of three cells is selected. -/
example : lassoSelection inBox "xy" [![0, 0, 7], ![1, 0, 7], ![1, 1, 7], ![0, 1, 7]]
    [![1 / 2, 1 / 2, 5], ![2, 1 / 2, 7], ![1 / 2, 2, 7]] = .ok [0] := by decide +kernel

end Gridder
