import Verif.Lemmas.Resolution

/-!
# C11-C14: subdivisions and lines
-/

namespace Gridder
open Spec

/-- **C11.** An integer resolution `r` with any supported method gives a subdivision of [0,1] into
`max 1 r` parts; the constant method gives `i / max 1 r`; no resolution is the same as 1. -/
theorem C11_integer_resolution (r : ℤ) (m : Option String) (hm : Supported m) :
    ∃ p, resolutionToPerc (.int r) m = .ok p ∧ Subdivision (max 1 r).toNat p ∧
      (methodName m = "constant" →
        ∀ i, i ≤ (max 1 r).toNat → p[i]? = some ((i : ℝ) / ((max 1 r : ℤ) : ℝ))) ∧
      resolutionToPerc .none m = resolutionToPerc (.int 1) m := by
  have hn : 0 < (max 1 r).toNat := by omega
  have hc : (((max 1 r).toNat : ℕ) : ℝ) = ((max 1 r : ℤ) : ℝ) := by
    rw [← Int.cast_natCast]; congr 1; omega
  have hn0 : (((max 1 r).toNat : ℕ) : ℝ) ≠ 0 := by exact_mod_cast hn.ne'
  refine ⟨_, resolutionToPerc_int hm r, ⟨by simp, ?_, ?_, ?_⟩, ?_, rfl⟩
  · rw [List.getElem?_map, List.getElem?_range (by omega)]
    simp [posOf_zero hm]
  · rw [List.getElem?_map, List.getElem?_range (by omega)]
    simp only [Option.map_some, div_self hn0, posOf_one hm]
  · exact pairwise_map_range fun i j hij hj => by
      obtain ⟨h1, h2, h3⟩ := frac_lt hij hj
      exact posOf_lt hm h1 h2 h3
  · intro h i hi
    rw [List.getElem?_map, List.getElem?_range (by omega)]
    simp only [Option.map_some, h, hc]
    simp [posOf]

/-- Concrete case: four equal parts; and a negative resolution counts as 1. -/
example : Supported none ∧ Supported (some "log") ∧ (max 1 4 : ℤ).toNat = 4 ∧
    (max 1 (-3) : ℤ).toNat = 1 := by
  refine ⟨Or.inl rfl, Or.inr (Or.inl rfl), by decide, by decide⟩

/-- **C12.** With `n ≥ 2` parts, `log` parts grow strictly, `log_r` parts shrink strictly, and the
two subdivisions are mirror images. -/
theorem C12_log_spacing (r : ℤ) (hr : 2 ≤ r) :
    ∃ p q, resolutionToPerc (.int r) (some "log") = .ok p ∧
      resolutionToPerc (.int r) (some "log_r") = .ok q ∧
      (∀ i, i + 1 < r.toNat → part p i < part p (i + 1)) ∧
      (∀ i, i + 1 < r.toNat → part q (i + 1) < part q i) ∧
      (∀ i, i ≤ r.toNat → p.getD i 0 = 1 - q.getD (r.toNat - i) 0) := by
  have hmax : max 1 r = r := by omega
  obtain ⟨n, hn⟩ : ∃ n : ℕ, r = n := ⟨r.toNat, by omega⟩
  subst hn
  have h1 : Supported (some "log") := Or.inr (Or.inl rfl)
  have h2 : Supported (some "log_r") := Or.inr (Or.inr rfl)
  have e1 := resolutionToPerc_int h1 n
  have e2 := resolutionToPerc_int h2 n
  rw [hmax] at e1 e2
  simp only [Int.toNat_natCast] at e1 e2 ⊢
  have hnpos : (0 : ℝ) < n := by exact_mod_cast (by omega : 0 < n)
  have g : ∀ (f : ℕ → ℝ) i, i ≤ n → ((List.range (n + 1)).map f).getD i 0 = f i := by
    intro f i hi
    simp [List.getD_eq_getElem?_getD, List.getElem?_range (by omega : i < n + 1)]
  -- strict concavity of the logarithm on three equally spaced points
  have conc : ∀ x h : ℝ, 0 < x → 0 < h →
      Real.logb 10 (x + 2 * h) - Real.logb 10 (x + h) <
        Real.logb 10 (x + h) - Real.logb 10 x := by
    intro x h hx hh
    have : Real.logb 10 ((x + 2 * h) * x) < Real.logb 10 ((x + h) * (x + h)) :=
      Real.logb_lt_logb (by norm_num) (by positivity) (by nlinarith)
    rw [Real.logb_mul (by positivity) (by positivity),
      Real.logb_mul (by positivity) (by positivity)] at this
    linarith
  have mirror : ∀ i, i ≤ n →
      posOf "log" ((i : ℝ) / n) = 1 - posOf "log_r" (((n - i : ℕ) : ℝ) / n) := by
    intro i hi
    simp only [posOf]
    simp
    congr 1
    rw [Nat.cast_sub hi]
    field_simp
    ring
  have shrink : ∀ i, i + 2 ≤ n →
      posOf "log_r" (((i + 2 : ℕ) : ℝ) / n) - posOf "log_r" (((i + 1 : ℕ) : ℝ) / n) <
      posOf "log_r" (((i + 1 : ℕ) : ℝ) / n) - posOf "log_r" (((i : ℕ) : ℝ) / n) := by
    intro i _
    have := conc (1 + 9 * ((i : ℝ) / n)) (9 / n) (by positivity) (by positivity)
    simp only [posOf]
    simp
    have a1 : 1 + 9 * (((i : ℝ) + 2) / n) = 1 + 9 * ((i : ℝ) / n) + 2 * (9 / n) := by
      field_simp; ring
    have a2 : 1 + 9 * (((i : ℝ) + 1) / n) = 1 + 9 * ((i : ℝ) / n) + 9 / n := by
      field_simp; ring
    rw [a1, a2]
    linarith
  refine ⟨_, _, e1, e2, ?_, ?_, ?_⟩
  · intro i hi
    simp only [part]
    rw [g _ _ (by omega), g _ _ (by omega), g _ _ (by omega)]
    have m1 := mirror i (by omega)
    have m2 := mirror (i + 1) (by omega)
    have m3 := mirror (i + 1 + 1) (by omega)
    rw [show methodName (some "log") = "log" from rfl, m1, m2, m3]
    have := shrink (n - (i + 1 + 1)) (by omega)
    rw [show n - (i + 1 + 1) + 2 = n - i by omega,
      show n - (i + 1 + 1) + 1 = n - (i + 1) by omega] at this
    linarith
  · intro i hi
    simp only [part]
    rw [g _ _ (by omega), g _ _ (by omega), g _ _ (by omega)]
    exact shrink i (by omega)
  · intro i hi
    rw [g _ _ hi, g _ _ (by omega)]
    exact mirror i hi

/-- Non-vacuous: two parts (positions 0, 1 - log10 5.5, 1 for `log`). -/
example : (2 : ℤ) ≤ 2 ∧ (0 : ℕ) + 1 < (2 : ℤ).toNat := by decide

/-- **C13.** An explicit array comes back as a sorted rearrangement of the same values, whatever the
method; everything that is not `None`, an `int` or one-dimensional is rejected; an unknown method
is rejected for an integer and for `None`. -/
theorem C13_explicit_or_rejected :
    (∀ (l : List ℝ) m, ∃ p, resolutionToPerc (.array l) m = .ok p ∧
      p.Perm l ∧ p.Pairwise (· ≤ ·)) ∧
    (∀ m, resolutionToPerc .other m = .error .valueError) ∧
    (∀ r m, ¬ Supported m → resolutionToPerc (.int r) m = .error .valueError) ∧
    (∀ m, ¬ Supported m → resolutionToPerc .none m = .error .valueError) := by
  have key : ∀ n m, ¬ Supported m → percOfInt n (chooseMethod m) = .error .valueError := by
    intro n m hm
    rw [chooseMethod_eq]
    simp only [Supported, not_or] at hm
    simp [percOfInt, hm.1, hm.2.1, hm.2.2]
  refine ⟨fun l m => ⟨npSort l, rfl, (npSort_sorted l).2, (npSort_sorted l).1⟩, fun _ => rfl,
    fun r m hm => ?_, fun m hm => ?_⟩
  · simp only [resolutionToPerc, key _ m hm]
  · simp only [resolutionToPerc, key _ m hm]

/-- Non-vacuous: `linear` is not a method. -/
example : ¬ Supported (some "linear") := by
  simp [Supported, methodName]

/-! ## C14 -/

/-- A point padded to three components, as the class documents for 2D points. -/
def Spec.pad3 (p : List ℝ) : List ℝ := if p.length = 2 then p ++ [0] else p

/-- The point at fraction `t` of the segment from `a` to `b`. -/
def Spec.onSegment (a b : List ℝ) (t : ℝ) : List ℝ :=
  List.zipWith (fun x y => (1 - t) * x + t * y) a b

theorem zipWith_snoc {α β γ : Type _} (f : α → β → γ) :
    ∀ (a : List α) (b : List β) (x : α) (y : β), a.length = b.length →
      List.zipWith f (a ++ [x]) (b ++ [y]) = List.zipWith f a b ++ [f x y]
  | [], [], _, _, _ => rfl
  | [], _ :: _, _, _, h => by simp at h
  | _ :: _, [], _, _, h => by simp at h
  | a :: as, b :: bs, x, y, h => by
    simp only [List.cons_append, List.zipWith_cons_cons]
    rw [zipWith_snoc f as bs x y (by simpa using h)]

theorem onSegment_zero : ∀ (a b : List ℝ), a.length = b.length → onSegment a b 0 = a
  | [], [], _ => rfl
  | [], _ :: _, h => by simp at h
  | _ :: _, [], h => by simp at h
  | a :: as, b :: bs, h => by
    have := onSegment_zero as bs (by simpa using h)
    simp only [onSegment, List.zipWith_cons_cons] at this ⊢
    rw [this]; simp

theorem onSegment_one : ∀ (a b : List ℝ), a.length = b.length → onSegment a b 1 = b
  | [], [], _ => rfl
  | [], _ :: _, h => by simp at h
  | _ :: _, [], h => by simp at h
  | a :: as, b :: bs, h => by
    have := onSegment_one as bs (by simpa using h)
    simp only [onSegment, List.zipWith_cons_cons] at this ⊢
    rw [this]; simp

/-- Any resolution: the points of the line are the points of the segment at the positions given by
`resolution_to_perc`, in order, padded with z = 0. -/
theorem generateLine_points (a b : List ℝ) (res : Resolution ℝ) (m : Option String) (ts : List ℝ)
    (hlen : a.length = b.length) (h23 : a.length = 2 ∨ a.length = 3)
    (h : resolutionToPerc res m = .ok ts) :
    generateLine a b res m = .ok (ts.map (onSegment (pad3 a) (pad3 b))) := by
  have hseg : ∀ t, List.zipWith (fun x y => x + t * (y - x)) a b = onSegment a b t := by
    intro t
    unfold onSegment
    congr 1
    funext x y
    ring
  have key : (if a.length = 3 then ts.map fun t => List.zipWith (fun x y => x + t * (y - x)) a b
      else (ts.map fun t => List.zipWith (fun x y => x + t * (y - x)) a b).map (· ++ [0])) =
      ts.map (onSegment (pad3 a) (pad3 b)) := by
    rcases h23 with h2 | h3
    · rw [if_neg (by omega), List.map_map]
      apply List.map_congr_left
      intro t _
      simp only [Function.comp]
      rw [hseg t]
      have ha : pad3 a = a ++ [0] := by simp [pad3, h2]
      have hb : pad3 b = b ++ [0] := by simp [pad3, ← hlen, h2]
      rw [ha, hb, onSegment, onSegment, zipWith_snoc _ _ _ _ _ hlen]
      simp
    · rw [if_pos h3]
      apply List.map_congr_left
      intro t _
      have ha : pad3 a = a := by simp [pad3, h3]
      have hb : pad3 b = b := by simp [pad3, ← hlen, h3]
      rw [hseg t, ha, hb]
  have hla : (pad3 a).length = 3 := by
    unfold pad3; split <;> simp_all <;> omega
  have hlb : (pad3 b).length = 3 := by
    unfold pad3; split <;> simp_all <;> omega
  unfold generateLine
  rw [if_neg (by simp [hlen]), h]
  simp only [key]
  rw [if_pos]
  simp [onSegment, hla, hlb]

/-- **C14.** The line generated between two 2D or 3D points with an integer resolution starts at
`a`, ends at `b`, has `max 1 r + 1` points, all on the segment and in strictly increasing order
along it; 2D points get z = 0. Points of different length are rejected, and so is any argument
that `resolution_to_perc` rejects. -/
theorem C14_line_from_two_points (a b : List ℝ) (m : Option String) :
    (a.length = b.length → (a.length = 2 ∨ a.length = 3) → Supported m → ∀ r : ℤ,
      ∃ pts ts, generateLine a b (.int r) m = .ok pts ∧ Subdivision (max 1 r).toNat ts ∧
        pts = ts.map (onSegment (pad3 a) (pad3 b)) ∧
        pts.length = (max 1 r).toNat + 1 ∧
        pts[0]? = some (pad3 a) ∧ pts[(max 1 r).toNat]? = some (pad3 b)) ∧
    (a.length ≠ b.length → ∀ res, generateLine a b res m = .error .valueError) ∧
    (∀ res e, a.length = b.length → resolutionToPerc res m = .error e →
      generateLine a b res m = .error e) := by
  refine ⟨fun hlen h23 hm r => ?_, fun h res => ?_, fun res e h he => ?_⟩
  · obtain ⟨ts, h1, h2, _, _⟩ := C11_integer_resolution r m hm
    have hla : (pad3 a).length = (pad3 b).length := by
      unfold pad3; rw [hlen]; split <;> simp [hlen]
    refine ⟨_, ts, generateLine_points a b _ m ts hlen h23 h1, h2, rfl, ?_, ?_, ?_⟩
    · simp [h2.size]
    · rw [List.getElem?_map, h2.first]
      simp [onSegment_zero _ _ hla]
    · rw [List.getElem?_map, h2.last]
      simp [onSegment_one _ _ hla]
  · simp [generateLine, h]
  · simp [generateLine, h, he]

/-- Concrete case: the middle point of a 2D line. -/
example : onSegment (pad3 [0, 2]) (pad3 [4, 2]) (1 / 2) = [2, 2, 0] := by
  norm_num [onSegment, pad3]

end Gridder
