import Verif.Model.Resolution
import Verif.Spec.Subdivision
import Mathlib.Tactic.Linarith
import Mathlib.Tactic.FieldSimp
import Mathlib.Tactic.Ring
import Mathlib.Tactic.Positivity

namespace Gridder
open Spec

/-- Position of a subdivision at fraction `x` for each method. -/
noncomputable def posOf (method : String) (x : ℝ) : ℝ :=
  if method = "constant" then x
  else if method = "log_r" then Real.logb 10 (1 + 9 * x)
  else 1 - Real.logb 10 (10 - 9 * x)

theorem chooseMethod_eq (m : Option String) : chooseMethod m = methodName m := by
  unfold chooseMethod methodName
  split <;> rename_i s <;> try rfl
  by_cases h : s = ""
  · simp [h]
  · simp [h]

theorem posOf_lt {method : String} (hm : method = "constant" ∨ method = "log" ∨ method = "log_r")
    {x y : ℝ} (hx : 0 ≤ x) (hxy : x < y) (hy : y ≤ 1) : posOf method x < posOf method y := by
  rcases hm with rfl | rfl | rfl
  · simpa [posOf] using hxy
  · simp only [posOf]
    have : Real.logb 10 (10 - 9 * y) < Real.logb 10 (10 - 9 * x) :=
      Real.logb_lt_logb (by norm_num) (by linarith) (by linarith)
    simp; exact this
  · simp only [posOf]
    simp
    exact Real.logb_lt_logb (by norm_num) (by linarith) (by linarith)

theorem posOf_zero {method : String}
    (hm : method = "constant" ∨ method = "log" ∨ method = "log_r") : posOf method 0 = 0 := by
  rcases hm with rfl | rfl | rfl <;> simp [posOf]

theorem posOf_one {method : String}
    (hm : method = "constant" ∨ method = "log" ∨ method = "log_r") : posOf method 1 = 1 := by
  rcases hm with rfl | rfl | rfl <;> simp [posOf] <;> norm_num

theorem pairwise_map_range {f : ℕ → ℝ} {n : ℕ} (h : ∀ i j, i < j → j < n → f i < f j) :
    ((List.range n).map f).Pairwise (· < ·) := by
  rw [List.pairwise_map, List.pairwise_iff_getElem]
  intro i j hi hj hij
  simp only [List.length_range] at hi hj
  simpa using h i j hij hj

theorem npSort_eq {l p : List ℝ} (hp : p.Pairwise (· ≤ ·)) (h : l.Perm p) : npSort l = p := by
  have h1 : (npSort l).Pairwise (· ≤ ·) := List.pairwise_insertionSort (· ≤ ·) l
  have h2 : (npSort l).Perm p := (List.perm_insertionSort (· ≤ ·) l).trans h
  exact h2.eq_of_pairwise (fun a b _ _ hab hba => le_antisymm hab hba) h1 hp

theorem frac_lt {n i j : ℕ} (hij : i < j) (hj : j < n + 1) :
    (0 : ℝ) ≤ (i : ℝ) / n ∧ (i : ℝ) / n < (j : ℝ) / n ∧ (j : ℝ) / n ≤ 1 := by
  have hn : (0 : ℝ) < n := by
    have : 0 < n := by omega
    exact_mod_cast this
  refine ⟨by positivity, ?_, ?_⟩
  · gcongr
  · rw [div_le_one hn]; exact_mod_cast (by omega : j ≤ n)

theorem reverse_map_range {α : Type _} (f : ℕ → α) (n : ℕ) :
    ((List.range (n + 1)).map f).reverse = (List.range (n + 1)).map fun i => f (n - i) := by
  apply List.ext_getElem?
  intro i
  by_cases hi : i < n + 1
  · rw [List.getElem?_reverse (by simpa using hi)]
    simp only [List.getElem?_map, List.length_map, List.length_range]
    rw [List.getElem?_range (by omega), List.getElem?_range hi]
    simp only [Option.map_some, Option.some.injEq]
    congr 1
  · rw [List.getElem?_eq_none (by simp; omega), List.getElem?_eq_none (by simp; omega)]

theorem percOfInt_ok {n : ℕ} (hn : 0 < n) {method : String}
    (hm : method = "constant" ∨ method = "log" ∨ method = "log_r") :
    ∃ p, percOfInt n method = .ok p ∧
      npSort p = (List.range (n + 1)).map fun i : ℕ => posOf method ((i : ℝ) / n) := by
  have hn' : (n : ℝ) ≠ 0 := by exact_mod_cast hn.ne'
  have hs : ((List.range (n + 1)).map fun i : ℕ => posOf method ((i : ℝ) / n)).Pairwise (· ≤ ·) :=
    (pairwise_map_range fun i j hij hj => by
      obtain ⟨h1, h2, h3⟩ := frac_lt hij hj
      exact posOf_lt hm h1 h2 h3).imp le_of_lt
  rcases hm with rfl | rfl | rfl
  · refine ⟨_, rfl, npSort_eq hs ?_⟩
    apply List.Perm.of_eq
    unfold linspace
    apply List.map_congr_left
    intro i _
    simp [posOf]; field_simp
  · refine ⟨_, by simp [percOfInt]; rfl, npSort_eq hs ?_⟩
    refine (List.reverse_perm _).symm.trans (List.Perm.of_eq ?_)
    rw [linspace, List.map_map, reverse_map_range]
    apply List.map_congr_left
    intro i hi
    simp only [List.mem_range] at hi
    have : ((n - i : ℕ) : ℝ) = (n : ℝ) - i := by
      rw [Nat.cast_sub (by omega)]
    simp [posOf, this]
    congr 1
    field_simp
    ring
  · refine ⟨_, by simp [percOfInt]; rfl, npSort_eq hs ?_⟩
    apply List.Perm.of_eq
    rw [linspace, List.map_map]
    apply List.map_congr_left
    intro i _
    simp [posOf]
    congr 1
    field_simp
    ring

theorem resolutionToPerc_int {m : Option String} (hm : Supported m) (r : ℤ) :
    resolutionToPerc (.int r) m = .ok ((List.range ((max 1 r).toNat + 1)).map
      fun i : ℕ => posOf (methodName m) ((i : ℝ) / (max 1 r).toNat)) := by
  obtain ⟨p, h1, h2⟩ := percOfInt_ok (n := (max 1 r).toNat) (by omega) hm
  simp only [resolutionToPerc, chooseMethod_eq, h1, h2]

theorem resolutionToPerc_none (m : Option String) :
    resolutionToPerc .none m = resolutionToPerc (.int 1) m := rfl

theorem npSort_sorted (l : List ℝ) : (npSort l).Pairwise (· ≤ ·) ∧ (npSort l).Perm l :=
  ⟨List.pairwise_insertionSort (· ≤ ·) l, List.perm_insertionSort (· ≤ ·) l⟩

end Gridder
