import Verif.Model.Structured
import Verif.Spec.Grid
import Mathlib.Tactic.Ring
import Mathlib.Tactic.Linarith

namespace Gridder
open Spec

theorem flatF_eq (d i : Ix) : flatF d i = vtkId d i := by
  unfold flatF vtkId; ring

theorem sizeOfShape_eq (d : Ix) : sizeOfShape d = count d := rfl

theorem cellShape_eq (d : Ix) : cellShape d = cells d := by
  funext ax
  unfold cellShape cells
  split <;> omega

theorem vtkId_lt {d i : Ix} (h : InShape d i) : vtkId d i < count d := by
  have h0 := h 0; have h1 := h 1; have h2 := h 2
  unfold vtkId count
  have a1 : d 0 * i 1 + d 0 ≤ d 0 * d 1 := by nlinarith
  have a2 : d 0 * d 1 * i 2 + d 0 * d 1 ≤ d 0 * d 1 * d 2 := by nlinarith [Nat.zero_le (d 0 * d 1)]
  omega

theorem unflat_vtkId {d i : Ix} (h : InShape d i) : unflatF d (vtkId d i) = i := by
  have h0 := h 0; have h1 := h 1; have h2 := h 2
  have hd0 : 0 < d 0 := by omega
  have hd1 : 0 < d 1 := by omega
  have e : vtkId d i = i 0 + d 0 * (i 1 + d 1 * i 2) := by unfold vtkId; ring
  have q : vtkId d i / d 0 = i 1 + d 1 * i 2 := by
    rw [e, Nat.add_mul_div_left _ _ hd0, Nat.div_eq_of_lt h0]; simp
  funext ax
  fin_cases ax
  · simp [unflatF, e, Nat.add_mul_mod_self_left, Nat.mod_eq_of_lt h0]
  · simp [unflatF, q, Nat.add_mul_mod_self_left, Nat.mod_eq_of_lt h1]
  · simp [unflatF, ← Nat.div_div_eq_div_mul, q, Nat.add_mul_div_left _ _ hd1, Nat.div_eq_of_lt h1]

theorem vtkId_unflat {d : Ix} {c : ℕ} (h : c < count d) :
    vtkId d (unflatF d c) = c ∧ InShape d (unflatF d c) := by
  have hp : 0 < d 0 * d 1 * d 2 := by unfold count at h; omega
  have hd0 : 0 < d 0 := Nat.pos_of_ne_zero fun h0 => by simp [h0] at hp
  have hd1 : 0 < d 1 := Nat.pos_of_ne_zero fun h0 => by simp [h0] at hp
  constructor
  · simp only [vtkId, unflatF]
    simp only [Matrix.cons_val_zero, Matrix.cons_val_one, Matrix.cons_val]
    rw [← Nat.div_div_eq_div_mul, Nat.mul_assoc, Nat.add_assoc, ← Nat.mul_add, Nat.mod_add_div,
      Nat.mod_add_div]
  · intro ax
    fin_cases ax
    · simpa [unflatF] using Nat.mod_lt _ hd0
    · simpa [unflatF] using Nat.mod_lt _ hd1
    · simp only [unflatF, Fin.reduceFinMk, Matrix.cons_val]
      exact Nat.div_lt_of_lt_mul (by unfold count at h; omega)

theorem ravelF_length {α : Type _} (a : Arr3 α) : a.ravelF.length = count a.d := by
  simp [Arr3.ravelF, sizeOfShape_eq]

theorem ravelF_get {α : Type _} (a : Arr3 α) {i : Ix} (h : InShape a.d i) :
    a.ravelF[vtkId a.d i]? = some (a.get i) := by
  unfold Arr3.ravelF
  rw [List.getElem?_map, List.getElem?_range (by rw [sizeOfShape_eq]; exact vtkId_lt h)]
  simp [unflat_vtkId h]

/-- Every position of a list of the right length is the position of one index. -/
theorem exists_ix {d : Ix} {c : ℕ} (h : c < count d) : ∃ i, InShape d i ∧ vtkId d i = c :=
  ⟨unflatF d c, (vtkId_unflat h).2, (vtkId_unflat h).1⟩

theorem lerp_eq {K : Type _} [Field K] (t : K) (a b : V3 K) : lerp t a b = between t a b := by
  funext ax; simp only [lerp, between]; ring

/-! ## association lists -/

theorem Dict.get?_set {κ ν : Type _} [DecidableEq κ] (d : Dict κ ν) (k k' : κ) (v : ν) :
    Dict.get? (Dict.set d k v) k' = if k = k' then some v else Dict.get? d k' := by
  induction d with
  | nil => simp [Dict.set, Dict.get?]
  | cons a d ih =>
    obtain ⟨a, b⟩ := a
    simp only [Dict.set]
    split
    · rename_i h; subst h
      by_cases hk : a = k' <;> simp [Dict.get?, hk]
    · rename_i h
      simp only [Dict.get?, ih]
      by_cases hk : a = k'
      · subst hk; simp [h, Ne.symm h]
      · simp [hk]

/-- Keys of a Python dictionary are unique. -/
def UniqueKeys {κ ν : Type _} (d : Dict κ ν) : Prop := (d.map Prod.fst).Nodup

theorem Dict.get?_eq_none {κ ν : Type _} [DecidableEq κ] {d : Dict κ ν} {k : κ} :
    Dict.get? d k = none ↔ k ∉ d.map Prod.fst := by
  induction d with
  | nil => simp [Dict.get?]
  | cons a d ih =>
    obtain ⟨a, b⟩ := a
    simp only [Dict.get?, List.map_cons, List.mem_cons, not_or]
    split
    · rename_i h; simp [h]
    · rename_i h; rw [ih]; exact ⟨fun x => ⟨fun hk => h hk.symm, x⟩, fun x => x.2⟩

/-- `copyArrays` succeeds when every array converts to one of the right length, and then each key
holds the converted array. -/
theorem copyArrays_ok {δ : Type _} (n : ℕ) (f : DArr δ → Py (DArr δ)) (g : DArr δ → DArr δ) :
    ∀ (src acc : Dict String (DArr δ)), UniqueKeys src →
      (∀ kv ∈ src, f kv.2 = .ok (g kv.2) ∧ (g kv.2).vals.length = n) →
      ∃ out, copyArrays n f src acc = .ok out ∧
        ∀ k, Dict.get? out k = match Dict.get? src k with
          | some v => some (g v)
          | none => Dict.get? acc k := by
  intro src
  induction src with
  | nil => intro acc _ _; exact ⟨acc, rfl, fun k => by simp [Dict.get?]⟩
  | cons a src ih =>
    obtain ⟨a, v⟩ := a
    intro acc hu h
    obtain ⟨h1, h2⟩ := h (a, v) (by simp)
    simp only at h1 h2
    have hu' : a ∉ src.map Prod.fst ∧ UniqueKeys src := by
      simpa [UniqueKeys, List.nodup_cons] using hu
    obtain ⟨out, ho, hg⟩ := ih (Dict.set acc a (g v)) hu'.2
      (fun kv hkv => h kv (List.mem_cons_of_mem _ hkv))
    refine ⟨out, ?_, ?_⟩
    · simp only [copyArrays, h1, setArray, h2, if_true, ho]
    · intro k
      rw [hg k]
      simp only [Dict.get?]
      by_cases hk : a = k
      · subst hk
        rw [Dict.get?_eq_none.2 hu'.1]
        simp [Dict.get?_set]
      · simp only [hk, if_false]
        cases Dict.get? src k <;> simp [Dict.get?_set, hk]

theorem copyArrays_error {δ : Type _} (n : ℕ) (f : DArr δ → Py (DArr δ)) :
    ∀ (src acc : Dict String (DArr δ)),
      (∃ kv ∈ src, (∃ e, f kv.2 = .error e) ∨ ∃ w, f kv.2 = .ok w ∧ w.vals.length ≠ n) →
      ∃ e, copyArrays n f src acc = .error e := by
  intro src
  induction src with
  | nil => intro acc h; simp at h
  | cons a src ih =>
    obtain ⟨a, v⟩ := a
    intro acc h
    simp only [copyArrays]
    cases hf : f v with
    | error e => exact ⟨e, rfl⟩
    | ok w =>
      simp only [setArray]
      by_cases hw : w.vals.length = n
      · simp only [hw, if_true]
        apply ih
        obtain ⟨kv, hkv, hh⟩ := h
        rcases List.mem_cons.1 hkv with rfl | hkv
        · rcases hh with ⟨e, he⟩ | ⟨w', hw', hne⟩
          · simp only at he; rw [hf] at he; cases he
          · simp only at hw'; rw [hf] at hw'; cases hw'; exact absurd hw hne
        · exact ⟨kv, hkv, hh⟩
      · exact ⟨.valueError, by simp [hw]⟩

theorem tileRows_length {δ : Type _} (n : ℕ) (v : DArr δ) :
    (tileRows n v).vals.length = n * v.vals.length := by
  simp [tileRows]

theorem flatten_replicate_get {δ : Type _} (n : ℕ) (l : List δ) (c q r : ℕ) (hr : r < l.length)
    (hq : q < n) (hc : c = r + l.length * q) : (List.replicate n l).flatten[c]? = l[r]? := by
  subst hc
  induction n generalizing q with
  | zero => omega
  | succ n ih =>
    rw [List.replicate_succ, List.flatten_cons]
    cases q with
    | zero => rw [List.getElem?_append_left (by omega)]; simp
    | succ q =>
      rw [List.getElem?_append_right (by rw [Nat.mul_succ]; omega)]
      rw [show r + l.length * (q + 1) - l.length = r + l.length * q by rw [Nat.mul_succ]; omega]
      exact ih q (by omega)

end Gridder
