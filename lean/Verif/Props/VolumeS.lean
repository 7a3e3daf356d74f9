import Verif.Props.Surface

/-!
# C17: structured volume between two structured surfaces
-/

namespace Gridder
open Spec

variable {K : Type _} [Field K] {δ : Type _} [OfNat δ 0] [OfNat δ 32] [Inhabited δ]

/-- `axis` is the one axis along which the grid is flat; there is at least one cell along the
others. -/
def Spec.FlatAlong (d : Fin 3 → ℕ) (axis : Fin 3) : Prop :=
  d axis = 1 ∧ ∀ ax, ax ≠ axis → 2 ≤ d ax

/-- Arrays with one row per node (cell) and distinct names. -/
def Spec.Arrays (n : ℕ) (d : Dict String (DArr δ)) : Prop :=
  (∀ kv ∈ d, kv.2.vals.length = n) ∧ (d.map Prod.fst).Nodup

theorem flatAxis_eq {d : Ix} {axis : Fin 3} (h : FlatAlong d axis) :
    flatAxis d = axis ∧ dimOfShape d = 2 := by
  obtain ⟨h1, h2⟩ := h
  unfold flatAxis dimOfShape
  fin_cases axis
  · simp only [Fin.zero_eta, Fin.isValue] at h1 h2
    have := h2 1 (by decide); have := h2 2 (by decide)
    simp [h1, show d 1 ≠ 1 by omega, show d 2 ≠ 1 by omega]
  · simp only [Fin.mk_one, Fin.isValue] at h1 h2
    have := h2 0 (by decide); have := h2 2 (by decide)
    simp [h1, show d 0 ≠ 1 by omega, show d 2 ≠ 1 by omega]
  · simp only [Fin.reduceFinMk, Fin.isValue] at h1 h2
    have := h2 0 (by decide); have := h2 1 (by decide)
    simp [h1, show d 0 ≠ 1 by omega, show d 1 ≠ 1 by omega]

theorem count_update {d : Ix} {axis : Fin 3} (h : d axis = 1) (n : ℕ) :
    count (Function.update d axis n) = count d * n := by
  fin_cases axis <;> simp only [Fin.zero_eta, Fin.mk_one, Fin.reduceFinMk] at h <;>
    simp [count, h, Function.update] <;> ring

theorem inShape_update {d i : Ix} {axis : Fin 3} {n s : ℕ} (hi : InShape d i) (hs : s < n) :
    InShape (Function.update d axis n) (Function.update i axis s) := by
  intro ax
  by_cases h : ax = axis
  · subst h; simpa using hs
  · simpa [Function.update_of_ne h] using hi ax

theorem update_zero {d i : Ix} {axis : Fin 3} (h : d axis = 1) (hi : InShape d i) (s : ℕ) :
    Function.update (Function.update i axis s) axis 0 = i := by
  rw [Function.update_idem]
  have := hi axis
  rw [show (0 : ℕ) = i axis by omega]
  simp

/-- `repeat_structured_data` along a flat axis: row (i, s) is row i of the input. -/
theorem repeatStructured_ok {d : Ix} {axis : Fin 3} (hd : d axis = 1) (v : DArr δ)
    (hv : v.vals.length = count d) (n : ℕ) (hsq : ¬ (v.vector = true ∧ count d * n = 1)) :
    ∃ w, repeatStructured d v n axis = .ok w ∧ w.vector = v.vector ∧
      w.vals.length = count d * n ∧
      ∀ i s, InShape d i → s < n →
        w.vals[vtkId (Function.update d axis n) (Function.update i axis s)]? =
          v.vals[vtkId d i]? := by
  have hlen : (Arr3.repeatAxis ⟨d, fun i => v.vals.getD (flatF d i) default⟩ n axis).ravelF.length
      = count d * n := by
    rw [ravelF_length]
    simp only [Arr3.repeatAxis, hd, one_mul]
    exact count_update hd n
  refine ⟨⟨v.vector, (Arr3.repeatAxis ⟨d, fun i => v.vals.getD (flatF d i) default⟩ n axis).ravelF⟩,
    ?_, rfl, hlen, ?_⟩
  · simp only [repeatStructured, reshapeF, hv, sizeOfShape_eq, if_true]
    rw [hlen, if_neg]
    rintro ⟨h1, h2⟩
    exact hsq ⟨h2, h1⟩
  · intro i s hi hs
    have hin : InShape (Arr3.repeatAxis ⟨d, fun i => v.vals.getD (flatF d i) default⟩ n axis).d
        (Function.update i axis s) := by
      simp only [Arr3.repeatAxis, hd, one_mul]
      exact inShape_update hi hs
    have := ravelF_get _ hin
    simp only [Arr3.repeatAxis, hd, one_mul] at this ⊢
    rw [this]
    simp only [Function.update_self, Nat.div_eq_of_lt hs]
    rw [update_zero hd hi, flatF_eq, List.getD_eq_getElem?_getD,
      List.getElem?_eq_getElem (by rw [hv]; exact vtkId_lt hi)]
    simp

theorem cells_update {d : Ix} {axis : Fin 3} (h : FlatAlong d axis) {n : ℕ} (hn : 2 ≤ n) :
    cells (Function.update d axis n) = Function.update (cells d) axis (n - 1) := by
  funext ax
  by_cases hax : ax = axis
  · subst hax; simp [cells]; omega
  · simp [cells, Function.update_of_ne hax]

theorem cells_flat {d : Ix} {axis : Fin 3} (h : FlatAlong d axis) : cells d axis = 1 := by
  simp [cells, h.1]

/-- A totality lemma for `repeatStructured`, as a function of the array. -/
noncomputable def repeated (d : Ix) (n : ℕ) (axis : Fin 3) (v : DArr δ) : DArr δ :=
  ⟨v.vector, (Arr3.repeatAxis ⟨d, fun i => v.vals.getD (flatF d i) default⟩ n axis).ravelF⟩

theorem repeatStructured_repeated {d : Ix} {axis : Fin 3} (hd : d axis = 1) (v : DArr δ)
    (hv : v.vals.length = count d) (n : ℕ) (hsq : ¬ (v.vector = true ∧ count d * n = 1)) :
    repeatStructured d v n axis = .ok (repeated d n axis v) ∧
      (repeated d n axis v).vals.length = count d * n := by
  have hlen : (repeated d n axis v).vals.length = count d * n := by
    simp only [repeated]
    rw [ravelF_length]
    simp only [Arr3.repeatAxis, hd, one_mul]
    exact count_update hd n
  refine ⟨?_, hlen⟩
  simp only [repeatStructured, reshapeF, hv, sizeOfShape_eq, if_true]
  rw [if_neg]
  · rfl
  · rintro ⟨h1, h2⟩
    refine hsq ⟨h2, ?_⟩
    rw [← hlen]; exact h1

/-- Structured extrusion at given positions. -/
theorem volume_core [DecidableEq K] (volume : Arr3 (V3 K) → List K) (a b : SGrid K δ)
    (perc : List K) (axis : Fin 3)
    (hd : a.nodes.d = b.nodes.d) (hflat : FlatAlong a.nodes.d axis)
    (hpd : Arrays (count a.nodes.d) a.pointData) (hcd : Arrays (count (cells a.nodes.d)) a.cellData)
    (hperc : 2 ≤ perc.length)
    (hvec : (∀ kv ∈ a.cellData, kv.2.vector = false) ∨
      1 < count (cells a.nodes.d) * (perc.length - 1)) :
    ∃ M, generateVolumeStructured volume a b perc = .ok M ∧
      M.nodes.d = Function.update a.nodes.d axis perc.length ∧
      (∀ i s t, InShape a.nodes.d i → perc[s]? = some t →
        M.points[vtkId M.nodes.d (Function.update i axis s)]? =
          some (between t (a.nodes.get i) (b.nodes.get i))) ∧
      (∀ k v, Dict.get? a.pointData k = some v → ∃ w, Dict.get? M.pointData k = some w ∧
        w.vals.length = count M.nodes.d ∧
        ∀ i s, InShape a.nodes.d i → s < perc.length →
          w.vals[vtkId M.nodes.d (Function.update i axis s)]? = v.vals[vtkId a.nodes.d i]?) ∧
      (∀ k v, k ≠ "vtkGhostType" → Dict.get? a.cellData k = some v →
        ∃ w, Dict.get? M.cellData k = some w ∧
        w.vals.length = count (cells M.nodes.d) ∧
        ∀ i s, InShape (cells a.nodes.d) i → s < perc.length - 1 →
          w.vals[vtkId (cells M.nodes.d) (Function.update i axis s)]? =
            v.vals[vtkId (cells a.nodes.d) i]?) := by
  obtain ⟨hax, hdim⟩ := flatAxis_eq hflat
  have hd1 := hflat.1
  have hcpos : 4 ≤ count a.nodes.d := by
    have h2 := hflat.2
    unfold count
    fin_cases axis
    · simp only [Fin.zero_eta, Fin.isValue] at hd1 h2
      have := h2 1 (by decide); have := h2 2 (by decide); rw [hd1]; nlinarith
    · simp only [Fin.mk_one, Fin.isValue] at hd1 h2
      have := h2 0 (by decide); have := h2 2 (by decide); rw [hd1]; nlinarith
    · simp only [Fin.reduceFinMk, Fin.isValue] at hd1 h2
      have := h2 0 (by decide); have := h2 1 (by decide); rw [hd1]; nlinarith
  have hpsq : ∀ v : DArr δ, ¬ (v.vector = true ∧ count a.nodes.d * perc.length = 1) := by
    rintro v ⟨_, h⟩; nlinarith
  have hcsq : ∀ kv ∈ a.cellData,
      ¬ (kv.2.vector = true ∧ count (cells a.nodes.d) * (perc.length - 1) = 1) := by
    rintro kv hkv ⟨h1, h2⟩
    rcases hvec with h | h
    · rw [h kv hkv] at h1; cases h1
    · omega
  obtain ⟨pd', hpd', hpg⟩ := copyArrays_ok (count a.nodes.d * perc.length)
    (fun v => repeatStructured a.nodes.d v perc.length axis)
    (repeated a.nodes.d perc.length axis) a.pointData [] hpd.2
    (fun kv hkv => repeatStructured_repeated hd1 kv.2 (hpd.1 kv hkv) _ (hpsq _))
  obtain ⟨cd', hcd', hcg⟩ := copyArrays_ok (count (cells a.nodes.d) * (perc.length - 1))
    (fun v => repeatStructured (cells a.nodes.d) v (perc.length - 1) axis)
    (repeated (cells a.nodes.d) (perc.length - 1) axis) a.cellData [] hcd.2
    (fun kv hkv => repeatStructured_repeated (cells_flat hflat) kv.2 (hcd.1 kv hkv) _
      (hcsq kv hkv))
  have hnd : (volumeNodes perc a.nodes b.nodes).d =
      Function.update a.nodes.d axis perc.length := by
    simp [volumeNodes, hax]
  have hrun : generateVolumeStructured volume a b perc =
      .ok ⟨volumeNodes perc a.nodes b.nodes, pd',
        flagHidden (count (cells a.nodes.d) * (perc.length - 1))
          ((volume (volumeNodes perc a.nodes b.nodes)).map fun x => decide (x = 0)) cd'⟩ := by
    simp only [generateVolumeStructured]
    rw [if_neg (by simp [hd]), if_neg (by simp [hdim])]
    rw [sizeOfShape_eq, sizeOfShape_eq, cellShape_eq, hnd, hax, count_update hd1,
      cells_update hflat hperc, count_update (cells_flat hflat), hpd', cellShape_eq, hcd']
  refine ⟨_, hrun, hnd, ?_, ?_, ?_⟩
  · intro i s t hi ht
    have hs : s < perc.length := (List.getElem?_eq_some_iff.1 ht).1
    simp only [SGrid.points]
    rw [ravelF_get _ (by rw [hnd]; exact inShape_update hi hs)]
    simp only [volumeNodes, hax, Function.update_self]
    rw [update_zero hd1 hi, lerp_eq, List.getD_eq_getElem?_getD, ht]
    rfl
  · intro k v hv
    have hl := hpd.1 (k, v) (Dict.get?_mem hv)
    obtain ⟨w, hw, _, hwl, hwg⟩ := repeatStructured_ok hd1 v hl perc.length (hpsq v)
    have hw' := (repeatStructured_repeated hd1 v hl perc.length (hpsq v)).1
    rw [hw'] at hw; cases hw
    refine ⟨_, by simp only; rw [hpg k, hv], ?_, ?_⟩
    · simp only [hnd]; rw [hwl, count_update hd1]
    · intro i s hi hs
      simp only [hnd]; exact hwg i s hi hs
  · intro k v hk hv
    have hmem := Dict.get?_mem hv
    have hl := hcd.1 (k, v) hmem
    have hf := cells_flat hflat
    obtain ⟨w, hw, _, hwl, hwg⟩ := repeatStructured_ok hf v hl (perc.length - 1) (hcsq _ hmem)
    have hw' := (repeatStructured_repeated hf v hl (perc.length - 1) (hcsq _ hmem)).1
    rw [hw'] at hw; cases hw
    refine ⟨repeated (cells a.nodes.d) (perc.length - 1) axis v, ?_, ?_, ?_⟩
    · simp only [flagHidden]
      rw [Dict.get?_set, if_neg (Ne.symm hk), hcg k, hv]
    · simp only [hnd]; rw [hwl, cells_update hflat hperc, count_update hf]
    · intro i s hi hs
      simp only [hnd]
      rw [cells_update hflat hperc]
      exact hwg i s hi hs

/-- **C17 (partial).** Extruding a 2D structured grid (flat along any of the three axes) with an
integer resolution or explicit positions puts node i of sublayer s at fraction `t_s` between the two
surfaces, and every node and cell carries the data of the base node or cell below it.  Grids of
different shape or not two-dimensional are rejected.
Missing: vector cell data on a volume with one single cell, where the call raises
(`C17_single_cell_vector_refuted`). -/
theorem C17_structured_volume_partial (volume : Arr3 (V3 ℝ) → List ℝ) (a b : SGrid ℝ δ)
    (res : Resolution ℝ) (m : Option String) :
    (∀ axis perc, a.nodes.d = b.nodes.d → FlatAlong a.nodes.d axis →
      Arrays (count a.nodes.d) a.pointData → Arrays (count (cells a.nodes.d)) a.cellData →
      resolutionToPerc res m = .ok perc → 2 ≤ perc.length →
      ((∀ kv ∈ a.cellData, kv.2.vector = false) ∨
        1 < count (cells a.nodes.d) * (perc.length - 1)) →
      ∃ M, generateVolumeS volume a b res m = .ok M ∧
        M.nodes.d = Function.update a.nodes.d axis perc.length ∧
        (∀ i s t, InShape a.nodes.d i → perc[s]? = some t →
          M.points[vtkId M.nodes.d (Function.update i axis s)]? =
            some (between t (a.nodes.get i) (b.nodes.get i))) ∧
        (∀ k v, Dict.get? a.pointData k = some v → ∃ w, Dict.get? M.pointData k = some w ∧
          w.vals.length = count M.nodes.d ∧
          ∀ i s, InShape a.nodes.d i → s < perc.length →
            w.vals[vtkId M.nodes.d (Function.update i axis s)]? = v.vals[vtkId a.nodes.d i]?) ∧
        (∀ k v, k ≠ "vtkGhostType" → Dict.get? a.cellData k = some v →
          ∃ w, Dict.get? M.cellData k = some w ∧
          w.vals.length = count (cells M.nodes.d) ∧
          ∀ i s, InShape (cells a.nodes.d) i → s < perc.length - 1 →
            w.vals[vtkId (cells M.nodes.d) (Function.update i axis s)]? =
              v.vals[vtkId (cells a.nodes.d) i]?)) ∧
    (a.nodes.d ≠ b.nodes.d → generateVolumeS volume a b res m = .error .valueError) ∧
    ((∀ ax, 1 ≤ a.nodes.d ax) → (∀ axis, ¬ FlatAlong a.nodes.d axis) →
      ∃ e, generateVolumeS volume a b res m = .error e) := by
  refine ⟨?_, ?_, ?_⟩
  · intro axis perc hd hflat hpd hcd hperc h2 hvec
    obtain ⟨M, hM, h⟩ := volume_core volume a b perc axis hd hflat hpd hcd h2 hvec
    refine ⟨M, ?_, h⟩
    simp only [generateVolumeS]
    rw [if_neg (by simp [hd]), if_neg (by simp [(flatAxis_eq hflat).2]), hperc]
    exact hM
  · intro h
    simp [generateVolumeS, h]
  · intro h1 hno
    simp only [generateVolumeS]
    split
    · exact ⟨_, rfl⟩
    split
    · exact ⟨_, rfl⟩
    · rename_i hdim
      exfalso
      simp only [not_not] at hdim
      unfold dimOfShape at hdim
      have a0 := h1 0; have a1 := h1 1; have a2 := h1 2
      by_cases e0 : a.nodes.d 0 = 1 <;> by_cases e1 : a.nodes.d 1 = 1 <;>
        by_cases e2 : a.nodes.d 2 = 1 <;> simp [e0, e1, e2] at hdim
      · exact hno 0 ⟨e0, fun ax hax => by fin_cases ax <;> first | exact absurd rfl hax | (simp; omega)⟩
      · exact hno 1 ⟨e1, fun ax hax => by fin_cases ax <;> first | exact absurd rfl hax | (simp; omega)⟩
      · exact hno 2 ⟨e2, fun ax hax => by fin_cases ax <;> first | exact absurd rfl hax | (simp; omega)⟩

/-- Concrete case: a 3 x 1 x 2 grid is flat along axis 1 and has two cells. -/
example : FlatAlong ![3, 1, 2] 1 ∧ count (cells ![3, 1, 2]) = 2 ∧
    Arrays (δ := ℤ) 2 [("g", ⟨false, [7, 8]⟩)] := by
  refine ⟨⟨rfl, by decide⟩, by decide, by simp [Arrays]⟩

/-- A unit square as a structured grid with vector cell data. -/
def unitSquareVec : SGrid ℚ ℤ :=
  ⟨⟨![2, 2, 1], fun i => ![(i 0 : ℚ), (i 1 : ℚ), 0]⟩, [], [("v", ⟨true, [5]⟩)]⟩

/-- **C17 (refuted).** A one-cell surface with a vector cell array cannot be extruded by one
sublayer: `repeat_structured_data` squeezes the single row away. -/
theorem C17_single_cell_vector_refuted :
    FlatAlong unitSquareVec.nodes.d 2 ∧
    Arrays (count (cells unitSquareVec.nodes.d)) unitSquareVec.cellData ∧
    generateVolumeStructured (fun _ => [1]) unitSquareVec unitSquareVec [0, 1] =
      .error .valueError := by
  refine ⟨⟨rfl, by decide⟩, ⟨by decide, by decide⟩, by rfl⟩

end Gridder
