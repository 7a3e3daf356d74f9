import Verif.Lemmas.Extrude

/-!
# C20, C21, C24, C25: unstructured volumes
-/

namespace Gridder
open Spec

variable {K : Type _} [Field K] [LinearOrder K] {δ : Type _} [OfNat δ 0] [OfNat δ 32]

theorem extrudeCells_spec {nPoints : ℕ} {points : List (V3 K)} {invert : Bool} :
    ∀ {cells : List (ℕ × List ℕ)} {outs : List CellOut},
      extrudeCells nPoints points invert cells = .ok outs →
      outs.length = cells.length ∧ ∀ (c t : ℕ) (conn : List ℕ), cells[c]? = some (t, conn) →
        ∃ o, outs[c]? = some o ∧
          extrudeCell nPoints points invert (extrudedType t) conn = .ok o := by
  intro cells
  induction cells with
  | nil => intro outs h; simp only [extrudeCells] at h; cases h; simp
  | cons tc cells ih =>
    obtain ⟨t, conn⟩ := tc
    intro outs h
    simp only [extrudeCells] at h
    cases ho : extrudeCell nPoints points invert (extrudedType t) conn with
    | error e => rw [ho] at h; cases h
    | ok o =>
      rw [ho] at h
      simp only at h
      cases hr : extrudeCells nPoints points invert cells with
      | error e => rw [hr] at h; cases h
      | ok os =>
        rw [hr] at h
        simp only at h
        cases h
        obtain ⟨h1, h2⟩ := ih hr
        refine ⟨by simp [h1], ?_⟩
        intro c t' conn' hc
        cases c with
        | zero =>
          simp only [List.getElem?_cons_zero, Option.some.injEq, Prod.mk.injEq] at hc
          obtain ⟨rfl, rfl⟩ := hc
          exact ⟨o, rfl, ho⟩
        | succ c => simpa using h2 c t' conn' (by simpa using hc)

theorem readCells_layer {nPoints : ℕ} {points : List (V3 K)} {invert : Bool} (i : ℕ) :
    ∀ {cells : List (ℕ × List ℕ)} {outs : List CellOut},
      (∀ tc ∈ cells, extrudedType tc.1 ≠ -1 ∧ (tc.1 = 8 → tc.2.length = 4)) →
      extrudeCells nPoints points invert cells = .ok outs →
      ∃ cs, readCells (· == (42 : ℤ)) (outs.map (·.ctype)) (outs.map (fun o : CellOut => o.layer i)).flatten =
          some cs ∧ cs.length = cells.length ∧
        ∀ (c t : ℕ) (conn : List ℕ), cells[c]? = some (t, conn) → ∃ cell o, cs[c]? = some cell ∧
          outs[c]? = some o ∧ PrismOver invert nPoints i t conn o.ctype cell ∧
          readCell (o.ctype == 42) (o.layer i) = some (cell, []) := by
  intro cells
  induction cells with
  | nil => intro outs _ h; simp only [extrudeCells] at h; cases h; exact ⟨[], rfl, rfl, by simp⟩
  | cons tc cells ih =>
    obtain ⟨t, conn⟩ := tc
    intro outs hwf h
    simp only [extrudeCells] at h
    cases ho : extrudeCell nPoints points invert (extrudedType t) conn with
    | error e => rw [ho] at h; cases h
    | ok o =>
      rw [ho] at h
      simp only at h
      cases hr : extrudeCells nPoints points invert cells with
      | error e => rw [hr] at h; cases h
      | ok os =>
        rw [hr] at h
        simp only at h
        cases h
        obtain ⟨cs, h1, h2, h3⟩ := ih (fun tc htc => hwf tc (List.mem_cons_of_mem _ htc)) hr
        obtain ⟨cell, g1, g2⟩ := extrudeCell_spec (hwf (t, conn) (by simp)).1
          (hwf (t, conn) (by simp)).2 ho i
        refine ⟨cell :: cs, ?_, by simp [h2], ?_⟩
        · simp only [List.map_cons, List.flatten_cons]
          exact readCells_append _ [_] _ [cell] _ _ _ (readCells_one _ _ _ _ g1) h1
        · intro c t' conn' hc
          cases c with
          | zero =>
            simp only [List.getElem?_cons_zero, Option.some.injEq, Prod.mk.injEq] at hc
            obtain ⟨rfl, rfl⟩ := hc
            exact ⟨cell, o, rfl, rfl, g2, g1⟩
          | succ c => simpa using h3 c t' conn' (by simpa using hc)

theorem readCells_layers {τ : Type _} (p : τ → Bool) (ts : List τ) (blocks : ℕ → List ℕ)
    (cs : ℕ → List Cell) (h : ∀ i, readCells p ts (blocks i) = some (cs i)) : ∀ is : List ℕ,
    readCells p (List.replicate is.length ts).flatten (is.map blocks).flatten =
      some (is.map cs).flatten
  | [] => rfl
  | i :: is => by
    simp only [List.length_cons, List.replicate_succ, List.flatten_cons, List.map_cons]
    exact readCells_append _ _ _ _ _ _ _ (h i) (readCells_layers p ts blocks cs h is)

theorem layerPoints_length (perc : List K) (a b : List (V3 K)) (h : a.length = b.length) :
    (layerPoints perc a b).length = perc.length * a.length := by
  unfold layerPoints
  rw [List.length_flatten, List.map_map]
  rw [show (List.length ∘ fun t : K => List.zipWith (lerp t) a b) = fun _ => a.length by
    funext t; simp [h]]
  simp

theorem layerPoints_get (perc : List K) (a b : List (V3 K)) (h : a.length = b.length)
    {k j : ℕ} {t : K} {pa pb : V3 K} (hk : perc[k]? = some t) (ha : a[j]? = some pa)
    (hb : b[j]? = some pb) :
    (layerPoints perc a b)[k * a.length + j]? = some (between t pa pb) := by
  unfold layerPoints
  have hj := (List.getElem?_eq_some_iff.1 ha).1
  rw [show k * a.length + j = j + a.length * k by ring,
    flatten_get a.length j k hj _ (List.zipWith (lerp t) a b)]
  · rw [List.getElem?_zipWith, ha, hb]; simp [lerp_eq]
  · intro l hl
    obtain ⟨t, _, rfl⟩ := List.mem_map.1 hl
    simp [h]
  · rw [List.getElem?_map, hk]; rfl

/-- What is known when the extrusion succeeds. -/
theorem generateVolumeUnstructured_inv {invert : Bool} {a b : UGrid K δ} {perc : List K}
    {M : VolumeOut K δ} {after : List (ℕ × List ℕ)}
    (h : generateVolumeUnstructured invert a b perc = .ok (M, after)) :
    a.points.length = b.points.length ∧ (∀ c ∈ a.cells, extrudedType c.1 ≠ -1) ∧
    2 ≤ perc.length ∧ ∃ outs,
      extrudeCells a.points.length (layerPoints perc a.points b.points) invert a.cells = .ok outs ∧
      M.points = layerPoints perc a.points b.points ∧
      M.cells = ((List.range (perc.length - 1)).map fun i =>
        (outs.map fun o => o.layer i).flatten).flatten ∧
      M.celltypes = (List.replicate (perc.length - 1) (outs.map (·.ctype))).flatten ∧
      after = (a.cells.zip outs).map (fun co => (co.1.1, co.2.conn)) ∧
      copyArrays M.points.length (fun v => .ok (tileRows perc.length v)) a.pointData [] =
        .ok M.pointData ∧
      ∃ cd, copyArrays M.celltypes.length (fun v => .ok (tileRows (perc.length - 1) v))
        a.cellData [] = .ok cd ∧
        M.cellData = flagHidden M.celltypes.length
          (List.replicate (perc.length - 1) (outs.map (·.collapsed))).flatten cd := by
  unfold generateVolumeUnstructured at h
  split at h
  · cases h
  rename_i h1
  split at h
  · cases h
  rename_i h2
  split at h
  · cases h
  · cases h
  simp only at h
  split at h
  · cases h
  rename_i h4
  split at h
  · cases h
  rename_i outs houts
  split at h
  · cases h
  rename_i pd hpd
  split at h
  · cases h
  rename_i cd hcd
  simp only [Except.ok.injEq, Prod.mk.injEq] at h
  obtain ⟨rfl, rfl⟩ := h
  refine ⟨not_not.1 h1, ?_, by omega, outs, houts, rfl, rfl, rfl, rfl, hpd, cd, hcd, rfl⟩
  intro c hc
  simp only [not_not] at h2
  simpa using List.all_eq_true.1 h2 c hc

theorem celltypes_length {n : ℕ} {outs : List CellOut} :
    (List.replicate n (outs.map (·.ctype))).flatten.length = n * outs.length := by simp

/-- Rows of tiled data. -/
theorem tileRows_get {δ : Type _} (n : ℕ) (v : DArr δ) {k j : ℕ} (hk : k < n)
    (hj : j < v.vals.length) : (tileRows n v).vals[k * v.vals.length + j]? = v.vals[j]? := by
  unfold tileRows
  exact flatten_replicate_get n v.vals _ k j hj hk (by ring)

namespace Spec

/-- A surface whose cells refer to its own points, pixels having four nodes, with one data row per
point or cell. -/
structure ValidSurface {δ : Type*} (a : UGrid K δ) : Prop where
  ids : ∀ tc ∈ a.cells, ∀ x ∈ tc.2, x < a.points.length
  pixel : ∀ tc ∈ a.cells, tc.1 = 8 → tc.2.length = 4
  pointData : Arrays a.points.length a.pointData
  cellData : Arrays a.cells.length a.cellData

/-- `M` is the extrusion of the surface with points `pa` and cells `base` towards points `pb` over the
sublayers at positions `perc`. -/
structure Extrusion {δ : Type*} (flip : Bool) (a b : UGrid K δ) (perc : List K)
    (M : VolumeOut K δ) (L : List Cell) : Prop where
  read : readCells (· == 42) M.celltypes M.cells = some L
  nPoints : M.points.length = perc.length * a.points.length
  nCells : L.length = (perc.length - 1) * a.cells.length
  nTypes : M.celltypes.length = (perc.length - 1) * a.cells.length
  point : ∀ (k j : ℕ) t pa pb, perc[k]? = some t → a.points[j]? = some pa → b.points[j]? = some pb →
    M.points[k * a.points.length + j]? = some (between t pa pb)
  cell : ∀ (k c t : ℕ) conn, k < perc.length - 1 → a.cells[c]? = some (t, conn) →
    ∃ cell t', L[k * a.cells.length + c]? = some cell ∧
      M.celltypes[k * a.cells.length + c]? = some t' ∧
      PrismOver flip a.points.length k t conn t' cell ∧
      ∀ id ∈ cell.ids, id < M.points.length
  pointData : ∀ key v, Dict.get? a.pointData key = some v → ∃ w, Dict.get? M.pointData key = some w ∧
    w.vals.length = M.points.length ∧ ∀ k j, k < perc.length → j < a.points.length →
      w.vals[k * a.points.length + j]? = v.vals[j]?
  cellData : ∀ key v, key ≠ "vtkGhostType" → Dict.get? a.cellData key = some v →
    ∃ w, Dict.get? M.cellData key = some w ∧ w.vals.length = L.length ∧
      ∀ k c, k < perc.length - 1 → c < a.cells.length →
        w.vals[k * a.cells.length + c]? = v.vals[c]?

end Spec

theorem prismOver_ids {flip : Bool} {N k n t : ℕ} {conn : List ℕ} {t' : ℤ} {cell : Cell}
    (h : PrismOver flip N k t conn t' cell) (hids : ∀ x ∈ conn, x < N) (hk : k + 1 < n) :
    ∀ id ∈ cell.ids, id < n * N := by
  have le : (k + 2) * N ≤ n * N := Nat.mul_le_mul_right N hk
  have e1 : (k + 2) * N = k * N + N + N := by ring
  have e2 : (k + 1) * N = k * N + N := by ring
  have sh : ∀ f : List ℕ, (∀ x ∈ f, x < N) → ∀ id ∈ shift (k * N) f ++ shift ((k + 1) * N) f,
      id < n * N := by
    intro f hf id hid
    simp only [shift, List.mem_append, List.mem_map] at hid
    rcases hid with ⟨x, hx, rfl⟩ | ⟨x, hx, rfl⟩ <;> have := hf x hx <;> omega
  rcases h with ⟨_, rfl⟩ | ⟨_, _, a, b, c, d, rfl, rfl⟩ | ⟨_, _, f, hf, rfl⟩
  · exact sh conn hids
  · apply sh
    intro x hx
    apply hids
    simp only [List.mem_cons, List.not_mem_nil, or_false] at hx ⊢
    tauto
  · have hf' : ∀ x ∈ f, x < N := by
      rcases hf with rfl | ⟨_, rfl⟩
      · exact hids
      · intro x hx; exact hids x (List.mem_reverse.1 hx)
    intro id hid
    simp only [Cell.ids, prismFaces, List.flatten_cons, List.mem_append] at hid
    rcases hid with hid | hid | hid
    · exact sh f hf' id (List.mem_append_left _ hid)
    · refine sh f hf' id (List.mem_append_right _ ?_)
      cases flip
      · simpa using hid
      · simpa [shift] using hid
    · simp only [List.mem_flatten, List.mem_map, Prod.exists] at hid
      obtain ⟨_, ⟨u, v, huv, rfl⟩, hid⟩ := hid
      have := hf' u (edges_mem huv).1
      have := hf' v (edges_mem huv).2
      simp only [List.mem_cons, List.not_mem_nil, or_false] at hid
      omega

/-- Copying and tiling all arrays succeeds. -/
theorem tileCopy {δ : Type _} (n m : ℕ) (src : Dict String (DArr δ)) (h : Arrays m src) :
    ∃ out, copyArrays (n * m) (fun v => .ok (tileRows n v)) src [] = .ok out ∧
      ∀ k, Dict.get? out k = (Dict.get? src k).map (tileRows n) := by
  obtain ⟨out, h1, h2⟩ := copyArrays_ok (n * m)
    (fun v : DArr δ => (.ok (tileRows n v) : Py (DArr δ))) (tileRows n) src [] h.2
    (fun kv hkv => ⟨rfl, by rw [tileRows_length, h.1 kv hkv]⟩)
  refine ⟨out, h1, fun k => ?_⟩
  rw [h2]
  cases Dict.get? src k <;> rfl

/-- C20 for any ordered field, given the positions; also which cell of the loop each one is. -/
theorem extrusion_of_ok_full {invert : Bool} {a b : UGrid K δ} {perc : List K} {M : VolumeOut K δ}
    {after : List (ℕ × List ℕ)} (hv : ValidSurface a)
    (h : generateVolumeUnstructured invert a b perc = .ok (M, after)) :
    ∃ L, Extrusion invert a b perc M L ∧
      ∀ (k c t : ℕ) (conn : List ℕ), k < perc.length - 1 → a.cells[c]? = some (t, conn) →
        ∃ cell o, L[k * a.cells.length + c]? = some cell ∧
          extrudeCell a.points.length (layerPoints perc a.points b.points) invert (extrudedType t)
            conn = .ok o ∧ readCell (o.ctype == 42) (o.layer k) = some (cell, []) := by
  obtain ⟨hlen, hty, h2, outs, houts, hp, hc, ht, _, hpd, cd, hcd, hM⟩ :=
    generateVolumeUnstructured_inv h
  have hwf : ∀ tc ∈ a.cells, extrudedType tc.1 ≠ -1 ∧ (tc.1 = 8 → tc.2.length = 4) :=
    fun tc htc => ⟨hty tc htc, hv.pixel tc htc⟩
  obtain ⟨hol, hog⟩ := extrudeCells_spec houts
  choose cs r1 r2 r3 using fun i => readCells_layer (K := K) (invert := invert) i hwf houts
  have hpl : M.points.length = perc.length * a.points.length := by
    rw [hp, layerPoints_length _ _ _ hlen]
  have htl : M.celltypes.length = (perc.length - 1) * a.cells.length := by
    rw [ht, celltypes_length, hol]
  have hLl : ((List.range (perc.length - 1)).map cs).flatten.length =
      (perc.length - 1) * a.cells.length := by
    rw [List.length_flatten, List.map_map,
      show (List.length ∘ cs) = fun _ => a.cells.length from funext r2]
    simp
  have hLget : ∀ k c cell, k < perc.length - 1 → c < a.cells.length → (cs k)[c]? = some cell →
      ((List.range (perc.length - 1)).map cs).flatten[k * a.cells.length + c]? = some cell := by
    intro k c cell hk hcl hcell
    rw [show k * a.cells.length + c = c + a.cells.length * k by ring,
      flatten_get a.cells.length c k hcl _ (cs k)]
    · exact hcell
    · intro l hl
      obtain ⟨i, _, rfl⟩ := List.mem_map.1 hl
      exact r2 i
    · rw [List.getElem?_map, List.getElem?_range hk]; rfl
  refine ⟨((List.range (perc.length - 1)).map cs).flatten, ⟨?_, hpl, hLl, htl, ?_, ?_, ?_, ?_⟩, ?_⟩
  · rw [ht, hc]
    have := readCells_layers (· == (42 : ℤ)) (outs.map (·.ctype)) _ cs r1
      (List.range (perc.length - 1))
    simpa using this
  · intro k j t pa pb hk ha hb
    rw [hp]
    exact layerPoints_get perc _ _ hlen hk ha hb
  · intro k c t conn hk hcell
    have hcl := (List.getElem?_eq_some_iff.1 hcell).1
    obtain ⟨cell, o, e1, e2, e3, _⟩ := r3 k c t conn hcell
    refine ⟨cell, o.ctype, hLget k c cell hk hcl e1, ?_, e3, ?_⟩
    · rw [ht, flatten_replicate_get (perc.length - 1) _ _ k c (by simpa [hol] using hcl) hk
        (by simp [hol]; ring)]
      rw [List.getElem?_map, e2]; rfl
    · rw [hpl]
      exact prismOver_ids e3 (hv.ids _ (List.mem_of_getElem? hcell)) (by omega)
  · intro key v hkey
    rw [hpl] at hpd
    obtain ⟨out, o1, o2⟩ := tileCopy perc.length a.points.length a.pointData hv.pointData
    rw [o1] at hpd
    simp only [Except.ok.injEq] at hpd
    have hl := hv.pointData.1 _ (Dict.get?_mem hkey)
    simp only at hl
    refine ⟨tileRows perc.length v, by rw [← hpd, o2, hkey]; rfl, ?_, ?_⟩
    · rw [tileRows_length, hl, hpl]
    · intro k j hk hj
      have := tileRows_get perc.length v hk (by rw [hl]; exact hj)
      rwa [hl] at this
  · intro key v hne hkey
    rw [htl] at hcd
    obtain ⟨out, o1, o2⟩ := tileCopy (perc.length - 1) a.cells.length a.cellData hv.cellData
    rw [o1] at hcd
    simp only [Except.ok.injEq] at hcd
    have hl := hv.cellData.1 _ (Dict.get?_mem hkey)
    simp only at hl
    refine ⟨tileRows (perc.length - 1) v, ?_, ?_, ?_⟩
    · rw [hM, ← hcd]
      simp only [flagHidden]
      rw [Dict.get?_set, if_neg (Ne.symm hne), o2, hkey]; rfl
    · rw [tileRows_length, hl, hLl]
    · intro k j hk hj
      have := tileRows_get (perc.length - 1) v hk (by rw [hl]; exact hj)
      rwa [hl] at this
  · intro k c t conn hk hcell
    have hcl := (List.getElem?_eq_some_iff.1 hcell).1
    obtain ⟨cell, o, e1, e2, _, e4⟩ := r3 k c t conn hcell
    obtain ⟨o', ho', he'⟩ := hog c t conn hcell
    rw [e2] at ho'; cases ho'
    exact ⟨cell, o, hLget k c cell hk hcl e1, he', e4⟩

theorem extrusion_of_ok {invert : Bool} {a b : UGrid K δ} {perc : List K} {M : VolumeOut K δ}
    {after : List (ℕ × List ℕ)} (hv : ValidSurface a)
    (h : generateVolumeUnstructured invert a b perc = .ok (M, after)) :
    ∃ L, Extrusion invert a b perc M L := by
  obtain ⟨L, hL, _⟩ := extrusion_of_ok_full hv h
  exact ⟨L, hL⟩

theorem celltypesMatch_self (l : List ℕ) : celltypesMatch l l = .ok true := by
  simp [celltypesMatch]

theorem extrudedType_iff {t : ℕ} : extrudedType t ≠ -1 ↔ t = 5 ∨ t = 7 ∨ t = 8 ∨ t = 9 := by
  refine ⟨extrudedType_ne, ?_⟩
  rintro (rfl | rfl | rfl | rfl) <;> decide

/-- The loop over cells succeeds. -/
theorem extrudeCells_ok {nPoints : ℕ} {points : List (V3 K)} {invert : Bool} :
    ∀ {cells : List (ℕ × List ℕ)},
      (∀ tc ∈ cells, tc.1 = 8 → tc.2.length = 4) →
      (invert = true → ∀ tc ∈ cells, tc.1 = 7 → 3 ≤ tc.2.length) →
      (∀ tc ∈ cells, extrudedType tc.1 ≠ -1) →
      ∃ outs, extrudeCells nPoints points invert cells = .ok outs := by
  intro cells
  induction cells with
  | nil => intro _ _ _; exact ⟨[], rfl⟩
  | cons tc cells ih =>
    obtain ⟨t, conn⟩ := tc
    intro h8 h7 hty
    obtain ⟨os, hos⟩ := ih (fun tc h => h8 tc (List.mem_cons_of_mem _ h))
      (fun hi tc h => h7 hi tc (List.mem_cons_of_mem _ h))
      (fun tc h => hty tc (List.mem_cons_of_mem _ h))
    have : ∃ o, extrudeCell nPoints points invert (extrudedType t) conn = .ok o := by
      rcases extrudedType_ne (hty (t, conn) (by simp)) with rfl | rfl | rfl | rfl
      · rw [show extrudedType 5 = 13 by decide]
        simp only [extrudeCell]
        rw [if_neg (by decide), if_neg (by decide)]
        exact ⟨_, rfl⟩
      · rw [show extrudedType 7 = 42 by decide]
        simp only [extrudeCell]
        rw [if_neg (by decide), if_pos (by decide)]
        cases invert with
        | false => exact ⟨_, rfl⟩
        | true =>
          have h3 := h7 rfl (7, conn) (by simp) rfl
          match conn, h3 with
          | x :: y :: z :: l, _ => exact ⟨_, rfl⟩
      · rw [show extrudedType 8 = 11 by decide]
        simp only [extrudeCell]
        rw [if_pos (by decide)]
        have h4 := h8 (8, conn) (by simp) rfl
        match conn, h4 with
        | [x, y, z, w], _ => exact ⟨_, rfl⟩
      · rw [show extrudedType 9 = 12 by decide]
        simp only [extrudeCell]
        rw [if_neg (by decide), if_neg (by decide)]
        exact ⟨_, rfl⟩
    obtain ⟨o, ho⟩ := this
    exact ⟨o :: os, by simp only [extrudeCells, ho, hos]⟩

/-- The extrusion succeeds. -/
theorem generateVolumeUnstructured_ok {invert : Bool} {a b : UGrid K δ} {perc : List K}
    (hv : ValidSurface a) (hlen : a.points.length = b.points.length)
    (hty : ∀ tc ∈ a.cells, extrudedType tc.1 ≠ -1)
    (heq : a.cells.map Prod.fst = b.cells.map Prod.fst) (h2 : 2 ≤ perc.length)
    (h3 : invert = true → ∀ tc ∈ a.cells, tc.1 = 7 → 3 ≤ tc.2.length) :
    ∃ M after, generateVolumeUnstructured invert a b perc = .ok (M, after) := by
  obtain ⟨outs, houts⟩ := extrudeCells_ok (nPoints := a.points.length)
    (points := layerPoints perc a.points b.points) hv.pixel h3 hty
  obtain ⟨hol, _⟩ := extrudeCells_spec houts
  obtain ⟨pd, p1, _⟩ := tileCopy perc.length a.points.length a.pointData hv.pointData
  obtain ⟨cd, c1, _⟩ := tileCopy (perc.length - 1) a.cells.length a.cellData hv.cellData
  unfold generateVolumeUnstructured
  rw [if_neg (by simp [hlen]), if_neg (by simpa using hty), ← heq, celltypesMatch_self]
  simp only
  rw [if_neg (by omega), houts]
  simp only
  rw [layerPoints_length _ _ _ hlen, p1]
  simp only [celltypes_length, hol, c1]
  exact ⟨_, _, rfl⟩

/-- **C20.** Extruding an unstructured surface of triangles, quads, pixels and polygons gives, layer
by layer, the prism over each base cell between the two copies of its nodes (read back from the flat
cell array as VTK does), with points at the requested fractions and data copied from the base. -/
theorem C20_unstructured_extrusion (invert : Bool) (a b : UGrid ℝ δ) (res : Resolution ℝ)
    (m : Option String) (perc : List ℝ) (hv : ValidSurface a)
    (hlen : a.points.length = b.points.length)
    (hty : ∀ tc ∈ a.cells, tc.1 = 5 ∨ tc.1 = 7 ∨ tc.1 = 8 ∨ tc.1 = 9)
    (heq : a.cells.map Prod.fst = b.cells.map Prod.fst)
    (hperc : resolutionToPerc res m = .ok perc) (h2 : 2 ≤ perc.length)
    (h3 : ∀ tc ∈ a.cells, tc.1 = 7 → 3 ≤ tc.2.length) :
    ∃ M after L, generateVolumeU invert a b res m = .ok (M, after) ∧
      Extrusion invert a b perc M L := by
  have hty' : ∀ tc ∈ a.cells, extrudedType tc.1 ≠ -1 := fun tc h => extrudedType_iff.2 (hty tc h)
  obtain ⟨M, after, hM⟩ := generateVolumeUnstructured_ok (invert := invert) hv hlen hty' heq h2
    (fun _ => h3)
  obtain ⟨L, hL⟩ := extrusion_of_ok hv hM
  refine ⟨M, after, L, ?_, hL⟩
  unfold generateVolumeU
  rw [if_neg (by simp [hlen]), if_neg (by simpa using hty'), ← heq, celltypesMatch_self]
  simp only [hperc]
  exact hM

/-- A triangle and a pentagon sharing an edge, with cell data. -/
def sampleSurface (z : ℚ) : UGrid ℚ ℤ :=
  ⟨[![0, 0, z], ![1, 0, z], ![1, 1, z], ![0, 1, z], ![2, 0, z], ![3, 1, z], ![2, 2, z]],
    [(5, [0, 1, 3]), (7, [1, 4, 5, 6, 2])], [], [("g", ⟨false, [7, 8]⟩)]⟩

/-- Concrete case: two sublayers; the last cell is the polyhedron over the pentagon (reversed, so
that its base points down) in the second sublayer. -/
example : ValidSurface (sampleSurface 0) ∧
    ((generateVolumeUnstructured true (sampleSurface 0) (sampleSurface 1) [0, 1/2, 1]).toOption.bind
      fun r => (readCells (· == 42) r.1.celltypes r.1.cells).map fun L =>
        (r.1.celltypes, L.length, L[3]?)) =
    some ([13, 42, 13, 42], 4, some (.polyhedron [[9, 13, 12, 11, 8], [15, 18, 19, 20, 16],
      [16, 20, 13, 9], [20, 19, 12, 13], [19, 18, 11, 12], [18, 15, 8, 11], [15, 16, 9, 8]])) := by
  refine ⟨⟨by decide, by decide, ⟨by decide, by decide⟩, ⟨by decide, by decide⟩⟩, by decide +kernel⟩

/-- **C21.** Every polyhedron extruded from a polygon with distinct vertices is closed; with the
default options it is also consistently oriented: each directed edge is in one face and its reverse
in one other face. -/
theorem C21_polyhedra_closed (invert : Bool) (a b : UGrid K δ) (perc : List K) (M : VolumeOut K δ)
    (after : List (ℕ × List ℕ)) (hv : ValidSurface a)
    (h : generateVolumeUnstructured invert a b perc = .ok (M, after))
    (k c : ℕ) (conn : List ℕ) (hk : k < perc.length - 1) (hc : a.cells[c]? = some (7, conn))
    (hnd : conn.Nodup) (h3 : 3 ≤ conn.length) :
    ∃ L faces, readCells (· == 42) M.celltypes M.cells = some L ∧
      L[k * a.cells.length + c]? = some (.polyhedron faces) ∧
      (invert = true → ClosedOriented faces) ∧ Closed faces := by
  obtain ⟨L, hL⟩ := extrusion_of_ok hv h
  obtain ⟨cell, t', h1, h2, hp, _⟩ := hL.cell k c 7 conn hk hc
  rcases hp with ⟨h, _⟩ | ⟨h, _⟩ | ⟨_, _, f, hf, rfl⟩
  · omega
  · omega
  have hids := hv.ids _ (List.mem_of_getElem? hc)
  have hf' : f.Nodup ∧ 3 ≤ f.length ∧ ∀ x ∈ f, x < a.points.length := by
    rcases hf with rfl | ⟨_, rfl⟩
    · exact ⟨hnd, h3, hids⟩
    · exact ⟨List.nodup_reverse.2 hnd, by simpa using h3, fun x hx => hids x (List.mem_reverse.1 hx)⟩
  have hab : k * a.points.length + a.points.length ≤ (k + 1) * a.points.length := by
    rw [Nat.add_mul]; omega
  refine ⟨L, _, hL.read, h1, ?_, ?_⟩
  · rintro rfl
    exact prism_closedOriented hf'.1 hf'.2.1 hf'.2.2 hab
  · cases invert
    · exact prism_closed hf'.1 hf'.2.1 hf'.2.2 hab
    · intro u v huv
      obtain ⟨e1, e2, _⟩ := prism_closedOriented hf'.1 hf'.2.1 hf'.2.2 hab u v huv
      omega

/-- **C24 (partial).** The input surfaces keep their connectivity when the faces are not inverted,
and in general for every cell that is not a polygon and every polygon whose base already points away
from the top at its first three vertices.
Missing: the other polygons, whose connectivity is reversed in place (`C24_polygon_refuted`). -/
theorem C24_inputs_unchanged_partial (invert : Bool) (a b : UGrid K δ) (perc : List K)
    (M : VolumeOut K δ) (after : List (ℕ × List ℕ)) (hv : ValidSurface a)
    (h : generateVolumeUnstructured invert a b perc = .ok (M, after)) :
    after.length = a.cells.length ∧
    (∀ (c t : ℕ) (conn : List ℕ), a.cells[c]? = some (t, conn) →
      after[c]? = some (t, conn) ∨
      (invert = true ∧ t = 7 ∧ after[c]? = some (t, conn.reverse) ∧
        ∃ x y z rest p, conn = x :: y :: z :: rest ∧ M.points[a.points.length + x]? = some p ∧
          0 ≤ triple (pt M.points y - pt M.points x) (pt M.points z - pt M.points x)
            (p - pt M.points x))) ∧
    (invert = false → after = a.cells) ∧ ((∀ tc ∈ a.cells, tc.1 ≠ 7) → after = a.cells) := by
  obtain ⟨hlen, hty, h2, outs, houts, hp, hc, ht, haf, _⟩ := generateVolumeUnstructured_inv h
  obtain ⟨hol, hog⟩ := extrudeCells_spec houts
  have hal : after.length = a.cells.length := by rw [haf]; simp [hol]
  have main : ∀ (c t : ℕ) (conn : List ℕ), a.cells[c]? = some (t, conn) →
      after[c]? = some (t, conn) ∨
      (invert = true ∧ t = 7 ∧ after[c]? = some (t, conn.reverse) ∧
        ∃ x y z rest p, conn = x :: y :: z :: rest ∧ M.points[a.points.length + x]? = some p ∧
          0 ≤ triple (pt M.points y - pt M.points x) (pt M.points z - pt M.points x)
            (p - pt M.points x)) := by
    intro c t conn hcell
    obtain ⟨o, ho, he⟩ := hog c t conn hcell
    have haft : after[c]? = some (t, o.conn) := by
      rw [haf, List.getElem?_map, (List.getElem?_zip_eq_some (z := ((t, conn), o))).2 ⟨hcell, ho⟩]
      rfl
    rw [haft]
    rcases extrudedType_ne (hty _ (List.mem_of_getElem? hcell)) with h | h | h | h <;>
      simp only at h <;> subst h
    · rw [show extrudedType 5 = 13 by decide] at he
      simp only [extrudeCell] at he
      rw [if_neg (by decide), if_neg (by decide)] at he
      cases he; exact .inl rfl
    · rw [show extrudedType 7 = 42 by decide] at he
      simp only [extrudeCell] at he
      rw [if_neg (by decide), if_pos (by decide)] at he
      cases invert with
      | false => simp only [Bool.false_eq_true, if_false] at he; cases he; exact .inl rfl
      | true =>
        simp only [if_true] at he
        cases hr : needsReverse (layerPoints perc a.points b.points) conn
            (conn.map (· + a.points.length)) with
        | error e => rw [hr] at he; cases he
        | ok rev =>
          rw [hr] at he
          simp only at he
          cases he
          cases rev with
          | false => exact .inl rfl
          | true =>
            refine .inr ⟨rfl, rfl, rfl, ?_⟩
            match conn, hr with
            | x :: y :: z :: rest, hr =>
              simp only [needsReverse, List.map_cons, Except.ok.injEq, decide_eq_true_eq] at hr
              have hx : x < a.points.length := hv.ids _ (List.mem_of_getElem? hcell) x (by simp)
              have hlt : a.points.length + x < M.points.length := by
                rw [hp, layerPoints_length _ _ _ hlen]
                have : 2 * a.points.length ≤ perc.length * a.points.length :=
                  Nat.mul_le_mul_right _ h2
                omega
              refine ⟨x, y, z, rest, M.points[a.points.length + x], rfl,
                List.getElem?_eq_getElem hlt, ?_⟩
              have e : M.points[a.points.length + x] = pt M.points (x + a.points.length) := by
                simp only [pt, Nat.add_comm x]
                rw [List.getD_eq_getElem?_getD, List.getElem?_eq_getElem hlt]; rfl
              rw [e, hp]
              exact hr
    · rw [show extrudedType 8 = 11 by decide] at he
      simp only [extrudeCell] at he
      rw [if_pos (by decide)] at he
      split at he
      · cases he; exact .inl rfl
      · cases he
    · rw [show extrudedType 9 = 12 by decide] at he
      simp only [extrudeCell] at he
      rw [if_neg (by decide), if_neg (by decide)] at he
      cases he; exact .inl rfl
  have all : (∀ (c t : ℕ) (conn : List ℕ), a.cells[c]? = some (t, conn) →
      after[c]? = some (t, conn)) → after = a.cells := by
    intro hh
    apply List.ext_getElem?
    intro c
    by_cases hcl : c < a.cells.length
    · rw [List.getElem?_eq_getElem hcl]
      exact hh c _ _ (List.getElem?_eq_getElem hcl)
    · rw [List.getElem?_eq_none (by omega), List.getElem?_eq_none (by omega)]
  refine ⟨hal, main, ?_, ?_⟩
  · rintro rfl
    refine all fun c t conn hcell => ?_
    rcases main c t conn hcell with h | ⟨h, _⟩
    · exact h
    · cases h
  · intro hno
    refine all fun c t conn hcell => ?_
    rcases main c t conn hcell with h | ⟨_, h, _⟩
    · exact h
    · exact absurd h (hno _ (List.mem_of_getElem? hcell))

/-- Concrete case: the sample surface has a triangle, which keeps its connectivity. -/
example : ((generateVolumeUnstructured false (sampleSurface 0) (sampleSurface 1) [0, 1]).toOption.map
    fun r => r.2) = some (sampleSurface 0).cells := by decide +kernel

/-- **C24 (refuted).** Extruding a pentagon upwards reverses its connectivity in the input surface. -/
theorem C24_polygon_refuted : ValidSurface (sampleSurface 0) ∧
    ((generateVolumeUnstructured true (sampleSurface 0) (sampleSurface 1) [0, 1]).toOption.map
      fun r => r.2) = some [(5, [0, 1, 3]), (7, [2, 6, 5, 4, 1])] ∧
    (sampleSurface 0).cells = [(5, [0, 1, 3]), (7, [1, 4, 5, 6, 2])] := by
  refine ⟨⟨by decide, by decide, ⟨by decide, by decide⟩, ⟨by decide, by decide⟩⟩, by decide +kernel,
    rfl⟩

end Gridder
