import Verif.Props.Areas
import Verif.Props.Well

/-!
# C148: the areas of the cells of the well
-/

namespace Gridder
open Spec

namespace Spec

/-- Twice the area of the polygon with its corners on a quarter of the circle of radius 1, at equal angles, and the centre. -/
noncomputable def quarterSines (w : WellNumbers) : ℝ := 2 * w.half * Real.sin (Real.pi / 2 / (2 * w.half))

/-- The groups and areas of the parts of a quarter of a well, in the order of the parts. -/
noncomputable def wellAreas (w : WellNumbers) : List (String × ℝ) :=
  (w.coreGroup, w.core ^ 2 / 2 * quarterSines w) ::
    w.rings.map (fun r => (r.2.2.2, (r.2.1 ^ 2 - r.1 ^ 2) / 2 * quarterSines w)) ++
    [(w.outerGroup, w.side ^ 2 - w.radius ^ 2 / 2 * quarterSines w), (w.outerGroup, w.width * w.side), (w.outerGroup, w.width * w.width),
      (w.outerGroup, w.side * w.width)]

end Spec

variable {δ : Type _} [OfNat δ 0] [OfNat δ 32]

theorem wellRings_areas {area : Arr3 (V3 ℝ) → List ℝ} {m : ℤ} (hm : 1 ≤ m) : ∀ (rings : List (ℝ × ℝ × ℤ × String))
    {parts : List WellPart}, wellRings δ area m rings = .ok parts →
    parts.map (fun p => (p.group, (p.cells.map flatArea).sum)) =
      rings.map fun r => (r.2.2.2, (r.2.1 ^ 2 - r.1 ^ 2) / 2 * (m * Real.sin (Real.pi / 2 / m)))
  | [], parts, h => by cases h; rfl
  | (ri, ro, nr, g) :: rest, parts, h => by
    simp only [wellRings] at h
    obtain ⟨M, hM, h⟩ := bind_ok.1 h
    obtain ⟨more, hmore, h⟩ := bind_ok.1 h
    cases h
    have hmax : max 1 m = m := by omega
    have hm' : (1 : ℝ) ≤ m := by exact_mod_cast hm
    obtain ⟨ts, h1, h2⟩ := C139_annularSector_sum (divides_int nr (Or.inl rfl)) (smallSteps_int (a := 0) (b := 90) (by norm_num)
      (n := m) (by rw [hmax]; linarith)) hM
    have e := (equal_sines (a := 0) (b := 90) (by norm_num) h1).1
    rw [hmax] at e
    simp only [List.map_cons, wellRings_areas hm rest hmore, gridPart, h2, e]
    rw [show Real.pi * (90 - 0) / 180 = Real.pi / 2 by ring]

/-- The areas of the parts of a quarter. -/
theorem wellQuarter_areas {area : Arr3 (V3 ℝ) → List ℝ} {w : WellNumbers} (hw : WellFits w) {parts : List WellPart}
    (h : wellQuarter δ area w = .ok parts) : parts.map (fun p => (p.group, (p.cells.map flatArea).sum)) = wellAreas w := by
  simp only [wellQuarter] at h
  obtain ⟨T, hT, h⟩ := bind_ok.1 h
  obtain ⟨rp, hrp, h⟩ := bind_ok.1 h
  obtain ⟨⟨A, B⟩, hAB, h⟩ := bind_ok.1 h
  obtain ⟨R1, h1, h⟩ := bind_ok.1 h
  obtain ⟨R2, h2, h⟩ := bind_ok.1 h
  obtain ⟨R3, h3, h⟩ := bind_ok.1 h
  cases h
  have hh : (1 : ℝ) ≤ w.half := by exact_mod_cast hw.half
  have hang : (w.angular : ℝ) = 2 * w.half := by rw [hw.angular]; push_cast; ring
  have hm1 : 1 ≤ w.angular := by have := hw.half; have := hw.angular; omega
  have hmax : max 1 w.angular = w.angular := by omega
  have hmax' : max 1 w.half = w.half := by have := hw.half; omega
  have hrad : 0 < w.radius := (C63_sectorRectangle_nodes hAB).1
  have rings := wellRings_areas hm1 _ hrp
  have d0 : ∀ n, DividesUnit (.int n) none := fun n => divides_int n (Or.inl rfl)
  obtain ⟨ts, t1, t2⟩ := C139_sector_sum (smallSteps_int (a := 0) (b := 90) (by norm_num) (n := w.angular) (by rw [hmax]; linarith)) hT
  have e := (equal_sines (a := 0) (b := 90) (by norm_num) t1).1
  rw [hmax, show Real.pi * (90 - 0) / 180 = Real.pi / 2 by ring] at e
  obtain ⟨us, u1, u2⟩ := C139_sectorRectangle (divides_int w.radial hw.method) (d0 w.half) rfl hAB
  have e' := (equal_sines (a := 0) (b := 45) (by norm_num) u1).1
  rw [hmax', show Real.pi * (45 - 0) / 180 / (w.half : ℝ) = Real.pi / 2 / (2 * w.half) by field_simp; ring] at e'
  have a1 := C139_rectangle (d0 w.across) (d0 w.along) h1
  have a2 := C139_rectangle (d0 w.across) (d0 w.across) h2
  have a3 := C139_rectangle (d0 w.along) (d0 w.across) h3
  have s0 : 0 < w.side := hrad.trans hw.side
  have w0 := hw.width
  rw [abs_of_pos (by positivity)] at a1 a2 a3
  have c1 : ((sectorPart T w.coreGroup).cells.map flatArea).sum = w.core ^ 2 / 2 * quarterSines w := by
    simp only [sectorPart, List.map_map, Function.comp_def]
    rw [t2, e, hang, quarterSines]
  have c2 : ((halvesPart A B w.outerGroup).cells.map flatArea).sum = w.side ^ 2 - w.radius ^ 2 / 2 * quarterSines w := by
    simp only [halvesPart, List.map_append, List.sum_append]
    rw [u2, e', quarterSines]
    ring
  rw [hang] at rings
  simp only [List.map_cons, List.map_append, List.map_nil, rings, wellAreas, c1, c2, List.cons_append, gridPart, a1, a2, a3]
  rfl

/-- The areas of the parts add up to the area of the quarter of the square. -/
theorem wellAreas_sum {w : WellNumbers} (hw : WellFits w) : ((wellAreas w).map Prod.snd).sum = (w.side + w.width) ^ 2 := by
  have rings : ∀ (l : List (ℝ × ℝ × ℤ × String)) {a b : ℝ} (S : ℝ), RingsFit a l b →
      ((l.map fun r => (r.2.2.2, (r.2.1 ^ 2 - r.1 ^ 2) / 2 * S)).map Prod.snd).sum = (b ^ 2 - a ^ 2) / 2 * S := by
    intro l
    induction l with
    | nil => rintro a b S rfl; simp
    | cons r rest ih =>
      rintro a b S ⟨rfl, _, h⟩
      rw [List.map_cons, List.map_cons, List.sum_cons, ih S h]
      ring
  simp only [wellAreas, List.map_cons, List.map_append, List.cons_append, List.sum_cons, List.sum_append, List.map_nil, List.sum_nil,
    rings _ _ hw.rings]
  ring

theorem turned_area (c : List (V3 ℝ)) : flatArea (c.map quarterTurn) = flatArea c := by
  have hc : ∀ i, cornerOf (c.map quarterTurn) i = quarterTurn (cornerOf c i) := by
    intro i
    rw [cornerOf, cornerOf, List.length_map, List.getD_eq_getElem?_getD, List.getD_eq_getElem?_getD, List.getElem?_map]
    cases c[i % c.length]? with
    | none => funext ax; fin_cases ax <;> simp [quarterTurn]
    | some x => rfl
  have h0 : doubleArea (c.map quarterTurn) 0 = - doubleArea c 1 := by
    simp only [doubleArea, hc, List.length_map, ← Finset.sum_neg_distrib]
    refine Finset.sum_congr rfl fun i _ => ?_
    change quarterTurn _ 1 * quarterTurn _ 2 - quarterTurn _ 2 * quarterTurn _ 1 = -(cornerOf c i 2 * cornerOf c (i + 1) 0 - cornerOf c i 0 * cornerOf c (i + 1) 2)
    simp [quarterTurn]
  have h1 : doubleArea (c.map quarterTurn) 1 = doubleArea c 0 := by
    simp only [doubleArea, hc, List.length_map]
    refine Finset.sum_congr rfl fun i _ => ?_
    change quarterTurn _ 2 * quarterTurn _ 0 - quarterTurn _ 0 * quarterTurn _ 2 = cornerOf c i 1 * cornerOf c (i + 1) 2 - cornerOf c i 2 * cornerOf c (i + 1) 1
    simp [quarterTurn]
    ring
  have h2 : doubleArea (c.map quarterTurn) 2 = doubleArea c 2 := by
    simp only [doubleArea, hc, List.length_map]
    refine Finset.sum_congr rfl fun i _ => ?_
    change quarterTurn _ 0 * quarterTurn _ 1 - quarterTurn _ 1 * quarterTurn _ 0 = cornerOf c i 0 * cornerOf c (i + 1) 1 - cornerOf c i 1 * cornerOf c (i + 1) 0
    simp [quarterTurn]
    ring
  rw [flatArea, flatArea, h0, h1, h2]
  congr 2
  ring

theorem turned_areas (c : List (V3 ℝ)) : ∀ k, flatArea (c.map quarterTurn^[k]) = flatArea c
  | 0 => by simp
  | k + 1 => by
    rw [Function.iterate_succ', ← List.map_map, turned_area, turned_areas c k]

/-- Area of the cells of a list of parts under a name. -/
theorem area_parts (k : ℕ) (s : String) : ∀ parts : List WellPart,
    (((parts.flatMap fun p => p.cells.map fun c => (c.map quarterTurn^[k], some p.group)).filter fun e => e.2 = some s).map
      fun e => flatArea e.1).sum =
      ((parts.map fun p => (p.group, (p.cells.map flatArea).sum)).map fun e => if e.1 = s then e.2 else 0).sum
  | [] => rfl
  | p :: rest => by
    simp only [List.flatMap_cons, List.filter_append, List.map_append, List.sum_append, area_parts k s rest, List.map_cons, List.sum_cons]
    congr 1
    by_cases e : p.group = s
    · rw [if_pos e, List.filter_eq_self.2, List.map_map]
      · refine congrArg List.sum (List.map_congr_left fun c _ => ?_)
        exact turned_areas c k
      · intro x hx
        obtain ⟨c, _, rfl⟩ := List.mem_map.1 hx
        simp [e]
    · rw [if_neg e, List.filter_eq_nil_iff.2]
      · rfl
      · intro x hx
        obtain ⟨c, _, rfl⟩ := List.mem_map.1 hx
        simp [e]

/-- **C148 (wells).** For numbers that fit, the areas of the cells of the well, of all names and of each name, are those of the parts. -/
theorem C148_well {area : Arr3 (V3 ℝ) → List ℝ} {w : WellNumbers} (hw : WellFits w) {parts : List WellPart}
    (h : wellQuarter δ area w = .ok parts) (hname : ∀ p ∈ parts, p.group ≠ "")
    {append : List (List (V3 ℝ) × Int) → List (List (V3 ℝ) × Int) → List (List (V3 ℝ) × Int)} (happ : ∀ a b, (append a b).Perm (a ++ b)) :
    ∃ out table, wellMerged append parts = .ok (out, table) ∧ (out.map fun gc => flatArea gc.1).sum = (2 * (w.side + w.width)) ^ 2 ∧
      ∀ s, ((out.filter fun gc => nameOf table gc.2 = some s).map fun gc => flatArea gc.1).sum =
        4 * ((wellAreas w).map fun e => if e.1 = s then e.2 else 0).sum := by
  have hareas := wellQuarter_areas hw h
  have hne : parts ≠ [] := by
    rintro rfl
    simp [wellAreas] at hareas
  obtain ⟨out, table, k1, _, _, k4⟩ := C127_groups happ hne hname
  refine ⟨out, table, k1, ?_, fun s => ?_⟩
  · have := (k4.map fun e => flatArea e.1).sum_eq
    rw [List.map_map] at this
    refine Eq.trans this ?_
    have one : ∀ k : ℕ, ((parts.flatMap fun p => p.cells.map fun c => (c.map quarterTurn^[k], some p.group)).map fun e => flatArea e.1).sum =
        ((wellAreas w).map Prod.snd).sum := by
      intro k
      rw [← hareas, List.map_flatMap, List.map_map]
      clear hareas hne h hname k4 this k1
      induction parts with
      | nil => rfl
      | cons p rest ih =>
        rw [List.flatMap_cons, List.sum_append, ih, List.map_cons, List.sum_cons, List.map_map]
        congr 1
        exact congrArg List.sum (List.map_congr_left fun c _ => turned_areas c k)
    have r4 : List.range 4 = [0, 1, 2, 3] := rfl
    simp only [r4, List.flatMap_cons, List.flatMap_nil, List.append_nil, List.map_append, List.sum_append, one, wellAreas_sum hw]
    ring
  · have := ((k4.filter fun e => decide (e.2 = some s)).map fun e => flatArea e.1).sum_eq
    rw [List.filter_map, List.map_map] at this
    refine Eq.trans this ?_
    have r4 : List.range 4 = [0, 1, 2, 3] := rfl
    have one := fun k => area_parts k s parts
    rw [hareas] at one
    simp only [r4, List.flatMap_cons, List.flatMap_nil, List.append_nil, List.filter_append, List.map_append, List.sum_append, one]
    ring

/-- **C148 (load_well_2d).** The areas of the cells add up to 400; those of the groups Core and Casing and Cement to the areas of polygons with
32 corners and of the rings between two of them, and those of Matrix to the rest of the square. -/
theorem C148_load_well (area : Arr3 (V3 ℝ) → List ℝ)
    {append : List (List (V3 ℝ) × Int) → List (List (V3 ℝ) × Int) → List (List (V3 ℝ) × Int)} (happ : ∀ a b, (append a b).Perm (a ++ b)) :
    ∃ out table, loadWell2d δ area append = .ok (out, table) ∧ (out.map fun gc => flatArea gc.1).sum = 400 ∧
      let areaOf (s : String) := ((out.filter fun gc => nameOf table gc.2 = some s).map fun gc => flatArea gc.1).sum
      let S := 16 * Real.sin (Real.pi / 16)
      areaOf "Core" = 0.34 ^ 2 * S ∧ areaOf "Casing" = (0.445 ^ 2 - 0.34 ^ 2) * S ∧ areaOf "Cement" = (1 - 0.445 ^ 2) * S ∧
        areaOf "Matrix" = 400 - S := by
  obtain ⟨parts, h1, _⟩ := C127_conforming (δ := δ) area wellNumbers_fit
  have hareas := wellQuarter_areas wellNumbers_fit h1
  obtain ⟨out, table, k1, k2, k3⟩ := C148_well wellNumbers_fit h1 (by
    intro p hp
    have := List.mem_map_of_mem (f := fun p : WellPart => (p.group, (p.cells.map flatArea).sum)) hp
    rw [hareas] at this
    simp only [wellAreas, wellNumbers, List.map_cons, List.map_nil, List.cons_append, List.nil_append, List.mem_cons, List.not_mem_nil, or_false, Prod.mk.injEq] at this
    rcases this with h | h | h | h | h | h | h | h | h | h | h <;> rw [h.1] <;> decide) happ
  refine ⟨out, table, by simp only [loadWell2d, h1, k1], by rw [k2]; norm_num [wellNumbers], ?_⟩
  intro areaOf S
  have hS : quarterSines wellNumbers = S / 2 := by
    simp only [quarterSines, wellNumbers, S]
    rw [show Real.pi / 2 / (2 * ((4 : ℤ) : ℝ)) = Real.pi / 16 by push_cast; ring]
    push_cast
    ring
  have g : ∀ s, areaOf s = _ := k3
  rw [g, g, g, g]
  simp only [wellAreas, hS]
  simp only [wellNumbers, List.map_cons, List.map_nil, List.cons_append, List.nil_append, List.sum_cons, List.sum_nil]
  refine ⟨?_, ?_, ?_, ?_⟩ <;> simp only [String.reduceEq, if_true, if_false] <;> norm_num <;> ring

end Gridder
