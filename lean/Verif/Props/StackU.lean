import Verif.Props.GenerateU

/-!
# C97, C98, C103 on unstructured surfaces: the classes
-/

namespace Gridder
open Spec

/-- An unstructured surface of triangles, polygons, pixels and quads. -/
structure Spec.StackSurf {K : Type _} (m : Surf K UTopo) : Prop where
  some : m.topo.cells ≠ []
  ids : ∀ tc ∈ m.topo.cells, ∀ x ∈ tc.2, x < m.points.length
  types : ∀ tc ∈ m.topo.cells, tc.1 = 5 ∨ tc.1 = 7 ∨ (tc.1 = 8 ∧ tc.2.length = 4) ∨ tc.1 = 9
  polygons : ∀ tc ∈ m.topo.cells, tc.1 = 7 → 3 ≤ tc.2.length
  pd : Arrays m.points.length m.topo.pointData
  cd : Arrays m.topo.cells.length m.topo.cellData

section
variable {K : Type _} [Field K] [LinearOrder K]

theorem setGroup_arraysU {n : ℕ} {cd : Dict String (DArr ℤ)} (h : Arrays n cd) {arr : List ℤ} (ha : arr.length = n) :
    Arrays n (Dict.set cd "CellGroup" ⟨false, arr⟩) :=
  (setArray_arrays (v := ⟨false, arr⟩) (k := "CellGroup") h (by simp only [setArray, ha, if_true])).1

theorem zip_get {α β : Type _} {l : List α} {l' : List β} {n : ℕ} {a : α} {b : β} (h : l[n]? = some a)
    (h' : l'[n]? = some b) : (l.zip l')[n]? = some (a, b) := by
  rw [List.getElem?_zip_eq_some]
  exact ⟨h, h'⟩

theorem volume_data {invert : Bool} {a b : UGrid K ℤ} {ts : List K} {M : VolumeOut K ℤ} {after : List (ℕ × List ℕ)}
    (hv : ValidSurface a) (h : generateVolumeUnstructured invert a b ts = .ok (M, after)) :
    Arrays ((ts.length - 1) * a.cells.length) M.cellData := by
  obtain ⟨_, _, _, outs, houts, _, _, ht, _, _, cd, hcd, hM⟩ := generateVolumeUnstructured_inv h
  obtain ⟨hol, _⟩ := extrudeCells_spec houts
  have htl : M.celltypes.length = (ts.length - 1) * a.cells.length := by rw [ht, celltypes_length, hol]
  obtain ⟨cd', c1, c2⟩ := tileCopy (ts.length - 1) a.cells.length a.cellData hv.cellData
  rw [htl, c1] at hcd
  obtain rfl : cd' = cd := Except.ok.inj hcd
  have hnd := copyArrays_nodup a.cellData [] cd' (by simp) c1
  have hsz : ∀ kv ∈ cd', kv.2.vals.length = (ts.length - 1) * a.cells.length := by
    rintro ⟨k, v⟩ hkv
    have := Dict.get?_of_mem hnd hkv
    rw [c2, Option.map_eq_some_iff] at this
    obtain ⟨u, hu, rfl⟩ := this
    rw [tileRows_length, hv.cellData.1 _ (Dict.get?_mem hu)]
  have hin : ((List.replicate (ts.length - 1) (outs.map (·.collapsed))).flatten).length =
      (ts.length - 1) * a.cells.length := by simp [hol]
  rw [hM]
  refine ⟨?_, Dict.set_keys_nodup hnd⟩
  rintro ⟨k, v⟩ hkv
  have := Dict.get?_of_mem (Dict.set_keys_nodup hnd) hkv
  simp only [Dict.get?_set] at this
  split at this
  · cases this
    simp only [List.length_zipWith, hin]
    split
    · rename_i g hg
      simp [hsz _ (Dict.get?_mem hg)]
    · simp [htl]
  · exact hsz _ (Dict.get?_mem this)

/-- The volume between two surfaces with the same cells. -/
theorem surf_betweenU {x y : Surf K UTopo} (hx : StackSurf x) (hxy : y.topo = x.topo)
    (hlen : y.points.length = x.points.length) {ts : List K} (hts : 2 ≤ ts.length) (invert : Bool) {arr : List ℤ}
    (harr : arr.length = x.topo.cells.length) :
    ∃ p M after, generateVolumeUnstructured invert (surfU ⟨x.points,
        { x.topo with cellData := Dict.set x.topo.cellData "CellGroup" ⟨false, arr⟩ }⟩) (surfU y) ts = .ok (M, after) ∧
      readVolume M = .ok p ∧
      BetweenU invert x.points.length x.topo.cells x.topo.cellData x.points y.points ts arr p := by
  set a : UGrid K ℤ := surfU ⟨x.points, { x.topo with cellData := Dict.set x.topo.cellData "CellGroup" ⟨false, arr⟩ }⟩
    with ha
  have hv : ValidSurface a :=
    ⟨hx.ids, fun tc htc h8 => by
      rcases hx.types tc htc with h | h | h | h
      · omega
      · omega
      · exact h.2
      · omega, hx.pd, setGroup_arraysU hx.cd harr⟩
  have hty : ∀ tc ∈ a.cells, extrudedType tc.1 ≠ -1 := by
    intro tc htc
    refine extrudedType_iff.2 ?_
    rcases hx.types tc htc with h | h | h | h
    · exact .inl h
    · exact .inr (.inl h)
    · exact .inr (.inr (.inl h.1))
    · exact .inr (.inr (.inr h))
  obtain ⟨M, after, hM⟩ := generateVolumeUnstructured_ok (invert := invert) (a := a) (b := surfU y) (perc := ts) hv
    hlen.symm hty (by simp only [ha, surfU, hxy]) hts (fun _ => hx.polygons)
  obtain ⟨L, hL⟩ := extrusion_of_ok hv hM
  have hda := volume_data hv hM
  have hcl : a.cells = x.topo.cells := rfl
  have hpl : a.points = x.points := rfl
  have hzl : (M.celltypes.zip L).length = x.topo.cells.length * (ts.length - 1) := by
    rw [List.length_zip, hL.nTypes, hL.nCells, hcl, min_self, Nat.mul_comm]
  have hidx : ∀ c s : ℕ, c + x.topo.cells.length * s = s * a.cells.length + c := by intro c s; rw [hcl]; ring
  refine ⟨⟨M.points, M.celltypes.zip L, M.cellData⟩, M, after, hM, by simp only [readVolume, hL.read], hzl, ?_, ?_, ?_,
    ?_, ?_, ?_⟩
  · intro j s t p q h1 h2 h3
    exact hL.point s j t p q h1 h2 h3
  · intro c s t conn hs hc
    obtain ⟨cell, t', e1, e2, e3, _⟩ := hL.cell s c t conn hs hc
    exact ⟨t', cell, by simp only [hidx]; exact zip_get e2 e1, e3⟩
  · simp only [hzl]
    rw [Nat.mul_comm, ← hcl]; exact hda
  · obtain ⟨w, w1, _, w3⟩ := hL.cellData "CellGroup" ⟨false, arr⟩ (by decide)
      (by simp only [ha, surfU]; rw [Dict.get?_set, if_pos rfl])
    refine ⟨w, w1, fun c s hc hs => ?_⟩
    rw [hidx]
    exact w3 s c hs hc
  · obtain ⟨w, w1, w2⟩ := C23_unstructured_partial invert a (surfU y) ts M after hv hM
    refine ⟨w, w1, fun c s t conn hs hc => ?_⟩
    have hg : (Dict.get? a.cellData "vtkGhostType" = none ∧ ghostOf x.topo.cellData c = 0) ∨
        ∃ v, Dict.get? a.cellData "vtkGhostType" = some v ∧ v.vals[c]? = some (ghostOf x.topo.cellData c) := by
      have : Dict.get? a.cellData "vtkGhostType" = Dict.get? x.topo.cellData "vtkGhostType" := by
        simp only [ha, surfU]; rw [Dict.get?_set, if_neg (by decide)]
      rw [this]
      cases hgh : Dict.get? x.topo.cellData "vtkGhostType" with
      | none => exact .inl ⟨rfl, by simp [ghostOf, hgh]⟩
      | some v =>
        refine .inr ⟨v, rfl, ?_⟩
        have hl : v.vals.length = x.topo.cells.length := hx.cd.1 _ (Dict.get?_mem hgh)
        have hlt : c < v.vals.length := by rw [hl]; exact (List.getElem?_eq_some_iff.1 hc).1
        simp only [ghostOf, hgh, List.getD_eq_getElem?_getD, List.getElem?_eq_getElem hlt, Option.getD_some]
    obtain ⟨r1, r2⟩ := w2 s c t conn _ hs hc hg
    have hsq : Squeezed conn x.points y.points ts ↔ ∀ j ∈ conn, ∀ p q, M.points[j]? = some p →
        M.points[a.points.length + j]? = some q → Close p q := by
      have hpt : ∀ j ∈ conn, ∃ u v t0 t1, x.points[j]? = some u ∧ y.points[j]? = some v ∧ ts[0]? = some t0 ∧
          ts[1]? = some t1 ∧ M.points[j]? = some (between t0 u v) ∧
          M.points[a.points.length + j]? = some (between t1 u v) := by
        intro j hj
        have hjl : j < x.points.length := hx.ids _ (List.mem_of_getElem? hc) j hj
        have hu : x.points[j]? = some x.points[j] := List.getElem?_eq_getElem hjl
        have hv' : y.points[j]? = some y.points[j] := List.getElem?_eq_getElem (by omega)
        have h0 : ts[0]? = some ts[0] := List.getElem?_eq_getElem (by omega)
        have h1 : ts[1]? = some ts[1] := List.getElem?_eq_getElem (by omega)
        refine ⟨_, _, _, _, hu, hv', h0, h1, ?_, ?_⟩
        · simpa using hL.point 0 j _ _ _ h0 hu hv'
        · simpa using hL.point 1 j _ _ _ h1 hu hv'
      constructor
      · intro h j hj p q hp hq
        obtain ⟨u, v, t0, t1, a1, a2, a3, a4, a5, a6⟩ := hpt j hj
        rw [a5] at hp; rw [a6] at hq; cases hp; cases hq
        exact h j hj t0 t1 u v a3 a4 a1 a2
      · intro h j hj t0 t1 u v b1 b2 b3 b4
        obtain ⟨u', v', t0', t1', a1, a2, a3, a4, a5, a6⟩ := hpt j hj
        rw [b1] at a3; rw [b2] at a4; rw [b3] at a1; rw [b4] at a2
        cases a1; cases a2; cases a3; cases a4
        exact h j hj _ _ a5 a6
    rw [hidx, hsq]
    exact ⟨r1, r2⟩
  · intro name v hv n1 n2
    obtain ⟨w, w1, _, w3⟩ := hL.cellData name v n2
      (by simp only [ha, surfU]; rw [Dict.get?_set, if_neg (Ne.symm n1), hv])
    refine ⟨w, w1, fun c s hc hs => ?_⟩
    rw [hidx]
    exact w3 s c hs hc

end

namespace Spec

/-- What a stack of the given surfaces, resolutions and groups over the cells of an unstructured surface is. -/
def StackedMeshU (R : (Fin 3 → ℝ) → (Fin 3 → ℝ) → Prop) (flip : Bool) (ignore : List String) (dflt : String)
    (mesh : Surf ℝ UTopo) (args : List ((Resolution ℝ × Option String) × GroupArg)) (key : String)
    (surfs : List (List (Fin 3 → ℝ))) (M : UMesh ℝ) (table : List (String × Int)) : Prop :=
  ∃ subs names pos node, subs.length = args.length ∧ names.length = args.length ∧
    (∀ (k : ℕ) a, args[k]? = some a → ∃ ts name, resolutionToPerc a.1.1 a.1.2 = .ok ts ∧ subs[k]? = some ts ∧
      names[k]? = some name ∧
      Labels ignore dflt mesh.topo.cells.length (groupCodes mesh.topo.cellData) mesh.topo.table a.2 name) ∧
    LayeredU R flip key mesh.points.length mesh.topo.cells mesh.topo.cellData surfs subs names M table pos node

end Spec

/-- The generation from the list of items. -/
theorem items_stackedU {R : V3 ℝ → V3 ℝ → Prop} {vtk : VtkOracle ℝ} (ho : AppendsAll vtk.order)
    (hc : Cleans R vtk.clean) (flip : Bool) (ignore : List String) (dflt : String) {key : String}
    (hkey : key ≠ "LayerId" ∧ key ≠ "ColumnId" ∧ key ≠ "CellGroup" ∧ key ≠ "vtkGhostType") {mesh : Surf ℝ UTopo}
    (hmesh : StackSurf mesh) (args : List ((Resolution ℝ × Option String) × GroupArg)) (hargs : args ≠ [])
    (hres : ∀ x ∈ args, ∃ ts, resolutionToPerc x.1.1 x.1.2 = .ok ts ∧ fromZeroToOne ts)
    (items : List (TItem ℝ UTopo (Resolution ℝ × Option String))) (hlen : items.length = args.length + 1)
    (hbase : ∀ it ∈ items, it.mesh.topo = mesh.topo ∧ it.mesh.points.length = mesh.points.length)
    (hopts : ∀ (k : ℕ) it a, items[k + 1]? = some it → args[k]? = some a →
      it.transition = false ∧ ∃ o, it.opts = some o ∧ a = (o.sub, o.group)) :
    ((∀ x ∈ args, Acceptable mesh.topo.cells.length x.2) →
      ∃ r, assembleU (surfKit fun a b r => generateVolumeU flip a b r.1 r.2) vtk ignore dflt key items = .ok r) ∧
    ∀ M table,
      assembleU (surfKit fun a b r => generateVolumeU flip a b r.1 r.2) vtk ignore dflt key items = .ok (M, table) →
      StackedMeshU R flip ignore dflt mesh args key (items.map fun it => it.mesh.points) M table := by
  obtain ⟨x0, y0, l, rfl⟩ : ∃ x y l, items = x :: y :: l := by
    match items, hlen with
    | [], h => simp at h
    | [_], h => simp at h; exact absurd h hargs
    | x :: y :: l, _ => exact ⟨x, y, l, rfl⟩
  set kit : UKit ℝ UTopo (Resolution ℝ × Option String) :=
    surfKit fun a b r => generateVolumeU flip a b r.1 r.2 with hkit
  have hlab : ∀ it ∈ x0 :: y0 :: l, kit.labels it.mesh =
      ⟨mesh.topo.cells.length, groupCodes mesh.topo.cellData, mesh.topo.table⟩ := by
    intro it hit
    simp only [hkit, surfKit, (hbase it hit).1]
  have hsurf : ∀ it ∈ x0 :: y0 :: l, StackSurf it.mesh := by
    intro it hit
    obtain ⟨t1, t2⟩ := hbase it hit
    exact ⟨by rw [t1]; exact hmesh.some, by rw [t1, t2]; exact hmesh.ids, by rw [t1]; exact hmesh.types,
      by rw [t1]; exact hmesh.polygons, by rw [t1, t2]; exact hmesh.pd, by rw [t1]; exact hmesh.cd⟩
  have hopt : ∀ (k : ℕ) it, (y0 :: l)[k]? = some it → it.transition = false ∧ ∃ o, it.opts = some o ∧
      args[k]? = some (o.sub, o.group) := by
    intro k it hk
    have hk' : k < args.length := by
      have := (List.getElem?_eq_some_iff.1 hk).1
      simp only [List.length_cons] at this hlen; omega
    obtain ⟨h1, o, h2, h3⟩ := hopts k it _ (by simpa using hk) (List.getElem?_eq_getElem hk')
    exact ⟨h1, o, h2, by rw [← h3]; exact List.getElem?_eq_getElem hk'⟩
  obtain ⟨g1, g2⟩ := assembleU_ok (flip := flip) ho hc kit (ignore := ignore) (dflt := dflt) hkey
    (N := mesh.points.length) hmesh.ids (by have := hmesh.some; exact List.length_pos_iff.2 this)
    (base := mesh.topo.cellData) percOf x0 y0 l
    (by
      intro it hit
      rw [hlab it hit]
      refine ⟨(hbase it hit).2, rfl, ?_⟩
      intro x hx
      simp only [groupCodes, Option.map_eq_some_iff] at hx
      obtain ⟨g, hg, rfl⟩ := hx
      exact hmesh.cd.1 _ (Dict.get?_mem hg))
    (by
      intro it hit
      obtain ⟨k, hk⟩ := List.getElem?_of_mem hit
      obtain ⟨h1, o, h2, h3⟩ := hopt k it hk
      obtain ⟨ts, t1, t2⟩ := hres _ (List.mem_of_getElem? h3)
      exact ⟨h1, o, h2, by rw [percOf_ok t1]; exact t2⟩)
    (by
      intro k x y o arr hx hy hoo harr
      obtain ⟨_, o', h2, h3⟩ := hopt k y hy
      rw [hoo] at h2; cases h2
      obtain ⟨ts, t1, t2⟩ := hres _ (List.mem_of_getElem? h3)
      obtain ⟨b1, b2⟩ := hbase x (List.mem_of_getElem? hx)
      obtain ⟨b1', b2'⟩ := hbase y (List.mem_cons_of_mem _ (List.mem_of_getElem? hy))
      have hX := hsurf x (List.mem_of_getElem? hx)
      obtain ⟨p, M, after, e1, e2, e3⟩ := surf_betweenU hX (by rw [b1', b1]) (by rw [b2, b2']) t2.1 flip
        (arr := arr) (by rw [b1]; exact harr)
      rw [b1, b2] at e3
      refine ⟨p, ?_, by rw [percOf_ok t1]; exact e3⟩
      have hgen : generateVolumeU flip (surfU (kit.withGroup x.mesh arr)) (surfU y.mesh) o.sub.1 o.sub.2 =
          .ok (M, after) := by
        unfold generateVolumeU
        rw [if_neg (by simp [hkit, surfKit, surfU, b2, b2']), if_neg ?_]
        · rw [show (surfU y.mesh).cells = (surfU (kit.withGroup x.mesh arr)).cells by
            simp only [hkit, surfKit, surfU, b1, b1'], celltypesMatch_self]
          simp only [t1]
          exact e1
        · simp only [List.all_eq_true, bne_iff_ne, ne_eq, not_not]
          intro tc htc
          refine extrudedType_iff.2 ?_
          rcases hX.types tc htc with h | h | h | h
          · exact .inl h
          · exact .inr (.inl h)
          · exact .inr (.inr (.inl h.1))
          · exact .inr (.inr (.inr h))
      simp only [hkit, surfKit] at hgen ⊢
      rw [hgen]
      exact e2)
  constructor
  · intro hacc
    refine g1 fun it hit o hoo => ?_
    obtain ⟨k, hk⟩ := List.getElem?_of_mem hit
    obtain ⟨_, o', h2, h3⟩ := hopt k it hk
    rw [hoo] at h2; cases h2
    exact hacc _ (List.mem_of_getElem? h3)
  · intro M table h
    obtain ⟨subs, names, pos, node, n1, n2, n3, n4⟩ := g2 M table h
    simp only [List.length_cons] at hlen
    refine ⟨subs, names, pos, node, by omega, by omega, ?_, n4⟩
    intro k a ha
    have hk := (List.getElem?_eq_some_iff.1 ha).1
    have hk1 : k < (y0 :: l).length := by simp only [List.length_cons]; omega
    have hk2 : k < (x0 :: y0 :: l).length := by simp only [List.length_cons]; omega
    obtain ⟨o, nm, m1, m2, m3, m4⟩ := n3 k _ _ (List.getElem?_eq_getElem hk2) (List.getElem?_eq_getElem hk1)
    obtain ⟨_, o', h2, h3⟩ := hopt k _ (List.getElem?_eq_getElem hk1)
    rw [m1] at h2; cases h2
    rw [ha] at h3; cases h3
    obtain ⟨ts, t1, _⟩ := hres _ (List.mem_of_getElem? ha)
    rw [percOf_ok t1] at m2
    rw [hlab _ (List.getElem_mem hk2)] at m4
    exact ⟨ts, nm, t1, m2, m3, m4⟩

/-- The items of a stack after the pass that cuts them: on the base, without transition, with the options of the
calls. -/
theorem stack_cut {K τ ω : Type _} [Field K] [LinearOrder K] {o : InterpOracle K} {mesh : Surf K τ} {axis : Fin 3}
    {bottomUp : Bool} {adds : List (AddArg K × Rest K ω)} (hadds : 2 ≤ adds.length) {s : Stack K τ ω}
    (hs : (Stack.new mesh axis bottomUp).run o (adds.map addCall) = .ok s) :
    ∃ a b rest out, s.items = a :: b :: rest ∧ s.axis = axis ∧ s.bottomUp = bottomUp ∧
      cutFrom axis bottomUp a (b :: rest) = .ok out ∧ out.length = adds.length ∧
      (∀ it ∈ out, OnBase axis mesh it.mesh ∧ it.transition = false) ∧
      ∀ (k : ℕ) it x, out[k + 1]? = some it → adds[k + 1]? = some x → it.opts = some x.2.opts := by
  obtain ⟨_, h2, h3, h4, new, h5, h6, h7⟩ := run_adds adds _ s hs rfl (by simp [Stack.new])
  simp only [Stack.new, List.nil_append, List.length_nil, Nat.zero_add] at h2 h3 h4 h5 h7
  have hlen : s.items.length = adds.length := by rw [h5, h6]
  obtain ⟨a, b, rest, hitems⟩ : ∃ a b rest, s.items = a :: b :: rest := by
    match hi : s.items with
    | [] => rw [hi] at hlen; simp at hlen; omega
    | [_] => rw [hi] at hlen; simp at hlen; omega
    | a :: b :: rest => exact ⟨a, b, rest, rfl⟩
  obtain ⟨out, ho⟩ := cutFrom_total (axis := axis) (bu := bottomUp) (n := mesh.points.length) (b :: rest) a (by
    intro it hit; exact (h4 it (by rw [hitems]; exact hit)).1.size)
  obtain ⟨e1, e2⟩ := cutFrom_same ho
  have el : out.length = adds.length := by rw [e1, ← hlen, hitems]; rfl
  refine ⟨a, b, rest, out, hitems, h2, h3, ho, el, ?_, ?_⟩
  · intro it hit
    obtain ⟨k, hk⟩ := List.getElem?_of_mem hit
    have hk' : k < (a :: b :: rest).length := by
      rw [← hitems, hlen, ← el]; exact (List.getElem?_eq_some_iff.1 hk).1
    obtain ⟨y, hy, sy⟩ := e2 k _ (List.getElem?_eq_getElem hk')
    rw [hk] at hy; cases hy
    obtain ⟨f1, f2⟩ := h4 (a :: b :: rest)[k] (by rw [hitems]; exact List.getElem_mem _)
    refine ⟨⟨by rw [sy.topo, f1.topo], by rw [sy.length, f1.size], ?_⟩, by rw [sy.transition, f2]⟩
    intro j p q hp hq ax hax
    have hj : j < (a :: b :: rest)[k].mesh.points.length := by
      rw [f1.size]; exact (List.getElem?_eq_some_iff.1 hp).1
    rw [sy.coords j _ q (List.getElem?_eq_getElem hj) hq ax hax]
    exact f1.coords j p _ hp (List.getElem?_eq_getElem hj) ax hax
  · intro k it x hit hx
    have hk' : k + 1 < (a :: b :: rest).length := by
      rw [← hitems, hlen, ← el]; exact (List.getElem?_eq_some_iff.1 hit).1
    obtain ⟨y, hy, sy⟩ := e2 (k + 1) _ (List.getElem?_eq_getElem hk')
    rw [hit] at hy; cases hy
    rw [sy.opts]
    refine ((h7 (k + 1) _ x ?_ hx).2 (by simp)).1
    rw [← h5, hitems]
    exact List.getElem?_eq_getElem hk'

/-- **C97, C103 (partial), unstructured surfaces.** A 3D stack on a surface of triangles, polygons, pixels and quads,
filled by any sequence of two or more `add` calls without transition, is generated when the group arguments are
acceptable, and every generated mesh consists of the layers of prisms over the cells of the surface: `LayerId`,
`ColumnId`, `StackItem` and `CellGroup` are those of the layer, of the base cell, of the item and of the names (C97),
and the cells squeezed between two items are hidden, the others have the flag of the base cell (C103).
Assumed of VTK: `pv.merge` appends every mesh once, and `clean` moves the points it keeps by a relation `R` only and
makes coincident points one.  Missing: other cell types, point data of the result. -/
theorem C97_unstructured_partial {R : V3 ℝ → V3 ℝ → Prop} {vtk : VtkOracle ℝ} (ho : AppendsAll vtk.order)
    (hc : Cleans R vtk.clean) (invert : Bool) (ignore : List String) (dflt : String) (o : InterpOracle ℝ)
    (mesh : Surf ℝ UTopo) (hmesh : StackSurf mesh) (axis : Fin 3) (bottomUp : Bool)
    (adds : List (AddArg ℝ × Rest ℝ (Opts (Resolution ℝ × Option String)))) (hadds : 2 ≤ adds.length)
    (hres : ∀ x ∈ itemArgs adds, ∃ ts, resolutionToPerc x.1.1 x.1.2 = .ok ts ∧ fromZeroToOne ts)
    (s : Stack ℝ UTopo (Opts (Resolution ℝ × Option String)))
    (hs : (Stack.new mesh axis bottomUp).run o (adds.map addCall) = .ok s) :
    ((∀ x ∈ itemArgs adds, Acceptable mesh.topo.cells.length x.2) → ∃ r, stack3DU vtk invert ignore dflt s = .ok r) ∧
    ∀ M table s', stack3DU vtk invert ignore dflt s = .ok ((M, table), s') →
      s'.items.length = adds.length ∧ (∀ it ∈ s'.items, OnBase axis mesh it.mesh) ∧
      StackedMeshU R invert ignore dflt mesh (itemArgs adds) "StackItem" (s'.items.map fun it => it.mesh.points) M
        table := by
  obtain ⟨a, b, rest, out, hitems, hax, hbu, hcut, hlen, hbase, hopts⟩ := stack_cut hadds hs
  have hil : (itemArgs adds).length + 1 = adds.length := by simp [itemArgs]; omega
  obtain ⟨g1, g2⟩ := items_stackedU ho hc invert ignore dflt (key := "StackItem")
    ⟨by decide, by decide, by decide, by decide⟩ hmesh (itemArgs adds)
    (by intro e; rw [e] at hil; simp at hil; omega) hres (out.map fun it => ⟨it.mesh, it.opts, it.transition⟩)
    (by rw [List.length_map, hlen, hil])
    (by
      intro it hit
      obtain ⟨z, hz, rfl⟩ := List.mem_map.1 hit
      exact ⟨(hbase z hz).1.topo, (hbase z hz).1.size⟩)
    (by
      intro k it x hit hx
      rw [List.getElem?_map, Option.map_eq_some_iff] at hit
      obtain ⟨z, hz, rfl⟩ := hit
      obtain ⟨y, hy, rfl⟩ := itemArgs_inv hx
      exact ⟨(hbase z (List.mem_of_getElem? hz)).2, _, hopts k z y hz hy, rfl⟩)
  constructor
  · intro hacc
    obtain ⟨r, hr⟩ := g1 hacc
    refine ⟨(r, { s with items := out }), ?_⟩
    simp only [stack3DU, Stack.generateU, Stack.generate, hitems, hax, hbu, hcut, hr]
  · intro M table s' h
    obtain ⟨a', rest', i1, i2, i3, _, _⟩ := generate_inv h
    rw [hitems] at i1; cases i1
    rw [hax, hbu, hcut] at i2
    have hout : out = s'.items := Except.ok.inj i2
    rw [← hout] at i3 ⊢
    refine ⟨hlen, fun it hit => (hbase it hit).1, ?_⟩
    have := g2 M table i3
    rwa [List.map_map] at this

/-- **C98, C103 (partial), unstructured surfaces.** The same for an extrusion of a surface.
Missing: other cell types, point data of the result. -/
theorem C98_unstructured_partial {R : V3 ℝ → V3 ℝ → Prop} {vtk : VtkOracle ℝ} (ho : AppendsAll vtk.order)
    (hc : Cleans R vtk.clean) (rot : V3 ℝ → ℝ → V3 ℝ → V3 ℝ → V3 ℝ) (ignore : List String) (dflt : String)
    (mesh : Surf ℝ UTopo) (hmesh : StackSurf mesh) (scale angle : Option ℝ)
    (args : List (ExtrArgs ℝ (Opts (Resolution ℝ × Option String)))) (hargs : args ≠ [])
    (hres : ∀ x ∈ args, ∃ ts, resolutionToPerc x.opts.sub.1 x.opts.sub.2 = .ok ts ∧ fromZeroToOne ts)
    (e : Extr ℝ UTopo (Opts (Resolution ℝ × Option String)))
    (he : (Extr.new mesh scale angle).run rot args = .ok e) :
    ((∀ x ∈ args, Acceptable mesh.topo.cells.length x.opts.group) → ∃ r, extrudeU vtk ignore dflt e = .ok r) ∧
    ∀ M table, extrudeU vtk ignore dflt e = .ok (M, table) →
      StackedMeshU R true ignore dflt mesh (args.map fun x => (x.opts.sub, x.opts.group)) "ExtrudeItem"
        (e.items.map fun it => it.1.points) M table := by
  obtain ⟨h1, new, h2, h3, h4⟩ := run_extr (mesh := mesh) args _ e he (by simp [Extr.new])
  simp only [Extr.new, List.singleton_append] at h2
  obtain ⟨g1, g2⟩ := items_stackedU ho hc true ignore dflt (key := "ExtrudeItem")
    ⟨by decide, by decide, by decide, by decide⟩ hmesh (args.map fun x => (x.opts.sub, x.opts.group))
    (by simpa using hargs)
    (by
      intro x hx
      obtain ⟨y, hy, rfl⟩ := List.mem_map.1 hx
      exact hres y hy)
    (e.items.map fun it => ⟨it.1, it.2, false⟩) (by simp [h2, h3])
    (by
      intro it hit
      obtain ⟨z, hz, rfl⟩ := List.mem_map.1 hit
      exact h1 z hz)
    (by
      intro k it x hit hx
      rw [List.getElem?_map, Option.map_eq_some_iff] at hit hx
      obtain ⟨z, hz, rfl⟩ := hit
      obtain ⟨y, hy, rfl⟩ := hx
      rw [h2, List.getElem?_cons_succ] at hz
      exact ⟨rfl, _, h4 k z y hz hy, rfl⟩)
  constructor
  · intro hacc
    refine g1 fun x hx => ?_
    obtain ⟨y, hy, rfl⟩ := List.mem_map.1 hx
    exact hacc y hy
  · intro M table h
    have := g2 M table h
    rwa [List.map_map] at this

/-- A VTK that appends in order and makes equal points one. -/
noncomputable def exactVtk : VtkOracle ℝ where
  order := List.range
  clean points _ := (points, fun j => match points[j]? with
    | none => j
    | some p => by classical exact points.findIdx fun q => decide (q = p))

theorem exactVtk_ok : AppendsAll exactVtk.order ∧ Cleans Eq exactVtk.clean := by
  classical
  refine ⟨fun n => List.Perm.refl _, ?_, ?_⟩
  · intro points cells j p _ hp
    have hj : ∃ x ∈ points, decide (x = p) = true := ⟨p, List.mem_of_getElem? hp, by simp⟩
    have hlt := List.findIdx_lt_length.2 hj
    have := List.findIdx_getElem (p := fun q => decide (q = p)) (xs := points) (w := hlt)
    refine ⟨points[points.findIdx fun q => decide (q = p)], ?_, of_decide_eq_true this⟩
    simp only [exactVtk, hp]
    exact List.getElem?_eq_getElem hlt
  · intro points cells i j p _ _ hi hj
    simp only [exactVtk, hi, hj]

/-- A triangle and a quad in the plane, in two groups, the second one hidden. -/
def kiteXY : Surf ℝ UTopo :=
  ⟨[![0, 0, 0], ![1, 0, 0], ![0, 1, 0], ![2, 0, 0], ![1, 1, 0]], [(5, [0, 1, 2]), (9, [1, 3, 4, 2])], [],
    [("CellGroup", ⟨false, [0, 1]⟩), ("vtkGhostType", ⟨false, [0, 32]⟩)], some [("A", 0), ("B", 1)]⟩

theorem kiteXY_ok : StackSurf kiteXY := by
  refine ⟨by simp [kiteXY], ?_, ?_, ?_, by simp [kiteXY, Arrays], ⟨?_, by simp [kiteXY]⟩⟩
  · intro tc htc x hx
    simp only [kiteXY, List.mem_cons, List.not_mem_nil, or_false] at htc
    rcases htc with rfl | rfl <;> simp at hx <;> simp [kiteXY] <;> omega
  · intro tc htc
    simp only [kiteXY, List.mem_cons, List.not_mem_nil, or_false] at htc
    rcases htc with rfl | rfl <;> simp
  · intro tc htc
    simp only [kiteXY, List.mem_cons, List.not_mem_nil, or_false] at htc
    rcases htc with rfl | rfl <;> simp
  · intro kv hkv
    simp only [kiteXY, List.mem_cons, List.not_mem_nil, or_false] at hkv
    rcases hkv with rfl | rfl <;> rfl

/-- Concrete case of C97: the stack on the kite, along z, is generated. -/
example (o : InterpOracle ℝ) :
    ∃ s r, (Stack.new kiteXY 2 false).run o (someAdds.map addCall) = .ok s ∧
      stack3DU exactVtk true [] "default" s = .ok r := by
  obtain ⟨s, hs, _⟩ := C26_scalar_heights (ω := Opts (Resolution ℝ × Option String)) o kiteXY 2 false
    0 ⟨none, ⟨(.int 1, none), .none⟩, 0, 0⟩
    [(5, ⟨none, ⟨(.int 2, none), .none⟩, 0, 0⟩),
      (7, ⟨none, ⟨(.int 3, some "log"), .dict [("C", .mask [true, false])]⟩, 0, 0⟩)]
  obtain ⟨r, hr⟩ := (C97_unstructured_partial exactVtk_ok.1 exactVtk_ok.2 true [] "default" o kiteXY kiteXY_ok 2 false
    someAdds (by decide) someAdds_res s hs).1
    (by
      intro x hx
      simp only [itemArgs, someAdds, List.tail_cons, List.map_cons, List.map_nil, List.mem_cons, List.not_mem_nil,
        or_false] at hx
      rcases hx with rfl | rfl
      · simp [Acceptable, entries]
      · intro kv hkv
        simp only [entries, List.mem_singleton] at hkv
        subst hkv
        rfl)
  exact ⟨s, r, hs, hr⟩

/-- Concrete case of C98. -/
example (rot : V3 ℝ → ℝ → V3 ℝ → V3 ℝ → V3 ℝ) :
    ∃ e r, (Extr.new kiteXY none none).run rot someExtrusions = .ok e ∧ extrudeU exactVtk [] "default" e = .ok r := by
  obtain ⟨e, he⟩ : ∃ e, (Extr.new kiteXY none none).run rot someExtrusions = .ok e := ⟨_, rfl⟩
  have key : ∀ (r : ℤ) m, Supported m → ∃ ts, resolutionToPerc (.int r) m = .ok ts ∧ fromZeroToOne ts := by
    intro r m hm
    obtain ⟨p, h1, h2, _⟩ := C11_integer_resolution r m hm
    refine ⟨p, h1, ?_, h2.first, ?_⟩
    · rw [h2.size]; omega
    · rw [h2.size]; exact h2.last
  obtain ⟨r, hr⟩ := (C98_unstructured_partial exactVtk_ok.1 exactVtk_ok.2 rot [] "default" kiteXY kiteXY_ok none none
    someExtrusions (by simp [someExtrusions])
    (by
      intro x hx
      simp only [someExtrusions, List.mem_cons, List.not_mem_nil, or_false] at hx
      rcases hx with rfl | rfl
      · exact key 2 none (.inl rfl)
      · exact key 3 (some "log") (.inr (.inl rfl))) e he).1
    (by
      intro x hx
      simp only [someExtrusions, List.mem_cons, List.not_mem_nil, or_false] at hx
      rcases hx with rfl | rfl
      · intro kv hkv
        simp only [entries] at hkv
        rw [if_neg (by decide), List.mem_singleton] at hkv
        subst hkv
        simp [Fits]
      · intro kv hkv
        simp only [entries, List.mem_singleton] at hkv
        subst hkv
        rfl)
  exact ⟨e, r, he, hr⟩

/-- **C103 (partial), unstructured surfaces.** In the mesh of a stack, or of an extrusion, on an unstructured surface,
where the surface of an item coincides with the one below on the nodes of a base cell, the cells of the item over that
base cell are hidden; and if the base cell is not hidden itself, its cells in the item are hidden only where the first
sublayer has no height up to numpy's tolerance.  Cell `c` of layer `L` is the cell that carries `LayerId = L` and
`ColumnId = c`.  With C97 and C98, whose missing parts are missing here. -/
theorem C103_unstructured_partial {R : V3 ℝ → V3 ℝ → Prop} {flip : Bool} {ignore : List String} {dflt : String}
    {mesh : Surf ℝ UTopo} {args : List ((Resolution ℝ × Option String) × GroupArg)} {key : String}
    {surfs : List (List (V3 ℝ))} {M : UMesh ℝ} {table : List (String × Int)}
    (h : StackedMeshU R flip ignore dflt mesh args key surfs M table) :
    ∃ subs : List (List ℝ), subs.length = args.length ∧
      (∀ (k : ℕ) a, args[k]? = some a → ∃ ts, resolutionToPerc a.1.1 a.1.2 = .ok ts ∧ subs[k]? = some ts) ∧
      ∀ (k : ℕ) a b ts, surfs[k]? = some a → surfs[k + 1]? = some b → subs[k]? = some ts →
        ∀ (c s t : ℕ) conn, mesh.topo.cells[c]? = some (t, conn) → s < ts.length - 1 →
        ∃ n layers columns, n < M.cells.length ∧ Dict.get? M.cellData "LayerId" = some layers ∧
          Dict.get? M.cellData "ColumnId" = some columns ∧
          layers.vals[n]? = some ((layersIn subs k + s : ℕ) : ℤ) ∧ columns.vals[n]? = some (c : ℤ) ∧
          ((∀ j ∈ conn, a[j]? = b[j]?) → ghostOf M.cellData n = 32) ∧
          (ghostOf mesh.topo.cellData c ≠ 32 → ghostOf M.cellData n = 32 → Squeezed conn a b ts) := by
  obtain ⟨subs, names, pos, node, h1, h2, h3, h4⟩ := h
  refine ⟨subs, h1, fun k a ha => ?_, ?_⟩
  · obtain ⟨ts, _, t1, t2, _⟩ := h3 k a ha
    exact ⟨ts, t1, t2⟩
  intro k a b ts ha hb hts c s t conn hc hs
  have hk : k < args.length := by rw [← h1]; exact (List.getElem?_eq_some_iff.1 hts).1
  obtain ⟨_, name, _, _, hn, _⟩ := h3 k _ (List.getElem?_eq_getElem hk)
  have hcl : c < mesh.topo.cells.length := (List.getElem?_eq_some_iff.1 hc).1
  obtain ⟨layers, columns, items, groups, d1, d2, _, _, d5, _, d7⟩ := h4.data
  obtain ⟨e1, e2, _, e4⟩ := d7 k ts name hts hn c s hcl hs
  obtain ⟨f1, f2⟩ := h4.hidden k a b ts ha hb hts c s t conn hc hs
  refine ⟨pos (layersIn subs k + s) c, layers, columns, ?_, d1, d2, e1, e2, ?_, ?_⟩
  · obtain ⟨i, hi, _⟩ := e4
    rw [← d5]
    exact (List.getElem?_eq_some_iff.1 hi).1
  · intro heq
    refine f1 fun j hj t0 t1 x y _ _ hx hy => ?_
    rw [heq j hj, hy] at hx
    cases hx
    have : ∀ u : ℝ, between u x x = x := by intro u; funext ax; simp only [between]; ring
    rw [this, this]
    exact close_refl _
  · intro hg h32
    by_contra hsq
    rw [f2 hsq] at h32
    exact hg h32

end Gridder
