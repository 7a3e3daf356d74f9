import Verif.Props.Halves

/-!
# C147: the cells around a sector or rectangle have the neighbours of their position, across the diagonal too
-/

namespace Gridder
open Spec

namespace Spec

/-- Cells next to each other in a strip. -/
def NextTo (i j i' j' : ℕ) : Prop := (i = i' ∧ (j + 1 = j' ∨ j' + 1 = j)) ∨ (j = j' ∧ (i + 1 = i' ∨ i' + 1 = i))

/-- `ns` lists the neighbours in a strip of `N` by `m` cells: the cell between the places `(i, j)` and `(i + 1, j + 1)` is cell `pos i j` of the
mesh, and lists each of the cells next to it once, and no others. -/
structure StripNeighbours (N m : ℕ) (place : ℕ → ℕ → Fin 3 → ℝ) (points : List (Fin 3 → ℝ)) (cells : List (List ℕ)) (ns : List (List ℕ)) : Prop where
  size : ns.length = cells.length
  all : ∃ pos : ℕ → ℕ → ℕ, (∀ k < cells.length, ∃ i < N, ∃ j < m, pos i j = k) ∧
    (∀ i < N, ∀ j < m, ∃ c, cells[pos i j]? = some c ∧
      ∀ x, (∃ k ∈ c, points[k]? = some x) ↔ x = place i j ∨ x = place (i + 1) j ∨ x = place i (j + 1) ∨ x = place (i + 1) (j + 1)) ∧
    ∀ i < N, ∀ j < m, ∀ i' < N, ∀ j' < m, ∃ l, ns[pos i j]? = some l ∧ (NextTo i j i' j' → l.count (pos i' j') = 1) ∧
      (¬ NextTo i j i' j' → pos i' j' ∉ l)

end Spec

/-- The edges of a cell of a strip: along the first (`false`) or the second (`true`) direction. -/
def edgeKeys (i j : ℕ) : List (ℕ × ℕ × Bool) := [(i, j, false), (i + 1, j, true), (i, j + 1, false), (i, j, true)]

/-- The ends of an edge. -/
def edgeEnds (id : ℕ → ℕ → ℕ) (p : ℕ × ℕ × Bool) : Finset ℕ := if p.2.2 then {id p.1 p.2.1, id p.1 (p.2.1 + 1)} else {id p.1 p.2.1, id (p.1 + 1) p.2.1}

theorem mem_edgeKeys {i j a b : ℕ} {e : Bool} : (a, b, e) ∈ edgeKeys i j ↔
    (e = false ∧ a = i ∧ (b = j ∨ b = j + 1)) ∨ (e = true ∧ b = j ∧ (a = i ∨ a = i + 1)) := by
  cases e <;> simp [edgeKeys] <;> omega

theorem edgeKeys_nodup (i j : ℕ) : (edgeKeys i j).Nodup := by simp [edgeKeys]

theorem edge_inj {N m : ℕ} {id : ℕ → ℕ → ℕ} (hid : ∀ i ≤ N, ∀ j ≤ m, ∀ i' ≤ N, ∀ j' ≤ m, id i j = id i' j' → i = i' ∧ j = j')
    {i j i' j' : ℕ} (hi : i < N) (hj : j < m) (hi' : i' < N) (hj' : j' < m) {p p' : ℕ × ℕ × Bool} (hp : p ∈ edgeKeys i j)
    (hp' : p' ∈ edgeKeys i' j') (e : edgeEnds id p = edgeEnds id p') : p = p' := by
  obtain ⟨a, b, k⟩ := p
  obtain ⟨a', b', k'⟩ := p'
  rw [mem_edgeKeys] at hp hp'
  have mem : ∀ x, x ∈ edgeEnds id (a, b, k) ↔ x ∈ edgeEnds id (a', b', k') := fun x => by rw [e]
  cases k <;> cases k' <;> simp only [edgeEnds, Bool.false_eq_true, if_false, if_true, Finset.mem_insert, Finset.mem_singleton] at mem <;>
    simp only [Bool.false_eq_true, reduceCtorEq, false_and, true_and, false_or, or_false] at hp hp'
  · have h1 := (mem (id a b)).1 (.inl rfl)
    have h2 := (mem (id (a + 1) b)).1 (.inr rfl)
    have u1 := hid a (by omega) b (by omega) a' (by omega) b' (by omega)
    have u2 := hid a (by omega) b (by omega) (a' + 1) (by omega) b' (by omega)
    have u3 := hid (a + 1) (by omega) b (by omega) a' (by omega) b' (by omega)
    have u4 := hid (a + 1) (by omega) b (by omega) (a' + 1) (by omega) b' (by omega)
    have g1 : a = a' ∧ b = b' ∨ a = a' + 1 ∧ b = b' := h1.imp u1 u2
    have g2 : a + 1 = a' ∧ b = b' ∨ a + 1 = a' + 1 ∧ b = b' := h2.imp u3 u4
    obtain rfl : a = a' := by omega
    obtain rfl : b = b' := by omega
    rfl
  · exfalso
    have h1 := (mem (id a b)).1 (.inl rfl)
    have h2 := (mem (id (a + 1) b)).1 (.inr rfl)
    have g1 : a = a' ∧ b = b' ∨ a = a' ∧ b = b' + 1 :=
      h1.imp (hid a (by omega) b (by omega) a' (by omega) b' (by omega)) (hid a (by omega) b (by omega) a' (by omega) (b' + 1) (by omega))
    have g2 : a + 1 = a' ∧ b = b' ∨ a + 1 = a' ∧ b = b' + 1 :=
      h2.imp (hid (a + 1) (by omega) b (by omega) a' (by omega) b' (by omega)) (hid (a + 1) (by omega) b (by omega) a' (by omega) (b' + 1) (by omega))
    omega
  · exfalso
    have h1 := (mem (id a' b')).2 (.inl rfl)
    have h2 := (mem (id (a' + 1) b')).2 (.inr rfl)
    have g1 : a' = a ∧ b' = b ∨ a' = a ∧ b' = b + 1 :=
      h1.imp (hid a' (by omega) b' (by omega) a (by omega) b (by omega)) (hid a' (by omega) b' (by omega) a (by omega) (b + 1) (by omega))
    have g2 : a' + 1 = a ∧ b' = b ∨ a' + 1 = a ∧ b' = b + 1 :=
      h2.imp (hid (a' + 1) (by omega) b' (by omega) a (by omega) b (by omega)) (hid (a' + 1) (by omega) b' (by omega) a (by omega) (b + 1) (by omega))
    omega
  · have h1 := (mem (id a b)).1 (.inl rfl)
    have h2 := (mem (id a (b + 1))).1 (.inr rfl)
    have g1 : a = a' ∧ b = b' ∨ a = a' ∧ b = b' + 1 :=
      h1.imp (hid a (by omega) b (by omega) a' (by omega) b' (by omega)) (hid a (by omega) b (by omega) a' (by omega) (b' + 1) (by omega))
    have g2 : a = a' ∧ b + 1 = b' ∨ a = a' ∧ b + 1 = b' + 1 :=
      h2.imp (hid a (by omega) (b + 1) (by omega) a' (by omega) b' (by omega))
        (hid a (by omega) (b + 1) (by omega) a' (by omega) (b' + 1) (by omega))
    obtain rfl : a = a' := by omega
    obtain rfl : b = b' := by omega
    rfl

/-- Different cells with a common edge are next to each other. -/
theorem edge_next {i j i' j' : ℕ} (hne : ¬ (i = i' ∧ j = j')) {p : ℕ × ℕ × Bool} (hp : p ∈ edgeKeys i j) (hp' : p ∈ edgeKeys i' j') :
    NextTo i j i' j' := by
  obtain ⟨a, b, k⟩ := p
  rw [mem_edgeKeys] at hp hp'
  unfold NextTo
  cases k <;> simp only [Bool.false_eq_true, reduceCtorEq, false_and, true_and, false_or, or_false] at hp hp' <;> omega

theorem edge_one {i j i' j' : ℕ} (hne : ¬ (i = i' ∧ j = j')) {p q : ℕ × ℕ × Bool} (hp : p ∈ edgeKeys i j) (hp' : p ∈ edgeKeys i' j')
    (hq : q ∈ edgeKeys i j) (hq' : q ∈ edgeKeys i' j') : p = q := by
  obtain ⟨a, b, k⟩ := p
  obtain ⟨a', b', k'⟩ := q
  rw [mem_edgeKeys] at hp hp' hq hq'
  cases k <;> cases k' <;> simp only [Bool.false_eq_true, reduceCtorEq, false_and, true_and, false_or, or_false] at hp hp' hq hq' <;>
    simp only [Prod.mk.injEq, and_true, reduceCtorEq, and_false] <;> omega

theorem next_edge {i j i' j' : ℕ} (h : NextTo i j i' j') : ∃ p, p ∈ edgeKeys i j ∧ p ∈ edgeKeys i' j' := by
  rcases h with ⟨rfl, rfl | rfl⟩ | ⟨rfl, rfl | rfl⟩
  · exact ⟨(i, j + 1, false), by simp [edgeKeys], by simp [edgeKeys]⟩
  · exact ⟨(i, j' + 1, false), by simp [edgeKeys], by simp [edgeKeys]⟩
  · exact ⟨(i + 1, j, true), by simp [edgeKeys], by simp [edgeKeys]⟩
  · exact ⟨(i' + 1, j, true), by simp [edgeKeys], by simp [edgeKeys]⟩

/-- Quads around a cell of a strip have its edges. -/
theorem quad_edges (id : ℕ → ℕ → ℕ) (i j : ℕ) {c : List ℕ} (h : c = [id i j, id (i + 1) j, id (i + 1) (j + 1), id i (j + 1)] ∨
    c = [id (i + 1) j, id i j, id i (j + 1), id (i + 1) (j + 1)]) :
    ∃ fs, cellEdges 9 (.nodes c) = .ok fs ∧ (fs.map List.toFinset).Perm ((edgeKeys i j).map (edgeEnds id)) := by
  rcases h with rfl | rfl
  · refine ⟨_, rfl, List.Perm.of_eq ?_⟩
    simp [edgeKeys, edgeEnds, List.rotate, Finset.pair_comm]
  · refine ⟨_, rfl, ?_⟩
    have p : ([0, 3, 2, 1] : List (Fin 4)).Perm [0, 1, 2, 3] := by decide
    have q := p.map fun k => edgeEnds id ((![(i, j, false), (i + 1, j, true), (i, j + 1, false), (i, j, true)] : Fin 4 → ℕ × ℕ × Bool) k)
    refine (List.Perm.of_eq ?_).trans (q.trans (List.Perm.of_eq ?_))
    · simp [edgeEnds, List.rotate, Finset.pair_comm]
    · simp [edgeKeys]

/-- `get_neighborhood` of one strip of quads returns the neighbours in the strip. -/
theorem strip_neighbours {N m : ℕ} (hN : 2 ≤ N) (hm : 1 ≤ m) {place : ℕ → ℕ → V3 ℝ} {points : List (V3 ℝ)} {quads : List (List ℕ)}
    (h : IsStrip N m place points quads) (positive : List ℕ → Bool) (removeGhost : Bool)
    (hsym : ∀ c c', sameNodes c c' = true → positive c = positive c')
    (hpos : removeGhost = true → ∀ a < points.length, ∀ b < points.length, a ≠ b → positive [a, b] = true) :
    ∃ ns, getNeighborhood quads.length (extractCellGeometry positive removeGhost (quads.map fun _ => 9) (quads.map .nodes)) = .ok ns ∧
      StripNeighbours N m place points quads ns := by
  obtain ⟨id, pos, hplace, hid, hposi, hcells⟩ := h.nodes
  have hlt : ∀ i < N, ∀ j < m, pos i j < quads.length := by
    intro i hi j hj
    rcases hcells i hi j hj with e | e <;> exact (List.getElem?_eq_some_iff.1 e).1
  have hsurj : ∀ k < quads.length, ∃ i < N, ∃ j < m, pos i j = k := by
    have himg : ((Finset.range N ×ˢ Finset.range m).image fun p => pos p.1 p.2) = Finset.range (N * m) := by
      apply Finset.eq_of_subset_of_card_le
      · intro k hk
        obtain ⟨p, hp, rfl⟩ := Finset.mem_image.1 hk
        rw [Finset.mem_product, Finset.mem_range, Finset.mem_range] at hp
        rw [Finset.mem_range, ← h.cellCount]
        exact hlt _ hp.1 _ hp.2
      · rw [Finset.card_image_of_injOn, Finset.card_product, Finset.card_range, Finset.card_range, Finset.card_range]
        intro p hp p' hp' e
        rw [Finset.mem_coe, Finset.mem_product, Finset.mem_range, Finset.mem_range] at hp hp'
        have := hposi _ hp.1 _ hp.2 _ hp'.1 _ hp'.2 e
        exact Prod.ext this.1 this.2
    intro k hk
    rw [h.cellCount, ← Finset.mem_range, ← himg] at hk
    obtain ⟨p, hp, rfl⟩ := Finset.mem_image.1 hk
    rw [Finset.mem_product, Finset.mem_range, Finset.mem_range] at hp
    exact ⟨p.1, hp.1, p.2, hp.2, rfl⟩
  have hsurj' : ∀ k < quads.length, ∃ i j, i < N ∧ j < m ∧ pos i j = k := by
    intro k hk
    obtain ⟨i, hi, j, hj, e⟩ := hsurj k hk
    exact ⟨i, j, hi, hj, e⟩
  choose! li lj hloc using hsurj'
  have hat : ∀ i < N, ∀ j < m, li (pos i j) = i ∧ lj (pos i j) = j := by
    intro i hi j hj
    obtain ⟨a, b, c⟩ := hloc _ (hlt i hi j hj)
    exact hposi _ a _ b _ hi _ hj c
  have hcell : ∀ (k : ℕ) c, quads[k]? = some c → ∃ fs, cellEdges 9 (.nodes c) = .ok fs ∧
      (fs.map List.toFinset).Perm ((edgeKeys (li k) (lj k)).map (edgeEnds id)) := by
    intro k c hc
    obtain ⟨a, b, e⟩ := hloc k (List.getElem?_eq_some_iff.1 hc).1
    refine quad_edges id _ _ ?_
    have := hcells _ a _ b
    rw [e, hc, Option.some.injEq, Option.some.injEq] at this
    exact this
  have hq : 0 < quads.length := by
    have := hlt 0 (by omega) 0 (by omega)
    omega
  obtain ⟨F, f1, f2, f3⟩ : ∃ F, allFaces (quads.map fun _ => 9) (quads.map .nodes) = .ok F ∧ F.length = quads.length ∧
      KeyedFaces (fun k => edgeKeys (li k) (lj k)) (edgeEnds id) F := by
    have htype : ∀ t ∈ quads.map (fun _ => 9), t = 9 := by
      intro t ht
      obtain ⟨_, _, rfl⟩ := List.mem_map.1 ht
      rfl
    obtain ⟨dim, e1, e2, e3⟩ := meshDim_between 2 2 (by decide) (quads.map fun _ => 9)
      ⟨9, List.mem_map.2 ⟨_, List.getElem_mem hq, rfl⟩, by decide⟩ (by
        intro t ht _
        rw [htype t ht]
        exact ⟨2, by decide, le_refl _, le_refl _⟩)
    unfold allFaces
    rw [e1]
    simp only
    rw [if_pos (by omega), if_neg (by
      rw [List.any_eq_true]
      rintro ⟨t, ht, hne⟩
      rw [htype t ht] at hne
      revert hne
      decide)]
    obtain ⟨F, f1, f2, f3⟩ := mapCells_ok (f := cellEdges) (ts := quads.map fun _ => 9) (cs := quads.map Conn.nodes) (by simp) (by
        intro i t c ht hc
        rw [List.getElem?_map] at ht hc
        obtain ⟨x, hx, rfl⟩ := Option.map_eq_some_iff.1 ht
        rw [hx] at hc
        obtain rfl := Option.some.inj hc
        obtain ⟨fs, q, _⟩ := hcell i x hx
        exact ⟨fs, q⟩)
    rw [List.length_map] at f2
    refine ⟨F, f1, f2, ?_, ?_, fun k _ => edgeKeys_nodup _ _⟩
    · intro k fs hfs
      have hk := (List.getElem?_eq_some_iff.1 hfs).1
      rw [f2] at hk
      have hx := List.getElem?_eq_getElem hk
      obtain ⟨gs, q1, q2⟩ := hcell k _ hx
      obtain ⟨y, y1, y2⟩ := f3 k 9 (.nodes quads[k]) (by rw [List.getElem?_map, hx]; rfl) (by rw [List.getElem?_map, hx]; rfl)
      rw [q1] at y1
      obtain rfl := Except.ok.inj y1
      rw [hfs] at y2
      obtain rfl := Option.some.inj y2
      exact q2
    · intro k k' hk hk' p hp p' hp' e
      rw [f2] at hk hk'
      exact edge_inj hid (hloc k hk).1 (hloc k hk).2.1 (hloc k' hk').1 (hloc k' hk').2.1 hp hp' e
  have diff : ∀ {k k'}, k < quads.length → k' < quads.length → k ≠ k' → ¬ (li k = li k' ∧ lj k = lj k') := by
    rintro k k' hk hk' hne ⟨a, b⟩
    exact hne (by rw [← (hloc k hk).2.2, a, b, (hloc k' hk').2.2])
  have htwo : ∀ fs ∈ F, ∀ f ∈ fs, (owners F f).length ≤ 2 := by
    intro fs hfs f hf
    obtain ⟨n, hn⟩ := List.mem_iff_getElem?.1 hfs
    have hnl := (List.getElem?_eq_some_iff.1 hn).1
    obtain ⟨⟨a, b, e⟩, hp, hpe⟩ := (f3.has_iff hnl f).1 ⟨fs, hn, f, hf, sameNodes_refl f⟩
    have hsub : owners F f ⊆ [pos a b, if e then pos (a - 1) b else pos a (b - 1)] := by
      intro i hi
      obtain ⟨gs, hgs, hx⟩ := mem_owners.1 hi
      have hil := (List.getElem?_eq_some_iff.1 hgs).1
      obtain ⟨p', hp', hpe'⟩ := (f3.has_iff hil f).1 ⟨gs, hgs, hx⟩
      obtain rfl := f3.inj n i hnl hil _ hp p' hp' (hpe.trans hpe'.symm)
      rw [f2] at hil
      have hl := (hloc i hil).2.2
      rcases mem_edgeKeys.1 hp' with ⟨rfl, rfl, rfl | rfl⟩ | ⟨rfl, rfl, rfl | rfl⟩ <;> simp [hl]
    exact ((f3.owners_nodup f).subperm hsub).length_le
  have hkeep : ∀ fs ∈ F, ∀ f ∈ fs, (!removeGhost || positive f) = true := by
    intro fs hfs f hf
    rcases hr : removeGhost with _ | _
    · rfl
    · obtain ⟨n, hn⟩ := List.mem_iff_getElem?.1 hfs
      have hnl := (List.getElem?_eq_some_iff.1 hn).1
      obtain ⟨⟨a, b, e⟩, hp, hpe⟩ := (f3.has_iff hnl f).1 ⟨fs, hn, f, hf, sameNodes_refl f⟩
      rw [f2] at hnl
      obtain ⟨h1, h2, _⟩ := hloc n hnl
      have hin : ∀ i ≤ N, ∀ j ≤ m, id i j < points.length := fun i hi j hj => (List.getElem?_eq_some_iff.1 (hplace i hi j hj)).1
      have pair : ∀ i ≤ N, ∀ j ≤ m, ∀ i' ≤ N, ∀ j' ≤ m, ¬ (i = i' ∧ j = j') → f.toFinset = {id i j, id i' j'} → positive f = true := by
        intro i hi j hj i' hi' j' hj' hne e
        rw [hsym f [id i j, id i' j'] (by rw [sameNodes, decide_eq_true_eq, e]; simp)]
        exact hpos hr _ (hin i hi j hj) _ (hin i' hi' j' hj') fun e => hne (hid i hi j hj i' hi' j' hj' e)
      have key := mem_edgeKeys.1 hp
      rw [Bool.not_true, Bool.false_or]
      cases e <;> simp only [Bool.false_eq_true, reduceCtorEq, false_and, true_and, false_or, or_false] at key
      · exact pair a (by omega) b (by omega) (a + 1) (by omega) b (by omega) (by omega) (by rw [← hpe]; simp [edgeEnds])
      · exact pair a (by omega) b (by omega) a (by omega) (b + 1) (by omega) (by omega) (by rw [← hpe]; simp [edgeEnds])
  have hlen : (quads.map fun _ => 9).length = (quads.map Conn.nodes).length := by simp
  have hcl : (quads.map Conn.nodes).length = quads.length := by simp
  have hret : ∃ ns, getNeighborhood quads.length (extractCellGeometry positive removeGhost (quads.map fun _ => 9) (quads.map .nodes)) = .ok ns := by
    rw [← hcl, C37_returns_iff positive removeGhost _ _ F f1 hsym (fun fs hfs c hc _ => htwo fs hfs c hc)]
    refine ⟨?_, ?_⟩
    · have p0 := hlt 0 (by omega) 0 (by omega)
      have p1 := hlt 1 (by omega) 0 (by omega)
      have hne : pos 0 0 ≠ pos 1 0 := by
        intro e
        have := hposi 0 (by omega) 0 (by omega) 1 (by omega) 0 (by omega) e
        omega
      obtain ⟨p, k1, k2⟩ := next_edge (i := 0) (j := 0) (i' := 1) (j' := 0) (Or.inr ⟨rfl, Or.inl rfl⟩)
      obtain ⟨f, hf⟩ : ∃ f : List ℕ, f.toFinset = edgeEnds id p := ⟨(edgeEnds id p).toList, by simp⟩
      obtain ⟨a0, b0⟩ := hat 0 (by omega) 0 (by omega)
      obtain ⟨a1, b1⟩ := hat 1 (by omega) 0 (by omega)
      obtain ⟨_, ⟨fs, e, g, hg, hs⟩, hj⟩ := (f3.share_iff (n := pos 0 0) (n' := pos 1 0) (by rw [f2]; exact p0) (by rw [f2]; exact p1) f).2
        ⟨hne, p, by rw [a0, b0]; exact k1, by rw [a1, b1]; exact k2, hf.symm⟩
      have hfs := List.mem_of_getElem? e
      refine ⟨fs, hfs, g, hg, hkeep fs hfs g hg, ?_⟩
      have hle := htwo fs hfs g hg
      have hi : pos 0 0 ∈ owners F g := mem_owners.2 ⟨fs, e, g, hg, sameNodes_refl g⟩
      have hj' : pos 1 0 ∈ owners F g := by rw [owners_congr F hs]; exact mem_owners.2 hj
      rcases ho : owners F g with _ | ⟨a, _ | ⟨b, _ | ⟨x, l⟩⟩⟩
      · rw [ho] at hi; simp at hi
      · rw [ho] at hi hj'; simp at hi hj'; omega
      · rfl
      · rw [ho] at hle; simp at hle
    · rintro hr ⟨gs, hgs, x, hx, hneg⟩
      have := hkeep gs hgs x hx
      rw [hr, hneg] at this
      cases this
  obtain ⟨ns, hns⟩ := hret
  refine ⟨ns, hns, ?_⟩
  rw [← hcl] at hns
  obtain ⟨g1, g2, _, _⟩ := C35_returned_partial positive removeGhost _ _ F hlen f1 hsym f3.noRepeated
    (fun fs hfs c hc _ => htwo fs hfs c hc) ns hns
  rw [hcl] at g1
  refine ⟨g1, pos, hsurj, ?_, ?_⟩
  · intro i hi j hj
    have p1 := hplace i hi.le j hj.le
    have p2 := hplace (i + 1) hi j hj.le
    have p3 := hplace i hi.le (j + 1) hj
    have p4 := hplace (i + 1) hi (j + 1) hj
    rcases hcells i hi j hj with e | e
    · refine ⟨_, e, fun x => ?_⟩
      simp only [List.mem_cons, List.not_mem_nil, or_false, exists_eq_or_imp, exists_eq_left, p1, p2, p3, p4, Option.some.injEq]
      constructor <;> rintro (h | h | h | h) <;> simp [h]
    · refine ⟨_, e, fun x => ?_⟩
      simp only [List.mem_cons, List.not_mem_nil, or_false, exists_eq_or_imp, exists_eq_left, p1, p2, p3, p4, Option.some.injEq]
      constructor <;> rintro (h | h | h | h) <;> simp [h]
  · intro i hi j hj i' hi' j' hj'
    have k1 := hlt i hi j hj
    have k2 := hlt i' hi' j' hj'
    obtain ⟨a1, b1⟩ := hat i hi j hj
    obtain ⟨a2, b2⟩ := hat i' hi' j' hj'
    have F1 : pos i j < F.length := by rw [f2]; exact k1
    have F2 : pos i' j' < F.length := by rw [f2]; exact k2
    have hl := List.getElem?_eq_getElem (l := ns) (i := pos i j) (by rw [g1]; exact k1)
    refine ⟨_, hl, ?_, ?_⟩
    · intro hnext
      obtain ⟨q1, q2, q3⟩ := g2 _ (pos i' j') _ hl
      have hne : pos i j ≠ pos i' j' := by
        intro e
        have := hposi i hi j hj i' hi' j' hj' e
        unfold NextTo at hnext
        omega
      obtain ⟨p, e1, e2⟩ := next_edge hnext
      have e1' : p ∈ edgeKeys (li (pos i j)) (lj (pos i j)) := by rw [a1, b1]; exact e1
      have e2' : p ∈ edgeKeys (li (pos i' j')) (lj (pos i' j')) := by rw [a2, b2]; exact e2
      obtain ⟨f, hf⟩ : ∃ f : List ℕ, f.toFinset = edgeEnds id p := ⟨(edgeEnds id p).toList, by simp⟩
      have hsh := (f3.share_iff F1 F2 f).2 ⟨hne, p, e1', e2', hf.symm⟩
      obtain ⟨_, ⟨fs, e, g, hg, hs⟩, _⟩ := hsh
      have hmem : pos i' j' ∈ ns[pos i j]'(by rw [g1]; exact k1) := by
        refine q1.2 ⟨g, hkeep fs (List.mem_of_getElem? e) g hg, (f3.share_iff F1 F2 g).2 ⟨hne, p, e1', e2', ?_⟩⟩
        rw [← hf]; exact (of_decide_eq_true hs).symm
      have hge := List.count_pos_iff.2 hmem
      have hone : ∀ n n', n < F.length → n' < F.length → sharedFaces (fun c => !removeGhost || positive c) F n n' ≤ 1 := by
        intro n n' hn hn'
        refine f3.shared_le _ hn hn' fun hne p p' a1 a2 a3 a4 => ?_
        rw [f2] at hn hn'
        exact edge_one (diff hn hn' hne) a1 a2 a3 a4
      rcases lt_or_gt_of_ne hne with hlt | hlt
      · have := q2 hlt
        have := hone _ _ F1 F2
        omega
      · have := q3 hlt
        have := hone _ _ F2 F1
        omega
    · intro hnext hmem
      obtain ⟨f, _, hsh⟩ := (g2 _ (pos i' j') _ hl).1.1 hmem
      obtain ⟨hne, p, e1, e2, _⟩ := (f3.share_iff F1 F2 f).1 hsh
      rw [a1, b1] at e1
      rw [a2, b2] at e2
      refine hnext (edge_next ?_ e1 e2)
      rintro ⟨rfl, rfl⟩
      exact hne rfl

section
variable {δ : Type _} [OfNat δ 0] [OfNat δ 32]

/-- **C147 (SectorRectangle).** `get_neighborhood` returns, and lists for every cell the cells next to it along the rows and across them, each
once: also across the diagonal, where the halves were joined.  Missing: theta_method log_r, see C144.  With `remove_ghost_cells`, the edges
between different points must count as positive. -/
theorem C147_sectorRectangle_partial {join : Joining ℝ} (hj : JoinsEqual join) {area : Arr3 (V3 ℝ) → List ℝ} {radius dx dy : ℝ}
    {rres tres : Resolution ℝ} {rm tm : Option String} (fr : DividesUnit rres rm) (ft : DividesUnit tres none) (fl : DividesUnit tres tm)
    (late : ∀ ls ts, resolutionToPerc tres tm = .ok ls → resolutionToPerc tres none = .ok ts → ∀ p, ls.getD p 0 ≤ ts.getD p 0)
    {c : Option (List ℝ)} {M : QuadMesh ℝ} (h : sectorRectangleMesh δ join area radius dx dy rres tres rm tm c = .ok M)
    (positive : List ℕ → Bool) (removeGhost : Bool) (hsym : ∀ c c', sameNodes c c' = true → positive c = positive c')
    (hpos : removeGhost = true → ∀ a < M.points.length, ∀ b < M.points.length, a ≠ b → positive [a, b] = true) :
    ∃ v ts ls rs n m, IsCentre c v ∧ resolutionToPerc tres none = .ok ts ∧ resolutionToPerc tres tm = .ok ls ∧ resolutionToPerc rres rm = .ok rs ∧
      ts.length = n + 1 ∧ rs.length = m + 1 ∧
      ∃ ns, getNeighborhood M.cells.length (extractCellGeometry positive removeGhost (M.cells.map fun _ => 9) (M.cells.map .nodes)) = .ok ns ∧
        StripNeighbours (n + n) m (fun i j => if i ≤ n then
            v + between (rs.getD j 0) (polar radius (45 - 45 * ts.getD (n - i) 0)) ![dx, (1 - ls.getD (n - i) 0) * dy, 0]
          else v + between (rs.getD j 0) (polar radius (45 + 45 * ts.getD (i - n) 0)) ![(1 - ls.getD (i - n) 0) * dx, dy, 0])
          M.points M.cells ns := by
  obtain ⟨v, ts, ls, rs, n, m, h1, h2, h3, h4, h5, h6, hs⟩ := C146_sectorRectangle_partial hj fr ft fl late h
  obtain ⟨n', st⟩ := ft _ h2
  obtain ⟨m', sr⟩ := fr _ h4
  have := subdivision_pos st
  have := subdivision_pos sr
  have := st.size
  have := sr.size
  exact ⟨v, ts, ls, rs, n, m, h1, h2, h3, h4, h5, h6, strip_neighbours (by omega) (by omega) hs positive removeGhost hsym hpos⟩

/-- **C147 (RectangleSector).** The same around a rectangle.  Missing: rectangles that reach beyond the point of the arc at 45 degrees. -/
theorem C147_rectangleSector_partial {join : Joining ℝ} (hj : JoinsEqual join) {area : Arr3 (V3 ℝ) → List ℝ} {radius dx dy : ℝ} (hr : 0 < radius)
    (hx0 : 0 < dx) (hy0 : 0 < dy) (hx : 2 * dx ^ 2 < radius ^ 2) (hy : 2 * dy ^ 2 < radius ^ 2) {xres yres rres : Resolution ℝ}
    {xm ym rm : Option String} (fx : DividesUnit xres xm) (fy : DividesUnit yres ym) (fr : DividesUnit rres rm)
    {c : Option (List ℝ)} {M : QuadMesh ℝ} (h : rectangleSectorMesh δ join area dx dy radius xres yres rres xm ym rm c = .ok M)
    (positive : List ℕ → Bool) (removeGhost : Bool) (hsym : ∀ c c', sameNodes c c' = true → positive c = positive c')
    (hpos : removeGhost = true → ∀ a < M.points.length, ∀ b < M.points.length, a ≠ b → positive [a, b] = true) :
    ∃ v xs ys rs n n' m, IsCentre c v ∧ resolutionToPerc xres xm = .ok xs ∧ resolutionToPerc yres ym = .ok ys ∧
      resolutionToPerc rres rm = .ok rs ∧ ys.length = n + 1 ∧ xs.length = n' + 1 ∧ rs.length = m + 1 ∧
      ∃ ns, getNeighborhood M.cells.length (extractCellGeometry positive removeGhost (M.cells.map fun _ => 9) (M.cells.map .nodes)) = .ok ns ∧
        StripNeighbours (n + n') m (fun i j => if i ≤ n then
            v + between (rs.getD j 0) ![dx, (1 - ys.getD (n - i) 0) * dy, 0] (polar radius (45 - 45 * ys.getD (n - i) 0))
          else v + between (rs.getD j 0) ![(1 - xs.getD (i - n) 0) * dx, dy, 0] (polar radius (45 + 45 * xs.getD (i - n) 0)))
          M.points M.cells ns := by
  obtain ⟨v, xs, ys, rs, n, n', m, h1, h2, h3, h4, h5, h6, h7, hs⟩ := C146_rectangleSector_partial hj hr hx0 hy0 hx hy fx fy fr h
  obtain ⟨k, sy⟩ := fy _ h3
  obtain ⟨k', sx⟩ := fx _ h2
  obtain ⟨m', sr⟩ := fr _ h4
  have := subdivision_pos sy
  have := subdivision_pos sx
  have := subdivision_pos sr
  have := sy.size
  have := sx.size
  have := sr.size
  exact ⟨v, xs, ys, rs, n, n', m, h1, h2, h3, h4, h5, h6, h7, strip_neighbours (by omega) (by omega) hs positive removeGhost hsym hpos⟩

end

/-- Concrete case of C147: around a quarter disc with 5 rows of cells and 4 cells along each half, the neighbours of 40 cells are listed,
with the edges between different points counted as positive. -/
example (area : Arr3 (V3 ℝ) → List ℝ) : ∃ (join : Joining ℝ) (M : QuadMesh ℝ) (ns : List (List ℕ)), JoinsEqual join ∧
    sectorRectangleMesh ℤ join area 1 2 3 (.int 5) (.int 4) (some "log") (some "log") none = .ok M ∧
      getNeighborhood M.cells.length (extractCellGeometry (fun c => decide (1 < c.toFinset.card)) true (M.cells.map fun _ => 9)
        (M.cells.map .nodes)) = .ok ns ∧ ns.length = 40 := by
  obtain ⟨join, hj⟩ := joins_exists
  obtain ⟨A, B, h⟩ := C63_sectorRectangle_exists (δ := ℤ) area zero_lt_one (by norm_num : (1 : ℝ) < 2)
    (by norm_num : (1 : ℝ) < 3) 5 4 (rm := some "log") (tm := some "log") (Or.inr (Or.inl rfl)) (Or.inr (Or.inl rfl)) (c := none) (v := 0)
    (by simp [IsCentre])
  have hM : sectorRectangleMesh ℤ join area 1 2 3 (.int 5) (.int 4) (some "log") (some "log") none = .ok (sumHalves join A B) := by
    simp only [sectorRectangleMesh, h]; rfl
  have fr := divides_int 5 (m := some "log") (Or.inr (Or.inl rfl))
  have ft := divides_int 4 (m := none) (Or.inl rfl)
  have fl := divides_int 4 (m := some "log") (Or.inr (Or.inl rfl))
  obtain ⟨_, _, _, _, n, m, _, h2, _, h3, hn, hm, hs⟩ := C146_sectorRectangle_partial hj fr ft fl (fun _ _ => late_int 4 (Or.inr rfl)) hM
  obtain ⟨_, _, _, _, _, _, _, _, _, _, _, _, ns, hns, hN⟩ := C147_sectorRectangle_partial hj fr ft fl (fun _ _ => late_int 4 (Or.inr rfl)) hM
    (fun c => decide (1 < c.toFinset.card)) true (fun c c' e => by rw [of_decide_eq_true e]) (fun _ a _ b _ hne => by simp [hne])
  refine ⟨join, _, ns, hj, hM, hns, ?_⟩
  have e2 := partsOf_size (Or.inl rfl) h2
  have e3 := partsOf_size (Or.inr (Or.inl rfl)) h3
  rw [hN.size, hs.cellCount]
  simp only [partsOf] at e2 e3
  norm_num at e2 e3
  obtain rfl : n = 4 := by omega
  obtain rfl : m = 5 := by omega
  rfl

end Gridder
