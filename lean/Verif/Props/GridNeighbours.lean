import Verif.Model.Cast
import Verif.Props.Neighbours

/-!
# C138: neighbours in a structured mesh
-/

namespace Gridder
open Spec

namespace Spec

/-- The cell after `c` along axis `ax`. -/
def after (ax : Fin 3) (c : Fin 3 → ℕ) : Fin 3 → ℕ := Function.update c ax (c ax + 1)

/-- A grid of cells: two nodes or more along each axis, with the exception of one axis at most. -/
def GridOfCells (d : Fin 3 → ℕ) : Prop := (∀ b, 2 ≤ d b) ∨ ∃ flat, d flat = 1 ∧ ∀ b, b ≠ flat → 2 ≤ d b

/-- `x` is a node of the cell at `c`. -/
def CornerOf (d c : Fin 3 → ℕ) (x : ℕ) : Prop :=
  ∃ i, InShape d i ∧ x = vtkId d i ∧ ∀ b, i b = c b ∨ i b = c b + 1

/-- Two cells of the grid one of which comes after the other along some axis. -/
def Adjacent (c c' : Fin 3 → ℕ) : Prop := ∃ ax, c' = after ax c ∨ c = after ax c'

/-- The nodes `f` are those of both cells. -/
def Common (d c c' : Fin 3 → ℕ) (f : List ℕ) : Prop := ∀ x, x ∈ f ↔ CornerOf d c x ∧ CornerOf d c' x

/-- `ns` lists the neighbours of the cells: the cells before and after it along each axis, once each, if they are not hidden and the face
between them counts.  Hidden cells have no neighbours. -/
structure GridNeighbours (d : Fin 3 → ℕ) (hidden : ℕ → Bool) (counts : List ℕ → Bool) (ns : List (List ℕ)) : Prop where
  size : ns.length = count (cells d)
  once : ∀ c c' l, InShape (cells d) c → InShape (cells d) c' → ns[vtkId (cells d) c]? = some l →
    hidden (vtkId (cells d) c) = false → hidden (vtkId (cells d) c') = false → Adjacent c c' →
    (∃ f, Common d c c' f ∧ counts f = true) → l.count (vtkId (cells d) c') = 1
  only : ∀ c l n, InShape (cells d) c → ns[vtkId (cells d) c]? = some l → n ∈ l →
    ∃ c', InShape (cells d) c' ∧ n = vtkId (cells d) c' ∧ Adjacent c c' ∧ hidden (vtkId (cells d) c) = false ∧
      hidden n = false ∧ ∃ f, Common d c c' f ∧ counts f = true

end Spec

/-! ### faces named by keys -/

/-- The faces of cell `n` have the node sets `S p` for its keys `p`. -/
structure KeyedFaces {κ : Type} (keys : ℕ → List κ) (S : κ → Finset ℕ) (F : List (List (List ℕ))) : Prop where
  faces : ∀ (n : ℕ) fs, F[n]? = some fs → (fs.map List.toFinset).Perm ((keys n).map S)
  inj : ∀ n n', n < F.length → n' < F.length → ∀ p ∈ keys n, ∀ p' ∈ keys n', S p = S p' → p = p'
  nodup : ∀ n, n < F.length → (keys n).Nodup

section
variable {κ : Type} {keys : ℕ → List κ} {S : κ → Finset ℕ} {F : List (List (List ℕ))}

theorem KeyedFaces.noRepeated (h : KeyedFaces keys S F) : NoRepeatedFace F := by
  intro fs hfs
  obtain ⟨n, hn⟩ := List.mem_iff_getElem?.1 hfs
  have hl := (List.getElem?_eq_some_iff.1 hn).1
  have hnd : (fs.map List.toFinset).Nodup := by
    rw [(h.faces n fs hn).nodup_iff]
    exact List.Nodup.map_on (fun p hp p' hp' e => h.inj n n hl hl p hp p' hp' e) (h.nodup n hl)
  rw [List.Nodup, List.pairwise_map] at hnd
  exact hnd.imp fun hne => by simpa [sameNodes] using hne

theorem KeyedFaces.has_iff (h : KeyedFaces keys S F) {n : ℕ} (hn : n < F.length) (x : List ℕ) :
    (∃ fs, F[n]? = some fs ∧ ∃ f ∈ fs, sameNodes f x = true) ↔ ∃ p ∈ keys n, S p = x.toFinset := by
  have hm : ∀ fs, F[n]? = some fs → ∀ s, s ∈ fs.map List.toFinset ↔ ∃ p ∈ keys n, S p = s := by
    intro fs e s
    rw [(h.faces n fs e).mem_iff, List.mem_map]
  constructor
  · rintro ⟨fs, e, f, hf, hs⟩
    exact (hm fs e _).1 (List.mem_map.2 ⟨f, hf, of_decide_eq_true hs⟩)
  · intro hp
    have e := List.getElem?_eq_getElem hn
    obtain ⟨f, hf, hs⟩ := List.mem_map.1 ((hm _ e _).2 hp)
    exact ⟨_, e, f, hf, decide_eq_true hs⟩

/-- Cells share a face iff they have a key in common. -/
theorem KeyedFaces.share_iff (h : KeyedFaces keys S F) {n n' : ℕ} (hn : n < F.length) (hn' : n' < F.length) (x : List ℕ) :
    Share F n n' x ↔ n ≠ n' ∧ ∃ p, p ∈ keys n ∧ p ∈ keys n' ∧ S p = x.toFinset := by
  unfold Share
  rw [h.has_iff hn, h.has_iff hn']
  constructor
  · rintro ⟨hne, ⟨p, hp, e⟩, p', hp', e'⟩
    obtain rfl := h.inj n n' hn hn' p hp p' hp' (e.trans e'.symm)
    exact ⟨hne, p, hp, hp', e⟩
  · rintro ⟨hne, p, hp, hp', e⟩
    exact ⟨hne, ⟨p, hp, e⟩, p, hp', e⟩

theorem KeyedFaces.owners_nodup (h : KeyedFaces keys S F) (f : List ℕ) : (owners F f).Nodup :=
  (owners_strict h.noRepeated f).imp fun h => Nat.ne_of_lt h

/-- If two different cells have at most one key in common, they share at most one face. -/
theorem KeyedFaces.shared_le (h : KeyedFaces keys S F) (keep : List ℕ → Bool) {n n' : ℕ} (hn : n < F.length) (hn' : n' < F.length)
    (hone : n ≠ n' → ∀ p p', p ∈ keys n → p ∈ keys n' → p' ∈ keys n → p' ∈ keys n' → p = p') :
    sharedFaces keep F n n' ≤ 1 := by
  unfold sharedFaces
  split
  · omega
  rename_i hne
  rw [show F.getD n [] = F[n] by rw [List.getD_eq_getElem?_getD, List.getElem?_eq_getElem hn, Option.getD_some],
    List.countP_eq_length_filter]
  by_contra hc
  push Not at hc
  set l := (F[n]).filter fun f => keep f && (F.getD n' []).any (sameNodes f) with hl
  have hp : l.Pairwise fun a b => sameNodes a b = false :=
    List.Pairwise.filter _ (h.noRepeated _ (List.getElem_mem hn))
  have hk : ∀ f ∈ l, ∃ p, p ∈ keys n ∧ p ∈ keys n' ∧ S p = f.toFinset := by
    intro f hf
    rw [hl, List.mem_filter, Bool.and_eq_true, List.any_eq_true] at hf
    obtain ⟨hf, _, g, hg, hs⟩ := hf
    rw [List.getD_eq_getElem?_getD, List.getElem?_eq_getElem hn', Option.getD_some] at hg
    exact ((h.share_iff hn hn' f).1 ⟨hne, ⟨_, List.getElem?_eq_getElem hn, f, hf, sameNodes_refl f⟩,
      _, List.getElem?_eq_getElem hn', g, hg, sameNodes_symm hs⟩).2
  have h0 : 0 < l.length := by omega
  have h01 := List.pairwise_iff_getElem.1 hp 0 1 h0 hc (by omega)
  obtain ⟨p, p1, p2, p3⟩ := hk _ (List.getElem_mem h0)
  obtain ⟨q, q1, q2, q3⟩ := hk _ (List.getElem_mem hc)
  obtain rfl := hone hne p q p1 p2 q1 q2
  rw [p3] at q3
  simp [sameNodes, q3] at h01

end

/-! ### faces of a grid -/

/-- The nodes of a face or edge: those of the cell at `i` with the lowest index along `ax`. -/
def sideSet (d : Ix) (p : Fin 3 × Ix) : Finset ℕ :=
  (Finset.univ.filter fun u : Fin 3 → Fin 2 => ∀ b, b = p.1 ∨ d b ≤ 1 → u b = 0).image
    fun u => vtkId d fun b => p.2 b + (u b).val

theorem mem_sideSet {d : Ix} {p : Fin 3 × Ix} {x : ℕ} : x ∈ sideSet d p ↔
    ∃ i : Ix, x = vtkId d i ∧ i p.1 = p.2 p.1 ∧ ∀ b, i b = p.2 b ∨ 2 ≤ d b ∧ i b = p.2 b + 1 := by
  simp only [sideSet, Finset.mem_image, Finset.mem_filter, Finset.mem_univ, true_and]
  constructor
  · rintro ⟨u, hu, rfl⟩
    refine ⟨_, rfl, by simp [hu p.1 (.inl rfl)], fun b => ?_⟩
    by_cases hb : d b ≤ 1
    · simp [hu b (.inr hb)]
    · have := (u b).isLt
      show p.2 b + (u b).val = _ ∨ _ ∧ p.2 b + (u b).val = _
      omega
  · rintro ⟨i, rfl, h1, h2⟩
    refine ⟨fun b => if i b = p.2 b then 0 else 1, ?_, ?_⟩
    · intro b hb
      refine if_pos ?_
      rcases hb with rfl | hb
      · exact h1
      · rcases h2 b with e | ⟨e, _⟩
        · exact e
        · omega
    · congr 1
      funext b
      show p.2 b + (if i b = p.2 b then (0 : Fin 2) else 1).val = i b
      rcases h2 b with e | ⟨_, e⟩
      · simp [e]
      · rw [if_neg (by omega)]; simp [e]

/-- The faces of the cell at `c`: the lower and the upper one along each axis that is not flat. -/
def gridKeys (d c : Ix) : List (Fin 3 × Ix) :=
  ([0, 1, 2].filter fun ax => decide (2 ≤ d ax)).flatMap fun ax => [(ax, c), (ax, after ax c)]

theorem mem_gridKeys {d c : Ix} {p : Fin 3 × Ix} : p ∈ gridKeys d c ↔ 2 ≤ d p.1 ∧ (p.2 = c ∨ p.2 = after p.1 c) := by
  obtain ⟨ax, i⟩ := p
  simp only [gridKeys, List.mem_flatMap, List.mem_filter, decide_eq_true_eq, List.mem_cons, List.not_mem_nil, or_false, Prod.mk.injEq]
  constructor
  · rintro ⟨a, ⟨_, h2⟩, ⟨rfl, rfl⟩ | ⟨rfl, rfl⟩⟩
    · exact ⟨h2, .inl rfl⟩
    · exact ⟨h2, .inr rfl⟩
  · rintro ⟨h2, rfl | rfl⟩
    · refine ⟨ax, ⟨?_, h2⟩, .inl ⟨rfl, rfl⟩⟩; fin_cases ax <;> simp
    · refine ⟨ax, ⟨?_, h2⟩, .inr ⟨rfl, rfl⟩⟩; fin_cases ax <;> simp

theorem after_ne (ax : Fin 3) (c : Ix) : after ax c ≠ c := by
  intro h
  have := congrFun h ax
  simp [after] at this

theorem gridKeys_nodup (d c : Ix) : (gridKeys d c).Nodup := by
  rw [gridKeys, List.nodup_flatMap]
  refine ⟨fun ax _ => by simp [Ne.symm (after_ne ax c)], ?_⟩
  refine List.Pairwise.filter _ ?_
  have : ([0, 1, 2] : List (Fin 3)).Nodup := by decide
  refine this.imp fun {a b} hab => ?_
  rw [Function.onFun, List.disjoint_left]
  rintro ⟨x, y⟩ hx hy
  simp only [List.mem_cons, List.not_mem_nil, or_false, Prod.mk.injEq] at hx hy
  rcases hx with ⟨rfl, _⟩ | ⟨rfl, _⟩ <;> rcases hy with ⟨h, _⟩ | ⟨h, _⟩ <;> exact hab h

theorem after_apply (ax b : Fin 3) (c : Ix) : after ax c b = if b = ax then c ax + 1 else c b := by
  simp only [after, Function.update_apply]

/-- The nodes of the faces of a cell are nodes of the grid. -/
theorem side_inShape {d c : Ix} (hc : InShape (cells d) c) {p : Fin 3 × Ix} (hp : p ∈ gridKeys d c) {i : Ix} (h1 : i p.1 = p.2 p.1)
    (h2 : ∀ b, i b = p.2 b ∨ 2 ≤ d b ∧ i b = p.2 b + 1) (hd : ∀ b, 1 ≤ d b) : InShape d i := by
  obtain ⟨h3, h4⟩ := mem_gridKeys.1 hp
  intro b
  have hb := hc b
  have hdb := hd b
  simp only [cells] at hb
  rcases h4 with h4 | h4
  · have := h2 b
    rw [h4] at this
    split at hb <;> omega
  · by_cases e : b = p.1
    · subst e
      rw [h1, h4, after_apply, if_pos rfl]
      split at hb <;> omega
    · have := h2 b
      rw [h4, after_apply, if_neg e] at this
      split at hb <;> omega

theorem side_inj {d c c' : Ix} (hd : ∀ b, 1 ≤ d b) (hc : InShape (cells d) c) (hc' : InShape (cells d) c')
    {p p' : Fin 3 × Ix} (hp : p ∈ gridKeys d c) (hp' : p' ∈ gridKeys d c') (h : sideSet d p = sideSet d p') : p = p' := by
  have sub : ∀ {c c' : Ix}, InShape (cells d) c → InShape (cells d) c' → ∀ {p p' : Fin 3 × Ix}, p ∈ gridKeys d c → p' ∈ gridKeys d c' →
      sideSet d p = sideSet d p' → ∀ i : Ix, i p.1 = p.2 p.1 → (∀ b, i b = p.2 b ∨ 2 ≤ d b ∧ i b = p.2 b + 1) →
      i p'.1 = p'.2 p'.1 ∧ ∀ b, i b = p'.2 b ∨ 2 ≤ d b ∧ i b = p'.2 b + 1 := by
    intro c c' hc hc' p p' hp hp' h i h1 h2
    have hx : vtkId d i ∈ sideSet d p' := by rw [← h]; exact mem_sideSet.2 ⟨i, rfl, h1, h2⟩
    obtain ⟨j, e, h3, h4⟩ := mem_sideSet.1 hx
    have hi := side_inShape hc hp h1 h2 hd
    have hj := side_inShape hc' hp' h3 h4 hd
    have : i = j := by rw [← unflat_vtkId hi, e, unflat_vtkId hj]
    subst this
    exact ⟨h3, h4⟩
  have e2 : p.2 = p'.2 := by
    funext b
    have a1 := (sub hc hc' hp hp' h p.2 rfl fun b => .inl rfl).2 b
    have a2 := (sub hc' hc hp' hp h.symm p'.2 rfl fun b => .inl rfl).2 b
    omega
  have e1 : p.1 = p'.1 := by
    by_contra hne
    obtain ⟨h3, _⟩ := mem_gridKeys.1 hp'
    have a := (sub hc hc' hp hp' h (after p'.1 p.2) (by rw [after_apply, if_neg hne]) (by
      intro b
      rw [after_apply]
      split
      · rename_i e; subst e; exact .inr ⟨h3, rfl⟩
      · exact .inl rfl)).1
    rw [after_apply, if_pos rfl, e2] at a
    omega
  exact Prod.ext e1 e2

/-- A common key of two cells is the face between them. -/
theorem common_key {d c c' : Ix} (hne : c ≠ c') {p : Fin 3 × Ix} (hp : p ∈ gridKeys d c) (hp' : p ∈ gridKeys d c') :
    (p.2 = c' ∧ c' = after p.1 c) ∨ (p.2 = c ∧ c = after p.1 c') := by
  obtain ⟨_, h | h⟩ := mem_gridKeys.1 hp <;> obtain ⟨_, h' | h'⟩ := mem_gridKeys.1 hp'
  · exact absurd (h.symm.trans h') hne
  · exact .inr ⟨h, h.symm.trans h'⟩
  · exact .inl ⟨h', h'.symm.trans h⟩
  · exfalso
    apply hne
    have e := h.symm.trans h'
    funext b
    have := congrFun e b
    rw [after_apply, after_apply] at this
    split at this
    · rename_i hb; subst hb; omega
    · exact this

theorem after_axis {ax ax' : Fin 3} {c : Ix} (h : after ax c = after ax' c) : ax = ax' := by
  by_contra hne
  have := congrFun h ax
  rw [after_apply, after_apply, if_pos rfl, if_neg hne] at this
  omega

theorem after_after {ax ax' : Fin 3} {c c' : Ix} (h : c' = after ax c) : c ≠ after ax' c' := by
  intro h'
  have := congrFun h' ax
  rw [h, after_apply ax', after_apply ax ax, if_pos rfl] at this
  split at this
  · rename_i e; subst e; rw [after_apply, if_pos rfl] at this; omega
  · omega

theorem one_key {d c c' : Ix} (hne : c ≠ c') {p q : Fin 3 × Ix} (hp : p ∈ gridKeys d c) (hp' : p ∈ gridKeys d c')
    (hq : q ∈ gridKeys d c) (hq' : q ∈ gridKeys d c') : p = q := by
  rcases common_key hne hp hp' with ⟨a, b⟩ | ⟨a, b⟩ <;> rcases common_key hne hq hq' with ⟨a', b'⟩ | ⟨a', b'⟩
  · exact Prod.ext (after_axis (b.symm.trans b')) (a.trans a'.symm)
  · exact absurd b' (after_after b)
  · exact absurd b (after_after b')
  · exact Prod.ext (after_axis (b.symm.trans b')) (a.trans a'.symm)

/-- Consecutive cells along an axis have a key in common, whose nodes are the common ones. -/
theorem adjacent_key {d c c' : Ix} (hd : ∀ b, 1 ≤ d b) (hc : InShape (cells d) c) (hc' : InShape (cells d) c') (h : Adjacent c c') :
    ∃ p, p ∈ gridKeys d c ∧ p ∈ gridKeys d c' ∧ ∀ f : List ℕ, f.toFinset = sideSet d p ↔ Common d c c' f := by
  have main : ∀ {c c' : Ix} (ax : Fin 3), InShape (cells d) c → InShape (cells d) c' → c' = after ax c →
      (ax, c') ∈ gridKeys d c ∧ (ax, c') ∈ gridKeys d c' ∧ ∀ x, x ∈ sideSet d (ax, c') ↔ CornerOf d c x ∧ CornerOf d c' x := by
    intro c c' ax hc hc' e
    have hax : 2 ≤ d ax := by
      have := hc' ax
      rw [e, after_apply, if_pos rfl] at this
      simp only [cells] at this
      split at this <;> omega
    have hk : (ax, c') ∈ gridKeys d c' := mem_gridKeys.2 ⟨hax, .inl rfl⟩
    refine ⟨mem_gridKeys.2 ⟨hax, .inr e⟩, hk, fun x => ?_⟩
    rw [mem_sideSet]
    constructor
    · rintro ⟨i, rfl, h1, h2⟩
      have hi := side_inShape hc' hk h1 h2 hd
      refine ⟨⟨i, hi, rfl, fun b => ?_⟩, i, hi, rfl, fun b => ?_⟩
      · have a := h2 b
        simp only at h1 a
        by_cases hb : b = ax
        · subst hb
          rw [h1, e, after_apply, if_pos rfl]; exact .inr rfl
        · rw [e, after_apply, if_neg hb] at a
          omega
      · have a := h2 b
        simp only at a
        omega
    · rintro ⟨⟨i, hi, rfl, h1⟩, j, hj, e', h2⟩
      have : i = j := by rw [← unflat_vtkId hi, e', unflat_vtkId hj]
      subst this
      refine ⟨i, rfl, ?_, fun b => ?_⟩
      · have a := h1 ax
        have a' := h2 ax
        rw [e, after_apply, if_pos rfl] at a'
        simp only
        rw [e, after_apply, if_pos rfl]
        omega
      · rcases h2 b with a | a
        · exact .inl a
        · have := hi b
          exact .inr ⟨by omega, a⟩
  obtain ⟨ax, e | e⟩ := h
  · obtain ⟨k1, k2, k3⟩ := main ax hc hc' e
    refine ⟨_, k1, k2, fun f => ?_⟩
    rw [Finset.ext_iff]
    exact forall_congr' fun x => by rw [List.mem_toFinset, k3]
  · obtain ⟨k1, k2, k3⟩ := main ax hc' hc e
    refine ⟨_, k2, k1, fun f => ?_⟩
    rw [Finset.ext_iff]
    exact forall_congr' fun x => by rw [List.mem_toFinset, k3, and_comm]

/-! ### the faces that `extract_cell_geometry` makes -/

theorem sideSet_solid {d : Ix} (hd : ∀ b, 2 ≤ d b) (ax : Fin 3) (i : Ix) : sideSet d (ax, i) =
    (Finset.univ.filter fun u : Fin 3 → Fin 2 => u ax = 0).image fun u => vtkId d fun b => i b + (u b).val := by
  unfold sideSet
  congr 1
  ext u
  simp only [Finset.mem_filter, Finset.mem_univ, true_and]
  constructor
  · intro h; exact h ax (.inl rfl)
  · rintro h b (rfl | hb)
    · exact h
    · have := hd b; omega

theorem sideSet_flat {d : Ix} {flat : Fin 3} (h1 : d flat = 1) (hd : ∀ b, b ≠ flat → 2 ≤ d b) (ax : Fin 3) (i : Ix) :
    sideSet d (ax, i) = (Finset.univ.filter fun u : Fin 3 → Fin 2 => u ax = 0 ∧ u flat = 0).image
      fun u => vtkId d fun b => i b + (u b).val := by
  unfold sideSet
  congr 1
  ext u
  simp only [Finset.mem_filter, Finset.mem_univ, true_and]
  constructor
  · intro h; exact ⟨h ax (.inl rfl), h flat (.inr (by omega))⟩
  · rintro ⟨h, h'⟩ b (rfl | hb)
    · exact h
    · by_cases e : b = flat
      · subst e; exact h'
      · have := hd b e; omega

theorem gridKeys_solid {d : Ix} (hd : ∀ b, 2 ≤ d b) (c : Ix) : gridKeys d c =
    [(0, c), (0, after 0 c), (1, c), (1, after 1 c), (2, c), (2, after 2 c)] := by
  simp [gridKeys, hd]

/-- The node `(a, b, e)` steps after the one at `i`. -/
def nodeAfter (d i : Ix) (a b e : ℕ) : ℕ := flatF d ![i 0 + a, i 1 + b, i 2 + e]

theorem vtkId_step (d i : Ix) (a b e : Fin 2) : (vtkId d fun x => i x + ((![a, b, e] : Fin 3 → Fin 2) x).val) =
    nodeAfter d i a.val b.val e.val := by
  rw [nodeAfter, flatF_eq]
  congr 1
  funext x
  fin_cases x <;> rfl

theorem nodeAfter_0 (d i : Ix) (a b e : ℕ) : nodeAfter d (after 0 i) a b e = nodeAfter d i (1 + a) b e := by
  simp [nodeAfter, after_apply, add_assoc]

theorem nodeAfter_1 (d i : Ix) (a b e : ℕ) : nodeAfter d (after 1 i) a b e = nodeAfter d i a (1 + b) e := by
  simp [nodeAfter, after_apply, add_assoc]

theorem nodeAfter_2 (d i : Ix) (a b e : ℕ) : nodeAfter d (after 2 i) a b e = nodeAfter d i a b (1 + e) := by
  simp [nodeAfter, after_apply, add_assoc]

theorem side_solid_0 {d : Ix} (hd : ∀ b, 2 ≤ d b) (i : Ix) : sideSet d (0, i) =
    {nodeAfter d i 0 0 0, nodeAfter d i 0 1 0, nodeAfter d i 0 0 1, nodeAfter d i 0 1 1} := by
  have k0 : (Finset.univ.filter fun u : Fin 3 → Fin 2 => u 0 = 0) = {![0, 0, 0], ![0, 1, 0], ![0, 0, 1], ![0, 1, 1]} := by decide
  rw [sideSet_solid hd, k0]
  simp only [Finset.image_insert, Finset.image_singleton, vtkId_step]
  rfl

theorem side_solid_1 {d : Ix} (hd : ∀ b, 2 ≤ d b) (i : Ix) : sideSet d (1, i) =
    {nodeAfter d i 0 0 0, nodeAfter d i 1 0 0, nodeAfter d i 0 0 1, nodeAfter d i 1 0 1} := by
  have k0 : (Finset.univ.filter fun u : Fin 3 → Fin 2 => u 1 = 0) = {![0, 0, 0], ![1, 0, 0], ![0, 0, 1], ![1, 0, 1]} := by decide
  rw [sideSet_solid hd, k0]
  simp only [Finset.image_insert, Finset.image_singleton, vtkId_step]
  rfl

theorem side_solid_2 {d : Ix} (hd : ∀ b, 2 ≤ d b) (i : Ix) : sideSet d (2, i) =
    {nodeAfter d i 0 0 0, nodeAfter d i 1 0 0, nodeAfter d i 0 1 0, nodeAfter d i 1 1 0} := by
  have k0 : (Finset.univ.filter fun u : Fin 3 → Fin 2 => u 2 = 0) = {![0, 0, 0], ![1, 0, 0], ![0, 1, 0], ![1, 1, 0]} := by decide
  rw [sideSet_solid hd, k0]
  simp only [Finset.image_insert, Finset.image_singleton, vtkId_step]
  rfl

theorem hex_nodes (d c : Ix) : hexNodes d c = [nodeAfter d c 0 0 0, nodeAfter d c 1 0 0, nodeAfter d c 1 1 0, nodeAfter d c 0 1 0,
    nodeAfter d c 0 0 1, nodeAfter d c 1 0 1, nodeAfter d c 1 1 1, nodeAfter d c 0 1 1] := rfl

theorem quad_nodes {d c : Ix} {flat : Fin 3} (h1 : d flat = 1) (hd : ∀ b, b ≠ flat → 2 ≤ d b) : quadIds d c =
    match flat with
    | 0 => [nodeAfter d c 0 0 0, nodeAfter d c 0 1 0, nodeAfter d c 0 1 1, nodeAfter d c 0 0 1]
    | 1 => [nodeAfter d c 0 0 0, nodeAfter d c 1 0 0, nodeAfter d c 1 0 1, nodeAfter d c 0 0 1]
    | 2 => [nodeAfter d c 0 0 0, nodeAfter d c 1 0 0, nodeAfter d c 1 1 0, nodeAfter d c 0 1 0] := by
  match flat, h1, hd with
  | 0, h1, hd =>
    have := hd 2 (by decide)
    have e2 : d 2 ≠ 1 := by omega
    simp only [quadIds, if_pos h1, if_neg e2, nodeAfter]
    refine List.cons_eq_cons.2 ⟨?_, List.cons_eq_cons.2 ⟨?_, List.cons_eq_cons.2 ⟨?_, List.cons_eq_cons.2 ⟨?_, rfl⟩⟩⟩⟩ <;>
    · congr 1; funext x; fin_cases x <;> rfl
  | 1, h1, hd =>
    have := hd 2 (by decide)
    have := hd 0 (by decide)
    have e2 : d 2 ≠ 1 := by omega
    have e0 : d 0 ≠ 1 := by omega
    simp only [quadIds, if_neg e0, if_neg e2, nodeAfter]
    refine List.cons_eq_cons.2 ⟨?_, List.cons_eq_cons.2 ⟨?_, List.cons_eq_cons.2 ⟨?_, List.cons_eq_cons.2 ⟨?_, rfl⟩⟩⟩⟩ <;>
    · congr 1; funext x; fin_cases x <;> rfl
  | 2, h1, hd =>
    have := hd 0 (by decide)
    have e0 : d 0 ≠ 1 := by omega
    simp only [quadIds, if_neg e0, if_pos h1, nodeAfter]
    refine List.cons_eq_cons.2 ⟨?_, List.cons_eq_cons.2 ⟨?_, List.cons_eq_cons.2 ⟨?_, List.cons_eq_cons.2 ⟨?_, rfl⟩⟩⟩⟩ <;>
    · congr 1; funext x; fin_cases x <;> rfl

theorem four_a (a b c d : ℕ) : ([a, c, d, b] : List ℕ).toFinset = {a, b, c, d} := by ext x; simp; tauto
theorem four_b (a b c d : ℕ) : ([a, b, d, c] : List ℕ).toFinset = {a, b, c, d} := by ext x; simp; tauto
theorem four_c (a b c d : ℕ) : ([b, a, c, d] : List ℕ).toFinset = {a, b, c, d} := by ext x; simp; tauto
theorem two_a (a b : ℕ) : ([a, b] : List ℕ).toFinset = {a, b} := by ext x; simp
theorem two_b (a b : ℕ) : ([b, a] : List ℕ).toFinset = {a, b} := by ext x; simp; tauto

theorem hex_sides {d : Ix} (hd : ∀ b, 2 ≤ d b) (c : Ix) (same : Bool) : ∃ fs,
    cellFaces same 12 (.nodes (hexNodes d c)) = .ok fs ∧ (fs.map List.toFinset).Perm ((gridKeys d c).map (sideSet d)) := by
  rw [hex_nodes]
  set n0 := nodeAfter d c 0 0 0 with e0
  set n1 := nodeAfter d c 1 0 0 with e1
  set n2 := nodeAfter d c 1 1 0 with e2
  set n3 := nodeAfter d c 0 1 0 with e3
  set n4 := nodeAfter d c 0 0 1 with e4
  set n5 := nodeAfter d c 1 0 1 with e5
  set n6 := nodeAfter d c 1 1 1 with e6
  set n7 := nodeAfter d c 0 1 1 with e7
  refine ⟨[[n0, n3, n2, n1], [n4, n5, n6, n7], [n0, n1, n5, n4], [n1, n2, n6, n5], [n2, n3, n7, n6], [n0, n4, n7, n3]], rfl, ?_⟩
  rw [gridKeys_solid hd]
  have p : ([4, 5, 2, 1, 3, 0] : List (Fin 6)).Perm [0, 1, 2, 3, 4, 5] := by decide
  have := p.map fun k => sideSet d ((![(0, c), (0, after 0 c), (1, c), (1, after 1 c), (2, c), (2, after 2 c)] : Fin 6 → Fin 3 × Ix) k)
  refine List.Perm.trans (List.Perm.of_eq ?_) this
  show _ = [sideSet d (2, c), sideSet d (2, after 2 c), sideSet d (1, c), sideSet d (0, after 0 c),
    sideSet d (1, after 1 c), sideSet d (0, c)]
  simp only [side_solid_0 hd, side_solid_1 hd, side_solid_2 hd, nodeAfter_0, nodeAfter_1, nodeAfter_2, Nat.reduceAdd, ← e0, ← e1, ← e2,
    ← e3, ← e4, ← e5, ← e6, ← e7]
  simp only [List.map_cons, List.map_nil]
  rw [four_a n0 n1 n3 n2, four_b n4 n5 n7 n6, four_b n0 n1 n4 n5, four_b n1 n2 n5 n6, four_c n3 n2 n7 n6, four_a n0 n3 n4 n7]

theorem quad_sides {d : Ix} {flat : Fin 3} (h1 : d flat = 1) (hd : ∀ b, b ≠ flat → 2 ≤ d b) (c : Ix) : ∃ fs,
    cellEdges 9 (.nodes (quadIds d c)) = .ok fs ∧ (fs.map List.toFinset).Perm ((gridKeys d c).map (sideSet d)) := by
  rw [quad_nodes h1 hd]
  have p : ([2, 1, 3, 0] : List (Fin 4)).Perm [0, 1, 2, 3] := by decide
  match flat, h1, hd with
  | 0, h1, hd =>
    have k : gridKeys d c = [(1, c), (1, after 1 c), (2, c), (2, after 2 c)] := by
      simp [gridKeys, h1, hd 1 (by decide), hd 2 (by decide)]
    have k1 : (Finset.univ.filter fun u : Fin 3 → Fin 2 => u 1 = 0 ∧ u 0 = 0) = {![0, 0, 0], ![0, 0, 1]} := by decide
    have k2 : (Finset.univ.filter fun u : Fin 3 → Fin 2 => u 2 = 0 ∧ u 0 = 0) = {![0, 0, 0], ![0, 1, 0]} := by decide
    have q := p.map fun k => sideSet d ((![(1, c), (1, after 1 c), (2, c), (2, after 2 c)] : Fin 4 → Fin 3 × Ix) k)
    simp only
    set n0 := nodeAfter d c 0 0 0 with e0
    set n1 := nodeAfter d c 0 1 0 with e1
    set n2 := nodeAfter d c 0 1 1 with e2
    set n3 := nodeAfter d c 0 0 1 with e3
    refine ⟨[[n0, n1], [n1, n2], [n2, n3], [n3, n0]], rfl, ?_⟩
    rw [k]
    refine List.Perm.trans (List.Perm.of_eq ?_) q
    show _ = [sideSet d (2, c), sideSet d (1, after 1 c), sideSet d (2, after 2 c), sideSet d (1, c)]
    simp only [sideSet_flat h1 hd, k1, k2, Finset.image_insert, Finset.image_singleton, vtkId_step, nodeAfter_1, nodeAfter_2,
      Fin.val_zero, Fin.val_one, Nat.reduceAdd, ← e0, ← e1, ← e2, ← e3]
    simp only [List.map_cons, List.map_nil]
    rw [two_a n0 n1, two_a n1 n2, two_b n3 n2, two_b n0 n3]
  | 1, h1, hd =>
    have k : gridKeys d c = [(0, c), (0, after 0 c), (2, c), (2, after 2 c)] := by
      simp [gridKeys, h1, hd 0 (by decide), hd 2 (by decide)]
    have k1 : (Finset.univ.filter fun u : Fin 3 → Fin 2 => u 0 = 0 ∧ u 1 = 0) = {![0, 0, 0], ![0, 0, 1]} := by decide
    have k2 : (Finset.univ.filter fun u : Fin 3 → Fin 2 => u 2 = 0 ∧ u 1 = 0) = {![0, 0, 0], ![1, 0, 0]} := by decide
    have q := p.map fun k => sideSet d ((![(0, c), (0, after 0 c), (2, c), (2, after 2 c)] : Fin 4 → Fin 3 × Ix) k)
    simp only
    set n0 := nodeAfter d c 0 0 0 with e0
    set n1 := nodeAfter d c 1 0 0 with e1
    set n2 := nodeAfter d c 1 0 1 with e2
    set n3 := nodeAfter d c 0 0 1 with e3
    refine ⟨[[n0, n1], [n1, n2], [n2, n3], [n3, n0]], rfl, ?_⟩
    rw [k]
    refine List.Perm.trans (List.Perm.of_eq ?_) q
    show _ = [sideSet d (2, c), sideSet d (0, after 0 c), sideSet d (2, after 2 c), sideSet d (0, c)]
    simp only [sideSet_flat h1 hd, k1, k2, Finset.image_insert, Finset.image_singleton, vtkId_step, nodeAfter_0, nodeAfter_2,
      Fin.val_zero, Fin.val_one, Nat.reduceAdd, ← e0, ← e1, ← e2, ← e3]
    simp only [List.map_cons, List.map_nil]
    rw [two_a n0 n1, two_a n1 n2, two_b n3 n2, two_b n0 n3]
  | 2, h1, hd =>
    have k : gridKeys d c = [(0, c), (0, after 0 c), (1, c), (1, after 1 c)] := by
      simp [gridKeys, h1, hd 0 (by decide), hd 1 (by decide)]
    have k1 : (Finset.univ.filter fun u : Fin 3 → Fin 2 => u 0 = 0 ∧ u 2 = 0) = {![0, 0, 0], ![0, 1, 0]} := by decide
    have k2 : (Finset.univ.filter fun u : Fin 3 → Fin 2 => u 1 = 0 ∧ u 2 = 0) = {![0, 0, 0], ![1, 0, 0]} := by decide
    have q := p.map fun k => sideSet d ((![(0, c), (0, after 0 c), (1, c), (1, after 1 c)] : Fin 4 → Fin 3 × Ix) k)
    simp only
    set n0 := nodeAfter d c 0 0 0 with e0
    set n1 := nodeAfter d c 1 0 0 with e1
    set n2 := nodeAfter d c 1 1 0 with e2
    set n3 := nodeAfter d c 0 1 0 with e3
    refine ⟨[[n0, n1], [n1, n2], [n2, n3], [n3, n0]], rfl, ?_⟩
    rw [k]
    refine List.Perm.trans (List.Perm.of_eq ?_) q
    show _ = [sideSet d (1, c), sideSet d (0, after 0 c), sideSet d (1, after 1 c), sideSet d (0, c)]
    simp only [sideSet_flat h1 hd, k1, k2, Finset.image_insert, Finset.image_singleton, vtkId_step, nodeAfter_0, nodeAfter_1,
      Fin.val_zero, Fin.val_one, Nat.reduceAdd, ← e0, ← e1, ← e2, ← e3]
    simp only [List.map_cons, List.map_nil]
    rw [two_a n0 n1, two_a n1 n2, two_b n3 n2, two_b n0 n3]

theorem grid_pos {d : Ix} (hd : GridOfCells d) (b : Fin 3) : 1 ≤ d b := by
  rcases hd with h | ⟨flat, h1, h⟩
  · have := h b; omega
  · by_cases e : b = flat
    · subst e; omega
    · have := h b e; omega

theorem castCells_get {d : Ix} {rg : Bool} {hidden : ℕ → Bool} {n : ℕ} {x : ℕ × List ℕ} (h : (castCells d rg hidden)[n]? = some x) :
    n < count (cells d) ∧ x = if rg && hidden n then (0, []) else
      if dimOfShape d = 3 then (12, hexNodes d (unflatF (cells d) n)) else (9, quadIds d (unflatF (cells d) n)) := by
  rw [castCells, cellShape_eq, sizeOfShape_eq, List.getElem?_map] at h
  obtain ⟨k, hk, e⟩ := Option.map_eq_some_iff.1 h
  obtain ⟨hk1, hk2⟩ := List.getElem?_eq_some_iff.1 hk
  rw [List.length_range] at hk1
  rw [List.getElem_range] at hk2
  subst hk2
  exact ⟨hk1, e.symm⟩

theorem castCells_length (d : Ix) (rg : Bool) (hidden : ℕ → Bool) : (castCells d rg hidden).length = count (cells d) := by
  rw [castCells, cellShape_eq, sizeOfShape_eq, List.length_map, List.length_range]

/-- The faces of the cells of a grid. -/
theorem grid_keyed {d : Ix} (hd : GridOfCells d) (rg : Bool) (hidden : ℕ → Bool)
    (hvis : ∃ n < count (cells d), (rg && hidden n) = false) : ∃ F,
    allFaces ((castCells d rg hidden).map Prod.fst) ((castCells d rg hidden).map fun x => .nodes x.2) = .ok F ∧
    F.length = count (cells d) ∧
    KeyedFaces (fun n => if rg && hidden n then [] else gridKeys d (unflatF (cells d) n)) (sideSet d) F := by
  obtain ⟨n0, hn0, hv0⟩ := hvis
  obtain ⟨x0, hx0⟩ : ∃ x, (castCells d rg hidden)[n0]? = some x :=
    ⟨_, List.getElem?_eq_getElem (by rw [castCells_length]; exact hn0)⟩
  have hx0' := (castCells_get hx0).2
  rw [hv0] at hx0'
  simp only [Bool.false_eq_true, if_false] at hx0'
  have hdim : (dimOfShape d = 3 ∧ ∀ b, 2 ≤ d b) ∨ dimOfShape d ≠ 3 ∧ ∃ flat, d flat = 1 ∧ ∀ b, b ≠ flat → 2 ≤ d b := by
    rcases hd with h | ⟨flat, h1, h⟩
    · left
      have a0 := h 0; have a1 := h 1; have a2 := h 2
      refine ⟨?_, h⟩
      rw [dimOfShape, if_neg (by omega), if_neg (by omega), if_neg (by omega)]
    · right
      refine ⟨?_, flat, h1, h⟩
      unfold dimOfShape
      fin_cases flat
      · rw [if_pos (show d 0 = 1 from h1)]; omega
      · rw [if_pos (show d 1 = 1 from h1)]; omega
      · rw [if_pos (show d 2 = 1 from h1)]; omega
  suffices hs : ∃ F, allFaces ((castCells d rg hidden).map Prod.fst) ((castCells d rg hidden).map fun x => .nodes x.2) = .ok F ∧
      F.length = count (cells d) ∧ ∀ (n : ℕ) fs, F[n]? = some fs → (fs.map List.toFinset).Perm
        ((if rg && hidden n then [] else gridKeys d (unflatF (cells d) n)).map (sideSet d)) by
    obtain ⟨F, f1, f2, f3⟩ := hs
    refine ⟨F, f1, f2, f3, ?_, ?_⟩
    · intro n n' hn hn' p hp p' hp' e
      rw [f2] at hn hn'
      split at hp
      · simp at hp
      split at hp'
      · simp at hp'
      exact side_inj (grid_pos hd) (vtkId_unflat hn).2 (vtkId_unflat hn').2 hp hp' e
    · intro n _
      show (if rg && hidden n then [] else gridKeys d (unflatF (cells d) n)).Nodup
      split
      · exact List.nodup_nil
      · exact gridKeys_nodup _ _
  have hm0 : x0.1 ∈ (castCells d rg hidden).map Prod.fst := List.mem_map.2 ⟨_, List.mem_of_getElem? hx0, rfl⟩
  rcases hdim with ⟨h3, hsolid⟩ | ⟨h3, flat, h1, hflat⟩
  · rw [if_pos h3] at hx0'
    have htype : ∀ t ∈ (castCells d rg hidden).map Prod.fst, t = 0 ∨ t = 12 := by
      intro t ht
      obtain ⟨x, hx, rfl⟩ := List.mem_map.1 ht
      obtain ⟨n, hn⟩ := List.mem_iff_getElem?.1 hx
      have hx' := (castCells_get hn).2
      simp only [h3, if_true, if_false] at hx'
      rw [hx']
      split
      · exact .inl rfl
      · exact .inr rfl
    obtain ⟨dim, e1, e2, e3⟩ := meshDim_between 3 3 (by decide) ((castCells d rg hidden).map Prod.fst)
      ⟨_, hm0, by rw [hx0']; exact Nat.succ_ne_zero _⟩ (by
        intro t ht h0
        rcases htype t ht with rfl | rfl
        · exact absurd rfl h0
        · exact ⟨3, by decide, le_refl _, le_refl _⟩)
    unfold allFaces
    rw [e1]
    simp only
    rw [if_neg (by omega)]
    set same := ((castCells d rg hidden).map Prod.fst).all fun t => decide (t = ((castCells d rg hidden).map Prod.fst).headD 0) with hsame
    have hcell : ∀ n x, (castCells d rg hidden)[n]? = some x → ∃ fs, cellFaces same x.1 (.nodes x.2) = .ok fs ∧
        (fs.map List.toFinset).Perm ((if rg && hidden n then [] else gridKeys d (unflatF (cells d) n)).map (sideSet d)) := by
      intro n x hx
      have hx' := (castCells_get hx).2
      simp only [h3, if_true, if_false] at hx'
      split at hx'
      · rename_i hh
        rw [if_pos hh]
        have hs : same = false := by
          by_contra hc
          rw [Bool.not_eq_false, hsame, List.all_eq_true] at hc
          have c1 := of_decide_eq_true (hc _ hm0)
          have c2 := of_decide_eq_true (hc x.1 (List.mem_map.2 ⟨_, List.mem_of_getElem? hx, rfl⟩))
          rw [← c1, hx', hx0'] at c2
          simp at c2
        rw [hs, hx']
        exact ⟨[], rfl, by simp⟩
      · rename_i hh
        rw [if_neg hh]
        rw [hx']
        exact hex_sides hsolid _ same
    obtain ⟨F, f1, f2, f3⟩ := mapCells_ok (f := cellFaces same) (ts := (castCells d rg hidden).map Prod.fst)
      (cs := (castCells d rg hidden).map fun x => Conn.nodes x.2) (by simp) (by
        intro i t c ht hc
        rw [List.getElem?_map] at ht hc
        obtain ⟨x, hx, rfl⟩ := Option.map_eq_some_iff.1 ht
        rw [hx] at hc
        obtain rfl := Option.some.inj hc
        obtain ⟨fs, q, _⟩ := hcell i x hx
        exact ⟨fs, q⟩)
    rw [List.length_map, castCells_length] at f2
    refine ⟨F, f1, f2, ?_⟩
    intro n fs hfs
    have hn := (List.getElem?_eq_some_iff.1 hfs).1
    obtain ⟨x, hx⟩ : ∃ x, (castCells d rg hidden)[n]? = some x :=
      ⟨_, List.getElem?_eq_getElem (by rw [castCells_length, ← f2]; exact hn)⟩
    obtain ⟨gs, q1, q2⟩ := hcell n x hx
    obtain ⟨y, y1, y2⟩ := f3 n x.1 (.nodes x.2) (by rw [List.getElem?_map, hx]; rfl) (by rw [List.getElem?_map, hx]; rfl)
    rw [q1] at y1
    obtain rfl := Except.ok.inj y1
    rw [hfs] at y2
    obtain rfl := Option.some.inj y2
    exact q2
  · rw [if_neg h3] at hx0'
    have htype : ∀ t ∈ (castCells d rg hidden).map Prod.fst, t = 0 ∨ t = 9 := by
      intro t ht
      obtain ⟨x, hx, rfl⟩ := List.mem_map.1 ht
      obtain ⟨n, hn⟩ := List.mem_iff_getElem?.1 hx
      have hx' := (castCells_get hn).2
      simp only [h3, if_true, if_false] at hx'
      rw [hx']
      split
      · exact .inl rfl
      · exact .inr rfl
    obtain ⟨dim, e1, e2, e3⟩ := meshDim_between 2 2 (by decide) ((castCells d rg hidden).map Prod.fst)
      ⟨_, hm0, by rw [hx0']; exact Nat.succ_ne_zero _⟩ (by
        intro t ht h0
        rcases htype t ht with rfl | rfl
        · exact absurd rfl h0
        · exact ⟨2, by decide, le_refl _, le_refl _⟩)
    unfold allFaces
    rw [e1]
    simp only
    rw [if_pos (by omega), if_neg (by
      rw [List.any_eq_true]
      rintro ⟨t, ht, hne⟩
      rcases htype t ht with rfl | rfl <;> revert hne <;> decide)]
    have hcell : ∀ n x, (castCells d rg hidden)[n]? = some x → ∃ fs, cellEdges x.1 (.nodes x.2) = .ok fs ∧
        (fs.map List.toFinset).Perm ((if rg && hidden n then [] else gridKeys d (unflatF (cells d) n)).map (sideSet d)) := by
      intro n x hx
      have hx' := (castCells_get hx).2
      simp only [h3, if_true, if_false] at hx'
      split at hx'
      · rename_i hh
        rw [if_pos hh, hx']
        exact ⟨[], rfl, by simp⟩
      · rename_i hh
        rw [if_neg hh]
        rw [hx']
        exact quad_sides h1 hflat _
    obtain ⟨F, f1, f2, f3⟩ := mapCells_ok (f := cellEdges) (ts := (castCells d rg hidden).map Prod.fst)
      (cs := (castCells d rg hidden).map fun x => Conn.nodes x.2) (by simp) (by
        intro i t c ht hc
        rw [List.getElem?_map] at ht hc
        obtain ⟨x, hx, rfl⟩ := Option.map_eq_some_iff.1 ht
        rw [hx] at hc
        obtain rfl := Option.some.inj hc
        obtain ⟨fs, q, _⟩ := hcell i x hx
        exact ⟨fs, q⟩)
    rw [List.length_map, castCells_length] at f2
    refine ⟨F, f1, f2, ?_⟩
    intro n fs hfs
    have hn := (List.getElem?_eq_some_iff.1 hfs).1
    obtain ⟨x, hx⟩ : ∃ x, (castCells d rg hidden)[n]? = some x :=
      ⟨_, List.getElem?_eq_getElem (by rw [castCells_length, ← f2]; exact hn)⟩
    obtain ⟨gs, q1, q2⟩ := hcell n x hx
    obtain ⟨y, y1, y2⟩ := f3 n x.1 (.nodes x.2) (by rw [List.getElem?_map, hx]; rfl) (by rw [List.getElem?_map, hx]; rfl)
    rw [q1] at y1
    obtain rfl := Except.ok.inj y1
    rw [hfs] at y2
    obtain rfl := Option.some.inj y2
    exact q2

theorem before_of {ax : Fin 3} {c i : Ix} (h : i = after ax c) : c = Function.update i ax (i ax - 1) := by
  funext b
  rw [h, Function.update_apply]
  split
  · rename_i e; subst e; rw [after_apply, if_pos rfl]; omega
  · rename_i e; rw [after_apply, if_neg e]

/-- No face of a grid belongs to more than two cells. -/
theorem grid_two {d : Ix} {removeGhost : Bool} {hidden : ℕ → Bool} {F : List (List (List ℕ))} (f2 : F.length = count (cells d))
    (f3 : KeyedFaces (fun n => if removeGhost && hidden n then [] else gridKeys d (unflatF (cells d) n)) (sideSet d) F) :
    ∀ fs ∈ F, ∀ f ∈ fs, (owners F f).length ≤ 2 := by
  have hkey : ∀ n p, p ∈ (if removeGhost && hidden n then [] else gridKeys d (unflatF (cells d) n)) ↔
      (removeGhost && hidden n) = false ∧ p ∈ gridKeys d (unflatF (cells d) n) := by
    intro n p
    split
    · rename_i h; simp [h]
    · rename_i h; simp [h]
  intro fs hfs f hf
  obtain ⟨n, hn⟩ := List.mem_iff_getElem?.1 hfs
  have hnl := (List.getElem?_eq_some_iff.1 hn).1
  obtain ⟨p, hp, hpe⟩ := (f3.has_iff hnl f).1 ⟨fs, hn, f, hf, sameNodes_refl f⟩
  have hsub : owners F f ⊆ [vtkId (cells d) p.2, vtkId (cells d) (Function.update p.2 p.1 (p.2 p.1 - 1))] := by
    intro i hi
    obtain ⟨gs, hgs, hx⟩ := mem_owners.1 hi
    have hil := (List.getElem?_eq_some_iff.1 hgs).1
    obtain ⟨p', hp', hpe'⟩ := (f3.has_iff hil f).1 ⟨gs, hgs, hx⟩
    obtain rfl := f3.inj n i hnl hil p hp p' hp' (hpe.trans hpe'.symm)
    rw [f2] at hil
    obtain ⟨v1, v2⟩ := vtkId_unflat hil
    obtain ⟨_, e | e⟩ := mem_gridKeys.1 ((hkey i p).1 hp').2
    · rw [e, v1]; simp
    · rw [← before_of e, v1]; simp
  exact ((f3.owners_nodup f).subperm hsub).length_le

/-- **C138.** `get_neighborhood` of a structured mesh of dimension 2 or 3, whatever its number of cells, some of which may be hidden: when
it returns, the neighbours of every visible cell are the visible cells next to it along each axis, each once, and hidden cells have none;
with `remove_ghost_cells`, only neighbours across a face of positive size.  If no face has zero size (or with
`remove_ghost_cells=False`), it returns exactly when two visible cells are next to each other. -/
theorem C138_neighbours {d : Ix} (hd : GridOfCells d) (positive : List ℕ → Bool) (removeGhost : Bool) (hidden : ℕ → Bool)
    (hsym : ∀ c c', sameNodes c c' = true → positive c = positive c')
    (hvis : ∃ n < count (cells d), (removeGhost && hidden n) = false) :
    (∀ ns, getNeighborhood (castCells d removeGhost hidden).length (extractCellGeometry positive removeGhost
        ((castCells d removeGhost hidden).map Prod.fst) ((castCells d removeGhost hidden).map fun x => .nodes x.2)) = .ok ns →
      GridNeighbours d (fun n => removeGhost && hidden n) (fun f => !removeGhost || positive f) ns) ∧
    ((removeGhost = true → ∀ F,
        allFaces ((castCells d removeGhost hidden).map Prod.fst) ((castCells d removeGhost hidden).map fun x => .nodes x.2) = .ok F →
        ∀ fs ∈ F, ∀ f ∈ fs, positive f = true) →
      ((∃ ns, getNeighborhood (castCells d removeGhost hidden).length (extractCellGeometry positive removeGhost
        ((castCells d removeGhost hidden).map Prod.fst) ((castCells d removeGhost hidden).map fun x => .nodes x.2)) = .ok ns) ↔
        ∃ c c', InShape (cells d) c ∧ InShape (cells d) c' ∧ Adjacent c c' ∧
          (removeGhost && hidden (vtkId (cells d) c)) = false ∧ (removeGhost && hidden (vtkId (cells d) c')) = false)) := by
  obtain ⟨F, f1, f2, f3⟩ := grid_keyed hd removeGhost hidden hvis
  have hpos := grid_pos hd
  have hlen : ((castCells d removeGhost hidden).map Prod.fst).length =
      ((castCells d removeGhost hidden).map fun x => Conn.nodes x.2).length := by simp
  have hcl : ((castCells d removeGhost hidden).map fun x => Conn.nodes x.2).length = (castCells d removeGhost hidden).length := by simp
  have hkey : ∀ n p, p ∈ (if removeGhost && hidden n then [] else gridKeys d (unflatF (cells d) n)) ↔
      (removeGhost && hidden n) = false ∧ p ∈ gridKeys d (unflatF (cells d) n) := by
    intro n p
    split
    · rename_i h; simp [h]
    · rename_i h; simp [h]
  have htwo := grid_two f2 f3
  have hadj : ∀ n n' p, n < count (cells d) → n' < count (cells d) → n ≠ n' → p ∈ gridKeys d (unflatF (cells d) n) →
      p ∈ gridKeys d (unflatF (cells d) n') → Adjacent (unflatF (cells d) n) (unflatF (cells d) n') := by
    intro n n' p hn hn' hne h1 h2
    have hne' : unflatF (cells d) n ≠ unflatF (cells d) n' := by
      intro e
      exact hne (by rw [← (vtkId_unflat hn).1, e, (vtkId_unflat hn').1])
    rcases common_key hne' h1 h2 with ⟨_, e⟩ | ⟨_, e⟩
    · exact ⟨p.1, .inl e⟩
    · exact ⟨p.1, .inr e⟩
  have hadjne : ∀ c c' : Ix, InShape (cells d) c → InShape (cells d) c' → Adjacent c c' → vtkId (cells d) c ≠ vtkId (cells d) c' := by
    rintro c c' hc hc' ⟨ax, h⟩ e
    have : c = c' := by rw [← unflat_vtkId hc, e, unflat_vtkId hc']
    subst this
    rcases h with h | h <;> exact after_ne ax c h.symm
  constructor
  · intro ns hns
    rw [← hcl] at hns
    obtain ⟨g1, g2, g3, g4⟩ := C35_returned_partial positive removeGhost _ _ F hlen f1 hsym f3.noRepeated
      (fun fs hfs c hc _ => htwo fs hfs c hc) ns hns
    refine ⟨by rw [g1, hcl, castCells_length], ?_, ?_⟩
    · rintro c c' l hc hc' hl h1 h2 ha ⟨f, hf, hcount⟩
      have hn : vtkId (cells d) c < F.length := by rw [f2]; exact vtkId_lt hc
      have hn' : vtkId (cells d) c' < F.length := by rw [f2]; exact vtkId_lt hc'
      have hne := hadjne c c' hc hc' ha
      obtain ⟨p, p1, p2, p3⟩ := adjacent_key hpos hc hc' ha
      obtain ⟨q1, q2, q3⟩ := g2 _ (vtkId (cells d) c') l hl
      have hmem : vtkId (cells d) c' ∈ l := by
        refine q1.2 ⟨f, hcount, (f3.share_iff hn hn' f).2 ⟨hne, p, ?_, ?_, ((p3 f).2 hf).symm⟩⟩
        · exact (hkey _ p).2 ⟨h1, by rw [unflat_vtkId hc]; exact p1⟩
        · exact (hkey _ p).2 ⟨h2, by rw [unflat_vtkId hc']; exact p2⟩
      have hge := List.count_pos_iff.2 hmem
      have hone : ∀ n n', n < F.length → n' < F.length → sharedFaces (fun c => !removeGhost || positive c) F n n' ≤ 1 := by
        intro n n' hn hn'
        refine f3.shared_le _ hn hn' ?_
        intro hne p p' a1 a2 a3 a4
        rw [f2] at hn hn'
        refine one_key (d := d) (c := unflatF (cells d) n) (c' := unflatF (cells d) n') ?_ ((hkey _ _).1 a1).2 ((hkey _ _).1 a2).2
          ((hkey _ _).1 a3).2 ((hkey _ _).1 a4).2
        intro e
        exact hne (by rw [← (vtkId_unflat hn).1, e, (vtkId_unflat hn').1])
      rcases lt_or_gt_of_ne hne with hlt | hlt
      · have := q2 hlt
        have := hone _ _ hn hn'
        omega
      · have := q3 hlt
        have := hone _ _ hn' hn
        omega
    · intro c l n hc hl hm
      have hn : vtkId (cells d) c < F.length := by rw [f2]; exact vtkId_lt hc
      have hn' : n < F.length := by
        have := (g4 _ l hl).2 n hm
        rw [hcl, castCells_length] at this
        rw [f2]; exact this
      obtain ⟨f, hcount, hsh⟩ := (g2 _ n l hl).1.1 hm
      obtain ⟨hne, p, hp, hp', hpe⟩ := (f3.share_iff hn hn' f).1 hsh
      obtain ⟨v1, k1⟩ := (hkey _ _).1 hp
      obtain ⟨v2, k2⟩ := (hkey _ _).1 hp'
      rw [f2] at hn hn'
      have ha := hadj _ _ p hn hn' hne k1 k2
      rw [unflat_vtkId hc] at ha k1
      obtain ⟨w1, w2⟩ := vtkId_unflat hn'
      refine ⟨unflatF (cells d) n, w2, w1.symm, ha, v1, v2, f, ?_, hcount⟩
      obtain ⟨p', p1, p2, p3⟩ := adjacent_key hpos hc w2 ha
      have hcc : c ≠ unflatF (cells d) n := by
        intro e
        apply hne
        rw [e, w1]
      obtain rfl := one_key hcc k1 k2 p1 p2
      exact (p3 f).1 hpe.symm
  · intro hposi
    rw [← hcl, C37_returns_iff positive removeGhost _ _ F f1 hsym (fun fs hfs c hc _ => htwo fs hfs c hc)]
    have hkeep : ∀ fs ∈ F, ∀ f ∈ fs, (!removeGhost || positive f) = true := by
      intro fs hfs f hf
      rcases hr : removeGhost with _ | _
      · rfl
      · rw [hposi hr F f1 fs hfs f hf]; rfl
    constructor
    · rintro ⟨⟨fs, hfs, f, hf, _, ho⟩, _⟩
      obtain ⟨a, b, hab⟩ : ∃ a b, owners F f = [a, b] := by
        rcases hl : owners F f with _ | ⟨a, _ | ⟨b, _ | ⟨e, l⟩⟩⟩
        · rw [hl] at ho; simp at ho
        · rw [hl] at ho; simp at ho
        · exact ⟨a, b, rfl⟩
        · rw [hl] at ho; simp at ho
      have hnd := f3.owners_nodup f
      rw [hab] at hnd
      have hne : a ≠ b := by simpa using hnd
      have hsh : Share F a b f := share_iff_owners.2 ⟨hne, by rw [hab]; simp, by rw [hab]; simp⟩
      have ha : a < F.length := by obtain ⟨_, ⟨_, e, _⟩, _⟩ := hsh; exact (List.getElem?_eq_some_iff.1 e).1
      have hb : b < F.length := by obtain ⟨_, _, _, e, _⟩ := hsh; exact (List.getElem?_eq_some_iff.1 e).1
      obtain ⟨_, p, hp, hp', _⟩ := (f3.share_iff ha hb f).1 hsh
      rw [f2] at ha hb
      obtain ⟨v1, k1⟩ := (hkey _ _).1 hp
      obtain ⟨v2, k2⟩ := (hkey _ _).1 hp'
      refine ⟨_, _, (vtkId_unflat ha).2, (vtkId_unflat hb).2, hadj a b p ha hb hne k1 k2, ?_, ?_⟩
      · rw [(vtkId_unflat ha).1]; exact v1
      · rw [(vtkId_unflat hb).1]; exact v2
    · rintro ⟨c, c', hc, hc', ha, v1, v2⟩
      have hn : vtkId (cells d) c < F.length := by rw [f2]; exact vtkId_lt hc
      have hn' : vtkId (cells d) c' < F.length := by rw [f2]; exact vtkId_lt hc'
      obtain ⟨p, p1, p2, p3⟩ := adjacent_key hpos hc hc' ha
      have hne := hadjne c c' hc hc' ha
      obtain ⟨f, hf⟩ : ∃ f : List ℕ, f.toFinset = sideSet d p := ⟨(sideSet d p).toList, by simp⟩
      obtain ⟨_, ⟨fs, e, g, hg, hs⟩, hj⟩ := (f3.share_iff hn hn' f).2 ⟨hne, p, (hkey _ p).2 ⟨v1, by rw [unflat_vtkId hc]; exact p1⟩,
        (hkey _ p).2 ⟨v2, by rw [unflat_vtkId hc']; exact p2⟩, hf.symm⟩
      have hfs := List.mem_of_getElem? e
      refine ⟨⟨fs, hfs, g, hg, hkeep fs hfs g hg, ?_⟩, ?_⟩
      · have hle := htwo fs hfs g hg
        have hi : vtkId (cells d) c ∈ owners F g := mem_owners.2 ⟨fs, e, g, hg, sameNodes_refl g⟩
        have hj' : vtkId (cells d) c' ∈ owners F g := by rw [owners_congr F hs]; exact mem_owners.2 hj
        rcases ho : owners F g with _ | ⟨a, _ | ⟨b, _ | ⟨x, l⟩⟩⟩
        · rw [ho] at hi; simp at hi
        · rw [ho] at hi hj'; simp at hi hj'; omega
        · rfl
        · rw [ho] at hle; simp at hle
      · rintro hr ⟨gs, hgs, x, hx, hneg⟩
        rw [hposi hr F f1 gs hgs x hx] at hneg
        cases hneg

/-- **C138 (connectivity lines).** When `get_connectivity` of a structured mesh returns, it links every two visible cells next to each
other, across a face that counts, by one line between their centres, and nothing else. -/
theorem C138_lines {V : Type*} {d : Ix} (hd : GridOfCells d) (positive : List ℕ → Bool) (removeGhost : Bool) (hidden : ℕ → Bool)
    (hsym : ∀ c c', sameNodes c c' = true → positive c = positive c')
    (hvis : ∃ n < count (cells d), (removeGhost && hidden n) = false) (width : ℕ) (centers points : List V) (lines : List (ℕ × ℕ))
    (hr : getConnectivity (castCells d removeGhost hidden).length width centers (extractCellGeometry positive removeGhost
        ((castCells d removeGhost hidden).map Prod.fst) ((castCells d removeGhost hidden).map fun x => .nodes x.2)) =
      .ok (points, lines)) :
    points = centers ∧ points.length = count (cells d) ∧
    (∀ c c', InShape (cells d) c → InShape (cells d) c' → vtkId (cells d) c < vtkId (cells d) c' → Adjacent c c' →
      (removeGhost && hidden (vtkId (cells d) c)) = false → (removeGhost && hidden (vtkId (cells d) c')) = false →
      (∃ f, Common d c c' f ∧ (!removeGhost || positive f) = true) → lines.count (vtkId (cells d) c, vtkId (cells d) c') = 1) ∧
    ∀ p ∈ lines, p.1 < p.2 ∧ ∃ c c', InShape (cells d) c ∧ InShape (cells d) c' ∧ p = (vtkId (cells d) c, vtkId (cells d) c') ∧
      Adjacent c c' ∧ (removeGhost && hidden p.1) = false ∧ (removeGhost && hidden p.2) = false ∧
      ∃ f, Common d c c' f ∧ (!removeGhost || positive f) = true := by
  obtain ⟨F, f1, f2, f3⟩ := grid_keyed hd removeGhost hidden hvis
  have hlen : ((castCells d removeGhost hidden).map Prod.fst).length =
      ((castCells d removeGhost hidden).map fun x => Conn.nodes x.2).length := by simp
  have hcl : ((castCells d removeGhost hidden).map fun x => Conn.nodes x.2).length = (castCells d removeGhost hidden).length := by simp
  have hmain := (C138_neighbours hd positive removeGhost hidden hsym hvis).1
  rw [← hcl] at hr hmain
  obtain ⟨g1, g2, _, g4, _, ns, g6, g7⟩ := C36_returned_partial width centers positive removeGhost _ _ F hlen f1 hsym f3.noRepeated
    (fun fs hfs c hc _ => grid_two f2 f3 fs hfs c hc) points lines hr
  have hg := hmain ns g6
  have hz : ∀ i j, i < j → lines.count (j, i) = 0 := by
    intro i j hij
    rw [List.count_eq_zero]
    intro hm
    have h1 : j < i := (g4 _ hm).1
    omega
  have hcount : ∀ i j l, i < j → ns[i]? = some l → l.count j = lines.count (i, j) := by
    intro i j l hij hl
    rw [g7 i j l hl, hz i j hij, Nat.add_zero]
  refine ⟨g1, by rw [g2, hcl, castCells_length], ?_, ?_⟩
  · intro c c' hc hc' hlt ha v1 v2 hf
    obtain ⟨l, hl⟩ : ∃ l, ns[vtkId (cells d) c]? = some l := ⟨_, List.getElem?_eq_getElem (by rw [hg.size]; exact vtkId_lt hc)⟩
    rw [← hcount _ _ l hlt hl]
    exact hg.once c c' l hc hc' hl v1 v2 ha hf
  · intro p hp
    obtain ⟨h1, h2⟩ := g4 p hp
    rw [hcl, castCells_length] at h2
    obtain ⟨w1, w2⟩ := vtkId_unflat (h1.trans h2)
    obtain ⟨l, hl⟩ : ∃ l, ns[p.1]? = some l := ⟨_, List.getElem?_eq_getElem (by rw [hg.size]; exact h1.trans h2)⟩
    have hm : p.2 ∈ l := by
      rw [← List.count_pos_iff, hcount p.1 p.2 l h1 hl]
      exact List.count_pos_iff.2 hp
    rw [← w1] at hl
    obtain ⟨c', k1, k2, k3, k4, k5, k6⟩ := hg.only _ l p.2 w2 hl hm
    rw [w1] at k4
    exact ⟨h1, _, c', w2, k1, Prod.ext w1.symm k2, k3, k4, k5, k6⟩

/-- Two by two hexahedra, the third of them hidden: the two neighbours that are left. -/
example : getNeighborhood 4 (extractCellGeometry (fun _ => true) true ((castCells ![3, 3, 2] true (· == 2)).map Prod.fst)
    ((castCells ![3, 3, 2] true (· == 2)).map fun x => .nodes x.2)) = .ok [[1], [0, 3], [], [1]] := by decide +kernel

example : getNeighborhood 4 (extractCellGeometry (fun _ => true) false ((castCells ![3, 3, 2] false (· == 2)).map Prod.fst)
    ((castCells ![3, 3, 2] false (· == 2)).map fun x => .nodes x.2)) = .ok [[1, 2], [0, 3], [0, 3], [1, 2]] := by decide +kernel

/-- Three quads in a row in the xz plane. -/
example : getNeighborhood 3 (extractCellGeometry (fun _ => true) true ((castCells ![4, 1, 2] true fun _ => false).map Prod.fst)
    ((castCells ![4, 1, 2] true fun _ => false).map fun x => .nodes x.2)) = .ok [[1], [0, 2], [1]] := by decide +kernel

/-- The hypotheses of C138. -/
example : GridOfCells ![3, 3, 2] ∧ GridOfCells ![4, 1, 2] ∧ (∃ n < count (cells ![3, 3, 2]), (true && (n == 2)) = false) := by
  refine ⟨.inl fun b => ?_, .inr ⟨1, rfl, fun b hb => ?_⟩, 0, by decide, rfl⟩
  · fin_cases b <;> decide
  · fin_cases b
    · decide
    · exact absurd rfl hb
    · decide

end Gridder
