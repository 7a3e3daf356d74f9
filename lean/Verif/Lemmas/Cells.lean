import Verif.Spec.Cells
import Mathlib.Data.List.Nodup
import Mathlib.Data.List.Perm.Basic
import Mathlib.Data.List.Zip
import Mathlib.Data.List.Count
import Mathlib.Tactic.Ring

/-! # Lemmas on faces and edges -/

namespace Gridder.Spec

theorem edges_length (f : List ℕ) : (edges f).length = f.length := by
  simp [edges]

theorem edges_map (g : ℕ → ℕ) (f : List ℕ) :
    edges (f.map g) = (edges f).map (fun e => (g e.1, g e.2)) := by
  unfold edges
  rw [← List.map_rotate, List.zip_map]
  rfl

theorem edges_fst (f : List ℕ) : (edges f).map Prod.fst = f := by
  unfold edges; rw [List.map_fst_zip]; simp

theorem edges_snd (f : List ℕ) : (edges f).map Prod.snd = f.rotate 1 := by
  unfold edges; rw [List.map_snd_zip]; simp

theorem edges_nodup {f : List ℕ} (h : f.Nodup) : (edges f).Nodup :=
  List.Nodup.of_map Prod.fst (by rwa [edges_fst])

/-- The edge starting at position `i`. -/
theorem edges_get {f : List ℕ} {u v : ℕ} : (u, v) ∈ edges f ↔
    ∃ i, f[i]? = some u ∧ f[(i + 1) % f.length]? = some v := by
  unfold edges
  constructor
  · intro h
    obtain ⟨i, hi, e⟩ := List.mem_iff_getElem.1 h
    simp only [List.length_zip, List.length_rotate, Nat.min_self] at hi
    simp only [List.getElem_zip, Prod.mk.injEq] at e
    refine ⟨i, by rw [List.getElem?_eq_getElem hi, e.1], ?_⟩
    rw [List.getElem_rotate] at e
    rw [List.getElem?_eq_getElem (Nat.mod_lt _ (by omega)), e.2]
  · rintro ⟨i, h1, h2⟩
    obtain ⟨hi, e1⟩ := List.getElem?_eq_some_iff.1 h1
    obtain ⟨hj, e2⟩ := List.getElem?_eq_some_iff.1 h2
    refine List.mem_iff_getElem.2 ⟨i, by simpa using hi, ?_⟩
    simp only [List.getElem_zip, List.getElem_rotate, e1, e2]

/-- A face with at least three distinct nodes does not run an edge both ways. -/
theorem edges_no_swap {f : List ℕ} (h : f.Nodup) (h3 : 3 ≤ f.length) {u v : ℕ}
    (huv : (u, v) ∈ edges f) : (v, u) ∉ edges f := by
  intro hvu
  obtain ⟨i, a1, a2⟩ := edges_get.1 huv
  obtain ⟨j, b1, b2⟩ := edges_get.1 hvu
  obtain ⟨hi, a1⟩ := List.getElem?_eq_some_iff.1 a1
  obtain ⟨hi', a2⟩ := List.getElem?_eq_some_iff.1 a2
  obtain ⟨hj, b1⟩ := List.getElem?_eq_some_iff.1 b1
  obtain ⟨hj', b2⟩ := List.getElem?_eq_some_iff.1 b2
  have e1 : (i + 1) % f.length = j := (List.Nodup.getElem_inj_iff h).1 (a2.trans b1.symm)
  have e2 : (j + 1) % f.length = i := (List.Nodup.getElem_inj_iff h).1 (b2.trans a1.symm)
  rcases Nat.lt_or_ge (i + 1) f.length with h1 | h1
  · rw [Nat.mod_eq_of_lt h1] at e1
    rcases Nat.lt_or_ge (j + 1) f.length with h2 | h2
    · rw [Nat.mod_eq_of_lt h2] at e2; omega
    · rw [show j + 1 = f.length by omega, Nat.mod_self] at e2; omega
  · rw [show i + 1 = f.length by omega, Nat.mod_self] at e1
    subst e1
    rw [Nat.mod_eq_of_lt (by omega)] at e2; omega

theorem edges_reverse (f : List ℕ) : (edges f.reverse).Perm ((edges f).map Prod.swap) := by
  unfold edges
  rcases Nat.eq_zero_or_pos f.length with h0 | hpos
  · rw [List.length_eq_zero_iff.1 h0]; simp
  have hr : f.reverse.rotate 1 = (f.rotate (f.length - 1)).reverse := by
    rw [List.reverse_rotate]
    congr 1
    rcases Nat.lt_or_ge 1 f.length with h | h
    · rw [Nat.mod_eq_of_lt (by omega)]; omega
    · have : f.length = 1 := by omega
      rw [this]
  rw [hr]
  have e1 : f.reverse.zip (f.rotate (f.length - 1)).reverse =
      (f.zip (f.rotate (f.length - 1))).reverse := by
    unfold List.zip
    rw [List.reverse_zipWith (by simp)]
  rw [e1]
  refine (List.reverse_perm _).trans ?_
  have e2 : (f.zip (f.rotate (f.length - 1))).rotate 1 = (f.rotate 1).zip f := by
    unfold List.zip
    rw [List.zipWith_rotate_distrib _ _ _ _ (by simp), List.rotate_rotate,
      show f.length - 1 + 1 = f.length by omega, List.rotate_length]
  have e3 : (f.zip (f.rotate 1)).map Prod.swap = (f.rotate 1).zip f := by
    rw [List.zip_swap]
  rw [e3, ← e2]
  exact (List.rotate_perm _ 1).symm

theorem flatMap_four {α β : Type*} (g1 g2 g3 g4 : α → β) (l : List α) :
    (l.flatMap fun e => [g1 e, g2 e, g3 e, g4 e]).Perm
      (l.map g1 ++ (l.map g2 ++ (l.map g3 ++ l.map g4))) := by
  have h34 := List.map_append_flatMap_perm l g3 (fun e => [g4 e])
  have h234 := List.map_append_flatMap_perm l g2 (fun e => [g3 e, g4 e])
  have h1234 := List.map_append_flatMap_perm l g1 (fun e => [g2 e, g3 e, g4 e])
  rw [← List.map_eq_flatMap] at h34
  exact h1234.symm.trans ((h234.symm.trans (h34.symm.append_left _)).append_left _)

theorem shift_nodup {f : List ℕ} (h : f.Nodup) (a : ℕ) : (shift a f).Nodup :=
  h.map (fun _ _ e => by simpa using e)

/-- Directed edges of a prism, up to order. -/
theorem prism_edges (flip : Bool) (a b : ℕ) (f : List ℕ) :
    ((prismFaces flip a b f).flatMap edges).Perm
      ((edges f).map (fun e => (a + e.1, a + e.2)) ++
        ((if flip then (edges f).map (fun e => (b + e.2, b + e.1))
            else (edges f).map (fun e => (b + e.1, b + e.2))) ++
          ((edges f).map (fun e => (b + e.1, b + e.2)) ++
            (f.map (fun v => (b + v, a + v)) ++
              ((edges f).map (fun e => (a + e.2, a + e.1)) ++ f.map (fun u => (a + u, b + u))))))) := by
  simp only [prismFaces, List.flatMap_cons]
  refine List.Perm.append ?_ (List.Perm.append ?_ ?_)
  · simp only [shift]; rw [edges_map]
  · cases flip
    · simp only [shift, Bool.false_eq_true, if_false]; rw [edges_map]
    · simp only [shift, if_true]
      rw [edges_map]
      refine ((edges_reverse f).map _).trans ?_
      rw [List.map_map]
      rfl
  · rw [List.flatMap_map]
    have e : (fun e : ℕ × ℕ => edges [b + e.1, b + e.2, a + e.2, a + e.1]) =
        fun e => [(b + e.1, b + e.2), (b + e.2, a + e.2), (a + e.2, a + e.1), (a + e.1, b + e.1)] := by
      funext e; rfl
    rw [e]
    refine (flatMap_four _ _ _ _ _).trans ?_
    refine List.Perm.append_left _ (List.Perm.append ?_ (List.Perm.append_left _ ?_))
    · have : (edges f).map (fun e => (b + e.2, a + e.2)) =
          ((edges f).map Prod.snd).map fun v => (b + v, a + v) := by rw [List.map_map]; rfl
      rw [this, edges_snd]
      exact (List.rotate_perm f 1).map _
    · have : (edges f).map (fun e => (a + e.1, b + e.1)) =
          ((edges f).map Prod.fst).map fun u => (a + u, b + u) := by rw [List.map_map]; rfl
      rw [this, edges_fst]

theorem edges_mem {f : List ℕ} {u v : ℕ} (h : (u, v) ∈ edges f) : u ∈ f ∧ v ∈ f := by
  obtain ⟨i, h1, h2⟩ := edges_get.1 h
  exact ⟨List.mem_of_getElem? h1, List.mem_of_getElem? h2⟩

/-- All directed edges of a prism are different. -/
theorem prism_edges_nodup {a b N : ℕ} {f : List ℕ} (h : f.Nodup) (h3 : 3 ≤ f.length)
    (hN : ∀ x ∈ f, x < N) (hab : a + N ≤ b) : ((prismFaces true a b f).flatMap edges).Nodup := by
  rw [(prism_edges true a b f).nodup_iff]
  have he := edges_nodup h
  have inj1 : ∀ c : ℕ, Function.Injective fun e : ℕ × ℕ => (c + e.1, c + e.2) := by
    intro c x y e; simp only [Prod.mk.injEq, Nat.add_left_cancel_iff] at e; exact Prod.ext e.1 e.2
  have inj2 : ∀ c : ℕ, Function.Injective fun e : ℕ × ℕ => (c + e.2, c + e.1) := by
    intro c x y e; simp only [Prod.mk.injEq, Nat.add_left_cancel_iff] at e; exact Prod.ext e.2 e.1
  have inj3 : ∀ c d : ℕ, Function.Injective fun v : ℕ => (c + v, d + v) := by
    intro c d x y e; simp only [Prod.mk.injEq, Nat.add_left_cancel_iff] at e; exact e.1
  simp only [if_true, List.nodup_append, he.map (inj1 _), he.map (inj2 _), h.map (inj3 _ _),
    true_and, List.mem_append, List.mem_map, Prod.exists, forall_exists_index, and_imp]
  have bd : ∀ x y, (x, y) ∈ edges f → x < N ∧ y < N := fun x y e =>
    ⟨hN x (edges_mem e).1, hN y (edges_mem e).2⟩
  have ns : ∀ x y x' y', (x, y) ∈ edges f → (x', y') ∈ edges f → ¬ (x = y' ∧ y = x') := by
    rintro x y x' y' e e' ⟨rfl, rfl⟩
    exact edges_no_swap h h3 e e'
  refine ⟨⟨⟨⟨?_, ?_⟩, ?_⟩, ?_⟩, ?_⟩
  · rintro _ x y he rfl _ z hz rfl heq
    have := bd x y he; have := hN z hz
    simp only [Prod.mk.injEq] at heq; omega
  · rintro _ x hx rfl _ (⟨y, z, hz, rfl⟩ | ⟨z, hz, rfl⟩) heq
    · have := bd y z hz; simp only [Prod.mk.injEq] at heq; omega
    · have := hN z hz; simp only [Prod.mk.injEq] at heq; omega
  · rintro _ x y he rfl _ (⟨z, hz, rfl⟩ | ⟨y, z, hz, rfl⟩ | ⟨z, hz, rfl⟩) heq
    · have := hN z hz; simp only [Prod.mk.injEq] at heq; omega
    · have := bd y z hz; simp only [Prod.mk.injEq] at heq; omega
    · have := hN z hz; simp only [Prod.mk.injEq] at heq; omega
  · rintro _ x y he rfl _ (⟨x', y', hz, rfl⟩ | ⟨z, hz, rfl⟩ | ⟨x', y', hz, rfl⟩ | ⟨z, hz, rfl⟩) heq
    · have := ns x y x' y' he hz; simp only [Prod.mk.injEq] at heq; omega
    · have := hN z hz; simp only [Prod.mk.injEq] at heq; omega
    · have := bd x' y' hz; simp only [Prod.mk.injEq] at heq; omega
    · have := hN z hz; simp only [Prod.mk.injEq] at heq; omega
  · rintro _ x y he rfl _
      (⟨x', y', hz, rfl⟩ | ⟨x', y', hz, rfl⟩ | ⟨z, hz, rfl⟩ | ⟨x', y', hz, rfl⟩ | ⟨z, hz, rfl⟩) heq
    · have := bd x y he; simp only [Prod.mk.injEq] at heq; omega
    · have := bd x y he; simp only [Prod.mk.injEq] at heq; omega
    · have := bd x y he; simp only [Prod.mk.injEq] at heq; omega
    · have := ns x y x' y' he hz; simp only [Prod.mk.injEq] at heq; omega
    · have := bd x y he; simp only [Prod.mk.injEq] at heq; omega

/-- The directed edges of a prism with reversed top are closed under reversal. -/
theorem prism_edges_swap (a b : ℕ) (f : List ℕ) :
    (((prismFaces true a b f).flatMap edges).map Prod.swap).Perm
      ((prismFaces true a b f).flatMap edges) := by
  refine ((prism_edges true a b f).map _).trans (List.Perm.trans ?_ (prism_edges true a b f).symm)
  simp only [if_true, List.map_append, List.map_map]
  have e1 : ∀ c : ℕ, (Prod.swap ∘ fun e : ℕ × ℕ => (c + e.1, c + e.2)) =
      fun e => (c + e.2, c + e.1) := fun _ => rfl
  have e2 : ∀ c : ℕ, (Prod.swap ∘ fun e : ℕ × ℕ => (c + e.2, c + e.1)) =
      fun e => (c + e.1, c + e.2) := fun _ => rfl
  have e3 : ∀ c d : ℕ, (Prod.swap ∘ fun e : ℕ => (c + e, d + e)) =
      fun e => (d + e, c + e) := fun _ _ => rfl
  simp only [e1, e2, e3]
  generalize (edges f).map (fun e => (a + e.1, a + e.2)) = A
  generalize (edges f).map (fun e => (a + e.2, a + e.1)) = A'
  generalize (edges f).map (fun e => (b + e.1, b + e.2)) = B
  generalize (edges f).map (fun e => (b + e.2, b + e.1)) = B'
  generalize f.map (fun v => (b + v, a + v)) = D
  generalize f.map (fun v => (a + v, b + v)) = U
  rw [List.perm_iff_count]
  intro x
  simp only [List.count_append]
  omega

theorem prism_closedOriented {a b N : ℕ} {f : List ℕ} (h : f.Nodup) (h3 : 3 ≤ f.length)
    (hN : ∀ x ∈ f, x < N) (hab : a + N ≤ b) : ClosedOriented (prismFaces true a b f) := by
  have hnd := prism_edges_nodup h h3 hN hab
  intro u v huv
  have hvu : (v, u) ∈ (prismFaces true a b f).flatMap edges :=
    (prism_edges_swap a b f).subset (List.mem_map.2 ⟨(u, v), huv, rfl⟩)
  refine ⟨List.count_eq_one_of_mem hnd huv, List.count_eq_one_of_mem hnd hvu, ?_⟩
  intro g hg hug
  refine edges_no_swap ?_ ?_ hug
  · simp only [prismFaces, List.mem_cons, if_true, List.mem_map, Prod.exists] at hg
    rcases hg with rfl | rfl | ⟨x, y, hxy, rfl⟩
    · exact shift_nodup h a
    · exact shift_nodup (List.nodup_reverse.2 h) b
    · have hx := hN x (edges_mem hxy).1
      have hy := hN y (edges_mem hxy).2
      have hne : x ≠ y := by
        rintro rfl
        exact edges_no_swap h h3 hxy hxy
      simp; omega
  · simp only [prismFaces, List.mem_cons, if_true, List.mem_map, Prod.exists] at hg
    rcases hg with rfl | rfl | ⟨x, y, hxy, rfl⟩ <;> simp [shift, h3]

theorem count_map_swap (l : List (ℕ × ℕ)) (u v : ℕ) :
    (l.map Prod.swap).count (u, v) = l.count (v, u) :=
  List.count_map_of_injective l Prod.swap Prod.swap_injective (v, u)

/-- Without reversing the top each edge still belongs to exactly two faces. -/
theorem prism_closed {a b N : ℕ} {f : List ℕ} (h : f.Nodup) (h3 : 3 ≤ f.length)
    (hN : ∀ x ∈ f, x < N) (hab : a + N ≤ b) : Closed (prismFaces false a b f) := by
  have hnd := prism_edges_nodup h h3 hN hab
  intro u v huv
  have key : ((prismFaces false a b f).flatMap edges ++
      ((prismFaces false a b f).flatMap edges).map Prod.swap).Perm
      ((prismFaces true a b f).flatMap edges ++ ((prismFaces true a b f).flatMap edges)) := by
    refine ((prism_edges false a b f).append ((prism_edges false a b f).map _)).trans
      (List.Perm.trans ?_ ((prism_edges true a b f).append (prism_edges true a b f)).symm)
    simp only [if_true, Bool.false_eq_true, if_false, List.map_append, List.map_map]
    have e1 : ∀ c : ℕ, (Prod.swap ∘ fun e : ℕ × ℕ => (c + e.1, c + e.2)) =
        fun e => (c + e.2, c + e.1) := fun _ => rfl
    have e2 : ∀ c : ℕ, (Prod.swap ∘ fun e : ℕ × ℕ => (c + e.2, c + e.1)) =
        fun e => (c + e.1, c + e.2) := fun _ => rfl
    have e3 : ∀ c d : ℕ, (Prod.swap ∘ fun e : ℕ => (c + e, d + e)) =
        fun e => (d + e, c + e) := fun _ _ => rfl
    simp only [e1, e2, e3]
    generalize (edges f).map (fun e => (a + e.1, a + e.2)) = A
    generalize (edges f).map (fun e => (a + e.2, a + e.1)) = A'
    generalize (edges f).map (fun e => (b + e.1, b + e.2)) = B
    generalize (edges f).map (fun e => (b + e.2, b + e.1)) = B'
    generalize f.map (fun v => (b + v, a + v)) = D
    generalize f.map (fun v => (a + v, b + v)) = U
    rw [List.perm_iff_count]
    intro x
    simp only [List.count_append]
    omega
  have hc := (List.perm_iff_count.1 key) (u, v)
  rw [List.count_append, List.count_append, count_map_swap] at hc
  have hmem : (u, v) ∈ (prismFaces true a b f).flatMap edges ++
      (prismFaces true a b f).flatMap edges := key.subset (List.mem_append_left _ huv)
  have hmem' : (u, v) ∈ (prismFaces true a b f).flatMap edges := by
    rcases List.mem_append.1 hmem with h | h <;> exact h
  rw [hc, List.count_eq_one_of_mem hnd hmem']

end Gridder.Spec
