import Verif.Model.Wrappers
import Verif.Props.Extrude

/-!
# C119: volumes between surfaces that do not match
-/

namespace Gridder
open Spec

variable {δ : Type*} [OfNat δ 0] [OfNat δ 32]

/-- The volume between unstructured surfaces depends on the second one through its points only, as long as its cell
types pass the test. -/
theorem volumeU_points (invert : Bool) (a b b' : UGrid ℝ δ) (res : Resolution ℝ) (m : Option String)
    (hp : b.points = b'.points)
    (ht : celltypesMatch (a.cells.map Prod.fst) (b.cells.map Prod.fst) =
      celltypesMatch (a.cells.map Prod.fst) (b'.cells.map Prod.fst)) :
    generateVolumeU invert a b res m = generateVolumeU invert a b' res m := by
  simp only [generateVolumeU, generateVolumeUnstructured, hp, ht]

/-- What the test on the cell types accepts: the same types, or, since numpy repeats arrays of length one, one cell
against any number of cells of its type. -/
theorem celltypesMatch_true {a b : List ℕ} : celltypesMatch a b = .ok true ↔
    a = b ∨ (∃ t, b = [t] ∧ ∀ s ∈ a, s = t) ∨ ∃ t, a = [t] ∧ ∀ s ∈ b, s = t := by
  unfold celltypesMatch
  split
  · rename_i h
    simp only [Except.ok.injEq, decide_eq_true_eq]
    refine ⟨Or.inl, ?_⟩
    rintro (h' | ⟨t, rfl, h'⟩ | ⟨t, rfl, h'⟩)
    · exact h'
    · obtain ⟨s, rfl⟩ := List.length_eq_one_iff.1 h
      rw [h' s (by simp)]
    · obtain ⟨s, rfl⟩ := List.length_eq_one_iff.1 h.symm
      rw [h' s (by simp)]
  · rename_i h
    split
    · rename_i h1
      obtain ⟨t, rfl⟩ := List.length_eq_one_iff.1 h1
      simp only [List.head?_cons, Option.some.injEq, Except.ok.injEq, List.all_eq_true, decide_eq_true_eq]
      constructor
      · exact fun h => Or.inr (Or.inl ⟨t, rfl, fun s hs => (h s hs).symm⟩)
      · rintro (rfl | ⟨t', h2, h3⟩ | ⟨t', rfl, -⟩)
        · exact absurd rfl h
        · obtain rfl : t = t' := by simpa using h2
          exact fun s hs => (h3 s hs).symm
        · exact absurd rfl h
    · rename_i h1
      split
      · rename_i h2
        obtain ⟨t, rfl⟩ := List.length_eq_one_iff.1 h2
        simp only [List.head?_cons, Option.some.injEq, Except.ok.injEq, List.all_eq_true, decide_eq_true_eq]
        constructor
        · exact fun h => Or.inr (Or.inr ⟨t, rfl, fun s hs => (h s hs).symm⟩)
        · rintro (rfl | ⟨t', rfl, -⟩ | ⟨t', h2, h3⟩)
          · exact absurd rfl h
          · exact absurd rfl h1
          · obtain rfl : t = t' := by simpa using h2
            exact fun s hs => (h3 s hs).symm
      · rename_i h2
        simp only [reduceCtorEq, false_iff]
        rintro (rfl | ⟨t, rfl, -⟩ | ⟨t, rfl, -⟩)
        · exact h rfl
        · exact h1 rfl
        · exact h2 rfl

/-- Everything the test on the cell types does not accept is a `ValueError`. -/
theorem volumeU_types {invert : Bool} {a b : UGrid ℝ δ} (res : Resolution ℝ) (m : Option String)
    (h : celltypesMatch (a.cells.map Prod.fst) (b.cells.map Prod.fst) ≠ .ok true) :
    generateVolumeU invert a b res m = .error .valueError := by
  simp only [generateVolumeU]
  split
  · rfl
  split
  · rfl
  split
  · rename_i e he
    unfold celltypesMatch at he
    split at he
    · cases he
    split at he
    · cases he
    split at he
    · cases he
    · exact congrArg _ (Except.error.inj he).symm
  · rfl
  · rename_i h'
    exact absurd h' h

variable [Inhabited δ]

/-- **C119**, in part: `Volume` raises a `ValueError` if the surfaces are of different kinds, if they are structured
and of different dimensions, or if they are unstructured and differ by their numbers of points, by the types of their
cells, or by their numbers of cells, unless one has a single cell.  Missing: surfaces whose cells have the same types
but join other nodes (`C119_cells_refuted`), and a single cell against several (`C119_one_cell_refuted`), which are
accepted. -/
theorem C119_mismatch_partial (volume : Arr3 (V3 ℝ) → List ℝ) (res : Resolution ℝ) (m : Option String) :
    (∀ (a : SGrid ℝ δ) (b : UGrid ℝ δ),
      volumeMesh volume (.structured a) (.unstructured b) res m = .error .valueError ∧
      volumeMesh volume (.unstructured b) (.structured a) res m = .error .valueError) ∧
    (∀ a b : SGrid ℝ δ, a.nodes.d ≠ b.nodes.d →
      volumeMesh volume (.structured a) (.structured b) res m = .error .valueError) ∧
    (∀ a b : UGrid ℝ δ, a.points.length ≠ b.points.length ∨
        (a.cells.length = b.cells.length ∧ a.cells.map Prod.fst ≠ b.cells.map Prod.fst) ∨
        (a.cells.length ≠ b.cells.length ∧ a.cells.length ≠ 1 ∧ b.cells.length ≠ 1) ∨
        (a.cells.length ≠ b.cells.length ∧ ∃ c ∈ a.cells, ∃ d ∈ b.cells, c.1 ≠ d.1) →
      volumeMesh volume (.unstructured a) (.unstructured b) res m = .error .valueError) := by
  refine ⟨fun a b => ⟨rfl, rfl⟩, ?_, ?_⟩
  · intro a b h
    simp only [volumeMesh, volumeBetween, generateVolumeS]
    rw [if_pos h]
  · intro a b h
    suffices h' : generateVolumeU true a b res m = .error .valueError by
      simp only [volumeMesh, h']
    by_cases hn : a.points.length ≠ b.points.length
    · rw [generateVolumeU, if_pos hn]
    refine volumeU_types res m fun hm => ?_
    rcases h with h | ⟨h1, h2⟩ | ⟨h1, h2, h3⟩ | ⟨hlen, c, hc, d, hd, hcd⟩
    · exact hn h
    · rcases celltypesMatch_true.1 hm with e | ⟨t, e, e'⟩ | ⟨t, e, e'⟩
      · exact h2 e
      · have hb : b.cells.length = 1 := by simpa using congrArg List.length e
        obtain ⟨s, hs⟩ := List.length_eq_one_iff.1 (h1.trans hb)
        refine h2 ?_
        rw [e, hs]
        simp [e' s.1 (by simp [hs])]
      · have ha : a.cells.length = 1 := by simpa using congrArg List.length e
        obtain ⟨s, hs⟩ := List.length_eq_one_iff.1 (h1.symm.trans ha)
        refine h2 ?_
        rw [e, hs]
        simp [e' s.1 (by simp [hs])]
    · rcases celltypesMatch_true.1 hm with e | ⟨t, e, e'⟩ | ⟨t, e, e'⟩
      · exact h1 (by simpa using congrArg List.length e)
      · exact h3 (by simpa using congrArg List.length e)
      · exact h2 (by simpa using congrArg List.length e)
    · have hc' : c.1 ∈ a.cells.map Prod.fst := List.mem_map_of_mem hc
      have hd' : d.1 ∈ b.cells.map Prod.fst := List.mem_map_of_mem hd
      rcases celltypesMatch_true.1 hm with e | ⟨t, e, e'⟩ | ⟨t, e, e'⟩
      · exact hlen (by simpa using congrArg List.length e)
      · rw [e, List.mem_singleton] at hd'
        exact hcd ((e' _ hc').trans hd'.symm)
      · rw [e, List.mem_singleton] at hc'
        exact hcd (hc'.trans (e' _ hd').symm)

/-- **C119**, refuted: `Volume` does not look at the nodes of the cells of its second argument.  Whatever cells of the
same types these nodes are given, the result is the same. -/
theorem C119_cells_refuted (volume : Arr3 (V3 ℝ) → List ℝ) (res : Resolution ℝ) (m : Option String)
    (a b b' : UGrid ℝ δ) (hp : b.points = b'.points) (ht : b.cells.map Prod.fst = b'.cells.map Prod.fst) :
    volumeMesh volume (.unstructured a) (.unstructured b) res m =
      volumeMesh volume (.unstructured a) (.unstructured b') res m := by
  simp only [volumeMesh, volumeU_points true a b b' res m hp (by rw [ht])]

/-- **C119**, refuted: a surface of a single cell is accepted with a surface of any number of cells of its type, on
as many points; the result is the one for two surfaces with the cells of the first. -/
theorem C119_one_cell_refuted (volume : Arr3 (V3 ℝ) → List ℝ) (res : Resolution ℝ) (m : Option String)
    (a b : UGrid ℝ δ)
    (h : (∃ d, b.cells = [d] ∧ ∀ c ∈ a.cells, c.1 = d.1) ∨ ∃ c, a.cells = [c] ∧ ∀ d ∈ b.cells, d.1 = c.1) :
    volumeMesh volume (.unstructured a) (.unstructured b) res m =
      volumeMesh volume (.unstructured a) (.unstructured { b with cells := a.cells }) res m := by
  have : celltypesMatch (a.cells.map Prod.fst) (b.cells.map Prod.fst) = .ok true := by
    rw [celltypesMatch_true]
    rcases h with ⟨d, h1, h2⟩ | ⟨c, h1, h2⟩
    · refine Or.inr (Or.inl ⟨d.1, by simp [h1], ?_⟩)
      simpa using fun s x hx => h2 (s, x) hx
    · refine Or.inr (Or.inr ⟨c.1, by simp [h1], ?_⟩)
      simpa using fun s x hx => h2 (s, x) hx
  simp only [volumeMesh, volumeU_points true a b { b with cells := a.cells } res m rfl
    (by rw [this, celltypesMatch_self])]

/-- A square cut along one diagonal, along the other one, and one half of it. -/
def cutSquare (z : ℚ) (cells : List (ℕ × List ℕ)) : UGrid ℚ ℤ :=
  ⟨[![0, 0, z], ![1, 0, z], ![1, 1, z], ![0, 1, z]], cells, [], []⟩

/-- The prisms between the squares cut along different diagonals: their upper faces are not the triangles of the upper
square.  The same mesh comes from an upper surface of one triangle. -/
example : [cutSquare 1 [(5, [0, 1, 3]), (5, [1, 2, 3])], cutSquare 1 [(5, [0, 1, 2])]].all (fun b =>
      ((generateVolumeUnstructured true (cutSquare 0 [(5, [0, 1, 2]), (5, [0, 2, 3])]) b [0, 1]).toOption.map
        fun r => r.1.cells) = some [6, 0, 1, 2, 4, 5, 6, 6, 0, 2, 3, 4, 6, 7]) = true := by
  decide +kernel

/-- Concrete cases of `C119_mismatch_partial`: a triangle against a quadrilateral, and two cells against three. -/
example (volume : Arr3 (V3 ℝ) → List ℝ) (p : List (V3 ℝ)) :
    volumeMesh volume (.unstructured (⟨p, [(5, [0, 1, 2])], [], []⟩ : UGrid ℝ ℤ))
      (.unstructured ⟨p, [(9, [0, 1, 2, 3])], [], []⟩) (.int 1) none = .error .valueError ∧
    volumeMesh volume (.unstructured (⟨p, [(5, [0, 1, 2]), (5, [0, 2, 3])], [], []⟩ : UGrid ℝ ℤ))
      (.unstructured ⟨p, [(5, [0, 1, 2]), (5, [0, 2, 3]), (5, [1, 2, 3])], [], []⟩) (.int 1) none =
        .error .valueError :=
  ⟨(C119_mismatch_partial volume _ _).2.2 _ _ (Or.inr (Or.inl ⟨rfl, by simp⟩)),
   (C119_mismatch_partial volume _ _).2.2 _ _ (Or.inr (Or.inr (Or.inl ⟨by simp, by simp, by simp⟩)))⟩

end Gridder
