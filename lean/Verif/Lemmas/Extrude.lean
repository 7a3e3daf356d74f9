import Verif.Lemmas.Cells
import Verif.Lemmas.Structured
import Verif.Model.Extrude
import Verif.Props.Ids

/-! # Lemmas on unstructured extrusion -/

namespace Gridder
open Spec

/-! ## reading flat cells -/

theorem readBlock_append {l b r : List ℕ} (x : List ℕ) (h : readBlock l = some (b, r)) :
    readBlock (l ++ x) = some (b, r ++ x) := by
  cases l with
  | nil => simp [readBlock] at h
  | cons n rest =>
    simp only [readBlock] at h
    split at h
    · rename_i hn
      cases h
      simp only [List.cons_append, readBlock, List.length_append]
      rw [if_pos (by omega), List.take_append_of_le_length hn, List.drop_append_of_le_length hn]
    · cases h

theorem readCell_append {p : Bool} {l r : List ℕ} {c : Cell} (x : List ℕ)
    (h : readCell p l = some (c, r)) : readCell p (l ++ x) = some (c, r ++ x) := by
  unfold readCell at h ⊢
  cases hb : readBlock l with
  | none => simp [hb] at h
  | some br =>
    obtain ⟨body, rest⟩ := br
    rw [hb] at h
    rw [readBlock_append x hb]
    simp only at h ⊢
    cases p with
    | false => simp only [Bool.false_eq_true, if_false] at h ⊢; cases h; rfl
    | true =>
      simp only [if_true] at h ⊢
      cases body with
      | nil => simp at h
      | cons n stream =>
        simp only at h ⊢
        cases hf : readFaces n stream with
        | none => simp [hf] at h
        | some fr =>
          obtain ⟨fs, lft⟩ := fr
          rw [hf] at h
          cases lft with
          | nil => simp only at h ⊢; cases h; rfl
          | cons _ _ => simp at h

theorem readCells_append {τ : Type _} (p : τ → Bool) : ∀ (ts : List τ) (l : List ℕ) (cs : List Cell)
    (ts' : List τ) (l' : List ℕ) (cs' : List Cell), readCells p ts l = some cs →
    readCells p ts' l' = some cs' → readCells p (ts ++ ts') (l ++ l') = some (cs ++ cs') := by
  intro ts
  induction ts with
  | nil =>
    intro l cs ts' l' cs' h h'
    cases l with
    | nil => simp only [readCells, Option.some.injEq] at h; subst h; simpa using h'
    | cons _ _ => simp [readCells] at h
  | cons t ts ih =>
    intro l cs ts' l' cs' h h'
    simp only [readCells] at h
    cases hc : readCell (p t) l with
    | none => simp [hc] at h
    | some cr =>
      obtain ⟨c, rest⟩ := cr
      rw [hc] at h
      simp only at h
      cases hr : readCells p ts rest with
      | none => simp [hr] at h
      | some cs1 =>
        rw [hr] at h
        simp only [Option.some.injEq] at h
        subst h
        simp only [List.cons_append, readCells, readCell_append l' hc,
          ih rest cs1 ts' l' cs' hr h']

theorem readCells_one {τ : Type _} (p : τ → Bool) (t : τ) (l : List ℕ) (c : Cell)
    (h : readCell (p t) l = some (c, [])) : readCells p [t] l = some [c] := by
  simp [readCells, h]

theorem readBlock_self (b r : List ℕ) : readBlock (b.length :: (b ++ r)) = some (b, r) := by
  simp [readBlock]

theorem readFaces_encode : ∀ (fs : List (List ℕ)) (r : List ℕ),
    readFaces fs.length ((fs.map fun f => f.length :: f).flatten ++ r) = some (fs, r)
  | [], r => by simp [readFaces]
  | f :: fs, r => by
    simp only [List.length_cons, List.map_cons, List.flatten_cons, List.cons_append,
      List.append_assoc, readFaces]
    rw [readBlock_self]
    simp only [readFaces_encode fs r]

theorem shift_eq (i n : ℕ) (f : List ℕ) : f.map (· + i * n) = shift (i * n) f := by
  simp [shift, Nat.add_comm]

theorem readCell_prism (n : ℕ) (f0 f1 : List ℕ) (i : ℕ) :
    readCell false (prismLayer n f0 f1 i) = some (.nodes (shift (i * n) (f0 ++ f1)), []) := by
  simp only [prismLayer, readCell, shift_eq]
  have := readBlock_self (shift (i * n) (f0 ++ f1)) []
  rw [List.append_nil] at this
  rw [show (shift (i * n) (f0 ++ f1)).length = (f0 ++ f1).length by simp [shift]] at this
  rw [this]
  simp

theorem readCell_polyhedron (n : ℕ) (faces : List (List ℕ)) (i : ℕ) :
    readCell true (polyhedronLayer n faces i) =
      some (.polyhedron (faces.map (shift (i * n))), []) := by
  simp only [polyhedronLayer, readCell, shift_eq]
  set body := faces.length :: (faces.map fun f => f.length :: shift (i * n) f).flatten with hbody
  have := readBlock_self body []
  rw [List.append_nil] at this
  rw [show body.length = (faces.map fun f => f.length :: shift (i * n) f).flatten.length + 1 by
    simp [hbody]] at this
  rw [this]
  simp only [if_true, hbody]
  have h2 := readFaces_encode (faces.map (shift (i * n))) []
  simp only [List.length_map, List.append_nil, List.map_map] at h2
  have e : ((fun f : List ℕ => f.length :: f) ∘ shift (i * n)) =
      fun f => f.length :: shift (i * n) f := by
    funext f; simp [shift]
  rw [e] at h2
  rw [h2]

/-! ## prisms -/

theorem shift_shift (a b : ℕ) (f : List ℕ) : shift a (shift b f) = shift (a + b) f := by
  simp [shift, Nat.add_assoc]

theorem sideFaces_eq (n : ℕ) (f : List ℕ) :
    sideFaces f (f.map (· + n)) =
      (edges f).map fun e => [n + e.1, n + e.2, e.2, e.1] := by
  unfold sideFaces edges
  apply List.ext_getElem
  · simp
  · intro i h1 h2
    simp [Nat.add_comm, List.getElem_rotate]

theorem map_add_eq (n : ℕ) (f : List ℕ) : f.map (· + n) = shift n f := by
  simp [shift, Nat.add_comm]

theorem prismFaces_layer (flip : Bool) (n i : ℕ) (f : List ℕ) :
    (f :: (if flip then (f.map (· + n)).reverse else f.map (· + n)) ::
      sideFaces f (f.map (· + n))).map (shift (i * n)) =
      prismFaces flip (i * n) ((i + 1) * n) f := by
  rw [sideFaces_eq]
  simp only [List.map_cons, prismFaces, List.map_map]
  congr 1
  congr 1
  · cases flip
    · simp only [Bool.false_eq_true, if_false, map_add_eq, shift_shift]; congr 1; ring
    · simp only [if_true, map_add_eq]
      rw [show (shift n f).reverse = shift n f.reverse by simp [shift], shift_shift]; congr 1; ring
  · apply List.map_congr_left
    intro e _
    simp only [Function.comp, shift, List.map_cons, List.map_nil]
    rw [show (i + 1) * n = i * n + n by ring]
    simp [Nat.add_assoc]

section
variable {K : Type _} [Field K] [LinearOrder K]

theorem extrudedType_ne {t : ℕ} (h : extrudedType t ≠ -1) : t = 5 ∨ t = 7 ∨ t = 8 ∨ t = 9 := by
  by_cases ht : t < 82
  · have : ∀ t : Fin 82, extrudedType t ≠ -1 → t.1 = 5 ∨ t.1 = 7 ∨ t.1 = 8 ∨ t.1 = 9 := by
      decide
    exact this ⟨t, ht⟩ h
  · exfalso; apply h
    unfold extrudedType
    rw [List.getD_eq_getElem?_getD, List.getElem?_eq_none (by simp [extrudedCelltypeMap]; omega)]
    rfl

/-- What one base cell becomes. -/
theorem extrudeCell_spec {nPoints : ℕ} {points : List (V3 K)} {invert : Bool} {t : ℕ}
    {conn : List ℕ} {o : CellOut} (ht : extrudedType t ≠ -1) (hpix : t = 8 → conn.length = 4)
    (h : extrudeCell nPoints points invert (extrudedType t) conn = .ok o) (i : ℕ) :
    ∃ cell, readCell (o.ctype == 42) (o.layer i) = some (cell, []) ∧
      PrismOver invert nPoints i t conn o.ctype cell := by
  have two : ∀ f : List ℕ, shift (i * nPoints) (f ++ f.map (· + nPoints)) =
      shift (i * nPoints) f ++ shift ((i + 1) * nPoints) f := by
    intro f
    rw [map_add_eq]
    simp only [shift, List.map_append, List.map_map]
    congr 1
    apply List.map_congr_left; intro x _; simp only [Function.comp]; ring
  rcases extrudedType_ne ht with rfl | rfl | rfl | rfl
  · rw [show extrudedType 5 = 13 by decide] at h
    simp only [extrudeCell] at h
    rw [if_neg (by decide), if_neg (by decide)] at h
    cases h
    exact ⟨_, readCell_prism _ _ _ _, .inl ⟨.inl ⟨rfl, rfl⟩, by rw [two]⟩⟩
  · rw [show extrudedType 7 = 42 by decide] at h
    simp only [extrudeCell] at h
    rw [if_neg (by decide), if_pos (by decide)] at h
    cases invert with
    | false =>
      simp only [Bool.false_eq_true, if_false] at h
      cases h
      refine ⟨_, readCell_polyhedron _ _ _, .inr (.inr ⟨rfl, rfl, conn, .inl rfl, ?_⟩)⟩
      rw [← prismFaces_layer]
      simp
    | true =>
      simp only [if_true] at h
      cases hr : needsReverse points conn (conn.map (· + nPoints)) with
      | error e => rw [hr] at h; cases h
      | ok rev =>
        rw [hr] at h
        simp only at h
        cases h
        refine ⟨_, readCell_polyhedron _ _ _, .inr (.inr ⟨rfl, rfl,
          if rev then conn.reverse else conn, ?_, ?_⟩)⟩
        · cases rev <;> simp
        · rw [← prismFaces_layer]
          cases rev <;> simp [List.map_reverse]
  · rw [show extrudedType 8 = 11 by decide] at h
    simp only [extrudeCell] at h
    rw [if_pos (by decide)] at h
    obtain ⟨a, b, c, d, rfl⟩ : ∃ a b c d, conn = [a, b, c, d] := by
      have := hpix rfl
      match conn, this with
      | [a, b, c, d], _ => exact ⟨a, b, c, d, rfl⟩
    simp only at h
    cases h
    refine ⟨_, readCell_prism _ _ _ _, .inr (.inl ⟨rfl, rfl, a, b, c, d, rfl, ?_⟩)⟩
    rw [two]
  · rw [show extrudedType 9 = 12 by decide] at h
    simp only [extrudeCell] at h
    rw [if_neg (by decide), if_neg (by decide)] at h
    cases h
    exact ⟨_, readCell_prism _ _ _ _, .inl ⟨.inr ⟨rfl, rfl⟩, by rw [two]⟩⟩

end

end Gridder
