import Verif.Model.Lines
import Mathlib.Data.List.Sort
import Mathlib.Order.Defs.LinearOrder

/-!
# Intersecting a polyline with a mesh

Models `pvgridder/utils/_misc.py` 676-888 (`intersect_polyline`).  The geometric queries on the mesh (VTK's
cell search, `ray_cast`, the tree of face centres) are arbitrary functions, collected in `Queries`.
Simplified: the translation to and from the centre of the mesh is left out.
-/

namespace Gridder

/-- The geometric queries of `intersect_polyline`; `P` are points. -/
structure Queries (P K : Type _) where
  /-- The cell crossed by the segment whose centre is closest to its start (`_misc.py:747-758`), if any. -/
  find : P → P → Option Int
  /-- `ray_cast(cell, pointa, pointb)` (`_misc.py:763-768`): `IntersectionPoints` and faces. -/
  cast : Int → P → P → Option (List (P × Nat))
  /-- The cells on both sides of a face, -1 being the outside (`_misc.py:838-839`). -/
  faceCells : Nat → List Int
  /-- `cell.find_containing_cell(pointb) > -1`. -/
  contains : Int → P → Bool
  /-- `np.allclose(p, q, atol=tolerance)`. -/
  close : P → P → Bool
  /-- `np.linalg.norm(p - q)`. -/
  dist : P → P → K

/-- The variables of the loop (`_misc.py:721-724`); `cell` is `cid`, none as long as `cell is None`. -/
structure March (P : Type _) where
  points : List P
  lineIds : List Nat
  cellIds : List Int
  cell : Option Int
  entered : Bool
  exited : Bool
  count : Nat

section intersect
variable {P K : Type _} [LinearOrder K]

/-- `add_point` (`_misc.py:726-736`). -/
def addPoint (q : Queries P K) (minLength : K) (s : March P) (p : P) (lid : Nat) (cid : Int) : March P :=
  match s.points.getLast? with
  | none => s
  | some last =>
    if q.close last p = false ∧ (s.entered = false ∨ s.exited = true ∨ minLength ≤ q.dist p last) then
      { s with points := s.points ++ [p], lineIds := s.lineIds ++ [lid], cellIds := s.cellIds ++ [cid] }
    else s

/-- The end of the body of the inner loop (`_misc.py:823-861`), `x` being the exit point and face.  The boolean
says whether the loop goes on. -/
def crossExit (q : Queries P K) (minLength : K) (ignoreAfter : Bool) (final : P) (isLast : Bool) (s : March P)
    (lid : Nat) (b : P) (cid : Int) (x : P × Nat) : Py (March P × Bool) :=
  let s := addPoint q minLength s x.1 lid cid
  if q.dist x.1 final < minLength then .ok (s, false)
  else
    let cells := q.faceCells x.2
    if cid ∉ cells then .error .valueError
    else if -1 ∈ cells then
      let s := if ignoreAfter then s else addPoint q minLength s b lid (-1)
      .ok ({ s with exited := true }, false)
    else
      match cells.filter (· ≠ cid) with
      | [] => .error .indexError
      | c :: _ =>
        let s := { s with cell := some c }
        if isLast ∧ q.contains c b then .ok (addPoint q minLength s b lid c, false) else .ok (s, true)

/-- The point of two closest to (`near`) and farthest from `last`: `dist.argmin()`, `dist.argmax()`. -/
def nearFar (q : Queries P K) (last : P) (x y : P × Nat) : (P × Nat) × (P × Nat) :=
  (if q.dist x.1 last ≤ q.dist y.1 last then x else y, if q.dist y.1 last ≤ q.dist x.1 last then x else y)

/-- Body of the inner loop (`_misc.py:761-861`). -/
def marchStep (q : Queries P K) (minLength : K) (ignoreAfter : Bool) (final : P) (isLast : Bool) (s : March P)
    (lid : Nat) (a b : P) (cid : Int) : Py (March P × Bool) :=
  match q.cast cid a b, s.points.getLast? with
  | none, _ => .ok (s, false)
  | some [x], some last =>
    if s.entered = false then
      let s' := addPoint q minLength { s with count := s.points.length, entered := true } x.1 lid (-1)
      if 1 < s'.count then .ok (s', false)
      else crossExit q minLength ignoreAfter final isLast s' lid b cid x
    else if q.close last x.1 then .ok (addPoint q minLength s x.1 lid cid, false)
    else crossExit q minLength ignoreAfter final isLast s lid b cid x
  | some [x, y], some last =>
    let nf := nearFar q last x y
    if s.entered = false then
      let s' := addPoint q minLength { s with count := s.points.length } nf.1.1 lid (-1)
      crossExit q minLength ignoreAfter final isLast { s' with entered := true } lid b cid nf.2
    else crossExit q minLength ignoreAfter final isLast s lid b cid nf.2
  | _, _ => .error .valueError

/-- The inner loop `while True` (`_misc.py:760-861`).  Nothing bounds it in Python: `fuel` bounds the number of
turns here, and `recursionError` stands for a loop that takes more turns. -/
def marchLoop (q : Queries P K) (minLength : K) (ignoreAfter : Bool) (final : P) (isLast : Bool) :
    Nat → March P → Nat → P → P → Py (March P)
  | 0, _, _, _, _ => .error .recursionError
  | fuel + 1, s, lid, a, b =>
    match s.cell with
    | none => .ok s
    | some cid =>
      match marchStep q minLength ignoreAfter final isLast s lid a b cid with
      | .error e => .error e
      | .ok (s, false) => .ok s
      | .ok (s, true) => marchLoop q minLength ignoreAfter final isLast fuel s lid a b

/-- Lines `_misc.py:760-869` for a segment, once a cell is known; `none` stops the loop over the segments. -/
def marchInside (q : Queries P K) (minLength : K) (ignoreAfter : Bool) (final : P) (isLast : Bool) (fuel : Nat)
    (s : March P) (lid : Nat) (a b : P) : Py (March P × Bool) :=
  if s.exited = false then
    match marchLoop q minLength ignoreAfter final isLast fuel s lid a b with
    | .error e => .error e
    | .ok s => .ok (s, true)
  else if ignoreAfter then .ok (s, false)
  else .ok (addPoint q minLength s b lid (-1), true)

/-- Body of the loop over the segments (`_misc.py:741-869`). -/
def marchSegment (q : Queries P K) (minLength : K) (ignoreAfter : Bool) (final : P) (isLast : Bool) (fuel : Nat)
    (s : March P) (lid : Nat) (a b : P) : Py (March P × Bool) :=
  match s.cell with
  | some _ => marchInside q minLength ignoreAfter final isLast fuel s lid a b
  | none =>
    match q.find a b with
    | none => .ok (addPoint q minLength s b lid (-1), true)
    | some c => marchInside q minLength ignoreAfter final isLast fuel { s with cell := some c } lid a b

/-- The loop over the segments from number `lid` on, `a` being the start of the first. -/
def marchLine (q : Queries P K) (minLength : K) (ignoreAfter : Bool) (final : P) (fuel : Nat) :
    March P → Nat → P → List P → Py (March P)
  | s, _, _, [] => .ok s
  | s, lid, a, b :: rest =>
    match marchSegment q minLength ignoreAfter final rest.isEmpty fuel s lid a b with
    | .error e => .error e
    | .ok (s, false) => .ok s
    | .ok (s, true) => marchLine q minLength ignoreAfter final fuel s (lid + 1) b rest

/-- The loop from its initial state (`_misc.py:721-869`); `line` are the points of the polyline. -/
def march (q : Queries P K) (minLength : K) (ignoreAfter : Bool) (fuel : Nat) (line : List P) : Py (March P) :=
  match line with
  | [] => .error .indexError
  | a :: rest =>
    marchLine q minLength ignoreAfter ((a :: rest).getLastD a) fuel ⟨[a], [], [], none, false, false, 0⟩ 0 a rest

/-- The polyline returned. -/
structure Crossing (P D : Type _) where
  points : List P
  /-- `vtkOriginalCellIds` -/
  lineIds : List Nat
  /-- `IntersectedCellIds` -/
  cellIds : List Int
  cellData : Dict String (List D)

/-- The names set before `pass_cell_data` (`_misc.py:876-881`). -/
def crossingNames : List String := ["Length", "vtkOriginalCellIds", "IntersectedCellIds"]

/-- One array of the input line, read at the segment ids (`_misc.py:883-887`). -/
def passArray {D : Type _} (lineIds : List Nat) (kv : String × List D) : Py (String × List D) :=
  match gather kv.2 lineIds with
  | .error e => .error e
  | .ok v => .ok (kv.1, v)

/-- `_misc.py:676-888` `intersect_polyline`; `cellData` is that of the input line (empty without
`pass_cell_data`).  `pyvista.MultipleLines` rejects fewer than two points. -/
def intersectPolyline {D : Type _} (q : Queries P K) (minLength : K) (ignoreBefore ignoreAfter : Bool) (fuel : Nat)
    (line : List P) (cellData : Dict String (List D)) : Py (Crossing P D) :=
  match march q minLength ignoreAfter fuel line with
  | .error e => .error e
  | .ok s =>
    let n := if ignoreBefore then s.count else 0
    if (s.points.drop n).length < 2 then .error .valueError
    else
      match mapPy (passArray (s.lineIds.drop n)) (cellData.filter fun kv => kv.1 ∉ crossingNames) with
      | .error e => .error e
      | .ok data => .ok ⟨s.points.drop n, s.lineIds.drop n, s.cellIds.drop n, data⟩

/-- `.argmin()` of the distances to `a` (`_misc.py:752-755`): the first of the closest. -/
def nearestOf (dist : P → P → K) (centre : Nat → P) (a : P) : List Nat → Option Nat
  | [] => none
  | c :: l =>
    match nearestOf dist centre a l with
    | none => some c
    | some d => if dist (centre d) a < dist (centre c) a then some d else some c

/-- The search for the first cell (`_misc.py:745-757`), an instance of `Queries.find`: `crossed` are the cells found
by VTK on the segment, in any order. -/
def searchCell (dist : P → P → K) (crossed : P → P → List Nat) (centre : Nat → P) (a b : P) : Option Int :=
  (nearestOf dist centre a ((crossed a b).insertionSort (· ≤ ·))).map Int.ofNat

/-- The line used, `split_lines(line.strip(), as_lines=True)[0]` (`_misc.py:712-713`), for a line given as one cell
per segment, from end to end: VTK joins the segments into polylines of at most `maxLength` segments (1000 by default),
and only the first of them is used.  Simplified: the other polylines are left out. -/
def firstStrip (maxLength : Nat) (line : List P) : List P := line.take (maxLength + 1)

/-- `intersect_polyline` (`_misc.py:676-888`) on a line given as one cell per segment. -/
def intersectSegments {D : Type _} (q : Queries P K) (minLength : K) (ignoreBefore ignoreAfter : Bool) (fuel : Nat)
    (line : List P) (cellData : Dict String (List D)) : Py (Crossing P D) :=
  intersectPolyline q minLength ignoreBefore ignoreAfter fuel (firstStrip 1000 line) cellData

end intersect

end Gridder
