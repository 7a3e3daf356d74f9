import Verif.Model.Lines
import Verif.Model.Extrude

/-!
# Decimating and reconstructing lines

Models `pvgridder/utils/_misc.py` 99-152 (`decimate_rdp`) and 1255-1325 (`reconstruct_line`).
-/

namespace Gridder

section decimate
variable {K : Type _} [Field K] [LinearOrder K]

/-- `np.cross(u, v)`. -/
def cross (u v : V3 K) : V3 K :=
  ![u 1 * v 2 - u 2 * v 1, u 2 * v 0 - u 0 * v 2, u 0 * v 1 - u 1 * v 0]

/-- Distance of `p` to the chord from `a` to `b` (`_misc.py:121-127`); `nrm` is `np.linalg.norm`. -/
def chordDist (nrm : V3 K → K) (a b p : V3 K) : K :=
  let u := b - a
  if 0 < nrm u then nrm (cross u (a - p)) / nrm u else nrm (p - a)

/-- `dist.argmax()`: the first index of the largest value, and that value. -/
def argmax : List K → Option (Nat × K)
  | [] => none
  | x :: xs =>
    match argmax xs with
    | none => some (0, x)
    | some (i, y) => if x < y then some (i + 1, y) else some (0, x)

/-- `decimate` (`_misc.py:117-138`).  `depth` is the recursion depth left to the interpreter; `points[0]`
of an empty array raises. -/
def decimate (nrm : V3 K → K) (tol : K) : Nat → List (V3 K) → Py (List (V3 K))
  | 0, _ => .error .recursionError
  | depth + 1, points =>
    match points.head?, points.getLast? with
    | some a, some b =>
      match argmax (points.map (chordDist nrm a b)) with
      | none => .error .valueError
      | some (imax, d) =>
        if tol < d then
          match decimate nrm tol depth (points.take (imax + 1)) with
          | .error e => .error e
          | .ok res1 =>
            match decimate nrm tol depth (points.drop imax) with
            | .error e => .error e
            | .ok res2 => .ok (res1.dropLast ++ res2)
        else .ok [a, b]
    | _, _ => .error .indexError

/-- Loop of `decimate_rdp` (`_misc.py:143-150`): lines (by point numbers) and points.  Cell types: 3 is
`LINE`, 4 `POLY_LINE`; all others are skipped.  `n` is the number of points so far. -/
def rdpLoop (nrm : V3 K → K) (tol : K) (depth : Nat) (points : List (V3 K)) :
    Nat → List (Nat × List Nat) → Py (List (List Nat) × List (V3 K))
  | _, [] => .ok ([], [])
  | n, (t, ids) :: cells =>
    if t = 3 ∨ t = 4 then
      match gather points ids with
      | .error e => .error e
      | .ok pts =>
        match (if t = 4 then decimate nrm tol depth pts else .ok pts) with
        | .error e => .error e
        | .ok pts =>
          match rdpLoop nrm tol depth points (n + pts.length) cells with
          | .error e => .error e
          | .ok (lines, more) => .ok ((List.range pts.length).map (· + n) :: lines, pts ++ more)
    else rdpLoop nrm tol depth points n cells

/-- `_misc.py:99-152` `decimate_rdp`, before the final `clean()`, which renumbers coincident points. -/
def decimateRdp (nrm : V3 K → K) (tol : K) (depth : Nat) (points : List (V3 K))
    (cells : List (Nat × List Nat)) : Py (List (List Nat) × List (V3 K)) :=
  rdpLoop nrm tol depth points 0 cells

end decimate

section reconstruct
variable {K : Type _} [Field K] [LinearOrder K]

/-- `path_length` (`_misc.py:1292-1296`); `d i j` is the distance of points `i` and `j`. -/
def pathLength (d : Nat → Nat → K) (close : Bool) (path : List Nat) : K :=
  let path := if close then path ++ path.take 1 else path
  (List.zipWith d path path.tail).sum

/-- `path[first:last] = np.flip(path[first:last])`. -/
def flipSlice (first last : Nat) (path : List Nat) : List Nat :=
  path.take first ++ ((path.take last).drop first).reverse ++ path.drop (max first last)

/-- Variables of the loop: `path`, `shortest_path`, `shortest_length`. -/
structure TwoOpt (K : Type _) where
  path : List Nat
  best : List Nat
  length : K

/-- Body of the double loop (`_misc.py:1308-1319`). -/
def twoOptStep (d : Nat → Nat → K) (close : Bool) (s : TwoOpt K) (fl : Nat × Nat) : TwoOpt K :=
  let path := flipSlice fl.1 fl.2 s.path
  let length := pathLength d close path
  if length < s.length then ⟨path, path, length⟩
  else ⟨flipSlice fl.1 fl.2 path, s.best, s.length⟩

/-- The pairs `(first, last)` of the double loop. -/
def flips (n : Nat) : List (Nat × Nat) :=
  (List.range' 1 (n - 3)).flatMap fun first =>
    (List.range' (first + 2) (n + 1 - (first + 2))).map fun last => (first, last)

/-- One pass of the `while` loop. -/
def twoOptPass (d : Nat → Nat → K) (close : Bool) (n : Nat) (s : TwoOpt K) : TwoOpt K :=
  (flips n).foldl (twoOptStep d close) s

/-- The `while` loop, `fuel` times at most (`none`: still running). -/
def twoOptLoop (d : Nat → Nat → K) (close : Bool) (n : Nat) (tol : K) : Nat → TwoOpt K → Option (TwoOpt K)
  | 0, _ => none
  | fuel + 1, s =>
    let s' := twoOptPass d close n s
    if (1 - tol) * s.length < s'.length then some s' else twoOptLoop d close n tol fuel s'

/-- `np.roll(np.arange(n), -start)`. -/
def startPath (n : Nat) (start : Int) : List Nat :=
  (List.range n).map fun (i : Nat) => ((i + start) % n).toNat

/-- `_misc.py:1255-1325` `reconstruct_line`: the order in which the points are visited (`none` while the
loop has not stopped after `fuel` passes). -/
def reconstructPath (d : Nat → Nat → K) (close : Bool) (n : Nat) (start : Int) (tol : K) (fuel : Nat) :
    Option (List Nat) :=
  let path := startPath n start
  (twoOptLoop d close n tol fuel ⟨path, path, pathLength d close path⟩).map (·.best)

end reconstruct

end Gridder
