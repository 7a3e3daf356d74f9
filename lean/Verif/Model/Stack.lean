import Verif.Model.Structured

/-!
# Stacks

Models `pvgridder/core/_base.py` 256-565 (`MeshStackBase`: `__init__`, `add`, the cut pass of
`_generate_mesh`, `_interpolate`) and `pvgridder/core/stack.py` 106-131 (`set_transition`).
-/

namespace Gridder

/-- A base mesh or the mesh of an item: its points, and everything else (`topo`: cells, data), which
the stack never changes. -/
structure Surf (K τ : Type _) where
  points : List (V3 K)
  topo : τ

/-- `_base.py:19-52` `MeshItem` of a stack.  `opts` stands for resolution, method and group (`none`
for the first item, which has none). -/
structure Item (K τ ω : Type _) where
  mesh : Surf K τ
  priority : Int
  thickness : K
  transition : Bool
  opts : Option ω

/-- `_base.py:278-306` state of a `MeshStackBase`. -/
structure Stack (K τ ω : Type _) where
  mesh : Surf K τ
  axis : Fin 3
  bottomUp : Bool
  flag : Bool
  items : List (Item K τ ω)

/-- The kinds of first argument of `add` (`_base.py:382-411`).  A callable gets the points and
returns one number or an array; a 2D array has `ncols` columns (its rows are only used when there
are three). -/
inductive AddArg (K : Type _)
  | dataset (pts : List (V3 K))
  | callable (f : List (V3 K) → Py (K ⊕ List K))
  | scalar (x : K)
  | array2 (ncols : Nat) (rows : List (V3 K))
  | arrayN (ndim : Nat)

/-- scipy's interpolators (`_base.py:531`, 542), evaluated point by point; `none` is nan.  Building
the linear one may fail (degenerate data). -/
structure InterpOracle (K : Type _) where
  linear : List (Fin 3) → List (V3 K) → Py (V3 K → Option K)
  nearest : List (Fin 3) → List (V3 K) → V3 K → K

section
variable {K τ ω : Type _} [Field K] [LinearOrder K]

/-- `mesh.points[:, axis] = vals`. -/
def setCoord (axis : Fin 3) (pts : List (V3 K)) (vals : List K) : List (V3 K) :=
  List.zipWith (fun p v => Function.update p axis v) pts vals

/-- Assignment of an array to the column: lengths must agree, or the array has one element (numpy
broadcasting). -/
def assignCoord (axis : Fin 3) (pts : List (V3 K)) (vals : List K) : Py (List (V3 K)) :=
  if vals.length = pts.length then .ok (setCoord axis pts vals)
  else match vals with
    | [v] => .ok (setCoord axis pts (List.replicate pts.length v))
    | _ => .error .valueError

/-- `np.unique(points[:, i]).size > 1` (`_base.py:527`). -/
def varies (data : List (V3 K)) (i : Fin 3) : Bool :=
  match data with
  | [] => false
  | p :: ps => ps.any fun q => decide (q i ≠ p i)

/-- `np.interp` between the current sample `(x0, f0)` and the ones after it. -/
def interpFrom (x0 f0 : K) : List (K × K) → K → K
  | [], _ => f0
  | (x1, f1) :: rest, x =>
    if x < x1 then (f1 - f0) / (x1 - x0) * (x - x0) + f0 else interpFrom x1 f1 rest x

/-- `np.interp(x, xp, fp)` at one point (`_base.py:561`).  numpy does not check that `xp` is increasing
and then returns nonsense; here such data is scanned from the left. -/
def npInterp : List (K × K) → K → K
  | [], _ => 0
  | (x0, f0) :: rest, x => if x < x0 then f0 else interpFrom x0 f0 rest x

/-- Python truth value of `extrapolation`. -/
def truthy : Option String → Bool
  | none => false
  | some s => s != ""

/-- `_base.py:518-565` `_interpolate`: new coordinates of the base mesh along `axis`. -/
def interpolate (o : InterpOracle K) (axis : Fin 3) (base data : List (V3 K))
    (extrapolation : Option String) : Py (List K) :=
  let idx := (List.finRange 3).filter fun i => i ≠ axis ∧ varies data i
  if idx.length > 1 then
    match o.linear idx data with
    | .error e => .error e
    | .ok f =>
      let tmp := base.map f
      if tmp.any Option.isNone then
        if ¬ truthy extrapolation then .error .valueError
        else if extrapolation = some "nearest" then
          .ok (base.map fun p => (f p).getD (o.nearest idx data p))
        else .error .valueError
      else .ok (base.map fun p => (f p).getD 0)
  else
    match idx with
    | [] => .error .indexError
    | i :: _ =>
      match base.head?, base.getLast?, data.head?, data.getLast? with
      | some b0, some b1, some p0, some p1 =>
        if ¬ ((p0 i ≤ b0 i ∧ b0 i ≤ p1 i) ∧ (p0 i ≤ b1 i ∧ b1 i ≤ p1 i)) ∧ ¬ truthy extrapolation then
          .error .valueError
        else .ok (base.map fun p => npInterp (data.map fun q => (q i, q axis)) (p i))
      | _, _, _, _ => .error .indexError

/-- `_base.py:382-411`: the mesh of the new item. -/
def newMesh (o : InterpOracle K) (s : Stack K τ ω) (arg : AddArg K) (extrapolation : Option String) :
    Py (Surf K τ) :=
  let fromData := fun data =>
    match interpolate o s.axis s.mesh.points data extrapolation with
    | .error e => .error e
    | .ok vals => .ok { s.mesh with points := setCoord s.axis s.mesh.points vals }
  match arg with
  | .dataset pts => fromData pts
  | .callable f =>
    match f s.mesh.points with
    | .error e => .error e
    | .ok (.inl v) =>
      .ok { s.mesh with
        points := setCoord s.axis s.mesh.points (List.replicate s.mesh.points.length v) }
    | .ok (.inr vals) =>
      match assignCoord s.axis s.mesh.points vals with
      | .error e => .error e
      | .ok pts => .ok { s.mesh with points := pts }
  | .scalar x =>
    match s.items.getLast? with
    | none => .ok { s.mesh with points := s.mesh.points.map fun p => Function.update p s.axis x }
    | some it =>
      let x := |x| * (if s.bottomUp then 1 else -1)
      .ok { it.mesh with points := it.mesh.points.map fun p => Function.update p s.axis (p s.axis + x) }
  | .array2 ncols rows => if ncols ≠ 3 then .error .valueError else fromData rows
  | .arrayN _ => .error .valueError

/-- `_base.py:308-429` `add`. -/
def Stack.add (o : InterpOracle K) (s : Stack K τ ω) (arg : AddArg K) (extrapolation : Option String)
    (opts : ω) (priority : Int) (thickness : K) : Py (Stack K τ ω) :=
  match newMesh o s arg extrapolation with
  | .error e => .error e
  | .ok mesh =>
    let item : Item K τ ω :=
      if s.items.isEmpty then ⟨mesh, priority, 0, false, none⟩
      else ⟨mesh, priority, thickness, s.flag, some opts⟩
    .ok { s with items := s.items ++ [item], flag := false }

/-- `stack.py:106-131` `set_transition`, given the first polyline of the new base mesh. -/
def Stack.setTransition (s : Stack K τ ω) (mesh : Surf K τ) : Stack K τ ω :=
  { s with mesh := mesh, flag := true }

/-- A call on a stack. -/
inductive Call (K τ ω : Type _)
  | add (arg : AddArg K) (extrapolation : Option String) (opts : ω) (priority : Int) (thickness : K)
  | setTransition (mesh : Surf K τ)

/-- One call. -/
def Stack.call (o : InterpOracle K) (s : Stack K τ ω) : Call K τ ω → Py (Stack K τ ω)
  | .add arg ex opts p t => s.add o arg ex opts p t
  | .setTransition m => .ok (s.setTransition m)

/-- A sequence of calls, stopping at the first exception. -/
def Stack.run (o : InterpOracle K) : Stack K τ ω → List (Call K τ ω) → Py (Stack K τ ω)
  | s, [] => .ok s
  | s, c :: cs =>
    match s.call o c with
    | .error e => .error e
    | .ok s => s.run o cs

/-- `_base.py:278-306` `__init__`, after the checks. -/
def Stack.new (mesh : Surf K τ) (axis : Fin 3) (bottomUp : Bool) : Stack K τ ω :=
  ⟨mesh, axis, bottomUp, false, []⟩

/-- `_base.py:452-459`: the shift at one node. -/
def shiftAt (bottomUp : Bool) (z1 z2 thickness : K) : K :=
  let shift := z2 - z1 - thickness
  if bottomUp then shift else shift * -1

/-- `_base.py:461-473`: two consecutive items after the cut.  Meshes with different numbers of points
cannot be compared (`ValueError`; simplified: numpy would broadcast a mesh of one point). -/
def cutPair (axis : Fin 3) (bottomUp : Bool) (a b : Item K τ ω) :
    Py (Item K τ ω × Item K τ ω) :=
  if a.mesh.points.length ≠ b.mesh.points.length then .error .valueError
  else
    let shift := List.zipWith (fun p q => shiftAt bottomUp (p axis) (q axis) b.thickness)
      a.mesh.points b.mesh.points
    if b.priority < a.priority then
      .ok (a, { b with mesh := { b.mesh with points := List.zipWith (fun q s =>
        Function.update q axis (if s < 0 then q axis - s else q axis)) b.mesh.points shift } })
    else
      .ok ({ a with mesh := { a.mesh with points := List.zipWith (fun p s =>
        Function.update p axis (if s < 0 then p axis + s else p axis)) a.mesh.points shift } }, b)

/-- `_base.py:447-473`: the cut pass. -/
def cutFrom (axis : Fin 3) (bottomUp : Bool) :
    Item K τ ω → List (Item K τ ω) → Py (List (Item K τ ω))
  | a, [] => .ok [a]
  | a, b :: rest =>
    if b.transition then
      match cutFrom axis bottomUp b rest with
      | .error e => .error e
      | .ok out => .ok (a :: out)
    else
      match cutPair axis bottomUp a b with
      | .error e => .error e
      | .ok (a, b) =>
        match cutFrom axis bottomUp b rest with
        | .error e => .error e
        | .ok out => .ok (a :: out)

/-- `_base.py:434-511` `_generate_mesh`: `build` stands for the generation of the submeshes and their
merging, a function of the items after the cut pass.  Returns the mesh and the stack afterwards (the
points of the items are modified in place).  Simplified: the state after an exception in the cut pass
is not modelled. -/
def Stack.generate {M : Type _} (build : List (Item K τ ω) → Py M) (s : Stack K τ ω) :
    Py (M × Stack K τ ω) :=
  match s.items with
  | a :: b :: rest =>
    match cutFrom s.axis s.bottomUp a (b :: rest) with
    | .error e => .error e
    | .ok items =>
      match build items with
      | .error e => .error e
      | .ok mesh => .ok (mesh, { s with items := items })
  | _ => .error .valueError

end

end Gridder
