import Verif.Model.Basic

/-!
# Cell groups: numbering, assignment, remapping, clean-up, MeshMerge

Models `pvgridder/core/_base.py` 119-235, `pvgridder/utils/_misc.py` 1333-1424,
`pvgridder/utils/_properties.py` 210-237 and `pvgridder/core/merge.py` 47-110.
-/

namespace Gridder

/-- `_base.py:232-235` `_get_group_number`: `groups.setdefault(group, len(groups))`.
Returns the number and the (mutated) dictionary. -/
def getGroupNumber (group : String) (groups : Dict String Int) : Int × Dict String Int :=
  match Dict.get? groups group with
  | some v => (v, groups)
  | none => ((groups.length : Int), groups ++ [(group, (groups.length : Int))])

/-- `k.startswith("~")` / `k[1:]` as used at `_base.py:161,173,188-189`. -/
def parseKey (k : String) : Bool × String :=
  match k.toList with
  | '~' :: r => (true, String.ofList r)
  | _ => (false, k)

/-- What `_initialize_group_array` reads of a mesh (`_base.py:127-142`): the number of cells,
`cell_data["CellGroup"]` and `user_dict["CellGroup"]`, either of which may be missing. -/
structure LMesh where
  nCells : Nat
  cellGroup : Option (List Int)
  table : Option (Dict String Int)
  deriving DecidableEq, Repr

/-- The values accepted in a group dictionary (`_base.py:154-186`).
* `callMask`, `callIdx`: a callable; the constructor holds the numpy array it returns for this mesh.
* `name`, `names`: a string or a sequence of strings (an empty sequence counts as `names []`).
* `mask`, `idx`: a boolean / integer array; `other`: an array of any other dtype. -/
inductive Sel
  | callMask (m : List Bool)
  | callIdx (ix : List Int)
  | name (s : String)
  | names (l : List String)
  | mask (m : List Bool)
  | idx (ix : List Int)
  | other
  deriving DecidableEq, Repr

/-- The `group` argument: `None`, a string, or a dictionary (`_base.py:123,150-152`). -/
inductive GroupArg
  | none
  | str (s : String)
  | dict (d : List (String × Sel))
  deriving DecidableEq, Repr

/-- `_base.py:159-163` (and 171-175): compare the mesh's own `CellGroup` array with the number that
`groups` gives to the name; a missing array or a missing name raises `KeyError`. -/
def nameMask (mesh : LMesh) (groups : Dict String Int) (s : String) : Py (List Bool) :=
  match mesh.cellGroup with
  | Option.none => .error .keyError
  | some data =>
    match Dict.get? groups (parseKey s).2 with
    | Option.none => .error .keyError
    | some c => .ok (data.map fun x => if (parseKey s).1 then x != c else x == c)

/-- `_base.py:170-175`: `mask |= ...` for each name. -/
def namesMask (mesh : LMesh) (groups : Dict String Int) : List String → List Bool → Py (List Bool)
  | [], acc => .ok acc
  | s :: l, acc =>
    match nameMask mesh groups s with
    | .error e => .error e
    | .ok m => namesMask mesh groups l (List.zipWith (· || ·) acc m)

/-- `_base.py:155-186`: the mask selected by one value of the group dictionary. -/
def selMask (mesh : LMesh) (groups : Dict String Int) : Sel → Py NpMask
  | .callMask m => .ok (.bool m)
  | .callIdx ix => .ok (.int ix)
  | .name s =>
    match nameMask mesh groups s with
    | .ok m => .ok (.bool m)
    | .error e => .error e
  | .names l =>
    match namesMask mesh groups l (List.replicate mesh.nCells false) with
    | .ok m => .ok (.bool m)
    | .error e => .error e
  | .mask m => .ok (.bool m)
  | .idx ix =>
    match assignInt (List.replicate mesh.nCells false) ix true with
    | .ok m => .ok (.bool m)
    | .error e => .error e
  | .other => .error .valueError

/-- `_base.py:154-192`: one pass of the loop over the group dictionary. -/
def groupStep (mesh : LMesh) (st : List Int × Dict String Int) (kv : String × Sel) :
    Py (List Int × Dict String Int) :=
  match selMask mesh st.2 kv.2 with
  | .error e => .error e
  | .ok mask =>
    let key := parseKey kv.1
    let mask := if key.1 then mask.invert else mask
    let (num, groups) := getGroupNumber key.2 st.2
    match NpMask.assign st.1 mask num with
    | .error e => .error e
    | .ok arr => .ok (arr, groups)

/-- `_base.py:154-192`: the loop over the group dictionary. -/
def groupLoop (mesh : LMesh) :
    List (String × Sel) → List Int × Dict String Int → Py (List Int × Dict String Int)
  | [], st => .ok st
  | kv :: l, st =>
    match groupStep mesh st kv with
    | .error e => .error e
    | .ok st => groupLoop mesh l st

/-- `_base.py:142-148`: the loop over the base mesh's own table. -/
def tableLoop (ignore : List String) (data : List Int) :
    Dict String Int → List Int × Dict String Int → List Int × Dict String Int
  | [], st => st
  | (k, v) :: l, st =>
    if k ∈ ignore then tableLoop ignore data l st
    else
      let (num, groups) := getGroupNumber k st.2
      tableLoop ignore data l
        (List.zipWith (fun a x => if x = v then num else a) st.1 data, groups)

/-- `_base.py:137-148`: the part of `_initialize_group_array` that copies the mesh's own labels. -/
def copyLabels (ignore : List String) (mesh : LMesh) (st : List Int × Dict String Int) :
    List Int × Dict String Int :=
  match mesh.cellGroup, mesh.table with
  | some data, some table => tableLoop ignore data table st
  | _, _ => st

/-- `_base.py:150-152`: the group argument as a list of dictionary items; an empty string or an
empty dictionary is falsy and skipped. -/
def groupItems (size : Nat) : GroupArg → List (String × Sel)
  | .none => []
  | .str s => if s = "" then [] else [(s, .mask (List.replicate size true))]
  | .dict d => d

/-- `_base.py:194-196`: cells still marked -1 get the default group. -/
def fillDefault (dflt : String) (st : List Int × Dict String Int) : List Int × Dict String Int :=
  if (-1 : Int) ∈ st.1 then
    let (num, groups) := getGroupNumber dflt st.2
    (st.1.map (fun a => if a = -1 then num else a), groups)
  else st

/-- `_base.py:195` `default_group if default_group else self.default_group`. -/
def chooseDefault (selfDefault : String) (arg : Option String) : String :=
  match arg with
  | some s => if s = "" then selfDefault else s
  | Option.none => selfDefault

/-- `_base.py:119-198` `_initialize_group_array` called with a mesh.
`ignore` is `self.ignore_groups`, `selfDefault` is `self.default_group`. -/
def initGroupArray (ignore : List String) (selfDefault : String) (mesh : LMesh)
    (groups : Dict String Int) (group : GroupArg) (defaultGroup : Option String) :
    Py (List Int × Dict String Int) :=
  let st := copyLabels ignore mesh (List.replicate mesh.nCells (-1), groups)
  match groupLoop mesh (groupItems mesh.nCells group) st with
  | .error e => .error e
  | .ok st => .ok (fillDefault (chooseDefault selfDefault defaultGroup) st)

/-- `_base.py:119-198` `_initialize_group_array` called with a size: no labels, and the `group`
argument is ignored because `mesh is None`. -/
def initGroupArraySize (selfDefault : String) (size : Nat) (groups : Dict String Int)
    (defaultGroup : Option String) : List Int × Dict String Int :=
  fillDefault (chooseDefault selfDefault defaultGroup) (List.replicate size (-1), groups)

/-! ## remap_categorical_data -/

/-- A key of the mapping: a label or an integer (`_misc.py:1336`). -/
inductive MapKey
  | str (s : String)
  | int (i : Int)
  deriving DecidableEq, Repr

/-- Local variables of the loop of `remap_categorical_data` (`_misc.py:1383-1385`):
`remapped_data`, `data_labels`, `unused_labels`. -/
structure RemapSt where
  remapped : List Int
  labels : Dict String Int
  unused : List String
  deriving DecidableEq, Repr

/-- `_misc.py:1388-1396`: the integer a mapping key stands for. -/
def remapVid (labels : Dict String Int) : MapKey → Py Int
  | .str s =>
    match Dict.get? labels s with
    | some v => .ok v
    | Option.none => .error .valueError
  | .int i => .ok i

/-- `_misc.py:1404` `key_ = k if isinstance(k, str) else data_labels_map[vid]` (`none`: `KeyError`,
which the code swallows). -/
def remapKey (labelsMap : Dict Int String) (k : MapKey) (vid : Int) : Option String :=
  match k with
  | .str s => some s
  | .int _ => Dict.get? labelsMap vid

/-- `_misc.py:1388-1409`: one pass of the loop.  `labelsMap` is `data_labels_map`. -/
def remapStep (data : List Int) (labelsMap : Dict Int String) (st : RemapSt) (kv : MapKey × Int) :
    Py RemapSt :=
  match remapVid st.labels kv.1 with
  | .error e => .error e
  | .ok vid =>
    if vid ∈ data then
      let remapped := List.zipWith (fun r x => if x = vid then kv.2 else r) st.remapped data
      match remapKey labelsMap kv.1 vid with
      | some key => .ok ⟨remapped, Dict.set st.labels key kv.2, st.unused.filter (· ≠ key)⟩
      | Option.none => .ok ⟨remapped, st.labels, st.unused⟩
    else .ok st

/-- `_misc.py:1387-1409`: the loop. -/
def remapLoop (data : List Int) (labelsMap : Dict Int String) :
    List (MapKey × Int) → RemapSt → Py RemapSt
  | [], st => .ok st
  | kv :: l, st =>
    match remapStep data labelsMap st kv with
    | .error e => .error e
    | .ok st => remapLoop data labelsMap l st

/-- Insertion into a list sorted by value, after equal values (Python's sort is stable). -/
def insertByValue (kv : String × Int) : Dict String Int → Dict String Int
  | [] => [kv]
  | a :: l => if kv.2 < a.2 then kv :: a :: l else a :: insertByValue kv l

/-- `dict(sorted(d.items(), key=lambda x: x[1]))` (`_misc.py:1421`). -/
def sortByValue (d : Dict String Int) : Dict String Int :=
  d.foldl (fun acc kv => insertByValue kv acc) []

/-- A data array with the metadata `remap_categorical_data` looks at: whether its dtype is a signed
integer (`_misc.py:1371`), its values, and `user_dict[key]` if present. -/
structure CatData where
  isInt : Bool
  data : List Int
  labels : Option (Dict String Int)
  deriving DecidableEq, Repr

/-- `_misc.py:1362-1424` `remap_categorical_data` on the array selected by `key` and `preference`
(1362-1369 only pick the array).  Returns the new array and the new `user_dict[key]`. -/
def remapCategorical (m : CatData) (mapping : List (MapKey × Int)) : Py CatData :=
  if m.isInt = false then .error .valueError
  else
    let labels := m.labels.getD []
    match remapLoop m.data (Dict.invert labels) mapping ⟨m.data, labels, Dict.keys labels⟩ with
    | .error e => .error e
    | .ok st =>
      if st.labels = [] then .ok { m with data := st.remapped }
      else .ok { m with
        data := st.remapped
        labels := some (sortByValue (st.unused.foldl Dict.pop st.labels)) }

/-! ## get_cell_group -/

/-- `[groups[i] for i in cell_groups]` (`_properties.py:230-232`). -/
def readLabels (inv : Dict Int String) : List Int → Py (List String)
  | [] => .ok []
  | c :: l =>
    match Dict.get inv c with
    | .error e => .error e
    | .ok s =>
      match readLabels inv l with
      | .error e => .error e
      | .ok r => .ok (s :: r)

/-- `_properties.py:226-234` `get_cell_group` for a mesh with both the array and the table. -/
def getCellGroup (data : List Int) (table : Dict String Int) : Py (List String) :=
  readLabels (Dict.invert table) data

/-! ## _clean -/

/-- `_base.py:213-228`: the group part of `_clean`: names no cell uses are dropped and the others
renumbered through `remap_categorical_data`.  `CellGroup` arrays built by the library are integer
arrays. -/
def cleanGroups (data : List Int) (table : Dict String Int) :
    Py (List Int × Dict String Int) :=
  if table.all (fun kv => kv.2 ∈ data) then .ok (data, table)
  else
    let keys := Dict.keys (table.filter (fun kv => kv.2 ∈ data))
    let mapping := keys.zipIdx.map fun kv => (MapKey.str kv.1, (kv.2 : Int))
    match remapCategorical ⟨true, data, some table⟩ mapping with
    | .error e => .error e
    | .ok m => .ok (m.data, m.labels.getD [])

/-! ## MeshMerge -/

/-- An item of `MeshMerge` (`merge.py:63-71`): the cells of the mesh (`γ` stands for whatever
identifies a cell: its nodes, type, other data), its labels, and the `group` argument. -/
structure MergeItem (γ : Type _) where
  cells : List γ
  cellGroup : Option (List Int)
  table : Option (Dict String Int)
  group : Option String

/-- What `_initialize_group_array` sees of an item. -/
def MergeItem.lmesh {γ : Type _} (it : MergeItem γ) : LMesh :=
  ⟨it.cells.length, it.cellGroup, it.table⟩

/-- `merge.py:93-104`: the loop over items.  Each item's mesh gets the new `CellGroup` array written
into it (`mesh_b.cell_data["CellGroup"] = ...` writes into `item.mesh`); its `user_dict` is not
touched.  `append` stands for `pv.merge((mesh, mesh_b))` on cells carrying their group number.
Returns the merged cells, the group dictionary and the items as left behind. -/
def mergeLoop {γ : Type _} (append : List (γ × Int) → List (γ × Int) → List (γ × Int))
    (ignore : List String) (selfDefault : String) :
    List (MergeItem γ) → Option (List (γ × Int)) → Dict String Int →
      Py (Option (List (γ × Int)) × Dict String Int × List (MergeItem γ))
  | [], acc, groups => .ok (acc, groups, [])
  | it :: rest, acc, groups =>
    match initGroupArray ignore selfDefault it.lmesh groups .none it.group with
    | .error e => .error e
    | .ok (arr, groups) =>
      let meshB := it.cells.zip arr
      let acc := match acc with
        | some m => append m meshB
        | Option.none => meshB
      match mergeLoop append ignore selfDefault rest (some acc) groups with
      | .error e => .error e
      | .ok (m, groups, its) => .ok (m, groups, { it with cellGroup := some arr } :: its)

/-- `merge.py:74-110` `MeshMerge.generate_mesh`.  `clean` stands for `UnstructuredGrid.clean`, which
merges points.  Returns the cells with their final number, the final table, and the items as left
behind for a later call. -/
def mergeGenerate {γ : Type _} (append : List (γ × Int) → List (γ × Int) → List (γ × Int))
    (ignore : List String) (selfDefault : String) (items : List (MergeItem γ)) :
    Py ((List (γ × Int) × Dict String Int) × List (MergeItem γ)) :=
  if items = [] then .error .valueError
  else
    match mergeLoop append ignore selfDefault items Option.none [] with
    | .error e => .error e
    | .ok (m, groups, items') =>
      let cells := m.getD []
      match cleanGroups (cells.map Prod.snd) groups with
      | .error e => .error e
      | .ok (data, table) => .ok ((cells.map Prod.fst |>.zip data, table), items')

end Gridder
