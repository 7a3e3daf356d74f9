# Formal model of pyvista-gridder in Lean 4: design

## What is in this directory

* `properties.jsonl`: the properties, one per line (C01, C02, ...).
* `lean/Verif/Model/*.lean`: the model. Each definition cites the file and lines of /repo it models.
* `lean/Verif/Spec/*.lean`: small specifications that do not use the model (labels, index
  arithmetic, closed oriented surfaces, ...).
* `lean/Verif/Lemmas/*.lean`: helper lemmas.
* `lean/Verif/Props/*.lean`: the property theorems, named `Cxx_...`, each with concrete `example`s
  next to it that meet its hypotheses (or evaluate the model on a concrete input).
* `MANIFEST.json`: property -> theorem names and status.
* `seeded/LOG.jsonl`: the seeded-bug experiments.

## Modelling choices

* Shallow model: every Python function is a total Lean function over lists, naturals, integers and
  structures. An exception is a value of `Except Err`. Python mutation is a returned state.
* Python dictionaries are insertion-ordered association lists (`Dict`); `d[k]=v` replaces in place
  or appends, as CPython does.
* numpy arrays are lists (rows); 3D structured arrays are a shape plus an index function, with
  `ravel("F")` and `reshape(order="F")` written out.
* Floating point numbers are modelled by an arbitrary linearly ordered field `K` when the code only
  uses + - * / and comparisons, and by the reals when it uses sqrt, log10 or trigonometric
  functions. Rounding is not modelled. `np.allclose` keeps its tolerances (rtol 1e-5, atol 1e-8).
* What VTK, pyvista, scipy, shapely, gmsh and matplotlib compute is not modelled. Where the code
  branches on or stores such an answer, it is a parameter (an oracle) over which the theorem
  quantifies, with any assumption on it written as a hypothesis of the theorem.
* When a property turns out to be false of the code, a theorem with `_refuted` in its name gives a
  concrete witness in the model, and a theorem with suffix `_partial` proves the property on the
  largest natural class of inputs found. The manifest then says "partial".

## Plan per property

| id | what is modelled | how it is proved |
|----|------------------|------------------|
| C01 | `_get_group_number` on an insertion-ordered dict | invariant by induction over request lists |
| C02 | `_initialize_group_array`, all branches | induction over base table, then over group entries |
| C03 | same | per-cell characterisation of the fold ("last match wins") against a label-level spec |
| C04 | same, string selections | refuted by a base mesh with a non-canonical numbering; partial: tables numbered 0..n-1 with nothing ignored |
| C05 | same, `~` keys | refuted by a callable returning indices; partial: every other kind of selection |
| C06 | `remap_categorical_data` | per-entry characterisation by induction over the mapping; partial if int and str keys are mixed |
| C07 | remap + `get_cell_group` | refuted by a partial mapping; partial: mapping covering the labels in use |
| C08 | `_clean` + remap + `get_cell_group` | from C06/C07 characterisations and table invariants |
| C09 | `MeshMerge.generate_mesh`, pv.merge as any permutation of the concatenation | induction over items with C03 |
| C10 | same, with the state written back | refuted by two items with clashing tables; partial: unlabelled items |
| C11-C13 | `resolution_to_perc` over the reals | linspace and log algebra, sortedness |
| C14 | `generate_line_from_two_points` | from C11/C13 |
| C15, C16 | `generate_surface_from_two_lines` | Fortran-order index lemmas; C16 refuted for transposed planes |
| C17 | structured branch of `generate_volume_from_two_surfaces`, `repeat_structured_data` | index lemmas |
| C18 | structured branch of `merge` | index lemmas, induction over the list of grids |
| C19 | id bookkeeping in `_generate_mesh` | index lemmas; refuted for structured axes 0 and 1 |
| C20 | unstructured branch of `generate_volume_from_two_surfaces` incl. the flat cell array | decode-of-encode by induction over layers and cells |
| C21 | polyhedron face construction | list induction, counting directed edges |
| C22 | winding correction | polynomial identity over an ordered field; exact condition, refuted for all polygons outside it |
| C23 | hidden flags | refuted by magnitudes; partial: coincident cells are flagged, flagged ones are close |
| C24 | aliasing of `faces[0]` with the input connectivity | refuted by a polygon; partial: no polygon / already well wound |
| C25 | cell type tables | kernel evaluation over the whole table |
| C26 | `MeshStackBase.add` as a state machine | induction over calls |
| C27-C30 | cut pass of `_generate_mesh` | refuted by three crossing surfaces; partial under a priority condition, by induction over items; closed form of the heights and exact conditions for all priorities (`C27_heights`, `C27_order_iff`), for default ones (`C27_default_iff`, `C30_default_iff`) and for top-down stacks (`C28_never_repairs`) |
| C31 | `set_transition` + `add` | refuted by a scalar after a transition; partial: datasets, arrays, callables |
| C32 | `MeshExtrude.add` | induction over calls |
| C33 | `_celltype_to_faces` | kernel evaluation of the table, lifted to any injective numbering |
| C34-C37 | face de-duplication, `get_neighborhood`, `get_connectivity` | induction over cells and faces; whatever is returned is right when no face of positive size has more than two cells, with the exact condition for returning; refuted otherwise |
| C38 | flattened connectivity | decode-encode |
| C39, C40 | `split_lines`, `merge_lines` | list induction with offsets |
| C41 | `decimate_rdp` recursion with fuel = length | strong induction |
| C42, C43 | 2-opt loop of `reconstruct_line` | permutation invariant; well-founded length argument; refuted for tolerance 0 or zero length |
| C44-C46 | `average_points` | union-find invariant: partition = reflexive-transitive closure |
| C47-C49 | `offset_polygon` | field algebra; exact condition for the direction; every polygon fails at some place, by solving for a translation |
| C50 | orientation test of `VoronoiMesh2D` | exact condition; every cell fails at some place, by solving for a translation |
| C51 | hole grouping | permutation invariant; containment refuted by nested islands |
| C52 | `quadraticize` | list induction |
| C53 | `extract_cells_by_dimension` | table + filter; refuted for empty cells |
| C54, C55 | ghost array handling with an exception at any step | case analysis over the oracle's outcome; C55 refuted |
| C56, C73 | GUI callbacks as state machines | induction over events; C73 refuted for views other than xy |
| C57, C58 | marching loop of `intersect_polyline` with oracles | loop invariant; C58 refuted |
| C59-C61 | priority/activity logic of `VoronoiMesh2D.generate_mesh` | induction over items; C61 refuted |
| C62 | `_check_point_array` | case analysis |
| C63-C66 | geometric objects | real trigonometry and list induction |
| C67 | `_interpolate`, 1D branch | piecewise-linear interpolation lemmas |
| C68, C69 | `Polygon` | case analysis over inputs / failure points |
| C70 | `ray_cast` | field algebra |
| C71 | `fuse_cells` | list induction |
| C72 | `add_polyline` | index arithmetic |
| C74, C75 | `get_cell_centers`: method choice and the tetra formula | string comparison of versions (refuted); affine invariance and permutation invariance by field algebra |
| C76 | `decimate_rdp` over the cells of a mesh | refuted by a polygon; partial: the lines |
| C77-C79 | `intersect_polyline` labels, last point, data | loop invariant; refuted by lines that start or end inside a cell (`C77_from_inside_refuted`: for every line that starts in a cell and goes on through the mesh) |
| C80 | closing of infinite Voronoi regions | algebra of the outward normal for any Qhull output |
| C81, C89, C90 | `add_circle` | bisector algebra; refuted for wide constraints, axes 0 and 1, and centres off the plane |
| C82, C87, C88, C93 | `Polygon` as a program in a call-recording monad over an arbitrary Gmsh | induction over the calls; C87, C88 refuted |
| C83-C86 | remaining geometric objects | translation lemmas, trigonometry; C83-C85 refuted |
| C91, C92, C72 | geometry of `add_polyline` for one line | station lemmas by list induction; C91, C92 refuted |
| C94 | special shapes against the general ones | unfolding; equalities of programs |
| C95 | `MeshStack2D.__init__` | case analysis on the axis; refuted for axes 0 and 1 |
| C96-C98 | `_generate_mesh` of stacks and extrusions on structured meshes: sub-meshes, ids, groups, merge, ghost arrays, clean-up | induction over the items with the invariant that the merged grid is a stack of slabs, each cell at the exact label the code gives it; the layer and column labels are right iff the slab is listed layer by layer (`C96_labels_iff`, `C97_labels_iff`, `C98_labels_iff`); 2D stacks take labels and ghost flags by position (`C96_stack2d_by_position`), which is refuted to be right for axis 0 |
| C97, C98, C103 | the same on unstructured surfaces: reading the flat cell array, `pv.merge` as appending in any order, `clean` as an oracle that unites coincident points | induction over the items, then over the appended blocks: a bijection between (layer, base cell) and cells, and between (level, base node) and points |
| C100 | constructors on structured grids | case analysis on the dimensions |
| C101 | `add_plane`, scipy's rotation as Rodrigues' formula | the height is affine with the sine as slope; refuted for every tilted node |
| C102 | `add_plane`, angles as list or array | case analysis; refuted for arrays |
| C103 | generated meshes, cell sizes as an oracle of the corners | flag carried through slabs, merge and clean; refuted for stacks with a transition, where the merged parts have no common ghost array |
| C104 | any sequence of `add` and `set_transition` calls, structured parts read as unstructured ones, triangulation and `clean` as oracles | invariant of the calls (sizes of consecutive plain items), induction over the items, then the bijection of C97; masks and the x axis refuted |
| C105 | `VoronoiMesh2D.generate_mesh` from the background mesh and the items to the returned mesh; Qhull, close pairs, shapely and VTK as one structure of oracles | induction over the items (points and names go together), C80, C44-C46, C60, C71 and C08 composed |
| C106-C107 | the same; shapely's intersection is a list of rings | the flattened list of rings; refuted for several rings and several outlines |
| C108 | `extract_boundary_polygons(with_holes=True)`, areas as shapely computes them | telescoping sum: zero area in every vertical plane, so refuted there; C51 elsewhere |
| C109 | default of `infinity` | C80; refuted over any ordered field with a norm |
| C110 | `VoronoiMesh2D.__init__` and `add` on the classes of datasets; `find_containing_cell` and cell centres are oracles | projected meshes are equal; refuted for image data and rectilinear grids by any search that respects the range of the mesh |
| C111 | sharing of memory between the caller's array and the item | case analysis; refuted for every array of floats with three components |
| C112 | loop of `add_polyline`, with the variable `padding` | induction over the polylines |
| C113 | data of `generate_surface_from_two_lines` for any order of the points | reduction to C16; refuted for reordered, unused and closed lines |
| C114 | `StructuredSurface` without lines | C15; refuted for the planes across x and y |
| C115 | marching loop of `intersect_polyline`; the search for the first cell (`searchCell`) | run of both loops for any number of segments and cells, by induction; refuted by two triangles, with exact queries of plane meshes |
| C116 | the same | invariant of the labels, for any answers of the queries: false for every line that comes back |
| C117 | the same | corollary of C115: vertices outside are kept, vertices inside never |
| C118 | `strip` as: the first 1000 segments (its documented `max_length`) | prefix of the line; refuted for all longer lines |
| C119 | `Volume` on both kinds of surfaces; numpy broadcasting of the cell types | case analysis; refuted for cells that join other nodes (the result depends on the second surface through its points and types only) and for one cell against several |
| C120 | the shapes with radii and the rectangles, two at a time | formulas of the nodes (C63, C84) and of the subdivisions (C11, C12); refuted for the method log, for all sizes |
| C121 | `load_half_stadium`, `load_concave_polyhedron` (composition of `Polygon`, `translate`, `Volume`) | composition of C20, C21, C22, C68; the half stadium is convex by trigonometry, for every resolution |
| C122 | `set_transition` with an integer (composition with `RegularLine`) | from C66, plus arc length on straight lines |
| C123 | `RegularLine` | refuted for every input from C66; partial: evenly spaced straight lines |
| C124 | stacks of functions and numbers, on all three kinds of base | heights by induction over the calls, the cut pass by C27, composed with C96 and C97; any priorities; partial: no vector data on structured bases |
| C125 | `MeshExtrude` on what `MeshStack2D` generates | what a stack generates is a valid base (data sizes carried through `merge`), then C98 |
| C126 | `load_anticline_2d`, `load_anticline_3d` (all calls, with their numbers) | instances of C124 and C125, heights by bounds of cos; refuted: layers and columns of the 3D anticline |
| C127 | `load_well_2d` without `voronoi` (all calls, with its numbers as parameters), `rotate_z` | node sets of C63 and C84, regions pairwise compared, quarter turns; labels by C09 twice; counts of the example; with other resolutions a hanging node |
| C128 | node formulas of C63, C84; cells of structured grids in the order of VTK_QUAD (`gridQuads`); `load_well_2d` | sign of the cross product at every corner, bilinear cells between two curves; rotation by quarter turns; refutations for all sizes |
| C129 | `cellFaces` (faces of `extract_cell_geometry`), `generateVolumeU`, `generateVolumeS`, `CylindricalShellSector`; cells of structured grids in the order of VTK_HEXAHEDRON (`hexIds`) | signed volumes: face plane against every other corner equals plus or minus the turn of the base times the height; C20 and C17 for the positions; refuted for all shells by C63 |
| C130 | `load_well_3d` (all calls, its numbers as parameters; `extract_cells` by the model `extractCells`) | C98 for two parts, the mask by the table, Perm of kept cells with their names to the list of layers; counts by C127; KeyError since the table lists only groups in use |
| C131 | `MeshStack2D` on profiles (regions of cells are convex hulls of their corners) | hulls of quads with two parallel sides along the axis as strips, union over a chain of rising heights; heights by C124; overlap for all lines by the same strips |
| C132 | `MeshExtrude` on unstructured surfaces (regions of cells are convex hulls of their nodes; `clean` merges equal points only) | region of a prism = hull of base + segment of a broken line (convexHull_add); heights over the plane rise along the line, so points of a segment are determined by their height |
| C133 | `_initialize_group_array` | both outcomes of every kind of entry, with the names known after it; induction over the entries for the first misfit |
| C134 | stacks and extrusions, with the cell arrays of their base | field `carried` of the result of C96-C98, from the copies of each part through labels, merge and clean; vector arrays: merge of the first two parts cannot succeed |
| C135 | 3D stacks of profiles on structured and unstructured surfaces (hexahedra: trilinear images of their corners; other cells: convex hulls of their nodes) | cell = column of convex combinations of base points between two heights; a column is filled by `exists_step` on the heights over one combination; weights are determined by the shadow: affine independence for triangles, positive Jacobian at the midpoint for convex quads |
| C136 | `get_neighborhood` (C33–C37) on the meshes of C97/C98 | faces of a prism as node sets = levels × base nodes (`prism_face_sets`, `facePairs`); different levels or base nodes give different sets (`LayerFaces`), hence a face has the owners of its base edge, or the two cells above and below; pinched layers: nodes at one place are one node (`LayeredU.merged`), so a face gets three owners |
| C137 | `_interpolate` and `add` (C67) for datasets and arrays, `load_topographic_terrain` | scipy's interpolator gives back the data at data points (`Reproduces`, shown consistent by `tableInterp_ok`); `np.interp` proved to (C67); induction over the calls: same outcome as the stack of functions, then C124; refuted for oblique lines, with Qhull failing on points on one line as hypothesis |
| C138 | `cast_to_unstructured_grid` of structured grids (`castCells`), then C33–C37 | a face is named by its axis and its lowest corner (`gridKeys`); its node set determines both (`side_inj`), so two cells have at most one name in common, and exactly one iff they are consecutive along an axis (`common_key`, `adjacent_key`) |
| C139 | `gridQuads`, `sector`, `rectangle`, … (C63, C84, C128), stacked profiles (C124) | area of a plane polygon in space by the shoelace formula (`flatArea`); closed form of each cell and telescoping sums; for the sector–rectangle shapes the signed areas add up to that of the outline (`signed_sum`) and all cells of a part turn the same way (C128); `x - x³/6 < sin x < x` for the distance to the area of the disc; refuted for circles of one or two parts and for crossing surfaces |
| C140 | the 3D stacks and extrusions of C132, C135 | Lebesgue measure of the regions of the cells (convex hulls of the nodes; trilinear images for hexahedra); affine images of a prism over the unit triangle or square (`volume_affine`), fibres along the axis (`volume_fibres`) and a change of variables by the bilinear map (`volume_quad`, with Mathlib's `lintegral_abs_det_fderiv_eq_addHaar_image`) for columns over convex quads; sums over layers telescope; refuted for crossing surfaces, where an inverted cell overlaps the others |
| C141 | CylindricalShell, CylindricalShellSector | nodes from C63 (`C63_shell`); each cell is a column over a quad of the ring (`hexRegion_level`, `volume_quad`), also where the quad has a double corner at radius 0; sums over the steps telescope or are bounded as in C139 |
| C142 | Rectangle, Sector, AnnularSector, Annulus, CylindricalShell(Sector) | nodes from C63 and C84; the convex hull of the corners of a cell of a ring is the set of x P(α) + y P(β) with r ≤ x + y ≤ r' (`wedge_hull`); its points have polar coordinates between the two rays (`wedge_polar`, by the argument of a complex number), which are unique within a turn (`polar_unique`); hexahedra of shells are prisms over these (`wedge_column`) |
| C143 | Quadrilateral | every line of `generate_line_from_two_points` is a list of points between its ends (`segmentLine_rows`); a part of a bilinear patch is a bilinear patch (`quadPoint_part`), and the map is one to one on convex quads (`quadPoint_inj`); the area of a cell is its share of the sides times the Jacobian in its middle, which is affine, so the sum telescopes |
| C144 | SectorRectangle, RectangleSector | the lines of a half form a fan: any two of them are two sides of a convex quad (`inner_bends`, `outer_bends`), so they are ordered and the quads between them are side by side (`fans_tiles`); a point between the first and the last line is in one of the strips (`fans_strip`), and in its quad if it is beyond the chord (`fans_covers_arc`); wider rectangles: the first line leans over the rectangle, so a point of the first cell is in it (`reflex_uv`) |
| C145 | `to_points` of Polygon for datasets, with `split_lines` | C39 gives the pieces of the line mesh; only the first piece is used; then C68 |
| C146 | the sum of the halves of SectorRectangle and RectangleSector (Halves) | joining points is an oracle assumed to unite equal points only; the lines of each half are a fan (C144), so nodes of one half are at different places (`fans_distinct`) and those of both halves only on the diagonal (`fans_meet`); hence the numbers of points and cells, and a numbering of the strip (`halves_strip`) |
| C147 | `get_neighborhood` (C35, C37) on the meshes of C146 | edges keyed by position and direction (`edgeKeys`); different keys have different ends, each edge has at most two owners, and two cells share at most one edge (`strip_neighbours`) |
| C148 | `load_well_2d` (Well) | sums of C139 for each part; those of the rings telescope (`wellAreas_sum`); quarter turns keep areas (`turned_area`); C127 gives the cells of each group |
| C149 | `load_well_2d` (Well) | a point of a quarter is a combination of the two rays of its step (`polar_wedge`); the sum of the coefficients selects the sector, a ring (`rings_hull`, by induction) or the SectorRectangle, where all corners of the arc are on the inner side of the chord (`chord_below`, `halves_cover`); the other inclusion by C127 and convexity; quarter turns are linear (`turned_hull`) |
| C150 | `load_well_2d` (Well) | Lebesgue measure of the cells times a unit height (`swept_area`, the cells being convex by C128): they cover the square (C149) and their areas add up to its area (C148), so a common square of two of them would be counted twice (`no_overlap`) |
| C151 | `load_well_3d` (Well3d) | each cell of C130 is the sum of its base cell and the segment between two layers (`column_region`); the segments of the layers add up to the whole vector; the base fills the square by C149 |
| C152 | `load_well_3d` (Well3d) | a common cube of two cells has a square section, so the base cells would share area (C150), or lies between different layers, whose heights are monotone (`columnAt_mono`) |
| C153 | `load_well_3d` (Well3d) | cells that cover the square with areas adding up to it have exactly these areas (`exact_area`, from C148 and C149); the volume of a prism is its height times that (`vertical_volume`); summed over the permutation of kept cells of C130 (`column_volumes`) |
| C99 | stacks of scalars end to end, on structured and unstructured surfaces | C26 and the cut pass as identity, then C96, C97; on unstructured surfaces the hidden cells in closed form |

## Trusted base

* Lean 4.33.0's kernel. Axioms used by the theorems: only `propext`, `Classical.choice`, `Quot.sound`
  (`#print axioms` of every theorem of the manifest; no axiom, `sorry`, `native_decide` of our own).
* The reading of the Python code into the model (checked by hand, cited line by line).
* The behaviour of numpy, CPython dictionaries and VTK file layouts as described above.

### What is modelled

| /repo | model |
|-------|-------|
| `core/_base.py` groups, `_check_point_array`, `MeshStackBase` | Groups, MeshExtrude, Stack, Ids, Generate, GenerateU |
| `core/_helpers.py` | Resolution, Structured, Extrude, Shapes |
| `core/extrude.py` | MeshExtrude, Ids, Generate, GenerateU |
| `core/merge.py` | Groups |
| `core/stack.py` (the triangulation inside `_transition` is an oracle) | Stack, Generate, GenerateU, StackT, AddPlane |
| `core/geometric_objects.py` | Shapes, Halves, Polygon, Wrappers |
| `core/voronoi.py` | Voronoi, VoronoiItems, VoronoiMesh, VoronoiInputs |
| `utils/_misc.py` | Average, Cast, Rdp, CellOps, Geometry, Groups, Intersect, Lines, Offset, Picking, Structured |
| `utils/_properties.py` | CellOps, CellTypes, Geometry, Groups |
| `utils/_connectivity.py` | Geometry |
| `utils/_interactive.py` | Picking |
| `examples/examples.py`, all | Examples, Well, Well3d |

### What is not modelled

* Plotting, `__repr__`, reading of files and downloads (the terrain of `load_topographic_terrain` is a parameter).
* Rounding of floating point numbers; nan and inf.
* VTK, pyvista filters, scipy, shapely, Qhull, Gmsh and matplotlib: oracles, as explained above. In
  particular areas and volumes of cells, cell search, nearest neighbours, mesh intersection and
  `clean` are arbitrary functions; where a theorem needs a property of them it is a hypothesis.
* `vtkAppendFilter` is read as: points and cells of the inputs one after the other, arrays common to all inputs kept
  (also `vtkGhostType`). `UnstructuredGrid.clean` keeps the cells, their order and their data.
* Python aliasing, except where a property is about it (C24, C30, C54, C55, C102, C111); that `pv.PolyData(array)` shares an array of floats with its caller, and that `points` of image data and rectilinear grids is a new array, is taken from pyvista (C110, C111).
