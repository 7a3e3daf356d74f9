{"id": "C01", "title": "Group numbers are dense, distinct and never renumbered", "statement": "While a mesh is being generated, every new group name gets the next unused integer; after any sequence of group requests the n distinct names seen are numbered 0..n-1 in order of first request, two names never share a number and a name already numbered keeps its number.", "quantifier": "every sequence of group-name requests, of any length, over any names", "why_tests_cant": "A test tries a handful of names; density and stability must hold after every possible history of requests.", "anchors": ["pvgridder/core/_base.py:MeshBase._get_group_number", "pvgridder/core/_base.py:MeshBase._initialize_group_array"]}
{"id": "C02", "title": "Every cell gets a valid group", "statement": "Group assignment either raises or returns one group number per cell, each of which is the number of some name in the final group table; no cell keeps the internal 'unassigned' marker.", "quantifier": "every base mesh (with or without labels), every ignore list, every group argument (string, name list, mask, indices, callable), every default group", "why_tests_cant": "The space of masks, label tables and group dictionaries is infinite.", "anchors": ["pvgridder/core/_base.py:MeshBase._initialize_group_array"]}
{"id": "C03", "title": "Group precedence: last matching entry, then base label, then default", "statement": "The name a cell ends up with is: the key of the last entry of the group dictionary selecting it; failing that the base mesh's own label of the cell if that label is not ignored; failing that the default group.", "quantifier": "every mesh, cell, ignore list and group dictionary", "why_tests_cant": "Precedence between overlapping selections has to hold for every overlap pattern.", "anchors": ["pvgridder/core/_base.py:MeshBase._initialize_group_array"]}
{"id": "C04", "title": "Selecting by group name selects that group's cells", "statement": "A group entry {new: 'A'} (or a list of names, or '~A') relabels exactly the cells whose label in the base mesh is (is not) 'A', whatever integers the base mesh uses for its labels.", "quantifier": "every labelled base mesh with every label-to-integer table, every ignore list, every previously numbered group", "why_tests_cant": "Tests use meshes whose labels happen to be numbered 0..n-1 in order; the claim is about every numbering.", "anchors": ["pvgridder/core/_base.py:MeshBase._initialize_group_array", "pvgridder/core/_base.py:MeshStackBase.add"]}
{"id": "C05", "title": "A '~' group key means the complement of the selection", "statement": "An entry '~name': sel assigns 'name' to exactly the cells that the entry 'name': sel would not have selected, for every documented kind of selection (names, boolean mask, indices, callable returning mask or indices).", "quantifier": "every mesh size and every selection of every documented kind", "why_tests_cant": "Complement must be right for every index set, including callables returning indices.", "anchors": ["pvgridder/core/_base.py:MeshBase._initialize_group_array", "pvgridder/core/_base.py:MeshStackBase.add", "pvgridder/core/extrude.py:MeshExtrude.add"]}
{"id": "C06", "title": "remap_categorical_data substitutes simultaneously", "statement": "Each entry of the remapped array is the new value the mapping gives for its old value, or its old value if the mapping does not mention it; chains and swaps ({0:1, 1:0}) do not feed into each other, and the order of the mapping does not matter.", "quantifier": "every integer array, every one-to-one label table and every mapping whose keys (labels or integers) stand for different old values", "why_tests_cant": "Cascading substitution bugs only show for particular key/value overlaps.", "anchors": ["pvgridder/utils/_misc.py:remap_categorical_data"]}
{"id": "C07", "title": "Remapping never changes what a cell is called", "statement": "After remap_categorical_data, reading the labels back (get_cell_group) gives for every cell the same name as before, whichever part of the labels the mapping covers, as long as different labels keep different numbers.", "quantifier": "every labelled mesh, every mapping over any subset of its labels that keeps numbers distinct", "why_tests_cant": "The failure needs a mapping that covers only part of the labels and a read-back of the others.", "anchors": ["pvgridder/utils/_misc.py:remap_categorical_data", "pvgridder/utils/_properties.py:get_cell_group"]}
{"id": "C08", "title": "Dropping unused groups preserves labels and renumbers densely", "statement": "The final clean-up of a generated mesh removes exactly the group names no cell uses, renumbers the remaining ones 0..k-1 in their existing order and leaves the name of every cell unchanged.", "quantifier": "every injective group table and every cell array over it", "why_tests_cant": "Renumbering while substituting must be safe for every pattern of used and unused codes.", "anchors": ["pvgridder/core/_base.py:MeshBase._clean", "pvgridder/utils/_misc.py:remap_categorical_data", "pvgridder/utils/_properties.py:get_cell_group"]}
{"id": "C09", "title": "MeshMerge keeps every item's labels", "statement": "MeshMerge.generate_mesh returns the cells of all items; each cell's name is its name in its own mesh when it has one that is not ignored, otherwise the item's group, otherwise the default group, even when different items use the same integers for different names.", "quantifier": "every number of items, every cell count, every per-item label table", "why_tests_cant": "Label collisions between items grow combinatorially with the number of items.", "anchors": ["pvgridder/core/merge.py:MeshMerge.add", "pvgridder/core/merge.py:MeshMerge.generate_mesh", "pvgridder/core/_base.py:MeshBase._initialize_group_array"]}
{"id": "C10", "title": "MeshMerge.generate_mesh can be called again", "statement": "Calling generate_mesh a second time on the same MeshMerge object, with nothing added in between, gives the same labels for the same cells.", "quantifier": "every list of items, every history of generate_mesh calls", "why_tests_cant": "Needs every history of calls; hidden state written by the first call is what breaks it.", "anchors": ["pvgridder/core/merge.py:MeshMerge.generate_mesh"]}
{"id": "C11", "title": "Integer resolutions give a partition of [0,1]", "statement": "For an integer resolution r and any supported method, the subdivision has max(1,r)+1 positions, starts at exactly 0, ends at exactly 1 and is strictly increasing; with method 'constant' they are the i/r.", "quantifier": "every integer (including zero and negative), every supported method", "why_tests_cant": "Unbounded in r; the end points must be hit for every r.", "anchors": ["pvgridder/core/_helpers.py:resolution_to_perc"]}
{"id": "C12", "title": "log and log_r spacings are monotone and mirror images", "statement": "Method 'log' gives subdivision lengths that strictly increase along the axis, 'log_r' lengths that strictly decrease, and one is the mirror image of the other.", "quantifier": "every resolution >= 2, every position", "why_tests_cant": "Monotonicity has to hold for every index of every resolution.", "anchors": ["pvgridder/core/_helpers.py:resolution_to_perc"]}
{"id": "C13", "title": "Explicit resolutions are sorted, never altered; bad ones are rejected", "statement": "A one-dimensional resolution array is returned as a sorted rearrangement of the same values; anything that is neither None, a Python int nor one-dimensional, and any unknown method for an integer, raises ValueError.", "quantifier": "every resolution argument and method", "why_tests_cant": "Every multiset of positions.", "anchors": ["pvgridder/core/_helpers.py:resolution_to_perc"]}
{"id": "C14", "title": "A generated line runs exactly from a to b", "statement": "The polyline generated between two points starts at a, ends at b, has max(1,r)+1 points all on the segment and in order along it; 2D points get z = 0; points of different length are rejected.", "quantifier": "every pair of points, every resolution and method", "why_tests_cant": "All real coordinates and all resolutions.", "anchors": ["pvgridder/core/_helpers.py:generate_line_from_two_points"]}
{"id": "C15", "title": "Surface between two lines: every node is where it should be", "statement": "The structured surface built from two polylines has, for every plane option, node (p along the line, s along the subdivision) at a_p + t_s (b_p - a_p); so the first row of nodes is line a, the last one line b, and the grid dimensions put the two directions on the two axes named by the plane.", "quantifier": "every line length, all six plane options, every subdivision", "why_tests_cant": "All sizes and planes; index transposition bugs hide when both directions have equal size.", "anchors": ["pvgridder/core/_helpers.py:generate_surface_from_two_lines"]}
{"id": "C16", "title": "Surface cells inherit the data of the line cell they come from", "statement": "Each cell of a surface generated from a polyline with cell data carries the data of the line segment it was extruded from, for every plane option and every stacking axis.", "quantifier": "every line, every data array, all six planes, every subdivision", "why_tests_cant": "For the transposed planes the wrong order is invisible on constant data or square grids.", "anchors": ["pvgridder/core/_helpers.py:generate_surface_from_two_lines", "pvgridder/core/stack.py:MeshStack2D.generate_mesh"]}
{"id": "C17", "title": "Structured volume: nodes and data are extruded along the missing axis", "statement": "Extruding a 2D structured grid puts node (i,j) of sublayer s at a_ij + t_s (b_ij - a_ij), and every cell and node of every sublayer carries the data of the base cell or node below it, for each of the three possible axes.", "quantifier": "every grid size, axis, subdivision and data array", "why_tests_cant": "Fortran-order index arithmetic for all shapes.", "anchors": ["pvgridder/core/_helpers.py:generate_volume_from_two_surfaces", "pvgridder/core/_helpers.py:repeat_structured_data"]}
{"id": "C18", "title": "Structured merge glues grids and keeps each cell's data", "statement": "Merging structured grids along an axis raises unless the facing layers coincide, otherwise gives a grid whose size along the axis is the sum minus the shared layers, whose nodes are those of the pieces, and in which every cell has the data it had in the piece it comes from; extends to any number of grids.", "quantifier": "every number of grids, every shape, each axis", "why_tests_cant": "All shapes, and any number of grids folded left to right.", "anchors": ["pvgridder/utils/_misc.py:merge"]}
{"id": "C19", "title": "Layer and column ids identify the layer and column of each cell", "statement": "In a stacked or extruded mesh, LayerId of a cell is the rank of its sublayer counted from the first item, ColumnId is the index of the base cell it sits above, and StackItem/ExtrudeItem is the item it belongs to.", "quantifier": "every number of items and sublayers, every base mesh (structured along any axis, unstructured)", "why_tests_cant": "Wrong ids need particular axis and shape combinations.", "anchors": ["pvgridder/core/_base.py:MeshStackBase._generate_mesh", "pvgridder/core/extrude.py:MeshExtrude.generate_mesh"]}
{"id": "C20", "title": "Unstructured extrusion: cell (layer, column) joins the right two copies of its base cell", "statement": "Extruding an unstructured surface with N points and m cells over n sublayers gives n*m cells in layer-major order; the cell of layer k over base cell c uses exactly the base cell's nodes shifted by kN and (k+1)N, in matching order, all node numbers being below (n+1)N; quads become hexahedra, triangles wedges, pixels hexahedra, polygons polyhedra.", "quantifier": "every surface, every number of sublayers", "why_tests_cant": "All meshes and layer counts; offsets only go wrong on some layers.", "anchors": ["pvgridder/core/_helpers.py:generate_volume_from_two_surfaces"]}
{"id": "C21", "title": "Extruded polyhedra are closed and consistently oriented", "statement": "With the default options every polyhedron produced from a polygon has a closed, consistently oriented boundary: each directed edge of a face occurs exactly once and its reverse occurs exactly once in another face. With the inversion of faces disabled each edge still belongs to exactly two faces.", "quantifier": "every polygon with any number of distinct vertices, every layer", "why_tests_cant": "Number of vertices is unbounded.", "anchors": ["pvgridder/core/_helpers.py:generate_volume_from_two_surfaces"]}
{"id": "C22", "title": "Extruded polyhedra have outward normals", "statement": "With the default options, the normal (area vector) of the base face of each extruded polyhedron points away from the opposite face, and that of the opposite face away from the base.", "quantifier": "every planar polygon and extrusion offset", "why_tests_cant": "All real coordinates, both windings and both extrusion directions.", "anchors": ["pvgridder/core/_helpers.py:generate_volume_from_two_surfaces"]}
{"id": "C23", "title": "Exactly the collapsed cells are hidden", "statement": "An extruded cell is flagged hidden if and only if it is collapsed, that is, its bottom and top faces coincide.", "quantifier": "every pair of surfaces, every subdivision, every coordinate magnitude", "why_tests_cant": "Depends on magnitudes and on layers other than the first.", "anchors": ["pvgridder/core/_helpers.py:generate_volume_from_two_surfaces"]}
{"id": "C24", "title": "Volume does not modify its inputs", "statement": "Building a volume from two surfaces leaves the connectivity of both input surfaces unchanged.", "quantifier": "every pair of input surfaces and options", "why_tests_cant": "Aliasing of an array view is only visible for polygons of one winding.", "anchors": ["pvgridder/core/_helpers.py:generate_volume_from_two_surfaces", "pvgridder/core/geometric_objects.py:Volume"]}
{"id": "C25", "title": "Only extrudable cell types are accepted, and extrusion adds one dimension", "statement": "Extrusion rejects every surface containing a cell type outside triangle, quad, pixel and polygon; for these four the extruded type has dimension one more than the original.", "quantifier": "every cell type code", "why_tests_cant": "The whole table of cell types must be covered.", "anchors": ["pvgridder/core/_helpers.py:_extruded_celltype_map", "pvgridder/utils/_properties.py:_dimension_map"]}
{"id": "C26", "title": "Scalar stacking accumulates heights", "statement": "In a stack built from scalars z0, a1, ..., ak the i-th surface lies at z0 plus (bottom-up) or minus (top-down) the sum of the absolute values of a1..ai, at every node; other coordinates are untouched.", "quantifier": "every base mesh, every sequence of scalar additions, both directions", "why_tests_cant": "Any length of history.", "anchors": ["pvgridder/core/_base.py:MeshStackBase.add"]}
{"id": "C27", "title": "Stacked layers respect priority and minimum thickness (bottom-up)", "statement": "After generate_mesh on a bottom-up stack, every item lies at every node at least its minimum thickness above the previous item.", "quantifier": "every number of items, every height field, priority and thickness", "why_tests_cant": "Interaction between three or more surfaces.", "anchors": ["pvgridder/core/_base.py:MeshStackBase._generate_mesh", "pvgridder/core/_base.py:MeshStackBase.add"]}
{"id": "C28", "title": "Stacked layers respect priority and minimum thickness (top-down)", "statement": "After generate_mesh on a top-down stack, every item lies at every node at least its minimum thickness below the previous item.", "quantifier": "every number of items, every height field, priority and thickness", "why_tests_cant": "Interaction of direction, crossing and thickness.", "anchors": ["pvgridder/core/_base.py:MeshStackBase._generate_mesh"]}
{"id": "C29", "title": "The surface with priority never moves", "statement": "When two consecutive surfaces cross, only the one without priority is moved, and only at the nodes where they cross; surfaces that do not cross are left exactly where they were.", "quantifier": "every pair of consecutive items, every node", "why_tests_cant": "All height fields.", "anchors": ["pvgridder/core/_base.py:MeshStackBase._generate_mesh"]}
{"id": "C30", "title": "Stack generation can be repeated", "statement": "Calling generate_mesh twice on the same stack gives the same mesh.", "quantifier": "every stack, every history of generate_mesh calls", "why_tests_cant": "The first call moves the stored surfaces.", "anchors": ["pvgridder/core/_base.py:MeshStackBase._generate_mesh"]}
{"id": "C31", "title": "A transition changes the base mesh of the items after it", "statement": "After set_transition(mesh), every item added afterwards has the nodes of the new base mesh, whatever kind of argument it is added with, and exactly the first of them is a transition item.", "quantifier": "every sequence of add and set_transition calls", "why_tests_cant": "Depends on the order and kind of calls.", "anchors": ["pvgridder/core/stack.py:MeshStack2D.set_transition", "pvgridder/core/_base.py:MeshStackBase.add"]}
{"id": "C32", "title": "Extrusion items are cumulative translations", "statement": "In MeshExtrude without scaling or rotation the i-th surface is the base mesh translated by the sum of the first i vectors; scaling keeps the centre of the bounding box.", "quantifier": "every base mesh, every sequence of vectors and scale factors", "why_tests_cant": "Any length of history and any factor, negative ones included.", "anchors": ["pvgridder/core/extrude.py:MeshExtrude.add"]}
{"id": "C33", "title": "Face tables describe closed cells", "statement": "For each supported 3D cell type the table of faces is a closed, consistently oriented surface over exactly the cell's nodes: each directed edge occurs once and its reverse once.", "quantifier": "every supported cell type and every assignment of distinct node numbers", "why_tests_cant": "Every cell of every mesh relies on it.", "anchors": ["pvgridder/utils/_misc.py:_celltype_to_faces"]}
{"id": "C34", "title": "extract_cell_geometry lists each face once with exactly its cells", "statement": "The faces (edges) returned by extract_cell_geometry are exactly the distinct faces (edges) of the mesh, two faces being the same when they have the same set of nodes; the row of original cell ids of a face lists, in increasing order and padded with -1, exactly the cells having that face.", "quantifier": "every mesh, any number of cells sharing a face", "why_tests_cant": "All incidence patterns.", "anchors": ["pvgridder/utils/_misc.py:extract_cell_geometry"]}
{"id": "C35", "title": "Neighbourhood is symmetric and means sharing a face", "statement": "get_neighborhood returns one list per cell; j is listed for i exactly when the two cells share a face (2D: an edge), so the relation is symmetric and no cell neighbours itself.", "quantifier": "every mesh in which each face belongs to at most two cells and no cell repeats a face", "why_tests_cant": "All meshes.", "anchors": ["pvgridder/utils/_connectivity.py:get_neighborhood", "pvgridder/utils/_misc.py:extract_cell_geometry"]}
{"id": "C36", "title": "Connectivity lines are the neighbour pairs", "statement": "get_connectivity returns exactly one line for each shared face, joining the centres of the two cells; it agrees with get_neighborhood.", "quantifier": "every mesh accepted by get_neighborhood", "why_tests_cant": "All meshes.", "anchors": ["pvgridder/utils/_connectivity.py:get_connectivity", "pvgridder/utils/_connectivity.py:get_neighborhood"]}
{"id": "C37", "title": "Neighbourhood and connectivity are total", "statement": "get_neighborhood and get_connectivity return a result, rather than raising, for every mesh, including a mesh of one cell, meshes with no shared face and meshes with faces shared by three or more cells.", "quantifier": "every mesh", "why_tests_cant": "The failing meshes are corner cases no fixture contains.", "anchors": ["pvgridder/utils/_connectivity.py:get_neighborhood", "pvgridder/utils/_connectivity.py:get_connectivity"]}
{"id": "C38", "title": "Flattened connectivity can be read back", "statement": "get_cell_connectivity(flatten=True) is an unambiguous encoding: decoding it with the list of cell types gives back exactly the per-cell connectivity, polyhedra with their faces included.", "quantifier": "every list of cells of any type and size", "why_tests_cant": "Round trip for all sizes.", "anchors": ["pvgridder/utils/_properties.py:get_cell_connectivity"]}
{"id": "C39", "title": "split_lines keeps points and data of every polyline", "statement": "split_lines returns one piece per (poly)line, in order, with that line's points in order, point data following the points, and cell data of the line repeated on each of its segments (as_lines) or kept on its single cell.", "quantifier": "every number of polylines, every length, every data array", "why_tests_cant": "All inputs.", "anchors": ["pvgridder/utils/_misc.py:split_lines"]}
{"id": "C40", "title": "merge_lines concatenates lines in order", "statement": "merge_lines returns the lines of all inputs in order: the k-th line runs through the same points as before, each segment (as_lines) or polyline carries the cell data of its line, and only data arrays common to all inputs are kept; splitting and merging again gives the same lines.", "quantifier": "every list of inputs", "why_tests_cant": "Offsets accumulate over all previous lines.", "anchors": ["pvgridder/utils/_misc.py:merge_lines", "pvgridder/utils/_misc.py:split_lines"]}
{"id": "C41", "title": "decimate_rdp keeps end points and stays within tolerance", "statement": "For a non-negative tolerance the decimated polyline is a subsequence of the original one with the same first and last points, and every dropped point is within the tolerance of the line through the two kept points around it.", "quantifier": "every polyline, every tolerance >= 0", "why_tests_cant": "Recursion over arbitrary polylines.", "anchors": ["pvgridder/utils/_misc.py:decimate_rdp"]}
{"id": "C42", "title": "reconstruct_line visits every point once, starting where asked", "statement": "The reconstructed line goes through each input point exactly once, starts at point number start, and is never longer than the trivial path it started from.", "quantifier": "every point set, start, closed or open, tolerance", "why_tests_cant": "All point sets, every sequence of 2-opt moves.", "anchors": ["pvgridder/utils/_misc.py:reconstruct_line"]}
{"id": "C43", "title": "reconstruct_line terminates", "statement": "reconstruct_line returns for every set of points and every documented tolerance.", "quantifier": "every point set, every tolerance >= 0", "why_tests_cant": "Non-termination cannot be observed by a finite test.", "anchors": ["pvgridder/utils/_misc.py:reconstruct_line"]}
{"id": "C44", "title": "average_points merges exactly the chains of close points, in any order", "statement": "Two points of the mesh are mapped to the same new point exactly when they are linked by a chain of pairs within the tolerance; the result does not depend on the order in which the pairs are enumerated.", "quantifier": "every set of close pairs, every enumeration order of that set", "why_tests_cant": "The pairs come from a hash set: every iteration order must give the same partition.", "anchors": ["pvgridder/utils/_misc.py:average_points"]}
{"id": "C45", "title": "Merged points sit at the mean of the points they replace", "statement": "Each merged point is located at the mean of the points of its cluster and points that are close to no other point do not move.", "quantifier": "every point set and tolerance", "why_tests_cant": "All clusters.", "anchors": ["pvgridder/utils/_misc.py:average_points"]}
{"id": "C46", "title": "Averaged faces have no repeated consecutive vertices and keep their ids", "statement": "After averaging, no face has two cyclically consecutive equal vertices, faces with fewer than three vertices are dropped, and the recorded original ids say which face each one comes from.", "quantifier": "every list of faces and every point map", "why_tests_cant": "All faces and merge patterns.", "anchors": ["pvgridder/utils/_misc.py:average_points"]}
{"id": "C47", "title": "offset_polygon moves every edge by the distance", "statement": "Each vertex of the offset polygon is at the requested perpendicular distance from the lines of both edges meeting at the original vertex.", "quantifier": "every polygon without reversing corners, every non-zero distance", "why_tests_cant": "All real polygons.", "anchors": ["pvgridder/utils/_misc.py:offset_polygon"]}
{"id": "C48", "title": "Positive offsets go outwards wherever the polygon is", "statement": "offset_polygon with a positive distance moves the edges outwards and with a negative one inwards, for either winding and any position of the polygon.", "quantifier": "every simple polygon, winding and translation", "why_tests_cant": "Wrong results need a polygon away from the origin.", "anchors": ["pvgridder/utils/_misc.py:offset_polygon"]}
{"id": "C49", "title": "offset_polygon stays in the polygon's plane", "statement": "The offset polygon lies in the same axis-aligned plane as the original.", "quantifier": "every axis-aligned planar polygon, every plane position", "why_tests_cant": "Tests use the plane z = 0 only.", "anchors": ["pvgridder/utils/_misc.py:offset_polygon"]}
{"id": "C50", "title": "Voronoi cells have the requested orientation", "statement": "VoronoiMesh2D.generate_mesh(orientation='CCW' or 'CW') returns cells whose vertices are all in that orientation.", "quantifier": "every polygon produced, at every position", "why_tests_cant": "Depends on the position of cells with respect to the origin.", "anchors": ["pvgridder/core/voronoi.py:VoronoiMesh2D.generate_mesh", "pvgridder/core/voronoi.py:VoronoiMesh2D._compute_signed_area"]}
{"id": "C51", "title": "Boundary polygons and holes: every ring appears once", "statement": "extract_boundary_polygons with holes returns every boundary ring exactly once, each group's first ring being its shell and the others rings contained in the shell.", "quantifier": "every finite family of rings and containment relation, every order of the rings", "why_tests_cant": "All nestings and orders.", "anchors": ["pvgridder/utils/_misc.py:extract_boundary_polygons"]}
{"id": "C52", "title": "quadraticize inserts edge midpoints", "statement": "quadraticize keeps the original nodes and adds, for each cell, one node per edge located at the middle of that edge, numbered so that cell c refers to its own corner nodes followed by its own new nodes; other cell types are rejected.", "quantifier": "every mesh of triangles and quads", "why_tests_cant": "Running offsets over all cells.", "anchors": ["pvgridder/utils/_misc.py:quadraticize"]}
{"id": "C53", "title": "extract_cells_by_dimension splits a mesh by dimension", "statement": "'upper' keeps exactly the cells of dimension >= ndim, 'lower' those of dimension <= ndim, in order; empty cells are kept only if asked; 'lower' n-1 and 'upper' n partition the non-empty cells.", "quantifier": "every list of cell types, every ndim", "why_tests_cant": "All type mixes.", "anchors": ["pvgridder/utils/_misc.py:extract_cells_by_dimension", "pvgridder/utils/_properties.py:_dimension_map"]}
{"id": "C54", "title": "extract_cells leaves its input as it was, even when it fails", "statement": "After extract_cells returns or raises at any point, the input mesh has the same cell data arrays with the same values as before, and the extracted cells carry the ghost flags of their originals.", "quantifier": "every mesh, every selection, every point at which the underlying extraction may raise", "why_tests_cant": "Every crash point.", "anchors": ["pvgridder/utils/_misc.py:extract_cells"]}
{"id": "C55", "title": "get_cell_centers leaves its input as it was, even when it fails", "statement": "After get_cell_centers returns or raises, the input mesh still has its ghost-cell array.", "quantifier": "every mesh, method and point of failure", "why_tests_cant": "Every crash point.", "anchors": ["pvgridder/utils/_properties.py:get_cell_centers"]}
{"id": "C56", "title": "Interactive selection toggles", "statement": "The ids returned by interactive_selection are exactly those picked an odd number of times, in the order of their last pick.", "quantifier": "every sequence of picks", "why_tests_cant": "Any click history.", "anchors": ["pvgridder/utils/_interactive.py:interactive_selection"]}
{"id": "C57", "title": "intersect_polyline output arrays are consistent", "statement": "For every behaviour of the geometric queries, the polyline returned by intersect_polyline has as many segments as entries in each of its data arrays, segment ids never decrease along it, and no two consecutive points coincide within the tolerance.", "quantifier": "every mesh, every polyline and every answer of the geometric oracles, every option", "why_tests_cant": "Every run of the marching loop.", "anchors": ["pvgridder/utils/_misc.py:intersect_polyline"]}
{"id": "C58", "title": "ignore_points_before_entry drops only what precedes the entry", "statement": "With ignore_points_before_entry, the first point of the result is the point where the line enters the mesh and no segment inside the mesh is lost.", "quantifier": "every line, including lines starting on the boundary of the mesh", "why_tests_cant": "Needs a line starting exactly on the boundary.", "anchors": ["pvgridder/utils/_misc.py:intersect_polyline"]}
{"id": "C59", "title": "Voronoi priorities: a point survives unless a later item of no lower priority covers it", "statement": "A point of the background mesh or of an item is kept exactly when no item processed after it whose mesh contains it has greater or equal absolute priority (strictly greater for negative priorities); items are processed in increasing absolute priority and insertion order.", "quantifier": "every list of items, every containment pattern, every priority", "why_tests_cant": "All interactions of items.", "anchors": ["pvgridder/core/voronoi.py:VoronoiMesh2D.generate_mesh", "pvgridder/core/voronoi.py:VoronoiMesh2D.add"]}
{"id": "C60", "title": "Voronoi cell data stay aligned with cells", "statement": "The group and generator coordinates stored on each Voronoi cell are those of the point that generated it, also after inactive points and cells vanished by averaging have been removed.", "quantifier": "every activity pattern and every set of vanished cells", "why_tests_cant": "All masks.", "anchors": ["pvgridder/core/voronoi.py:VoronoiMesh2D.generate_mesh"]}
{"id": "C61", "title": "Voronoi items outside the background mesh contribute nothing", "statement": "Cell centres of an added item that lie outside the background mesh are never used as Voronoi points.", "quantifier": "every item, any part of which lies outside", "why_tests_cant": "Includes the item lying entirely outside.", "anchors": ["pvgridder/core/voronoi.py:VoronoiMesh2D.generate_mesh"]}
{"id": "C62", "title": "Point arrays are normalised to three components", "statement": "Point arrays given to the mesh classes are accepted exactly when they are 1D of size 2 or 3 or 2D with 2 or 3 columns; the result has 3 components, with a zero inserted at the class's axis for 2-component input, and removing that component gives the input back.", "quantifier": "every array, every axis", "why_tests_cant": "All shapes.", "anchors": ["pvgridder/core/_base.py:MeshBase._check_point_array"]}
{"id": "C63", "title": "Sectors and annuli lie on their radii and conform", "statement": "Nodes of Sector are the centre and points at distance radius; nodes of AnnularSector lie at radius between inner and outer radius; the fan of Sector uses each consecutive pair of arc nodes once; the two halves of SectorRectangle and RectangleSector share exactly their diagonal nodes.", "quantifier": "every radius, angle, resolution, centre", "why_tests_cant": "All real parameters.", "anchors": ["pvgridder/core/geometric_objects.py:Sector", "pvgridder/core/geometric_objects.py:AnnularSector", "pvgridder/core/geometric_objects.py:SectorRectangle", "pvgridder/core/geometric_objects.py:RectangleSector", "pvgridder/core/_helpers.py:generate_arc"]}
{"id": "C64", "title": "Invalid radii are rejected", "statement": "Every geometric object with a radius rejects a non-positive radius (AnnularSector: a negative inner radius or inner >= outer).", "quantifier": "every radius and size", "why_tests_cant": "All real parameters.", "anchors": ["pvgridder/core/geometric_objects.py:Sector", "pvgridder/core/geometric_objects.py:AnnularSector", "pvgridder/core/geometric_objects.py:SectorRectangle", "pvgridder/core/geometric_objects.py:RectangleSector"]}
{"id": "C65", "title": "CurvedLine has equal segments and the requested length", "statement": "CurvedLine returns resolution+1 points, starting at origin, consecutive points being exactly length/resolution apart.", "quantifier": "every origin, length, resolution and pair of directions that are not opposite", "why_tests_cant": "All real parameters.", "anchors": ["pvgridder/core/geometric_objects.py:CurvedLine"]}
{"id": "C66", "title": "RegularLine keeps the end points and spaces points evenly along the line", "statement": "RegularLine returns resolution+1 points, starting and ending at the end points of the input polyline, the i-th one at arc length i/resolution of the total.", "quantifier": "every polyline and resolution", "why_tests_cant": "All polylines.", "anchors": ["pvgridder/core/geometric_objects.py:RegularLine"]}
{"id": "C67", "title": "Interpolated surfaces stay within the data and never extrapolate silently", "statement": "When a surface is added to a 2D stack from data points, the interpolated heights lie between the smallest and largest data heights, reproduce the data at data points, and base nodes outside the data range raise an error unless extrapolation is requested.", "quantifier": "every base line and data line", "why_tests_cant": "All node positions.", "anchors": ["pvgridder/core/_base.py:MeshStackBase._interpolate"]}
{"id": "C68", "title": "Polygon does not depend on whether the ring is closed", "statement": "Polygon (cell type polygon) returns one polygon through the given points whether or not the first point is repeated at the end, and rejects holes.", "quantifier": "every ring", "why_tests_cant": "All rings.", "anchors": ["pvgridder/core/geometric_objects.py:Polygon"]}
{"id": "C69", "title": "The Gmsh session is always closed", "statement": "Whatever fails during Polygon generation with Gmsh, the session is cleared and finalised exactly once.", "quantifier": "every failure point", "why_tests_cant": "Every crash point.", "anchors": ["pvgridder/core/geometric_objects.py:Polygon"]}
{"id": "C70", "title": "ray_cast intersection points lie on the ray and on the face", "statement": "Each intersection point reported by ray_cast lies on the line through the two given points and, for faces, in the plane through the face centre with the face normal; for edges coplanar with the ray, on the edge's line.", "quantifier": "every face and ray not parallel to it", "why_tests_cant": "All real coordinates.", "anchors": ["pvgridder/utils/_misc.py:ray_cast"]}
{"id": "C71", "title": "fuse_cells keeps the other cells and their data", "statement": "fuse_cells removes exactly the fused cells but the first of each group, which becomes the outline polygon and keeps its own data; all other cells keep their nodes and data, in order.", "quantifier": "every mesh and every family of disjoint index groups", "why_tests_cant": "All selections.", "anchors": ["pvgridder/utils/_misc.py:fuse_cells"]}
{"id": "C72", "title": "Constraint cells of an added polyline", "statement": "add_polyline splits the band around each polyline into exactly two items: the cells along the line itself, and the constraint cells (the requested number at each end and one row on each side); every cell of the band is in exactly one of them.", "quantifier": "every polyline length, constraint pair and resolution", "why_tests_cant": "All sizes.", "anchors": ["pvgridder/core/voronoi.py:VoronoiMesh2D.add_polyline"]}
{"id": "C73", "title": "Lasso selection uses the plane of the view", "statement": "interactive_lasso_selection returns, in increasing order, exactly the cells (points) whose centre, projected on the plane of the chosen view, lies in the polygon of the clicked points.", "quantifier": "every mesh, every sequence of clicks, every view, every polygon-containment test", "why_tests_cant": "GUI code; wrong only in views other than xy.", "anchors": ["pvgridder/utils/_interactive.py:interactive_lasso_selection"]}
{"id": "C74", "title": "polyhedron_method is honoured by every version of VTK", "statement": "get_cell_centers(polyhedron_method=m) returns, for every polyhedron, the centre defined by m ('box': centre of the bounding box, 'geometric': mean of the nodes, 'tetra': centre of the tetrahedra weighted by volume) whatever formula the installed version of VTK uses; other cells keep VTK's centre and empty cells get nan.", "quantifier": "every VTK version, mesh and method", "why_tests_cant": "Tests run with the version installed at the time; the dispatch compares version strings.", "anchors": ["pvgridder/utils/_properties.py:get_cell_centers"]}
{"id": "C75", "title": "The tetra centre is the centroid, independently of node order and position", "statement": "get_cell_centers(polyhedron_method='tetra') of a closed, consistently oriented polyhedron is its centre of mass: it does not depend on which node is listed first, and moving the polyhedron moves its centre by the same vector.", "quantifier": "every closed polyhedron with any number of faces of any size, every position", "why_tests_cant": "A universally quantified geometric identity.", "anchors": ["pvgridder/utils/_properties.py:get_cell_centers"]}
{"id": "C76", "title": "decimate_rdp returns every line and polygon of its input", "statement": "decimate_rdp returns one simplified cell for each polyline and each polygon of the input, in order.", "quantifier": "every mesh made of lines and/or polygons", "why_tests_cant": "Tests only use meshes of polylines.", "anchors": ["pvgridder/utils/_misc.py:decimate_rdp"]}
{"id": "C77", "title": "Segments of intersect_polyline inside the mesh name their cell", "statement": "Every segment returned by intersect_polyline that lies inside a cell of the mesh carries the id of that cell, and -1 is only given to segments outside the mesh.", "quantifier": "every mesh and every line, wherever it starts", "why_tests_cant": "The tests only use lines that start outside the mesh.", "anchors": ["pvgridder/utils/_misc.py:intersect_polyline"]}
{"id": "C78", "title": "intersect_polyline returns the line up to its last point", "statement": "Without ignore_points_after_exit, the polyline returned by intersect_polyline ends at the last point of the input line.", "quantifier": "every mesh and every line, wherever it ends", "why_tests_cant": "The tests only use straight lines that end outside the mesh.", "anchors": ["pvgridder/utils/_misc.py:intersect_polyline"]}
{"id": "C79", "title": "intersect_polyline passes the cell data of its line", "statement": "With pass_cell_data, each segment returned by intersect_polyline carries the data of the cell of the input line it lies on, whether the line is given as one polyline cell or as separate segments.", "quantifier": "every line and every cell data", "why_tests_cant": "The tests use lines without cell data.", "anchors": ["pvgridder/utils/_misc.py:intersect_polyline"]}
{"id": "C80", "title": "Unbounded Voronoi regions are closed outwards", "statement": "Before clipping, VoronoiMesh2D has exactly one region per Voronoi point, in the order of the points: bounded regions are unchanged, unbounded ones keep their vertices and get one vertex per infinite ridge, at the distance infinity from the finite end of the ridge, on the bisector of the two points and away from all the points.", "quantifier": "every set of points whose diagram is given, every distance", "why_tests_cant": "All diagrams; which side is outwards depends on all the points.", "anchors": ["pvgridder/core/voronoi.py:VoronoiMesh2D._generate_voronoi_tesselation"]}
{"id": "C81", "title": "add_circle adds a disc and a guard ring", "statement": "add_circle adds an item that fills the circle of the given radius, with the given priority and group, and, if constraint_radius is larger, a ring between the two radii with priority 0 and no group; facing cells on both sides of the circle have centres equidistant from the chord between them, so that the Voronoi edge follows the circle. Any constraint_radius >= radius > 0 is accepted, others raise ValueError.", "quantifier": "every radius, constraint radius, resolution, centre", "why_tests_cant": "All real parameters; the default constraint radius is the only one tested.", "anchors": ["pvgridder/core/voronoi.py:VoronoiMesh2D.add_circle"]}
{"id": "C82", "title": "The outline given to Gmsh is the polygon", "statement": "Polygon gives Gmsh exactly the points of each ring with their mesh sizes, one edge per pair of consecutive points including the closing one, one loop per ring, and one surface bounded by the shell with the holes as inner loops.", "quantifier": "every shell, every list of holes, both kernels", "why_tests_cant": "All ring sizes; the calls are not observable in the returned mesh.", "anchors": ["pvgridder/core/geometric_objects.py:Polygon"]}
{"id": "C83", "title": "The center argument moves the object", "statement": "Every geometric object with a center argument returns the object made at the origin, moved by that centre, given with two or three components.", "quantifier": "every object, every centre", "why_tests_cant": "All coordinates, all classes; the 2-component form is documented once for all.", "anchors": ["pvgridder/core/geometric_objects.py:Annulus", "pvgridder/core/geometric_objects.py:CylindricalShell", "pvgridder/core/_helpers.py:translate"]}
{"id": "C84", "title": "The center is the centre of the returned shape", "statement": "The center argument of circles, annuli, shells, rectangles and squares is the centre of the returned shape.", "quantifier": "every size, resolution and centre", "why_tests_cant": "All real parameters.", "anchors": ["pvgridder/core/geometric_objects.py:Rectangle", "pvgridder/core/geometric_objects.py:Square", "pvgridder/core/geometric_objects.py:CylindricalShell"]}
{"id": "C85", "title": "SectorRectangle subdivides its arcs and its edges alike", "statement": "The nodes of the arcs and of the straight edges of SectorRectangle are spaced by theta_resolution and theta_method.", "quantifier": "every method and resolution", "why_tests_cant": "All real parameters.", "anchors": ["pvgridder/core/geometric_objects.py:SectorRectangle"]}
{"id": "C86", "title": "CurvedLine turns evenly from one direction to the other", "statement": "The first and last segments of CurvedLine have the two given directions and each segment is turned by the same angle from the one before.", "quantifier": "every pair of unit directions that are not opposite, every resolution", "why_tests_cant": "All real parameters.", "anchors": ["pvgridder/core/geometric_objects.py:CurvedLine"]}
{"id": "C87", "title": "Polygon returns the nodes and elements of Gmsh", "statement": "The mesh returned by Polygon has the nodes of Gmsh at their coordinates, and one cell of the right type through the right nodes per element of the surface.", "quantifier": "every answer of Gmsh", "why_tests_cant": "Tests cannot control the numbering Gmsh chooses.", "anchors": ["pvgridder/core/geometric_objects.py:Polygon"]}
{"id": "C88", "title": "Polygon leaves a Gmsh session of its caller open", "statement": "If the caller has initialised Gmsh before calling Polygon, their session and model are still there afterwards.", "quantifier": "every state of the session", "why_tests_cant": "Tests run without a session of their own.", "anchors": ["pvgridder/core/geometric_objects.py:Polygon"]}
{"id": "C89", "title": "add_circle works in every plane", "statement": "add_circle adds a circle in the plane of the mesh, whatever the axis of the Voronoi mesh.", "quantifier": "every axis, radius, centre", "why_tests_cant": "Tests use the default axis.", "anchors": ["pvgridder/core/voronoi.py:VoronoiMesh2D.add_circle"]}
{"id": "C90", "title": "plain fuses the cells of the circle", "statement": "add_circle(plain=True) fuses exactly the cells whose centre is at a distance less than radius from the centre, in the plane of the mesh.", "quantifier": "every centre with two or three components", "why_tests_cant": "All real coordinates.", "anchors": ["pvgridder/core/voronoi.py:VoronoiMesh2D.add_circle"]}
{"id": "C91", "title": "The band of an added polyline has the requested width", "statement": "add_polyline adds cells across the polyline whose sides are at the distance width/2 from it, at every point of the line, and continues the line straight by the requested number of constraint points at both ends.", "quantifier": "every polyline, width, constraint pair", "why_tests_cant": "All real coordinates.", "anchors": ["pvgridder/core/voronoi.py:VoronoiMesh2D.add_polyline"]}
{"id": "C92", "title": "preference selects the points or the cell centres of the polyline", "statement": "add_polyline(preference='point') adds Voronoi points at the points of the polyline, preference='cell' at the centres of its cells.", "quantifier": "every polyline, width and resolution across", "why_tests_cant": "All real coordinates.", "anchors": ["pvgridder/core/voronoi.py:VoronoiMesh2D.add_polyline"]}
{"id": "C93", "title": "Polygon passes its options to Gmsh", "statement": "Polygon sets the requested cell size as minimal and maximal size, the requested algorithm, asks for quads on the surface when quads are wanted, meshes in two dimensions, and optimises the mesh when asked, in this order and nothing else.", "quantifier": "every shell, list of holes, engine, cell size, algorithm, optimisation", "why_tests_cant": "The calls are not observable in the returned mesh.", "anchors": ["pvgridder/core/geometric_objects.py:Polygon"]}
{"id": "C94", "title": "Special shapes are their general shape", "statement": "Circle, Annulus and CylindricalShell are the full sector, annular sector and shell sector; Square, SquareSector and SectorSquare are Rectangle, RectangleSector and SectorRectangle with equal sides, resolutions and methods.", "quantifier": "every size, resolution, method and centre", "why_tests_cant": "All real parameters.", "anchors": ["pvgridder/core/geometric_objects.py:Circle", "pvgridder/core/geometric_objects.py:Annulus", "pvgridder/core/geometric_objects.py:CylindricalShell", "pvgridder/core/geometric_objects.py:Square", "pvgridder/core/geometric_objects.py:SquareSector", "pvgridder/core/geometric_objects.py:SectorSquare"]}
{"id": "C95", "title": "Numbers as base of a 2D stack give the documented line", "statement": "MeshStack2D on an array of numbers uses a straight line with one node per number, along Z for axis 0, Y for axis 1 and X for axis 2, perpendicular to the stacking axis; a PolyData gives its first line, anything else raises ValueError.", "quantifier": "every array of two or more numbers, every axis", "why_tests_cant": "All arrays and axes; the tests use the default axis.", "anchors": ["pvgridder/core/stack.py:MeshStack2D.__init__"]}
{"id": "C96", "title": "A generated 2D stack is the stack of its items", "statement": "The mesh generated by MeshStack2D has one slab per item after the first: its nodes lie at the requested fractions between the two surfaces around it and over the nodes of the line; each cell carries its layer, its column, its item and a group code that stands for the name the group argument gives to its column; the table of groups is dense and without unused names.", "quantifier": "every line, axis, direction, sequence of add calls, subdivisions and groups", "why_tests_cant": "All sequences of calls and sizes; the tests check counts and volumes.", "anchors": ["pvgridder/core/stack.py:MeshStack2D.generate_mesh", "pvgridder/core/_base.py:MeshStackBase._generate_mesh"]}
{"id": "C97", "title": "A generated 3D stack is the stack of its items", "statement": "The mesh generated by MeshStack3D has one slab per item after the first: its nodes lie at the requested fractions between the two surfaces around it; each cell carries its layer, its column, its item and a group code that stands for the name the group argument gives to its column.", "quantifier": "every structured surface, axis, direction, sequence of add calls, subdivisions and groups", "why_tests_cant": "All sequences of calls and sizes; the tests check counts and volumes.", "anchors": ["pvgridder/core/stack.py:MeshStack3D.generate_mesh", "pvgridder/core/_base.py:MeshStackBase._generate_mesh"]}
{"id": "C98", "title": "A generated extrusion is the sequence of its items", "statement": "The mesh generated by MeshExtrude has one slab per add call, with the nodes at the requested fractions between the surfaces before and after the call; each cell carries its layer, column, item and the group its column has by the group argument.", "quantifier": "every structured surface, every sequence of vectors, scales, rotations, subdivisions and groups", "why_tests_cant": "All sequences of calls and sizes.", "anchors": ["pvgridder/core/extrude.py:MeshExtrude.generate_mesh"]}
{"id": "C99", "title": "Scalars give the heights of the generated mesh", "statement": "In a mesh generated from a stack of scalars z0, a1, ..., am, the node over a point of the base at position t of the subdivision of item k lies at z0 + |a1| + ... + |a(k-1)| + t |ak| (minus when stacked downwards) and above that point of the base.", "quantifier": "every base, axis, direction, list of scalars and subdivisions, with minimum thicknesses not above the thicknesses", "why_tests_cant": "All real heights and subdivisions, from the constructor to the mesh.", "anchors": ["pvgridder/core/_base.py:MeshStackBase.add", "pvgridder/core/stack.py:MeshStack2D.generate_mesh", "pvgridder/core/stack.py:MeshStack3D.generate_mesh"]}
{"id": "C100", "title": "Stacks and extrusions accept exactly surfaces as base", "statement": "MeshStack3D on a structured grid is accepted exactly when the axis is 0, 1 or 2 and the grid has one node along that axis and several along the two others; MeshExtrude exactly when the grid is a surface; MeshStack2D only for axes 0, 1 and 2. Everything else raises ValueError.", "quantifier": "every structured grid, every integer axis", "why_tests_cant": "All dimensions and axes.", "anchors": ["pvgridder/core/stack.py:MeshStack3D.__init__", "pvgridder/core/extrude.py:MeshExtrude.__init__", "pvgridder/core/_base.py:MeshStackBase.__init__"]}
{"id": "C101", "title": "add_plane adds the requested plane", "statement": "MeshStack3D.add_plane(angles, point) adds an item on the base mesh whose nodes lie on the plane through the given point obtained from the horizontal plane by the given rotation.", "quantifier": "every base mesh, axis, point and rotation (angles below 90 degrees)", "why_tests_cant": "All real angles and points; the tests do not look at the heights.", "anchors": ["pvgridder/core/stack.py:MeshStack3D.add_plane"]}
{"id": "C102", "title": "add_plane does not modify its arguments", "statement": "MeshStack3D.add_plane leaves the angles and the point passed by the caller unchanged.", "quantifier": "every angles and point, given as list, tuple or array", "why_tests_cant": "All arguments; an effect on the caller's data.", "anchors": ["pvgridder/core/stack.py:MeshStack3D.add_plane"]}
{"id": "C103", "title": "Generated meshes hide exactly their collapsed cells", "statement": "In a mesh generated by a stack or an extrusion, a cell is hidden (ghost flag 32) exactly when its area or volume is zero, or when the cell of the base mesh it comes from is; without hidden cells there may be no ghost array.", "quantifier": "every base, sequence of calls, subdivision and group", "why_tests_cant": "All sequences of calls and all geometries; the flags go through copying, merging and cleaning.", "anchors": ["pvgridder/core/_base.py:MeshStackBase._generate_mesh", "pvgridder/core/_base.py:MeshBase._clean", "pvgridder/core/extrude.py:MeshExtrude.generate_mesh"]}
{"id": "C104", "title": "A 2D stack with transitions joins lines of different sizes", "statement": "After set_transition the next item of MeshStack2D is joined to the one before it by triangles filling the outline of the two lines, whatever the numbers of their points; the other items remain strips of quads. The triangles have their own layer, column -1, the item and the group of the add call, and share the nodes of both lines.", "quantifier": "every line, sequence of add and set_transition calls, subdivisions and groups", "why_tests_cant": "All sequences of calls and sizes; a test checks one transition.", "anchors": ["pvgridder/core/stack.py:MeshStack2D.set_transition", "pvgridder/core/stack.py:MeshStack2D._transition", "pvgridder/core/_base.py:MeshStackBase._generate_mesh"]}
{"id": "C105", "title": "A Voronoi mesh has one cell per active point", "statement": "The mesh returned by VoronoiMesh2D.generate_mesh has one cell per point that is not covered by a later item, in order, except those whose region has fewer than three vertices left once close vertices are merged. The group of a cell is the name its point has by the group argument, its label or the default; X, Y, Z are the coordinates of the point; its corners bound the part of its region inside the background mesh. Fused cells become their outline with the data of the first.", "quantifier": "every background mesh, list of items, groups, priorities, fused sets and options", "why_tests_cant": "All meshes and item lists; the data go through sorting, deactivation, averaging, clipping, fusing and cleaning.", "anchors": ["pvgridder/core/voronoi.py:VoronoiMesh2D.generate_mesh"]}
{"id": "C106", "title": "A Voronoi cell is the part of its region inside the boundary", "statement": "Each cell of a Voronoi mesh is a simple polygon: the part of the region of its point inside the background mesh.", "quantifier": "every region and boundary, with holes and corners", "why_tests_cant": "All shapes of boundaries; the tests use rectangles.", "anchors": ["pvgridder/core/voronoi.py:VoronoiMesh2D.generate_mesh"]}
{"id": "C107", "title": "All parts of the background mesh are covered by Voronoi cells", "statement": "If the background mesh has several connected parts, the Voronoi mesh covers all of them.", "quantifier": "every background mesh", "why_tests_cant": "All numbers of parts; the tests use connected meshes.", "anchors": ["pvgridder/core/voronoi.py:VoronoiMesh2D.generate_mesh"]}
{"id": "C108", "title": "Holes are found in every plane", "statement": "extract_boundary_polygons(with_holes=True) returns each outer ring with its holes, in whatever plane the mesh lies, and a Voronoi mesh along any axis respects the holes of its background mesh.", "quantifier": "every plane, every set of rings", "why_tests_cant": "All planes and shapes; the tests use the plane z = 0.", "anchors": ["pvgridder/utils/_misc.py:extract_boundary_polygons", "pvgridder/core/voronoi.py:VoronoiMesh2D.generate_mesh"]}
{"id": "C109", "title": "The default infinity is far enough", "statement": "Without the argument infinity, the vertices that close unbounded Voronoi regions lie beyond all points, so that each region contains its point.", "quantifier": "every set of points", "why_tests_cant": "All real coordinates; nearly aligned points are not tested.", "anchors": ["pvgridder/core/voronoi.py:VoronoiMesh2D._generate_voronoi_tesselation"]}
{"id": "C110", "title": "Voronoi meshes do not depend on positions along the discarded axis", "statement": "The mesh generated by VoronoiMesh2D(mesh, axis) only depends on the coordinates of the background mesh and of the items across the axis: which items are inside, which points they replace and the cells are the same wherever the meshes are along the axis.", "quantifier": "every background mesh (image data, rectilinear, structured, unstructured, polydata), item list and axis", "why_tests_cant": "All positions and classes of meshes; the tests have everything at 0.", "anchors": ["pvgridder/core/voronoi.py:VoronoiMesh2D.__init__", "pvgridder/core/voronoi.py:VoronoiMesh2D.add", "pvgridder/core/voronoi.py:VoronoiMesh2D.generate_mesh"]}
{"id": "C111", "title": "VoronoiMesh2D.add leaves its argument as it was", "statement": "VoronoiMesh2D.add(mesh_or_points) does not modify the dataset or the array of the caller; the points of the item are those of the argument, at 0 along the axis.", "quantifier": "every dataset, list and array", "why_tests_cant": "All arguments; an effect on the caller's data that results do not show.", "anchors": ["pvgridder/core/voronoi.py:VoronoiMesh2D.add", "pvgridder/core/_base.py:MeshBase._check_point_array"]}
{"id": "C112", "title": "Polylines added together are added like one by one", "statement": "VoronoiMesh2D.add_polyline on a mesh with several polylines appends the items of the polylines added one after the other with the same arguments: for each polyline the inner cells of its band with the group and the priority, and its constraint cells without group.", "quantifier": "every list of polylines, width, padding, preference, constraint and resolution", "why_tests_cant": "All lists of polylines; variables of the loop keep their values from one polyline to the next.", "anchors": ["pvgridder/core/voronoi.py:VoronoiMesh2D.add_polyline"]}
{"id": "C113", "title": "Surface nodes inherit the data of the line point they come from", "statement": "Each node of the surface generated between two lines carries the point data of the point of the first line it comes from, in whatever order the points of the line are stored.", "quantifier": "every line mesh, plane, number of subdivisions and data array", "why_tests_cant": "All orders of points and sizes; the tests use points in order.", "anchors": ["pvgridder/core/_helpers.py:generate_surface_from_two_lines", "pvgridder/core/geometric_objects.py:StructuredSurface"]}
{"id": "C114", "title": "StructuredSurface without lines is the unit square of its plane", "statement": "StructuredSurface(plane=plane) without lines returns the unit square of the requested plane.", "quantifier": "every plane and resolution", "why_tests_cant": "All planes and resolutions; the tests use the default plane.", "anchors": ["pvgridder/core/geometric_objects.py:StructuredSurface"]}
{"id": "C115", "title": "A line through the mesh is cut at the faces it crosses", "statement": "The polyline returned by intersect_polyline for a line that crosses the mesh has all the points where the line crosses faces, in order, and the part between two crossings names the cell the line is in.", "quantifier": "every mesh, every polyline with any number of vertices, any number of cells crossed", "why_tests_cant": "All shapes and sizes of cells and all lines; the tests cross regular grids.", "anchors": ["pvgridder/utils/_misc.py:intersect_polyline"]}
{"id": "C116", "title": "A line that comes back into the mesh is intersected again", "statement": "If a line leaves the mesh and enters it again, the parts of the second passage name the cells they are in.", "quantifier": "every mesh and every line, with any number of passages", "why_tests_cant": "All numbers of passages; the tests use one passage.", "anchors": ["pvgridder/utils/_misc.py:intersect_polyline"]}
{"id": "C117", "title": "intersect_polyline follows the line through its vertices", "statement": "Every vertex of the input line is a point of the polyline returned by intersect_polyline, so that the lengths add up to the length of the line.", "quantifier": "every mesh and every polyline, with vertices outside and inside of the mesh", "why_tests_cant": "All positions of vertices; the tests use straight lines.", "anchors": ["pvgridder/utils/_misc.py:intersect_polyline"]}
{"id": "C118", "title": "Lines given segment by segment are followed to their end", "statement": "intersect_polyline gives the same result for a line given as one cell per segment as for the same line given as a polyline.", "quantifier": "every line of any number of segments", "why_tests_cant": "The behaviour changes above 1000 segments; the tests use a few.", "anchors": ["pvgridder/utils/_misc.py:intersect_polyline"]}
{"id": "C119", "title": "Volume rejects surfaces that do not match", "statement": "Volume(surface_a, surface_b) raises ValueError unless the surfaces have the same kind, numbers of points and cells, and cells of the same types that join the same nodes.", "quantifier": "every pair of structured or unstructured surfaces, with any numbers of points and cells", "why_tests_cant": "All pairs of meshes; the tests pass matching surfaces.", "anchors": ["pvgridder/core/_helpers.py:generate_volume_from_two_surfaces", "pvgridder/core/geometric_objects.py:Volume"]}
{"id": "C120", "title": "Shapes that share a boundary have the same nodes on it", "statement": "Two shapes made with the same radius, angles, sizes, subdivision and method of the boundary between them have the same nodes on it: Sector and AnnularSector, two AnnularSectors, AnnularSector and SectorRectangle (twice the subdivisions), SectorRectangle or RectangleSector and Rectangle, two Rectangles; so that merging them gives a conforming mesh.", "quantifier": "all radii, sizes, centres, integer resolutions and spacing methods", "why_tests_cant": "The positions are real numbers that depend on all parameters; a mesh with nodes that do not match passes every count-based test.", "anchors": ["pvgridder/core/geometric_objects.py:Sector", "pvgridder/core/geometric_objects.py:AnnularSector", "pvgridder/core/geometric_objects.py:SectorRectangle", "pvgridder/core/geometric_objects.py:RectangleSector", "pvgridder/core/geometric_objects.py:Rectangle", "pvgridder/examples/examples.py:load_well_2d"]}
{"id": "C121", "title": "The volume over a polygon is one closed polyhedron", "statement": "Volume(Polygon(points), Polygon(points) moved up by 1) is one closed, consistently oriented polyhedron whose points are the given ones and their translates, with one side per edge; the half stadium of every resolution and the L-shaped example are such prisms with outward base and top.", "quantifier": "all outlines of three points or more; every resolution of the half stadium from 1 on", "why_tests_cant": "All outlines and resolutions; the tests use the default resolution.", "anchors": ["pvgridder/examples/examples.py:load_half_stadium", "pvgridder/examples/examples.py:load_concave_polyhedron", "pvgridder/core/geometric_objects.py:Polygon", "pvgridder/core/_helpers.py:generate_volume_from_two_surfaces"]}
{"id": "C122", "title": "A transition given by a number resamples the base line", "statement": "set_transition(n) makes the next item a transition to a line of n segments of equal length along the current base line, from its first to its last point; on a base of increasing numbers it is the base MeshStack2D makes of np.linspace(first, last, n + 1). Negative numbers are rejected.", "quantifier": "every stack, base line and integer n", "why_tests_cant": "All lines and numbers of segments; the tests use one straight line.", "anchors": ["pvgridder/core/stack.py:MeshStack2D.set_transition", "pvgridder/core/geometric_objects.py:RegularLine"]}
{"id": "C123", "title": "RegularLine returns as many points as documented", "statement": "RegularLine(points, resolution) returns resolution points, by default as many as given, so that a line that is evenly spaced already is returned unchanged by default.", "quantifier": "every line and resolution", "why_tests_cant": "All lines and resolutions; the tests do not compare with the documentation.", "anchors": ["pvgridder/core/geometric_objects.py:RegularLine"]}
{"id": "C124", "title": "A stack of profiles has its horizons where the profiles say", "statement": "A mesh stacked bottom-up from profiles (functions of the position, heights or thicknesses) is generated whenever its group arguments fit; the nodes over a base point lie on the line along the axis through it, at the chosen fractions between the heights of the two surfaces around, where the height of a surface is the one added, first raised to keep its minimum thickness over the surface before it if its priority is lower, then lowered to the next surface as added less its minimum thickness if that one has no lower priority.", "quantifier": "every base line, structured or unstructured surface, every list of profiles with any priorities and minimum thicknesses, all subdivisions", "why_tests_cant": "All real functions and numbers of layers; the tests look at shapes.", "anchors": ["pvgridder/core/stack.py:MeshStack2D", "pvgridder/core/stack.py:MeshStack3D", "pvgridder/core/_base.py:MeshStackBase.add", "pvgridder/core/_base.py:MeshStackBase.generate_mesh"]}
{"id": "C125", "title": "A stacked section can be extruded", "statement": "Every mesh generated by MeshStack2D is accepted by MeshExtrude; the extruded mesh has the section as its first surface and names its cells by the groups of the section where the arguments of the extrusion give no other name.", "quantifier": "every 2D stack along every axis, every list of extrusions", "why_tests_cant": "All pairs of generated sections and extrusions.", "anchors": ["pvgridder/core/stack.py:MeshStack2D", "pvgridder/core/extrude.py:MeshExtrude"]}
{"id": "C126", "title": "The anticlines of the examples are what they look like", "statement": "load_anticline_2d returns 41 columns of 14 layers in 5 groups between horizons at 0, cos x + 1, cos x + 1.5, cos x + 2, min(cos x + 2.5, 3.4) and 3.4, and load_anticline_3d returns ten slices of it along y; their cells carry their group, their layer (slice) and their column (cell of the section).", "quantifier": "all columns, layers and slices; all versions of the underlying line mesh", "why_tests_cant": "The tests compare with checksums of the result, whatever it is.", "anchors": ["pvgridder/examples/examples.py:load_anticline_2d", "pvgridder/examples/examples.py:load_anticline_3d"]}
{"id": "C127", "title": "The well of the examples conforms", "statement": "load_well_2d, and every mesh assembled like it from a sector, annular sectors around it, a SectorRectangle and three rectangles whose radii and resolutions match, covers its square; no node of one part lies on another part, in the same quarter or another, without being a node of that part; and its cells carry the group their part was added with, in a table that numbers the groups used without gaps.", "quantifier": "all radii, numbers of rings, sizes, resolutions and group names that match; all parts of the four quarters", "why_tests_cant": "The tests compare with checksums of the one example; conformity of all such assemblies is over real numbers.", "anchors": ["pvgridder/examples/examples.py:load_well_2d", "pvgridder/core/geometric_objects.py:Sector", "pvgridder/core/geometric_objects.py:AnnularSector", "pvgridder/core/geometric_objects.py:SectorRectangle", "pvgridder/core/geometric_objects.py:Rectangle", "pvgridder/core/merge.py:MeshMerge"]}
{"id": "C128", "title": "The cells of a plane shape are convex and all turn the same way", "statement": "The cells of Rectangle, Sector, AnnularSector, SectorRectangle, RectangleSector and of load_well_2d are convex, and within one mesh all list their corners in the same direction (all counterclockwise or all clockwise seen from above).", "quantifier": "all sizes, radii, angles, resolutions and subdivision methods", "why_tests_cant": "Orientation of every cell for all real sizes; the tests look at counts and checksums.", "anchors": ["pvgridder/core/geometric_objects.py:Rectangle", "pvgridder/core/geometric_objects.py:Sector", "pvgridder/core/geometric_objects.py:AnnularSector", "pvgridder/core/geometric_objects.py:SectorRectangle", "pvgridder/core/geometric_objects.py:RectangleSector", "pvgridder/examples/examples.py:load_well_2d"]}
{"id": "C129", "title": "The faces listed for extruded cells point outwards", "statement": "extract_cell_geometry lists the faces of the triangles, quadrilaterals and pixels extruded along a vector, and of the cells of a cylindrical shell, so that their normals point out of the cell.", "quantifier": "all horizontal surfaces with convex cells, all vectors that are not horizontal, all subdivisions, all cells; all radii, heights and angles of shells", "why_tests_cant": "A statement about signs for all real coordinates; the tests compare numbers of faces.", "anchors": ["pvgridder/utils/_misc.py:extract_cell_geometry", "pvgridder/core/_helpers.py:generate_volume_from_two_surfaces", "pvgridder/core/geometric_objects.py:CylindricalShellSector", "pvgridder/core/geometric_objects.py:CylindricalShell"]}
{"id": "C130", "title": "The well of the examples in 3D is the 2D well, extruded, with its core on top", "statement": "load_well_3d, and the same calls on every mesh whose cells are in groups, with any vectors, numbers of layers and groups to drop, succeeds: it returns one prism per layer and cell below, and one prism per layer and cell that is not dropped above, each in the group of its cell, at the depth and along the vectors given, conforming between the two parts. On the 704 cells of load_well_2d that is 7328 cells. If no cell is in a group to drop, the calls raise KeyError.", "quantifier": "every mesh of supported cells with groups, every depth, two vectors, two numbers of layers, list of groups; all orders in which VTK appends", "why_tests_cant": "All meshes and numbers; the tests only check that the example runs.", "anchors": ["pvgridder/examples/examples.py:load_well_3d", "pvgridder/core/extrude.py:MeshExtrude", "pvgridder/core/_base.py:MeshBase._initialize_group_array"]}
{"id": "C131", "title": "The cells of a stacked section fill it without gaps or overlaps", "statement": "The cells of a mesh stacked by MeshStack2D from profiles fill exactly the section between its first and its last surface: every point of it is in a cell, no cell reaches outside, two cells of a column meet only in the row of nodes between them, and cells of different columns only on the line through the nodes between them.", "quantifier": "every base line, every axis, every list of profiles with any priorities and minimum thicknesses, all subdivisions", "why_tests_cant": "A statement about all real points of the section; the tests look at shapes and checksums.", "anchors": ["pvgridder/core/stack.py:MeshStack2D", "pvgridder/core/_base.py:MeshStackBase.generate_mesh", "pvgridder/core/_helpers.py:generate_surface_from_two_lines"]}
{"id": "C132", "title": "The cells of an extruded mesh fill what the surface sweeps out", "statement": "The cells MeshExtrude makes over each cell of a plane surface of unstructured cells, extruded along vectors to one side of the plane, fill exactly the region that cell sweeps out along the vectors, without gaps; two of them meet only where the cells of the surface meet, and only in the same layer or on the surface between two consecutive layers.", "quantifier": "every plane surface of triangles, quads, pixels and convex polygons, every plane, every list of vectors to one side of it, all subdivisions and groups", "why_tests_cant": "A statement about all real points of the swept region; the tests look at checksums of node coordinates.", "anchors": ["pvgridder/core/extrude.py:MeshExtrude", "pvgridder/core/_helpers.py:generate_volume_from_two_surfaces"]}
{"id": "C133", "title": "Group selections that do not fit the mesh are rejected", "statement": "A group dictionary is applied to a mesh unless one of its entries does not fit: a mask of another size or an index out of range raises IndexError, an array that is neither of booleans nor of integers ValueError, and a group name KeyError if the mesh has no groups or the name is neither one of its labels that are not ignored, nor in use before, nor the key of an earlier entry. The first such entry decides which error is raised; otherwise nothing is raised.", "quantifier": "every mesh, table, group argument and list of ignored groups", "why_tests_cant": "All combinations of entries; the tests try a few valid dictionaries.", "anchors": ["pvgridder/core/_base.py:MeshBase._initialize_group_array"]}
{"id": "C134", "title": "Cell data of the base mesh are carried to the cells over it", "statement": "Every cell array of the base mesh, but those the generator writes itself (LayerId, ColumnId, StackItem or ExtrudeItem, CellGroup, vtkGhostType), is a cell array of the mesh generated by MeshStack2D, MeshStack3D or MeshExtrude, and each cell has the value of the base cell it lies over.", "quantifier": "every base mesh with any cell arrays, every axis, every list of items, all subdivisions", "why_tests_cant": "All arrays and meshes; the tests use base meshes without cell data.", "anchors": ["pvgridder/core/stack.py:MeshStack2D", "pvgridder/core/stack.py:MeshStack3D", "pvgridder/core/extrude.py:MeshExtrude", "pvgridder/core/_helpers.py:generate_surface_from_two_lines", "pvgridder/core/_helpers.py:generate_volume_from_two_surfaces", "pvgridder/utils/_misc.py:merge"]}
{"id": "C135", "title": "The cells of a 3D stack fill the body between its surfaces", "statement": "The cells MeshStack3D makes from profiles over each cell of its base surface fill exactly the column over that cell between the first and the last surface; two of them meet only on the surface between them, and each lies over its base cell, seen along the stacking axis, so that cells of different columns meet only over points the base cells share.", "quantifier": "every base surface, structured (of quads convex along the axis) or unstructured (of triangles; the filling for all cells), every axis, every list of profiles with any priorities and minimum thicknesses, all subdivisions and groups", "why_tests_cant": "A statement about all real points of the body; the tests look at shapes and checksums.", "anchors": ["pvgridder/core/stack.py:MeshStack3D", "pvgridder/core/_base.py:MeshStackBase.generate_mesh", "pvgridder/core/_helpers.py:generate_volume_from_two_surfaces"]}
{"id": "C136", "title": "Cells of a stacked or extruded mesh know their neighbours", "statement": "On a mesh made by MeshStack3D or MeshExtrude from an unstructured surface, get_neighborhood returns, unless the mesh is a single layer of cells that do not touch, and then lists as neighbours of a cell the cells of its layer over the base cells sharing an edge with its own (once per common edge), the cell above it and the cell below it in its column (once each), and nothing else.", "quantifier": "every surface of triangles, quads, pixels and polygons whose edges belong to at most two cells, every axis, every list of profiles or vectors, all subdivisions and groups", "why_tests_cant": "All meshes and all pairs of cells; the tests count neighbours of small grids.", "anchors": ["pvgridder/utils/_connectivity.py:get_neighborhood", "pvgridder/utils/_misc.py:extract_cell_geometry", "pvgridder/core/stack.py:MeshStack3D", "pvgridder/core/extrude.py:MeshExtrude"]}
{"id": "C137", "title": "A surface given at the nodes of the base is stacked as it is", "statement": "A dataset or array of points given to add that has a point over every node of the base mesh gives the stack the heights of these points: whatever the other arguments, the stack is the one that the function with these heights gives. So load_topographic_terrain returns a mesh of ten layers whose nodes lie at the logarithmic positions between the height 0 (or the terrain, where that is lower) and the terrain.", "quantifier": "every base mesh, axis and direction, every list of surfaces mixing numbers, functions, datasets and arrays, every option; for the example, every structured surface in place of the downloaded one", "why_tests_cant": "All point sets and all nodes; the example needs a download and is not tested.", "anchors": ["pvgridder/core/_base.py:MeshStackBase.add", "pvgridder/core/_base.py:MeshStackBase._interpolate", "pvgridder/examples/examples.py:load_topographic_terrain"]}
{"id": "C138", "title": "Cells of a structured mesh have the neighbours of their position", "statement": "On a structured grid of dimension 2 or 3, get_neighborhood lists as neighbours of every visible cell the visible cells next to it along each axis, once each, and nothing for hidden cells; with remove_ghost_cells, only neighbours across a face of positive size, and without it hidden cells count like any other. If no face has zero size it returns exactly when two visible cells are next to each other. get_connectivity links the same pairs by one line each.", "quantifier": "every shape of structured grid of dimension 2 or 3, every set of hidden cells leaving one visible, both values of remove_ghost_cells", "why_tests_cant": "All shapes and all pairs of cells; the tests count neighbours of small grids.", "anchors": ["pvgridder/utils/_connectivity.py:get_neighborhood", "pvgridder/utils/_connectivity.py:get_connectivity", "pvgridder/utils/_misc.py:extract_cell_geometry"]}
{"id": "C139", "title": "The areas of the cells add up to the area of the shape", "statement": "The areas of the cells of Rectangle add up to dx dy, those of Sector and AnnularSector to less than the area of the sector or ring, which they approach with the square of the number of steps (to within r2 t3 / (12 N2) for N equal steps over the angle t), those of SectorRectangle and RectangleSector to the difference between the rectangle and the polygon of the quarter disc; none of them depends on the radial subdivision. The areas of the cells MeshStack2D makes for one item between two points of its line add up to the distance of the points times the mean thickness of the item, whatever its subdivision, and those of all items to the area between the first and the last surface.", "quantifier": "all dimensions, angles, radii, centres, subdivisions and spacings; every base line, axis, list of profiles with any priorities and minimum thicknesses", "why_tests_cant": "Exact sums over all real parameters and resolutions; the tests compare checksums of node coordinates for a few of them.", "anchors": ["pvgridder/core/geometric_objects.py:Rectangle", "pvgridder/core/geometric_objects.py:Sector", "pvgridder/core/geometric_objects.py:AnnularSector", "pvgridder/core/geometric_objects.py:SectorRectangle", "pvgridder/core/geometric_objects.py:RectangleSector", "pvgridder/core/stack.py:MeshStack2D"]}
{"id": "C140", "title": "The volumes of the cells of a 3D mesh add up", "statement": "The volumes of the cells MeshStack3D makes over a cell of its base surface add up to the volume between the first and the last surface over that cell: over a triangle its area, seen along the axis, times the mean distance of the surfaces at its corners, over a parallelogram likewise, and over any convex quad of a structured surface the integral of the interpolated distance; every layer of an item takes its share of the volume of the item. Those of a mesh made by MeshExtrude from a plane surface add up to the volume the surface sweeps out, whatever the subdivision.", "quantifier": "every base surface of triangles or, if structured, of quads that are convex or triangles with a double corner, every axis, every list of profiles with any priorities and minimum thicknesses, all subdivisions; every plane surface and every list of vectors to one side of it", "why_tests_cant": "Exact sums of volumes over all real coordinates and resolutions; the tests compare checksums of node coordinates.", "anchors": ["pvgridder/core/stack.py:MeshStack3D", "pvgridder/core/extrude.py:MeshExtrude", "pvgridder/core/_base.py:MeshStackBase.generate_mesh", "pvgridder/core/_helpers.py:generate_volume_from_two_surfaces"]}
{"id": "C141", "title": "The volumes of the cells of a cylindrical shell add up", "statement": "The volumes of the cells of CylindricalShellSector, and of CylindricalShell, add up to the height times the area of the polygonal ring through their nodes, so to the height times (R2 - r2) / 2 times the sum of the sines of the steps, if every step is less than a half turn; this does not depend on the radial and vertical subdivisions and spacings. It is less than the volume of the piece of the shell, and with N equal steps over the angle t it is within (R2 - r2) t3 / (12 N2) times the height of it. A full shell made in one or two steps has no volume.", "quantifier": "all radii (inner radius 0 included), angles, heights, centres, subdivisions and spacings", "why_tests_cant": "Exact sums of volumes over all real parameters and resolutions; the tests compare checksums of node coordinates for a few of them.", "anchors": ["pvgridder/core/geometric_objects.py:CylindricalShell", "pvgridder/core/geometric_objects.py:CylindricalShellSector", "pvgridder/core/_helpers.py:generate_volume_from_two_surfaces"]}
{"id": "C142", "title": "The cells of the plane shapes and of shells fill them without overlaps", "statement": "The cells of Rectangle fill the rectangle, and two of them share at most an edge. Those of Sector, AnnularSector and Annulus over at most a full turn, in steps of less than a half turn, fill the polygon or polygonal ring through their outer nodes: they cover every point of the shape that is not beyond the chord of its step, and no point beyond the outer circle; two cells share at most an edge of a ring, an edge on a ray (the first and the last of a full turn on the first ray), or the centre. The cells of CylindricalShellSector and CylindricalShell are the prisms over the cells of such a ring between levels that rise from half the height below the centre to half the height above it. Over more than a full turn cells overlap: five quarter turns make the first cells twice.", "quantifier": "all dimensions (negative sides of rectangles included), radii (inner radius 0 included), angles, heights, centres, subdivisions and spacings", "why_tests_cant": "A statement about all real points of the shape; the tests compare checksums of node coordinates.", "anchors": ["pvgridder/core/geometric_objects.py:Rectangle", "pvgridder/core/geometric_objects.py:Sector", "pvgridder/core/geometric_objects.py:AnnularSector", "pvgridder/core/geometric_objects.py:Annulus", "pvgridder/core/geometric_objects.py:CylindricalShell", "pvgridder/core/geometric_objects.py:CylindricalShellSector"]}
{"id": "C143", "title": "The cells of a quadrilateral fill it without overlaps", "statement": "The nodes of Quadrilateral are the bilinear interpolations of its four points at the fractions of the two subdivisions, and the corners of the mesh are the points in the order given, the first two along the first direction. The cells fill the quadrilateral, in the plane and in space, and if it is convex seen along some axis, two cells share at most an edge. In the plane the areas of the cells of a convex quadrilateral add up to its area, half the product of its diagonals, whatever the subdivisions. The points must be given around the quadrilateral: those of a parallelogram given row by row, as numpy orders the nodes of a grid, make all nodes of the middle row coincide if the second direction is cut into an even number of equal parts.", "quantifier": "every four points in the plane or in space, all centres, subdivisions and spacings", "why_tests_cant": "A statement about all real points of the shape; the tests compare checksums of node coordinates.", "anchors": ["pvgridder/core/geometric_objects.py:Quadrilateral", "pvgridder/core/_helpers.py:generate_surface_from_two_lines", "pvgridder/core/_helpers.py:generate_line_from_two_points"]}
{"id": "C144", "title": "The cells between a rectangle and a quarter disc fill the space between them", "statement": "The cells of the two halves of SectorRectangle share at most edges, cover every point of the rectangle that is not in the quarter disc, and no point outside the rectangle or closer to the centre than the chord of its step. Those of RectangleSector, if the rectangle does not reach beyond the height and width of the point of the arc at 45 degrees, share at most edges, cover every point of the quarter disc outside the rectangle that is closer to the centre than the chords, and no point inside the rectangle or outside the disc.", "quantifier": "all radii, sides, centres, subdivisions and spacings", "why_tests_cant": "A statement about all real points of the shape; the tests compare checksums of node coordinates.", "anchors": ["pvgridder/core/geometric_objects.py:SectorRectangle", "pvgridder/core/geometric_objects.py:RectangleSector", "pvgridder/core/_helpers.py:generate_surface_from_two_lines", "pvgridder/core/_helpers.py:generate_arc"]}
{"id": "C145", "title": "Polygon fills the outline of a dataset", "statement": "A shell or hole can be given as a dataset instead of an array: a polydata with lines stands for the points along its line, any other mesh for its outline. The result, and all calls of Gmsh, are the same as for the array of these points, whether the line returns to its first point or not. In particular a closed line given segment by segment (as split_lines and merge_lines return lines) encloses the same polygon, and a mesh with a hole gives a polygon with this hole.", "quantifier": "all datasets with lines and all other meshes, as shell and as holes, all options", "why_tests_cant": "Unboundedly many lines, points and boundaries; the tests use convex polygons with one boundary each.", "anchors": ["pvgridder/core/geometric_objects.py:Polygon", "pvgridder/utils/_misc.py:split_lines", "pvgridder/utils/_misc.py:extract_boundary_polygons"]}
{"id": "C146", "title": "SectorRectangle and RectangleSector are one mesh without a seam", "statement": "SectorRectangle and RectangleSector return one strip of quads: with n and n' parts along the two edges of the rectangle and m parts in radial direction there are (n+n'+1)(m+1) points, no two of them at the same place, and (n+n')m cells, each with the four corners of its position in the strip. The points of the diagonal, which both halves of the construction have, are there once, and cells on both sides use them; no other points are joined.", "quantifier": "all radii, sides, centres, subdivisions and spacings", "why_tests_cant": "Unboundedly many subdivisions; the tests compare checksums of node coordinates and cell areas.", "anchors": ["pvgridder/core/geometric_objects.py:SectorRectangle", "pvgridder/core/geometric_objects.py:RectangleSector"]}
{"id": "C147", "title": "get_neighborhood finds the neighbours in SectorRectangle and RectangleSector", "statement": "get_neighborhood of the result of SectorRectangle or RectangleSector returns, and lists for every cell the cells next to it in the strip, along the rows and across them, each once, and no others, also across the diagonal where the halves were joined, with and without remove_ghost_cells.", "quantifier": "all radii, sides, centres, subdivisions and spacings; both values of remove_ghost_cells", "why_tests_cant": "Unboundedly many subdivisions; no test calls get_neighborhood on these shapes.", "anchors": ["pvgridder/core/geometric_objects.py:SectorRectangle", "pvgridder/core/geometric_objects.py:RectangleSector", "pvgridder/utils/_misc.py:get_neighborhood"]}
{"id": "C148", "title": "The areas of load_well_2d", "statement": "The areas of the cells of load_well_2d add up to 400, the area of the square of side 20, those of the group Core to the area of the regular polygon with 32 corners and circumradius 0.34, those of Casing and Cement to the areas between such polygons of radius 0.34, 0.445 and 1, and those of Matrix to the rest of the square. In general the areas of a well made in the same way, from a sector, rings, a SectorRectangle and three rectangles whose numbers fit, add up to the square of its width, and those of each group to the areas of its parts.", "quantifier": "all radii, numbers of rings, sides and resolutions that fit together", "why_tests_cant": "Unboundedly many rings and resolutions, exact areas; the test compares a checksum of the example.", "anchors": ["pvgridder/examples/examples.py:load_well_2d", "pvgridder/core/merge.py:MeshMerge", "pvgridder/core/geometric_objects.py:SectorRectangle"]}
{"id": "C149", "title": "The cells of load_well_2d fill the square", "statement": "The cells of load_well_2d together fill the square of side 20 around the well exactly: every point of the square is in some cell, also where the polygons of the rings, the lines of SectorRectangle and the rectangles of different resolutions meet and where the four rotated quarters meet, and no cell has a point outside the square. The same holds for every well made in the same way, from a sector, rings, a SectorRectangle and three rectangles whose numbers fit.", "quantifier": "all radii, numbers of rings, sides and resolutions that fit together; all points of the square", "why_tests_cant": "A statement about all real points of the square and unboundedly many rings and resolutions; the test compares a checksum of the example.", "anchors": ["pvgridder/examples/examples.py:load_well_2d", "pvgridder/core/merge.py:MeshMerge", "pvgridder/core/geometric_objects.py:SectorRectangle", "pvgridder/core/geometric_objects.py:AnnularSector", "pvgridder/core/geometric_objects.py:Sector"]}
{"id": "C150", "title": "The cells of load_well_2d do not overlap", "statement": "No two cells of load_well_2d share any area: wherever two of its 704 cells lie, also in different rings, different parts or different rotated quarters, they have no disc or square of positive size in common. The same holds for every well made in the same way, from a sector, rings, a SectorRectangle and three rectangles whose numbers fit.", "quantifier": "all pairs of cells; all radii, numbers of rings, sides and resolutions that fit together", "why_tests_cant": "A statement about all real points and unboundedly many rings, resolutions and pairs of cells; the test compares a checksum of the example.", "anchors": ["pvgridder/examples/examples.py:load_well_2d", "pvgridder/core/merge.py:MeshMerge", "pvgridder/core/geometric_objects.py:SectorRectangle", "pvgridder/core/geometric_objects.py:AnnularSector", "pvgridder/core/geometric_objects.py:Sector"]}
{"id": "C151", "title": "The cells of load_well_3d fill the block and the casing above it", "statement": "The cells of load_well_3d together fill exactly the block of side 20 around the well from depth 30 up to 0, and above it, up to height 3, the part over the cells of the groups Core and Casing of load_well_2d: every point of that region is in some cell, also where layers, parts and rotated quarters meet, and no cell has a point outside. In general the cells of a mesh extruded along two vectors, with some groups dropped from the second part, fill what the base sweeps out along the first vector and what the rest of the base sweeps out along the second from there.", "quantifier": "all points of space; for the general part all meshes, vectors, numbers of layers and groups to drop", "why_tests_cant": "A statement about all real points and unboundedly many cells and layers; the test compares a checksum of the example.", "anchors": ["pvgridder/examples/examples.py:load_well_3d", "pvgridder/examples/examples.py:load_well_2d", "pvgridder/core/extrude.py:MeshExtrude"]}
{"id": "C152", "title": "The cells of load_well_3d do not overlap", "statement": "No two of the 7328 cells of load_well_3d share any volume: they have no cube of positive size in common, also in different layers, in the two parts of the extrusion or in different rotated quarters. In general no two cells of a vertical extrusion in two parts share volume, if no two cells of its base share area.", "quantifier": "all pairs of cells; for the general part all flat meshes whose cells share no area, heights, numbers of layers and groups to drop", "why_tests_cant": "A statement about all real points and unboundedly many pairs of cells; the test compares a checksum of the example.", "anchors": ["pvgridder/examples/examples.py:load_well_3d", "pvgridder/examples/examples.py:load_well_2d", "pvgridder/core/extrude.py:MeshExtrude"]}
{"id": "C153", "title": "The volumes of load_well_3d", "statement": "The volumes of the cells of load_well_3d in the groups Core and Casing add up to 33 times, those in Cement and Matrix to 30 times the area of the group in load_well_2d: with S = 16 sin(pi/16), the area of the regular polygon with 32 corners and radius 1, they are 33*0.34^2*S, 33*(0.445^2-0.34^2)*S, 30*(1-0.445^2)*S and 30*(400-S). Each cell has the volume of the thickness of its layer, 3 below and 1 above, times the area of its base.", "quantifier": "all cells; all orders in which VTK appends; for the volume of a cell all heights, numbers of layers and flat bases", "why_tests_cant": "Exact real volumes, summed over unboundedly many layers and cells in general; the test compares a checksum of the example.", "anchors": ["pvgridder/examples/examples.py:load_well_3d", "pvgridder/examples/examples.py:load_well_2d", "pvgridder/core/extrude.py:MeshExtrude"]}
