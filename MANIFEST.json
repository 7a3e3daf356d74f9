{
 "claims": [
  {
   "property": "C01",
   "status": "proved",
   "theorems": [
    "C01_group_numbers"
   ],
   "note": ""
  },
  {
   "property": "C02",
   "status": "proved",
   "theorems": [
    "C02_every_cell_has_a_group",
    "C02_size_only",
    "C02_bad_mask_rejected",
    "C02_default_name"
   ],
   "note": "Covers every kind of group argument; CellGroup arrays are assumed to have one entry per cell (a VTK invariant)."
  },
  {
   "property": "C03",
   "status": "proved",
   "theorems": [
    "C03_group_precedence"
   ],
   "note": "Precedence is unconditional; what entries given by name select is C04, complemented callables returning indices C05."
  },
  {
   "property": "C04",
   "status": "partial",
   "theorems": [
    "C04_name_selection_partial",
    "C04_name_selection_refuted",
    "C04_ignored_refuted"
   ],
   "note": "False in general: names are looked up in the numbering being built, not in the base mesh table. Proved for base tables numbered 0,1,2,... with nothing ignored."
  },
  {
   "property": "C05",
   "status": "partial",
   "theorems": [
    "C05_complement_partial",
    "C05_complement_refuted"
   ],
   "note": "False for a callable returning indices (bitwise not of indices). Proved for every other kind of selection."
  },
  {
   "property": "C06",
   "status": "proved",
   "theorems": [
    "C06_simultaneous_substitution",
    "C06_rejected",
    "remapCategorical_spec"
   ],
   "note": "For keys standing for different old values and a one-to-one label table."
  },
  {
   "property": "C07",
   "status": "partial",
   "theorems": [
    "C07_labels_preserved_partial",
    "C07_partial_mapping_refuted",
    "getCellGroup_spec"
   ],
   "note": "False for mappings covering only part of the values in use (their labels are dropped). Proved when all values in use are covered."
  },
  {
   "property": "C08",
   "status": "proved",
   "theorems": [
    "C08_clean",
    "C08_get_cell_group"
   ],
   "note": ""
  },
  {
   "property": "C09",
   "status": "proved",
   "theorems": [
    "C09_merge_keeps_labels"
   ],
   "note": "pv.merge is any function returning a permutation of the concatenated cells."
  },
  {
   "property": "C10",
   "status": "partial",
   "theorems": [
    "C10_second_call_partial",
    "C10_second_call_refuted"
   ],
   "note": "False in general: generate_mesh overwrites CellGroup of the items but not their tables. Proved for unlabelled items and for items sharing a dense table."
  },
  {
   "property": "C11",
   "status": "proved",
   "theorems": [
    "C11_integer_resolution"
   ],
   "note": ""
  },
  {
   "property": "C12",
   "status": "proved",
   "theorems": [
    "C12_log_spacing"
   ],
   "note": ""
  },
  {
   "property": "C13",
   "status": "proved",
   "theorems": [
    "C13_explicit_or_rejected"
   ],
   "note": ""
  },
  {
   "property": "C14",
   "status": "proved",
   "theorems": [
    "C14_line_from_two_points"
   ],
   "note": ""
  },
  {
   "property": "C15",
   "status": "proved",
   "theorems": [
    "C15_surface_nodes"
   ],
   "note": ""
  },
  {
   "property": "C16",
   "status": "partial",
   "theorems": [
    "C16_surface_cell_data_partial",
    "C16_surface_by_position",
    "C16_transposed_general_refuted",
    "C16_transposed_plane_refuted",
    "C16_single_polyline_cell_refuted"
   ],
   "note": "False for the transposed planes yx, zx, zy (data are tiled along the wrong axis) and for a line given as one polyline cell (number of rows does not match). Proved for xy, xz, yz with one row per segment; for every plane it is proved which segment each cell takes its data from (C16_surface_by_position)."
  },
  {
   "property": "C17",
   "status": "partial",
   "theorems": [
    "C17_structured_volume_partial",
    "C17_single_cell_vector_refuted"
   ],
   "note": "False for vector data on a grid of one cell (squeeze drops the row). Proved otherwise."
  },
  {
   "property": "C18",
   "status": "partial",
   "theorems": [
    "C18_structured_merge_partial",
    "C18_vector_data_refuted"
   ],
   "note": "False for vector cell data (reshape fails). Proved for scalar cell data."
  },
  {
   "property": "C19",
   "status": "partial",
   "theorems": [
    "C19_ids_layer_major",
    "C19_structured_ids_partial",
    "C19_axis1_refuted",
    "C19_stack2d_axis0_refuted"
   ],
   "note": "Proved for unstructured grids and for structured grids whose cells VTK lists layer by layer; false for structured bases along axis 0 or 1 otherwise."
  },
  {
   "property": "C20",
   "status": "proved",
   "theorems": [
    "C20_unstructured_extrusion"
   ],
   "note": "Read back from the flat cell array with an independent reader."
  },
  {
   "property": "C21",
   "status": "proved",
   "theorems": [
    "C21_polyhedra_closed"
   ],
   "note": ""
  },
  {
   "property": "C22",
   "status": "partial",
   "theorems": [
    "C22_outward_normals_partial",
    "C22_outward_iff",
    "C22_inward_refuted",
    "C22_reflex_refuted",
    "C22_collinear_refuted"
   ],
   "note": "Proved when the corner at the second vertex turns as the whole polygon does (convex_corner: convex polygons) and the polygon is moved by one vector; C22_outward_iff is the exact condition; false for every polygon whose second corner turns the other way and for every clockwise one whose first three vertices are on a line."
  },
  {
   "property": "C23",
   "status": "partial",
   "theorems": [
    "C23_unstructured_partial",
    "C23_coincident_hidden",
    "C23_structured_hidden",
    "C23_surface_hidden",
    "C23_magnitude_refuted",
    "C23_sublayer_refuted"
   ],
   "note": "Structured: hidden exactly where VTK reports zero size. Unstructured: exactly where the first sublayer is within numpy tolerance, which is relative to the coordinates, so thick cells far from the origin are hidden; all copies follow the first sublayer."
  },
  {
   "property": "C24",
   "status": "partial",
   "theorems": [
    "C24_inputs_unchanged_partial",
    "C24_polygon_refuted"
   ],
   "note": "False for polygons that get reversed: faces[0] is a view of the connectivity of the input. Proved without polygons or with inversion disabled."
  },
  {
   "property": "C25",
   "status": "proved",
   "theorems": [
    "C25_cell_types"
   ],
   "note": ""
  },
  {
   "property": "C26",
   "status": "proved",
   "theorems": [
    "C26_scalar_heights"
   ],
   "note": ""
  },
  {
   "property": "C27",
   "status": "partial",
   "theorems": [
    "C27_min_thickness_partial",
    "C27_decreasing_priorities",
    "C27_default_iff",
    "C27_heights",
    "C27_order_iff",
    "C27_three_surfaces_refuted"
   ],
   "note": "False with three or more surfaces when a later cut moves a surface already checked. Proved for the last pair cut, for priorities that decrease upwards, and exactly when it holds, for all priorities, with the heights in closed form (C27_heights, C27_order_iff; C27_default_iff for default priorities)."
  },
  {
   "property": "C28",
   "status": "partial",
   "theorems": [
    "C28_top_down_partial",
    "C28_never_repairs",
    "C28_crossing_refuted",
    "C28_thickness_refuted"
   ],
   "note": "Top-down stacks use the bottom-up sign, so crossing surfaces and the minimum thickness are mishandled; proved what does hold, and that at every node the surfaces come out in order exactly when they were before."
  },
  {
   "property": "C29",
   "status": "proved",
   "theorems": [
    "C29_step",
    "C29_priority_stays"
   ],
   "note": ""
  },
  {
   "property": "C30",
   "status": "partial",
   "theorems": [
    "C30_repeat_partial",
    "C30_decreasing",
    "C30_default_iff",
    "C30_refuted"
   ],
   "note": "Generation stores the cut surfaces, so a second call can differ; proved when the first call leaves nothing to cut, which under default priorities is also necessary."
  },
  {
   "property": "C31",
   "status": "partial",
   "theorems": [
    "C31_transition_partial",
    "C31_scalar_refuted"
   ],
   "note": "Proved for arguments other than scalars; a scalar after a transition is added to the previous item mesh, not to the transition."
  },
  {
   "property": "C32",
   "status": "proved",
   "theorems": [
    "C32_cumulative"
   ],
   "note": "Rotation is an oracle: the closed form covers steps without rotation."
  },
  {
   "property": "C33",
   "status": "proved",
   "theorems": [
    "C33_face_tables"
   ],
   "note": ""
  },
  {
   "property": "C34",
   "status": "partial",
   "theorems": [
    "C34_faces_partial",
    "C34_right_iff",
    "C34_mesh_edges",
    "C34_mesh_faces",
    "C34_single_cell_refuted",
    "C34_all_hidden_refuted"
   ],
   "note": "Raises KeyError if all cells are hidden. A column of cell ids that is constant is dropped when faces of zero size are removed, so a single cell with such a face loses its id. Proved for all meshes without faces of zero size, and with them exactly under the condition of C34_right_iff."
  },
  {
   "property": "C35",
   "status": "partial",
   "theorems": [
    "C35_returned_partial",
    "C35_neighborhood_partial",
    "C35_three_cells_refuted"
   ],
   "note": "Whatever is returned is right for every mesh in which no face of positive size belongs to more than two cells; it may raise instead (exactly when: C37_returns_iff). With a face of three cells and a face of zero size, a wrong answer can come back."
  },
  {
   "property": "C36",
   "status": "partial",
   "theorems": [
    "C36_returned_partial",
    "C36_connectivity_partial",
    "C35_three_cells_refuted"
   ],
   "note": "As C35."
  },
  {
   "property": "C37",
   "status": "partial",
   "theorems": [
    "C37_returns_iff",
    "C37_crowded_face",
    "C37_total_partial",
    "C37_single_cell_refuted",
    "C37_three_cells_refuted",
    "C37_unsupported_type_refuted"
   ],
   "note": "False for meshes without shared faces, with an edge shared by three cells, and with unsupported 3D cells; the exact condition for returning is proved when no face of positive size belongs to more than two cells."
  },
  {
   "property": "C38",
   "status": "proved",
   "theorems": [
    "C38_flatten_roundtrip",
    "C38_connectivity"
   ],
   "note": ""
  },
  {
   "property": "C39",
   "status": "proved",
   "theorems": [
    "C39_split_lines"
   ],
   "note": ""
  },
  {
   "property": "C40",
   "status": "proved",
   "theorems": [
    "C40_merge_lines",
    "C40_split_merge"
   ],
   "note": "The result before the final merge_points(), a VTK filter that only renumbers coincident points."
  },
  {
   "property": "C41",
   "status": "proved",
   "theorems": [
    "C41_decimate_rdp",
    "C41_negative_tolerance"
   ],
   "note": "Polylines of at least two points, result before the final clean(); the recursion depth available is at least the number of points."
  },
  {
   "property": "C42",
   "status": "proved",
   "theorems": [
    "C42_reconstruct",
    "C42_no_better_reversal"
   ],
   "note": "start between 0 and n - 1."
  },
  {
   "property": "C43",
   "status": "partial",
   "theorems": [
    "C43_terminates_partial",
    "C43_zero_tolerance_refuted",
    "C43_coincident_refuted"
   ],
   "note": "False for tolerance 0 (any points) and for coincident points or a single point (any tolerance): the loop never ends. Proved for positive tolerances and points that do not all coincide."
  },
  {
   "property": "C44",
   "status": "proved",
   "theorems": [
    "C44_chains",
    "C44_any_order"
   ],
   "note": "For every enumeration of the close pairs; before the final clean()."
  },
  {
   "property": "C45",
   "status": "proved",
   "theorems": [
    "C45_means",
    "C45_mesh"
   ],
   "note": "Before the final clean()."
  },
  {
   "property": "C46",
   "status": "proved",
   "theorems": [
    "C46_faces",
    "C46_total",
    "C46_lines_rejected"
   ],
   "note": "Before the final clean()."
  },
  {
   "property": "C47",
   "status": "partial",
   "theorems": [
    "C47_distance_partial",
    "C47_nan_refuted",
    "C47_every_polygon_refuted",
    "C47_zero_distance"
   ],
   "note": "False for every polygon at some places, when the sum used as area, which counts the closing edge twice, is 0 (nan). Proved otherwise, at corners that do not turn back."
  },
  {
   "property": "C48",
   "status": "partial",
   "theorems": [
    "C48_outwards_partial",
    "C48_outwards_iff",
    "C48_every_polygon_refuted",
    "C48_far_refuted"
   ],
   "note": "The closing edge is counted twice. Exact: outwards if and only if the sum has the sign of the area; every polygon whose first and last vertices differ has a place where it is offset in the wrong direction."
  },
  {
   "property": "C49",
   "status": "partial",
   "theorems": [
    "C49_plane_partial",
    "C49_height_refuted"
   ],
   "note": "The coordinate normal to the plane is reset to 0; proved that the result is planar and normal to the same axis."
  },
  {
   "property": "C50",
   "status": "partial",
   "theorems": [
    "C50_orientation_partial",
    "C50_orientation_iff",
    "C50_vertices",
    "C50_every_cell_refuted",
    "C50_away_from_origin_refuted"
   ],
   "note": "The signed area of the first three vertices is computed without its closing edge. Exact: right if and only if that sum has the sign of the area (or is 0 and the cell is already right); every cell whose first and third vertices differ has a place where both orientations are wrong."
  },
  {
   "property": "C51",
   "status": "partial",
   "theorems": [
    "C51_every_ring_once",
    "C51_group_members",
    "C51_shells_partial",
    "C51_islands_refuted"
   ],
   "note": "False with islands inside holes; proved without."
  },
  {
   "property": "C52",
   "status": "proved",
   "theorems": [
    "C52_quadraticize",
    "C52_total",
    "C52_other_cells_rejected"
   ],
   "note": ""
  },
  {
   "property": "C53",
   "status": "partial",
   "theorems": [
    "C53_by_dimension_partial",
    "C53_partition",
    "C53_default",
    "C53_method_rejected",
    "C53_dimensions",
    "C53_convex_point_set_refuted",
    "C53_empty_cells_refuted"
   ],
   "note": "False with empty cells: method lower keeps them although keep_empty_cells is false. Convex point sets (VTK type 41) have dimension 0 in the table instead of 3. Proved for all other meshes."
  },
  {
   "property": "C54",
   "status": "proved",
   "theorems": [
    "C54_extract_cells"
   ],
   "note": ""
  },
  {
   "property": "C55",
   "status": "partial",
   "theorems": [
    "C55_restored_partial",
    "C55_no_failure",
    "C55_lost_refuted"
   ],
   "note": "False when the computation raises (for example a flat polyhedron with the tetra method): no try/finally, the ghost array is lost. Proved whenever the call returns."
  },
  {
   "property": "C56",
   "status": "proved",
   "theorems": [
    "C56_toggle"
   ],
   "note": ""
  },
  {
   "property": "C57",
   "status": "proved",
   "theorems": [
    "C57_consistent",
    "C57_segments"
   ],
   "note": "For arbitrary answers of the geometric queries; the inner loop is bounded by an arbitrary number of turns (a run that takes more is not a result)."
  },
  {
   "property": "C58",
   "status": "partial",
   "theorems": [
    "C58_outside_partial",
    "C115_through_partial",
    "C58_boundary_refuted",
    "C58_inside_refuted",
    "C77_from_inside_refuted"
   ],
   "note": "False for lines that start on the boundary of the mesh or inside it: the first segment inside is lost. Proved for lines without a vertex near an intersection, as far as labels go."
  },
  {
   "property": "C59",
   "status": "proved",
   "theorems": [
    "C59_order",
    "C59_items",
    "C59_new",
    "C59_background"
   ],
   "note": "Containment (VTK find_containing_cell) is an arbitrary predicate per item."
  },
  {
   "property": "C60",
   "status": "proved",
   "theorems": [
    "C60_aligned",
    "C60_no_average"
   ],
   "note": "For every increasing list of surviving regions, as average_points returns (C46); before the optional fusing and clean()."
  },
  {
   "property": "C61",
   "status": "partial",
   "theorems": [
    "C61_inside_partial",
    "C61_outside_refuted"
   ],
   "note": "False for items that lie entirely outside: all their centres are used. Proved for items with at least one centre inside."
  },
  {
   "property": "C62",
   "status": "proved",
   "theorems": [
    "C62_point_arrays",
    "C62_translate"
   ],
   "note": ""
  },
  {
   "property": "C63",
   "status": "partial",
   "theorems": [
    "C63_sector",
    "C63_sector_exists",
    "C63_circle",
    "C63_annularSector",
    "C63_annularSector_exists",
    "C63_annulus",
    "C63_shell",
    "C63_shell_exists",
    "C63_sectorRectangle_nodes",
    "C63_rectangleSector_nodes",
    "C63_sectorRectangle_conform",
    "C63_rectangleSector_conform_partial",
    "C63_sectorRectangle_exists",
    "C63_rectangleSector_exists",
    "C63_rectangleSector_refuted"
   ],
   "note": "Proved for sectors, circles, annuli, shells and SectorRectangle. False for RectangleSector: its halves share the diagonal only when it is in a square; otherwise they overlap."
  },
  {
   "property": "C64",
   "status": "partial",
   "theorems": [
    "C64_radii_partial",
    "C64_rectangleSector_refuted"
   ],
   "note": "False for RectangleSector and SquareSector, which accept any radius. Proved for all other objects."
  },
  {
   "property": "C65",
   "status": "proved",
   "theorems": [
    "C65_curved_line"
   ],
   "note": "Over the reals."
  },
  {
   "property": "C66",
   "status": "proved",
   "theorems": [
    "C66_regular_line",
    "C66_empty"
   ],
   "note": "Over the reals; repeated points and missing resolution included."
  },
  {
   "property": "C67",
   "status": "partial",
   "theorems": [
    "C67_line_partial",
    "C67_surface_partial",
    "C67_inner_node_refuted",
    "C67_reversed_data_refuted",
    "C67_extrapolation_name_refuted"
   ],
   "note": "Only the first and last base nodes are compared with the data, data from right to left are rejected and any extrapolation name is accepted in 2D stacks. Proved for increasing data lines; for 3D stacks relative to scipy."
  },
  {
   "property": "C68",
   "status": "proved",
   "theorems": [
    "C68_same_ring",
    "C68_polygon",
    "C68_holes",
    "C68_celltype",
    "C68_single_point"
   ],
   "note": ""
  },
  {
   "property": "C69",
   "status": "partial",
   "theorems": [
    "C69_close_partial",
    "C69_no_failure",
    "C69_close_refuted"
   ],
   "note": "False if initialize itself fails: clear raises in the finally block and finalize is not called. Proved for every other failure."
  },
  {
   "property": "C70",
   "status": "proved",
   "theorems": [
    "C70_faces",
    "C70_edges",
    "C70_none"
   ],
   "note": "Cells found by VTK, normals and centres are arbitrary inputs; lines have two points each. Exact arithmetic."
  },
  {
   "property": "C71",
   "status": "proved",
   "theorems": [
    "C71_fuse_cells",
    "C71_rejected"
   ],
   "note": "The outline of each group is given (its extraction is VTK); result before the final clean()."
  },
  {
   "property": "C72",
   "status": "proved",
   "theorems": [
    "C72_cells",
    "C72_partition",
    "C72_size",
    "C72_band"
   ],
   "note": ""
  },
  {
   "property": "C73",
   "status": "partial",
   "theorems": [
    "C73_xy_partial",
    "C73_xz_refuted",
    "C73_yz_refuted",
    "C73_invalid_view"
   ],
   "note": "False in the xz and yz views: the clicked polygon is compared with the x and y coordinates. Proved for the xy views, for any containment test."
  },
  {
   "property": "C74",
   "status": "partial",
   "theorems": [
    "C74_method_honoured_partial",
    "C74_version_refuted"
   ],
   "note": "False from VTK 9.10 on: versions are compared as strings. Proved for all 9.0 to 9.9 versions."
  },
  {
   "property": "C75",
   "status": "proved",
   "theorems": [
    "C75_centroid",
    "C75_any_first_node",
    "C75_translation"
   ],
   "note": ""
  },
  {
   "property": "C76",
   "status": "partial",
   "theorems": [
    "C76_lines_partial",
    "C76_polygons_refuted"
   ],
   "note": "Polygons are dropped; proved for the lines."
  },
  {
   "property": "C77",
   "status": "partial",
   "theorems": [
    "C77_labels_partial",
    "C115_through_partial",
    "C115_into_partial",
    "C77_inside_refuted",
    "C77_entry_refuted",
    "C77_from_inside_refuted",
    "C77_inside_into_refuted"
   ],
   "note": "False for every line that starts in a cell and leaves it by its first segment for another cell (general theorem), and for lines whose first segment ends in the first cell. Proved: a label other than -1 is a cell met or containing the end of the segment; all labels are right for lines that enter the mesh once, cross its faces one at a time, and leave it or end in the next cell."
  },
  {
   "property": "C78",
   "status": "partial",
   "theorems": [
    "C78_outside_partial",
    "C115_through_partial",
    "C115_into_partial",
    "C78_last_refuted"
   ],
   "note": "False for lines that end inside the mesh, on a segment contained in one cell. Proved for lines that miss the mesh, go through it, or end in it on a segment that crosses a face."
  },
  {
   "property": "C79",
   "status": "partial",
   "theorems": [
    "C79_segments_partial",
    "C79_total",
    "C57_segments",
    "C79_polyline_refuted"
   ],
   "note": "IndexError for a line given as one polyline cell with data. Proved for one value per segment."
  },
  {
   "property": "C80",
   "status": "proved",
   "theorems": [
    "C80_regions",
    "C80_ridges",
    "C80_outward"
   ],
   "note": "Qhull is an input: every ridge has a finite vertex, and infinite ridges belong to hull edges. Angles are arbitrary numbers."
  },
  {
   "property": "C81",
   "status": "partial",
   "theorems": [
    "C81_items_partial",
    "C81_bisector",
    "C81_large_refuted",
    "C81_invalid",
    "C81_default"
   ],
   "note": "False for constraint_radius >= 2 radius, which is refused. Proved below that."
  },
  {
   "property": "C82",
   "status": "proved",
   "theorems": [
    "C82_outline_gmsh",
    "C82_outline_occ"
   ],
   "note": "For every sequence of tags Gmsh returns."
  },
  {
   "property": "C83",
   "status": "partial",
   "theorems": [
    "C83_centre_partial",
    "C83_shell_refuted"
   ],
   "note": "False for cylindrical shells and a centre with two components (IndexError)."
  },
  {
   "property": "C84",
   "status": "partial",
   "theorems": [
    "C84_shell_partial",
    "C84_rectangle_nodes",
    "C84_rectangle_refuted",
    "C63_annulus",
    "C63_circle"
   ],
   "note": "False for Rectangle and Square, whose center is their first corner."
  },
  {
   "property": "C85",
   "status": "partial",
   "theorems": [
    "C85_theta_method_partial",
    "C85_theta_method_refuted"
   ],
   "note": "False for methods other than constant: the arcs ignore theta_method."
  },
  {
   "property": "C86",
   "status": "proved",
   "theorems": [
    "C86_turns_evenly"
   ],
   "note": "Over the reals."
  },
  {
   "property": "C87",
   "status": "partial",
   "theorems": [
    "C87_conversion_partial",
    "C87_numbering_refuted"
   ],
   "note": "False if node tags have gaps: tags are ignored. Proved for nodes numbered 1, 2, ... in order."
  },
  {
   "property": "C88",
   "status": "partial",
   "theorems": [
    "C88_session_partial",
    "C88_session_refuted"
   ],
   "note": "False: the session is always finalised. Proved when the caller has none."
  },
  {
   "property": "C89",
   "status": "partial",
   "theorems": [
    "C89_axis_refuted",
    "C81_items_partial"
   ],
   "note": "False for axes 0 and 1: the circle is flattened onto a line. For axis 2 see C81."
  },
  {
   "property": "C90",
   "status": "partial",
   "theorems": [
    "C90_plain_partial",
    "C90_plain_refuted"
   ],
   "note": "False for a centre outside the plane of the mesh. Proved for a centre in it (axis 2)."
  },
  {
   "property": "C91",
   "status": "partial",
   "theorems": [
    "C91_nodes",
    "C91_band_partial",
    "C91_bend_refuted",
    "C91_exists"
   ],
   "note": "False at bends, where the sides come closer than half the width. Proved on straight runs; the nodes are given in full."
  },
  {
   "property": "C92",
   "status": "partial",
   "theorems": [
    "C92_centres",
    "C92_point_refuted",
    "C92_cell_partial"
   ],
   "note": "False: with the default resolution point adds the middles of the segments and cell adds (for evenly spaced points) the points."
  },
  {
   "property": "C93",
   "status": "proved",
   "theorems": [
    "C93_options"
   ],
   "note": "For every behaviour of Gmsh, on successful runs."
  },
  {
   "property": "C94",
   "status": "proved",
   "theorems": [
    "C94_circle",
    "C94_annulus",
    "C94_shell",
    "C94_square",
    "C94_squareSector",
    "C94_sectorSquare",
    "C94_volume"
   ],
   "note": "Over the reals; Circle before clean() merges the two coincident ends."
  },
  {
   "property": "C95",
   "status": "partial",
   "theorems": [
    "C95_number_base_partial",
    "C95_documented_axis_refuted",
    "C95_other_bases"
   ],
   "note": "False for axes 0 and 1: the line is along Y and Z instead of Z and Y. Proved for axis 2, and that the line is perpendicular to the stacking axis."
  },
  {
   "property": "C96",
   "status": "partial",
   "theorems": [
    "C96_stack2d_partial",
    "C96_stack2d_by_position",
    "C96_labels_iff",
    "C96_axis0_refuted"
   ],
   "note": "False for axis 0 with several segments and sublayers, where layers, columns and groups are scrambled. Proved for every other case without transitions; over the reals. For every axis: nodes, items, and the segment each cell takes its data from (C96_stack2d_by_position); layers and columns are right exactly when the axis is not 0, or there is one segment or one sublayer (C96_labels_iff)."
  },
  {
   "property": "C97",
   "status": "partial",
   "theorems": [
    "C97_stack3d_partial",
    "C97_unstructured_partial",
    "C97_labels_iff",
    "C97_axis0_refuted"
   ],
   "note": "Structured surfaces along any axis, and unstructured surfaces of triangles, polygons, pixels and quads (given that pv.merge appends each mesh once and that clean moves points by a relation R and unites coincident ones). On structured surfaces nodes, items, groups and hidden flags are right along every axis; layer and column labels of an item are right exactly when the axis is 2, or 1 with one row of cells, or the surface has one cell, or the item one sublayer (C97_labels_iff)."
  },
  {
   "property": "C98",
   "status": "partial",
   "theorems": [
    "C98_extrude_partial",
    "C98_unstructured_partial",
    "C98_labels_iff",
    "C98_flat_axis0_refuted"
   ],
   "note": "Structured surfaces flat along any axis, and unstructured ones as in C97. Layer and column labels on structured surfaces are right exactly in the cases of C98_labels_iff, everything else always."
  },
  {
   "property": "C99",
   "status": "partial",
   "theorems": [
    "C99_scalar_stack2d_partial",
    "C99_scalar_stack3d_partial",
    "C99_scalar_unstructured_partial"
   ],
   "note": "No exception for the axis; vector data on the cells are excluded. On unstructured surfaces also exactly which cells are hidden: those of an item whose first sublayer is not thicker than the tolerance of numpy at its height."
  },
  {
   "property": "C100",
   "status": "proved",
   "theorems": [
    "C100_stack3d",
    "C100_extrude",
    "C100_axis"
   ],
   "note": "Structured grids with at least one node along each axis."
  },
  {
   "property": "C101",
   "status": "partial",
   "theorems": [
    "C101_plane_partial",
    "C101_sine_slope_refuted"
   ],
   "note": "Proved: on the base mesh, through the point, affine, horizontal along the rotation axis. False: the slope is the sine of the angle instead of its tangent, so no node off the height of the point is on the rotated plane."
  },
  {
   "property": "C102",
   "status": "partial",
   "theorems": [
    "C102_arguments_partial",
    "C102_angles_refuted"
   ],
   "note": "False for arrays: the component along the stacking axis is set to zero in the array of the caller."
  },
  {
   "property": "C103",
   "status": "partial",
   "theorems": [
    "C103_stack2d_partial",
    "C103_stack3d_partial",
    "C103_extrude_partial",
    "C103_unstructured_partial",
    "C103_transition_unflagged",
    "C103_transition_refuted"
   ],
   "note": "False for 2D stacks with a transition: the merged mesh keeps no ghost flags. Along axis 0 the flags of the line go to the wrong cells if there are several segments and sublayers; on structured surfaces areas and volumes are an oracle assumed to depend only on the corners of the cell; on unstructured ones the criterion is the height of the first sublayer, and vtkGhostType is assumed to be appended like other arrays."
  },
  {
   "property": "C104",
   "status": "partial",
   "theorems": [
    "C104_transition_partial",
    "C104_mask_both",
    "C104_mask_refuted",
    "C104_axis0_refuted"
   ],
   "note": "Stacking along y and z; false along x, where layers and columns of the strips are mixed up. False for masks: the groups of a transition are applied to the segments below and to the triangles, so a mask can fit only if there are as many of both. pv.merge, clean and the triangulation are oracles; that the triangles fill the outline is C87."
  },
  {
   "property": "C105",
   "status": "proved",
   "theorems": [
    "C105_mesh",
    "C105_regions",
    "C105_fuse",
    "C105_invalid"
   ],
   "note": "Qhull, the search of close points, shapely and VTK are oracles with stated assumptions (a region per point, valid polygons, cleaning moves corners at most by a relation R). Which points are active is C59. Orientation is C50."
  },
  {
   "property": "C106",
   "status": "partial",
   "theorems": [
    "C106_one_ring_partial",
    "C106_rings_refuted"
   ],
   "note": "Proved when the part inside the boundary is one ring. False with several rings: the coordinates of all rings are concatenated into one cell."
  },
  {
   "property": "C107",
   "status": "partial",
   "theorems": [
    "C107_first_partial",
    "C107_other_parts_refuted",
    "C107_two_parts_refuted"
   ],
   "note": "False: only the first outline is used; cells of points in other parts have no corners."
  },
  {
   "property": "C108",
   "status": "partial",
   "theorems": [
    "C108_horizontal_partial",
    "C108_vertical_refuted"
   ],
   "note": "Proved in planes z = constant without islands. False in vertical planes: shapely sees areas 0, so no hole is found."
  },
  {
   "property": "C109",
   "status": "partial",
   "theorems": [
    "C109_beyond_partial",
    "C109_distance",
    "C109_default_refuted"
   ],
   "note": "Exact condition on the distance; false for the default distance and three nearly aligned points."
  },
  {
   "property": "C110",
   "status": "partial",
   "theorems": [
    "C110_position_partial",
    "C110_implicit_refuted"
   ],
   "note": "Proved for structured and unstructured grids and polydata, and for meshes at 0. False for image data and rectilinear grids elsewhere: their points are not moved, so no item is found inside and nothing is replaced."
  },
  {
   "property": "C111",
   "status": "partial",
   "theorems": [
    "C111_unchanged_partial",
    "C111_points",
    "C111_array_refuted"
   ],
   "note": "The points are right in all cases. False for arrays of floats with three components: they share memory with the item and their coordinates along the axis become 0."
  },
  {
   "property": "C112",
   "status": "proved",
   "theorems": [
    "C112_one",
    "C112_several"
   ],
   "note": "Over the reals; the polylines are those of split_lines (C39)."
  },
  {
   "property": "C113",
   "status": "partial",
   "theorems": [
    "C113_in_order_partial",
    "C113_reordered_refuted",
    "C113_unused_refuted",
    "C113_transposed_refuted"
   ],
   "note": "Proved for points stored in order and the planes xy, xz, yz. False for other orders (data follow the storage), for lines that do not use all points or are closed (an exception), and for the planes yx, zx, zy."
  },
  {
   "property": "C114",
   "status": "partial",
   "theorems": [
    "C114_unit_square_partial",
    "C114_given",
    "C114_plane_refuted"
   ],
   "note": "Proved for xy and yx. False for the other planes: the default lines are always in the plane z = 0."
  },
  {
   "property": "C115",
   "status": "partial",
   "theorems": [
    "C115_through_partial",
    "C115_into_partial",
    "C115_search",
    "C115_nearest_refuted"
   ],
   "note": "Proved for lines that enter the mesh once, cross its faces one at a time and are found in their first cell, with any number of vertices and cells. False where the cell with the closest centre is not the first one crossed: the cells before it are not noticed."
  },
  {
   "property": "C116",
   "status": "partial",
   "theorems": [
    "C116_reentry_refuted",
    "C116_row_refuted",
    "C115_through_partial"
   ],
   "note": "False for all lines that come back: whatever the mesh, the labels are -1, then cells, then -1. One passage is right under the conditions of C115."
  },
  {
   "property": "C117",
   "status": "partial",
   "theorems": [
    "C117_outer_partial",
    "C117_skipped_refuted",
    "C117_bend_refuted"
   ],
   "note": "Proved for the vertices outside. False for all vertices in the mesh: the result goes straight from crossing to crossing."
  },
  {
   "property": "C118",
   "status": "partial",
   "theorems": [
    "C118_short_partial",
    "C118_long_refuted"
   ],
   "note": "Proved up to 1000 segments. False for longer lines: only the first 1000 segments are used."
  },
  {
   "property": "C119",
   "status": "partial",
   "theorems": [
    "C119_mismatch_partial",
    "C119_cells_refuted",
    "C119_one_cell_refuted"
   ],
   "note": "Proved: other kinds, dimensions, numbers of points, cell types, and numbers of cells other than one are rejected. False for cells of the same types that join other nodes, which are not compared, and for one cell against several, because numpy repeats the array of one type."
  },
  {
   "property": "C120",
   "status": "partial",
   "theorems": [
    "C120_sector_ring",
    "C120_rings",
    "C120_angles",
    "C120_ring_rectangle_partial",
    "C120_rectangles_partial",
    "C120_rectangle_sector_partial",
    "C120_side_by_side",
    "C120_same_method_refuted",
    "C120_rectangle_sector_refuted",
    "C120_ring_rectangle_refuted"
   ],
   "note": "Proved for all pairs with constant spacing, and for all methods where both shapes count in the same direction. SectorRectangle and RectangleSector count their edges from the diagonal, so that a rectangle beside them needs the mirror method (log with log_r); with the same method log it does not fit, nor does a ring, for all sizes."
  },
  {
   "property": "C121",
   "status": "proved",
   "theorems": [
    "C121_prism",
    "C121_half_stadium",
    "C121_concave"
   ],
   "note": "All outlines of three points or more (the outward normals under the exact condition of C22); the half stadium for all resolutions from 1 on."
  },
  {
   "property": "C122",
   "status": "proved",
   "theorems": [
    "C122_resolution",
    "C122_numbers"
   ],
   "note": "Over the reals; what follows a transition is C31 and C104, whose assumption on the new base line is part of the conclusion."
  },
  {
   "property": "C123",
   "status": "partial",
   "theorems": [
    "C123_one_more_refuted",
    "C123_regular_partial"
   ],
   "note": "False for every input: one point more than documented is returned. Proved: an evenly spaced straight line is returned unchanged when the number of its segments is given."
  },
  {
   "property": "C124",
   "status": "partial",
   "theorems": [
    "C124_stack2d_partial",
    "C124_stack3d_partial",
    "C124_unstructured_partial"
   ],
   "note": "Proved for all priorities, scalar cell data on structured bases, triangles, quads, pixels and polygons on unstructured ones; layer, column and group labels are those of C96 and C97. Vector data prevent the mesh (C134)."
  },
  {
   "property": "C125",
   "status": "proved",
   "theorems": [
    "C125_stack_extrude"
   ],
   "note": "What the extruded mesh is, is stated by C98, whose layers and columns are right exactly as in C98_labels_iff."
  },
  {
   "property": "C126",
   "status": "partial",
   "theorems": [
    "C126_anticline2d",
    "C126_horizons",
    "C126_anticline3d_partial",
    "C126_anticline3d_refuted"
   ],
   "note": "Proved: all of the 2D anticline; nodes, groups and items of the 3D one. False: layers and columns of the 3D one, whose first cell of the second slice has layer 0 and column 41."
  },
  {
   "property": "C127",
   "status": "proved",
   "theorems": [
    "C127_conforming",
    "C127_resolutions_needed",
    "C127_groups",
    "C127_load_well"
   ],
   "note": "In exact arithmetic; without the option voronoi. The numbers of the example satisfy the conditions (wellNumbers_fit); that the conditions on the resolutions are needed is C127_resolutions_needed."
  },
  {
   "property": "C128",
   "status": "partial",
   "theorems": [
    "C128_rectangle_partial",
    "C128_sector_partial",
    "C128_annularSector_partial",
    "C128_sectorRectangle_refuted",
    "C128_rectangleSector_refuted",
    "C128_reflex_refuted",
    "C128_well_refuted"
   ],
   "note": "Proved for Rectangle and Sector (counterclockwise) and AnnularSector (clockwise). False for every SectorRectangle and RectangleSector, whose halves turn opposite ways, for RectangleSector with radius between the diagonal and sqrt(2) dx, which has cells that are not convex, and for load_well_2d."
  },
  {
   "property": "C129",
   "status": "partial",
   "theorems": [
    "C129_unstructured_partial",
    "C129_structured_partial",
    "C129_rectangle_partial",
    "C129_shell_refuted"
   ],
   "note": "Proved exactly: outwards if the base turns left seen from the end of the vector, inwards if it turns right; so outwards for extruded rectangles. False for every cell of every cylindrical shell with a hole. Polygons are C22."
  },
  {
   "property": "C130",
   "status": "proved",
   "theorems": [
    "C130_column",
    "C130_nothing_dropped",
    "C130_load_well_3d"
   ],
   "note": "On any mesh with the cells and groups of load_well_2d. The dictionary of groups of the extracted mesh is copied by pyvista and is not modelled (it still lists the dropped group)."
  },
  {
   "property": "C131",
   "status": "partial",
   "theorems": [
    "C131_stack2d_partial",
    "C131_profiles_partial",
    "C131_crossing_refuted"
   ],
   "note": "True when the surfaces come out in order (with C131_profiles_partial: whenever the profiles are in order, each its minimum thickness above the last). False when they cross: the cut pass compares each surface only with the next, so with four surfaces, the third below the others, cells of the first and third layers overlap."
  },
  {
   "property": "C132",
   "status": "proved",
   "theorems": [
    "C132_extruded"
   ],
   "note": "Cells are convex hulls of their nodes. VTK is assumed to append all parts and to merge equal points only (Cleans Eq). Without scaling and rotation."
  },
  {
   "property": "C133",
   "status": "proved",
   "theorems": [
    "C133_rejected"
   ],
   "note": "Exact characterisation. Callables returning anything but an array of booleans or integers are not modelled; CellGroup arrays have one entry per cell (a VTK invariant)."
  },
  {
   "property": "C134",
   "status": "partial",
   "theorems": [
    "C134_stack2d_partial",
    "C134_stack3d_partial",
    "C134_extrude_partial",
    "C134_stack3d_unstructured",
    "C134_extrude_unstructured",
    "C134_axis0_refuted",
    "C134_vector_stack2d_refuted",
    "C134_vector_stack3d_refuted",
    "C134_vector_extrude_refuted"
   ],
   "note": "Proved for scalar arrays on structured bases (2D stacks: axes 1 and 2) and for all arrays on unstructured ones. False along axis 0 in 2D; false for every vector array on a structured base with three or more items, from which no mesh is generated."
  },
  {
   "property": "C135",
   "status": "partial",
   "theorems": [
    "C135_columns_partial",
    "C135_hexahedra_partial",
    "C135_crossing_refuted"
   ],
   "note": "True when the surfaces come out in order over every base point, as C27_order_iff characterises. False when they cross, as for C131. Hexahedra of structured grids are the trilinear images of their corners, cells over unstructured surfaces convex hulls of their nodes (and VTK merges equal points only, Cleans Eq)."
  },
  {
   "property": "C136",
   "status": "partial",
   "theorems": [
    "C136_stack_partial",
    "C136_extruded_partial",
    "C136_pinched_refuted"
   ],
   "note": "True when the surfaces come out strictly one above the other (stacks) or the vectors leave the plane of the surface (extrusions) and no face has zero size. False where a layer above the first pinches out over a cell of a surface of at least two cells: get_neighborhood raises ValueError there, whether or not remove_ghost_cells is set, because the hidden cells of the pinched layer still own the face they have shrunk to. VTK merges equal points only (Cleans Eq)."
  },
  {
   "property": "C137",
   "status": "partial",
   "theorems": [
    "C137_given_surfaces_partial",
    "C137_terrain_partial",
    "C137_oblique_refuted"
   ],
   "note": "True for surfaces not all on one line seen along the axis, and for lines along one coordinate axis given in increasing order, if scipy gives back the data at data points (Reproduces). False for lines given from right to left (C67_reversed_data_refuted) and for lines running obliquely, which are handed to the interpolator for surfaces and fail."
  },
  {
   "property": "C138",
   "status": "proved",
   "theorems": [
    "C138_neighbours",
    "C138_lines"
   ],
   "note": "For every shape, hidden cells included. Which faces have positive size is what VTK computes; it depends on the nodes of a face only (hsym). When faces of zero size are removed, whether the call returns at all is C37_returns_iff."
  },
  {
   "property": "C139",
   "status": "partial",
   "theorems": [
    "C139_rectangle",
    "C139_sector_sum",
    "C139_sector",
    "C139_sector_equal",
    "C139_annularSector_sum",
    "C139_annularSector",
    "C139_annularSector_equal",
    "C139_sectorRectangle",
    "C139_rectangleSector",
    "C139_stack2d_partial",
    "C139_circle_refuted",
    "C139_crossing_refuted"
   ],
   "note": "True for steps of less than a half turn, for subdivisions from 0 to 1, for RectangleSector if the arc leaves the largest square out, and for stacks whose surfaces come out in order. False for circles of one or two parts (area 0) and for surfaces that cross (the areas add up to more)."
  },
  {
   "property": "C140",
   "status": "partial",
   "theorems": [
    "C140_columns_partial",
    "C140_extruded",
    "C140_hexahedra_partial",
    "C140_crossing_refuted"
   ],
   "note": "True for extrusions to one side of the plane, and for stacks whose surfaces come out in order: over triangles of unstructured surfaces and over quads of structured ones that are convex or degenerate, all in closed form. False for surfaces that cross (the volumes add up to more than what the cells fill). Volumes over other polygons of unstructured surfaces are not computed."
  },
  {
   "property": "C141",
   "status": "proved",
   "theorems": [
    "C141_sum",
    "C141_below",
    "C141_equal",
    "C141_coarse"
   ],
   "note": "For every shell the model makes, inner radius 0 and negative heights included (C141_sum); the comparison with the volume of the shell for positive heights."
  },
  {
   "property": "C142",
   "status": "proved",
   "theorems": [
    "C142_rectangle",
    "C142_annularSector",
    "C142_annulus",
    "C142_sector",
    "C142_shell",
    "C142_overlap"
   ],
   "note": "Every subdivision from 0 to 1. The conditions on the angles (at most a full turn, steps of less than a half turn) are part of the property; C142_overlap shows that the first is needed, C141_coarse and C139_circle_refuted the second."
  },
  {
   "property": "C143",
   "status": "proved",
   "theorems": [
    "C143_nodes",
    "C143_tiles",
    "C143_area",
    "C143_order_refuted"
   ],
   "note": "All subdivisions from 0 to 1. C143_order_refuted is about points given in another order, which the property excludes."
  },
  {
   "property": "C144",
   "status": "partial",
   "theorems": [
    "C144_sectorRectangle_partial",
    "C144_rectangleSector_partial",
    "C144_reflex_refuted",
    "late_int"
   ],
   "note": "False for RectangleSector if the rectangle reaches beyond the point of the arc at 45 degrees in some direction: for all sizes and subdivisions a cell then has points inside the rectangle. Proved up to that point. Missing: theta_method log_r of SectorRectangle, where the lines may cut the circle if the subdivision is very fine."
  },
  {
   "property": "C145",
   "status": "partial",
   "theorems": [
    "C145_same_outline_partial",
    "C145_first",
    "C145_segments_refuted",
    "C145_hole_refuted",
    "C145_none"
   ],
   "note": "Proved for one line and for one boundary. False otherwise: only the first line cell and the first boundary are used, so every line given segment by segment gives a polygon of two nodes, and holes and other parts of a mesh are ignored. The boundaries themselves come from VTK."
  },
  {
   "property": "C146",
   "status": "partial",
   "theorems": [
    "C146_sectorRectangle_partial",
    "C146_rectangleSector_partial",
    "joins_exists"
   ],
   "note": "Proved if VTK joins the points at the same place and no others (JoinsEqual, which some join satisfies). Missing: theta_method log_r of SectorRectangle, and RectangleSector whose rectangle reaches beyond the point of the arc at 45 degrees, as for C144."
  },
  {
   "property": "C147",
   "status": "partial",
   "theorems": [
    "C147_sectorRectangle_partial",
    "C147_rectangleSector_partial",
    "strip_neighbours"
   ],
   "note": "Proved in the same cases as C146. Which edges have positive length is what VTK computes; with remove_ghost_cells the edges between different points must have."
  },
  {
   "property": "C148",
   "status": "proved",
   "theorems": [
    "C148_well",
    "C148_load_well",
    "wellQuarter_areas"
   ],
   "note": "In exact arithmetic; without the option voronoi; pv.merge appends the cells in some order."
  },
  {
   "property": "C149",
   "status": "proved",
   "theorems": [
    "C149_well",
    "C149_load_well",
    "C149_quarter"
   ],
   "note": "In exact arithmetic; a cell stands for the convex hull of its corners; without the option voronoi; pv.merge appends the cells in some order. That the cells do not overlap is C150."
  },
  {
   "property": "C150",
   "status": "proved",
   "theorems": [
    "C150_well",
    "C150_load_well",
    "no_overlap"
   ],
   "note": "In exact arithmetic; a cell stands for the convex hull of its corners; without the option voronoi; pv.merge appends the cells in some order."
  },
  {
   "property": "C151",
   "status": "proved",
   "theorems": [
    "C151_column",
    "C151_load_well_3d",
    "column_region"
   ],
   "note": "In exact arithmetic; a cell stands for the convex hull of its corners; without the option voronoi; pv.merge appends the cells in some order and VTK merges only points that are equal; the mesh that is extruded has the corners of the cells of load_well_2d."
  },
  {
   "property": "C152",
   "status": "proved",
   "theorems": [
    "C152_column",
    "C152_load_well_3d",
    "vertical_cell"
   ],
   "note": "In exact arithmetic; a cell stands for the convex hull of its corners; without the option voronoi; pv.merge appends the cells in some order and VTK merges only points that are equal; the mesh that is extruded has the corners of the cells of load_well_2d."
  },
  {
   "property": "C153",
   "status": "proved",
   "theorems": [
    "C153_load_well_3d",
    "vertical_volume",
    "column_volumes",
    "well_exact_area"
   ],
   "note": "In exact arithmetic; a cell stands for the convex hull of its corners, its volume is Lebesgue measure; without the option voronoi; pv.merge appends the cells in some order and VTK merges only points that are equal; the mesh that is extruded has the corners of the cells of load_well_2d."
  }
 ]
}