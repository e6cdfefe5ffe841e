{
 "claims": [
  {
   "property": "C01",
   "status": "proved",
   "theorems": [
    "Malstroem.C01_fill_returns",
    "Malstroem.C01_reads_in_bounds"
   ],
   "note": "Any linear order with top as elevations; IndexError below 2x2."
  },
  {
   "property": "C02",
   "status": "proved",
   "theorems": [
    "Malstroem.C02_fill_ge_dem_edge"
   ],
   "note": ""
  },
  {
   "property": "C03",
   "status": "proved",
   "theorems": [
    "Malstroem.C03_fill_depressionless"
   ],
   "note": ""
  },
  {
   "property": "C04",
   "status": "proved",
   "theorems": [
    "Malstroem.C04_fill_eq_spill_level",
    "Malstroem.C04_fill_lowest_depressionless"
   ],
   "note": ""
  },
  {
   "property": "C05",
   "status": "proved",
   "theorems": [
    "Malstroem.C05_fill_idempotent",
    "Malstroem.C05_fill_monotone",
    "Malstroem.C05_fill_orientation"
   ],
   "note": ""
  },
  {
   "property": "C06",
   "status": "proved",
   "theorems": [
    "Malstroem.C06_noflats_returns_bracketed"
   ],
   "note": "Additions are arbitrary monotone inflationary functions, so float rounding is covered."
  },
  {
   "property": "C07",
   "status": "proved",
   "theorems": [
    "Malstroem.C07_noflats_strictly_downslope"
   ],
   "note": ""
  },
  {
   "property": "C08",
   "status": "proved",
   "theorems": [
    "Malstroem.C08_noflats_cheapest_climb"
   ],
   "note": ""
  },
  {
   "property": "C09",
   "status": "partial",
   "theorems": [
    "Malstroem.C09_compiled_fill_differs",
    "Malstroem.C09_compiled_fill_eq_python_false",
    "Malstroem.C09_compiled_rejects_three_rows",
    "Malstroem.C09_compiled_fill_eq_python_partial",
    "Malstroem.C09_only_next_to_edge_partial",
    "Malstroem.C09_open_edge_partial"
   ],
   "note": "The property is false of the code: negation proved with a witness. Equality holds on DEMs whose cells next to the edge are not lower than some neighbour on the edge (C09_open_edge_partial), and whenever no cell next to the edge is left too high."
  },
  {
   "property": "C10",
   "status": "partial",
   "theorems": [
    "Malstroem.C10_compiled_noflats_differs",
    "Malstroem.C10_compiled_noflats_eq_python_partial",
    "Malstroem.C10_open_edge_partial"
   ],
   "note": "The property is false of the code: witness proved. Equality holds on DEMs with open edges (C10_open_edge_partial) and whenever the compiled result is stable."
  },
  {
   "property": "C100",
   "status": "proved",
   "theorems": [
    "Malstroem.C100_turned",
    "Malstroem.C100_filled",
    "Malstroem.C100_noflats",
    "Malstroem.C100_watershed_false",
    "Malstroem.Float.C100_float",
    "Malstroem.turned_transpose",
    "Malstroem.turned_flipud",
    "Malstroem.turned_fliplr",
    "Malstroem.Spec.Turned.trans"
   ],
   "note": "C100_filled, C100_noflats: both fills, any linear order of elevations. C100_turned: DemTool and BluespotTool in any sound arithmetic; equal volumes (and filters that look at them) without rounding. C100_float: as the program computes. C100_watershed_false shows that watersheds, which the property leaves out, do differ. Python functions; scipy labelling by its contract."
  },
  {
   "property": "C101",
   "status": "proved",
   "theorems": [
    "Malstroem.C101_fill",
    "Malstroem.C101_noflats",
    "Malstroem.C101_fill_compiled",
    "Malstroem.C101_noflats_compiled",
    "Malstroem.C101_trace",
    "Malstroem.C101_accum",
    "Malstroem.C101_watersheds",
    "Malstroem.C101_dem",
    "Malstroem.C101_dem_compiled",
    "Malstroem.C101_bluespots",
    "Malstroem.C101_network",
    "Malstroem.C101_final",
    "Malstroem.C101_complete",
    "Malstroem.C101_complete_levels"
   ],
   "note": "EndsWithin f b r: given b or more runs per loop, f returns r. The number of cells visited by one run is fixed by the code (four sweeps; one cell). Loops over lists (all cells, all edge cells, all bluespots) are recursion over the list in the model; recursion of net.py counts as a loop. scipy labelling is a parameter. C101_complete holds for exact and rounded arithmetic."
  },
  {
   "property": "C102",
   "status": "proved",
   "theorems": [
    "Malstroem.C102_units",
    "Malstroem.C102_levels",
    "Malstroem.C102_moved"
   ],
   "note": "Spec/Units.lean says what a change of units does to each attribute. C102_units: up to the final state, any rounding that commutes with the factors. C102_levels: the whole command in exact arithmetic. The attribute hist_resolution of the background is the constant -1. C102_moved: any elevations, functions and rounding; coordinates are computed exactly in the model."
  },
  {
   "property": "C103",
   "status": "proved",
   "theorems": [
    "Malstroem.C103_portions",
    "Malstroem.C103_together",
    "Malstroem.C103_between",
    "Malstroem.C103_rain_curve",
    "Malstroem.C103_rain_curve_compiled"
   ],
   "note": "C103_portions, C103_together, C103_between: Network.rain_event, any network with distinct ids; the second event of C103_portions has the capacities less the water already held. C103_rain_curve: the complete command as a function of the rain (Spec.RainCurve)."
  },
  {
   "property": "C104",
   "status": "proved",
   "theorems": [
    "Malstroem.C104_volumes",
    "Malstroem.C104_final_state",
    "Malstroem.C104_levels"
   ],
   "note": "NoNumber is null and ASCII text without digits and without the letter n (so not inf or nan), which Python's float rejects. Text that Python would read as a number is an error in the model too (not modelled), which the theorems leave open. Nodes that lead to no root are not looked at by the code (C55)."
  },
  {
   "property": "C105",
   "status": "proved",
   "theorems": [
    "Malstroem.C105_typed_watersheds",
    "Malstroem.C105_same_labels",
    "Malstroem.C105_foreign_unassigned",
    "Malstroem.C105_bluespot_labels",
    "Malstroem.C105_uint64_false"
   ],
   "note": "C105_typed_watersheds decides every case: same labels or OverflowError. C105_uint64_false is a witness that the error occurs for uint64 labels from 2^63 on, where the pure Python function returns."
  },
  {
   "property": "C106",
   "status": "proved",
   "theorems": [
    "Malstroem.Command.C106_only_outputs",
    "Malstroem.Command.C106_other_layers",
    "Malstroem.Command.C106_failed",
    "Malstroem.Command.C106_inputs_decide",
    "Malstroem.Command.C106_order",
    "Malstroem.Command.C106_repeat",
    "Malstroem.Command.C106_failed_false"
   ],
   "note": "Files are as in C87: what GDAL and OGR do inside a file is not modelled. C106_failed_false is a witness that the condition on directories is needed: finalbluespots with both outputs writes the first one before it fails on the second."
  },
  {
   "property": "C107",
   "status": "proved",
   "theorems": [
    "Malstroem.Command.C107_files",
    "Malstroem.Command.C107_any_order",
    "Malstroem.Command.C107_exact"
   ],
   "note": "The computations are sequenceVia, each step of which reads back what the last one stored (C71). C107_exact shows complete and the subcommands side by side: both results are SameFiles as the computation in memory."
  },
  {
   "property": "C108",
   "status": "proved",
   "theorems": [
    "Malstroem.Command.C108_filled",
    "Malstroem.Command.C108_depths",
    "Malstroem.Command.C108_flowdir",
    "Malstroem.Command.C108_accum",
    "Malstroem.Command.C108_bspots",
    "Malstroem.Command.C108_wsheds",
    "Malstroem.Command.C108_pourpts_accum",
    "Malstroem.Command.C108_rain_mm",
    "Malstroem.Command.C108_rain_raster",
    "Malstroem.Command.C108_rain_refused",
    "Malstroem.Command.C108_finalvolumes",
    "Malstroem.Command.C108_finalbluespots",
    "Malstroem.Command.C108_polys",
    "Malstroem.Command.C108_polys_refused"
   ],
   "note": "Files as in C87 and C106. filled and depths are stated for the pure Python functions (any order of elevations and any rounding of the subtraction), accum for both sets, the bluespot commands for every engine of C28. network, hyps and finallevels are in C107."
  },
  {
   "property": "C109",
   "status": "partial",
   "theorems": [
    "Malstroem.Command.C109_rain_nodata_partial",
    "Malstroem.Command.C109_rain_nodata_false"
   ],
   "note": "False of the code: the precipitation raster is read without a substitute for nodata, so the nodata value itself (say -9999) is added up as rain. C109_rain_nodata_false is a run in which a node gets a negative amount. The partial theorem is for files in which no cell has the nodata value."
  },
  {
   "property": "C11",
   "status": "proved",
   "theorems": [
    "Malstroem.C11_compiled_fill_valid",
    "Malstroem.C11_compiled_noflats_valid"
   ],
   "note": ""
  },
  {
   "property": "C110",
   "status": "proved",
   "theorems": [
    "Malstroem.C110_direct",
    "Malstroem.C110_direct_compiled"
   ],
   "note": "Exact arithmetic (with rounding the sums along junctions can differ in the last digits). Spec/Direct.lean states the final state by rasters and pour points alone."
  },
  {
   "property": "C111",
   "status": "proved",
   "theorems": [
    "Malstroem.C111_numbers",
    "Malstroem.C111_numbers_compiled"
   ],
   "note": "Exact arithmetic. Follows from C110, uniqueness of the final state, and uniqueness of labelling, watersheds and pour points up to the numbers. The greatest depth is compared for bluespots, not for a background without cells."
  },
  {
   "property": "C112",
   "status": "partial",
   "theorems": [
    "Malstroem.C112_background_partial",
    "Malstroem.C112_none_ignored",
    "Malstroem.C112_ignored_false"
   ],
   "note": "False of the code: the volume of the ignored bluespots is given to node 0 and keeps back rain there (witness). Proved: node 0 is cut off from the bluespots, exactly that volume is kept back, and nothing is when the filter ignores no bluespot. Exact arithmetic."
  },
  {
   "property": "C113",
   "status": "partial",
   "theorems": [
    "Malstroem.C113_more_water_partial",
    "Malstroem.C113_single_cells",
    "Malstroem.C113_false"
   ],
   "note": "False in general (witness): water from an ignored bluespot may go several ways, while a bluespot that is kept spills everything at its pour point. Proved when from each ignored bluespot all water goes to the same next bluespot, in particular for ignored bluespots of one cell. Exact arithmetic."
  },
  {
   "property": "C114",
   "status": "proved",
   "theorems": [
    "Malstroem.Complete.C114_relief"
   ],
   "note": "Exact arithmetic, pure Python functions, same setting as C98_dig. Upstream is Spec.LeadsTo: following the next bluespot again and again."
  },
  {
   "property": "C115",
   "status": "proved",
   "theorems": [
    "Malstroem.Resolution.C115_surface",
    "Malstroem.Resolution.C115_resolution"
   ],
   "note": "Exact arithmetic, pure Python functions. The statement leaves out the watersheds; the second example run shows that their areas can differ."
  },
  {
   "property": "C116",
   "status": "partial",
   "theorems": [
    "Malstroem.C116_catchment_partial",
    "Malstroem.C116_catchment_false"
   ],
   "note": "Holds if the flow leaves every bluespot at its pour point only (Spec.OneOutlet). False in general: C116_catchment_false is a bluespot of three cells which the flow leaves at two; less than its own watershed area passes its pour point. Exact arithmetic."
  },
  {
   "property": "C117",
   "status": "proved",
   "theorems": [
    "Malstroem.C117_state",
    "Malstroem.C117_where"
   ],
   "note": "Exact arithmetic; the tools work on the features and rasters of the run in memory (C66, C67 and C92 relate files to them). Upstream is Spec.LeadsTo as in C114."
  },
  {
   "property": "C118",
   "status": "proved",
   "theorems": [
    "Malstroem.C118_filled",
    "Malstroem.C118_noflats",
    "Malstroem.C118_depths"
   ],
   "note": "C118_filled and C118_noflats hold for any linear order of elevations (C118_noflats: one pair of increments for both DEMs); C118_depths for exact arithmetic. Pure Python functions: the compiled fill does not give the spill level (C09)."
  },
  {
   "property": "C119",
   "status": "proved",
   "theorems": [
    "Malstroem.Nearest.C119_short",
    "Malstroem.Nearest.C119_nearest",
    "Malstroem.Nearest.C119_distance"
   ],
   "note": "C119_distance is the case of the program, with diagonals of length sqrt 2; C119_nearest has any length of a diagonal and C119_short any two smallest drops. Exact arithmetic: in floats the two drops are not exactly in the ratio of the lengths, and sums are rounded (C57, C81). Pure Python functions."
  },
  {
   "property": "C12",
   "status": "proved",
   "theorems": [
    "Malstroem.C12_depths"
   ],
   "note": "Subtraction is any operation that is non-negative for b <= a and zero exactly for a = b."
  },
  {
   "property": "C120",
   "status": "proved",
   "theorems": [
    "Malstroem.Basin.C120_terrain",
    "Malstroem.Basin.C120_basin",
    "Malstroem.Basin.C120_exact",
    "Malstroem.Basin.C120_split"
   ],
   "note": "C120_exact is the claim for exact arithmetic. C120_basin and C120_terrain have it for any sound arithmetic in which both runs use the same smallest drops and slopes are monotone; in floats the smallest drops depend on the highest elevation of the raster, so they may differ between the DEM and the window. C120_split: a window that covers a basin but cuts a bluespot shared with another basin gets another water level. Pure Python functions."
  },
  {
   "property": "C121",
   "status": "proved",
   "theorems": [
    "Malstroem.LevelRule.C121_level_rule",
    "Malstroem.LevelRule.C121_numbers",
    "Malstroem.LevelRule.C121_basin"
   ],
   "note": "C121_level_rule is the rule, C121_numbers and C121_basin are what follows for two numberings and for a window that covers a basin. Pure Python functions, exact arithmetic; the elevations of cells where water stands are not negative (C45_below_zero_false)."
  },
  {
   "property": "C122",
   "status": "proved",
   "theorems": [
    "Malstroem.Shared.C122_shared",
    "Malstroem.Shared.C122_levels"
   ],
   "note": "Follows from C120 for both DEMs and the window they share; what a run reports is determined by its results, so the two runs on the window are one. Pure Python functions, exact arithmetic."
  },
  {
   "property": "C123",
   "status": "proved",
   "theorems": [
    "Malstroem.Float.C123_level",
    "Malstroem.Float.C123_flooded",
    "Malstroem.Float.C123_full_covered"
   ],
   "note": "np.histogram and np.interp are contracts (`HistogramCounts`, `Interpolates`); the level at which a bluespot spills and its capacity are given. Without rounding the model is that of C45 and C46 (waterLevelFl_id, approxBluespotsFl_id)."
  },
  {
   "property": "C124",
   "status": "proved",
   "theorems": [
    "Malstroem.Float.C124_complete"
   ],
   "note": "With the Python functions; np.histogram, np.interp and scipy's labelling are contracts. The water balance of the same run is C78_balance. Without rounding the model is that of C67 (processWithLevelsFl_id)."
  },
  {
   "property": "C125",
   "status": "proved",
   "theorems": [
    "Malstroem.Float.C125_raster_volumes",
    "Malstroem.Float.C125_total",
    "Malstroem.Float.C125_balance",
    "Malstroem.Float.C125_run",
    "Malstroem.Float.C125_compiled_run"
   ],
   "note": "The exact version is C40. Compiled functions: DEMs without a side of exactly 3 cells (C11)."
  },
  {
   "property": "C126",
   "status": "proved",
   "theorems": [
    "Malstroem.Float.C126_even",
    "Malstroem.Float.C126_raster",
    "Malstroem.Float.C126_run",
    "Malstroem.Float.C126_compiled_run"
   ],
   "note": "Volumes and spills; levels and flooded cells are covered with exact arithmetic only (C86). Compiled functions: DEMs without a side of exactly 3 cells (C11)."
  },
  {
   "property": "C127",
   "status": "proved",
   "theorems": [
    "Malstroem.Float.C127_stable",
    "Malstroem.Float.C127_even",
    "Malstroem.Float.C127_raster",
    "Malstroem.Float.C127_run",
    "Malstroem.Float.C127_compiled_run"
   ],
   "note": "The run theorems compare with the exact final state of the nodes file the run wrote. Compiled functions: DEMs without a side of exactly 3 cells (C11)."
  },
  {
   "property": "C128",
   "status": "proved",
   "theorems": [
    "Malstroem.Float.C128_run",
    "Malstroem.Float.C128_compiled_run"
   ],
   "note": "The links between the nodes are those of the nodes file. Compiled functions: DEMs without a side of exactly 3 cells (C11)."
  },
  {
   "property": "C129",
   "status": "proved",
   "theorems": [
    "Malstroem.Scripts.C129_sequence_is_complete",
    "Malstroem.Scripts.completeFl_id",
    "Malstroem.Scripts.sequenceFl_id",
    "Malstroem.Float.C129_run"
   ],
   "note": "The first theorem holds for any rounding function; the run shows that both end without an error on a float32 DEM without nodata cells. What fails outside these conditions is shown in C68."
  },
  {
   "property": "C13",
   "status": "proved",
   "theorems": [
    "Malstroem.C13_flowdir_steepest",
    "Malstroem.C13_flowdir_steepest_real"
   ],
   "note": "Arbitrary (rounded) difference and diagonal scaling with the right sign; exact reals in the second theorem."
  },
  {
   "property": "C14",
   "status": "proved",
   "theorems": [
    "Malstroem.C14_edges"
   ],
   "note": "All shapes."
  },
  {
   "property": "C15",
   "status": "proved",
   "theorems": [
    "Malstroem.C15_dem_flow_drains",
    "Malstroem.C15_dem_process_returns",
    "Malstroem.C15_dem_flow_drains_compiled"
   ],
   "note": "About the outputs of DemTool.process with the Python functions and, unless there are exactly three rows or columns, the compiled ones. That adding short/diag strictly raises the elevations that occur is a hypothesis here; C57 proves it for float elevations (Float.float_sound, Float.C62_float)."
  },
  {
   "property": "C16",
   "status": "proved",
   "theorems": [
    "Malstroem.C16_upstream_exact"
   ],
   "note": ""
  },
  {
   "property": "C17",
   "status": "proved",
   "theorems": [
    "Malstroem.C17_trace_correct",
    "Malstroem.C17_trace_finite",
    "Malstroem.C17_trace_infinite"
   ],
   "note": "Codes 0..8; a larger code raises."
  },
  {
   "property": "C18",
   "status": "proved",
   "theorems": [
    "Malstroem.C18_accum_counts",
    "Malstroem.C18_accum_counts_any"
   ],
   "note": ""
  },
  {
   "property": "C19",
   "status": "proved",
   "theorems": [
    "Malstroem.C19_accum_total"
   ],
   "note": ""
  },
  {
   "property": "C20",
   "status": "proved",
   "theorems": [
    "Malstroem.C20_compiled_accum_eq_python"
   ],
   "note": "For all rasters with codes 0..7, draining or not."
  },
  {
   "property": "C21",
   "status": "proved",
   "theorems": [
    "Malstroem.C21_watershed_first_label",
    "Malstroem.C21_watershed_first_label_any_order",
    "Malstroem.C21_compiled_watershed_eq_python"
   ],
   "note": ""
  },
  {
   "property": "C22",
   "status": "proved",
   "theorems": [
    "Malstroem.C22_watershed_connected",
    "Malstroem.C22_bluespot_watersheds"
   ],
   "note": ""
  },
  {
   "property": "C23",
   "status": "proved",
   "theorems": [
    "Malstroem.C23_watershed_total"
   ],
   "note": ""
  },
  {
   "property": "C24",
   "status": "proved",
   "theorems": [
    "Malstroem.C24_label_stats",
    "Malstroem.C24_compiled_label_stats"
   ],
   "note": "Both versions. The sum is the row-major fold in any arithmetic, so it also describes float addition."
  },
  {
   "property": "C25",
   "status": "proved",
   "theorems": [
    "Malstroem.C25_label_min_index",
    "Malstroem.C25_label_max_index",
    "Malstroem.C25_compiled_label_min_index"
   ],
   "note": ""
  },
  {
   "property": "C26",
   "status": "proved",
   "theorems": [
    "Malstroem.C26_label_count",
    "Malstroem.C26_label_data"
   ],
   "note": ""
  },
  {
   "property": "C27",
   "status": "partial",
   "theorems": [
    "Malstroem.C27_compiled_label_data_partial",
    "Malstroem.C27_compiled_label_data_false",
    "Malstroem.C27_compiled_label_data_false_nlabels"
   ],
   "note": "False as stated: the compiled version ignores the background argument and treats nlabels=0 differently. Proved equal for background 0 and nlabels not 0."
  },
  {
   "property": "C28",
   "status": "proved",
   "theorems": [
    "Malstroem.C28_filter_exact"
   ],
   "note": "Assumes the contract of scipy.ndimage.label (LabelContract), shown satisfiable by exists_labelContract."
  },
  {
   "property": "C29",
   "status": "proved",
   "theorems": [
    "Malstroem.C29_next_label",
    "Malstroem.C29_unique"
   ],
   "note": "Any finite trace, any background (also None); the specification determines the result."
  },
  {
   "property": "C30",
   "status": "proved",
   "theorems": [
    "Malstroem.C30_nodes",
    "Malstroem.C30_plain_nodes"
   ],
   "note": "Pour point 0 (background) may be absent, cell (-1,-1), as BluespotTool writes it."
  },
  {
   "property": "C31",
   "status": "proved",
   "theorems": [
    "Malstroem.C31_paths"
   ],
   "note": ""
  },
  {
   "property": "C32",
   "status": "proved",
   "theorems": [
    "Malstroem.C32_network_returns"
   ],
   "note": ""
  },
  {
   "property": "C33",
   "status": "proved",
   "theorems": [
    "Malstroem.C33_acyclic",
    "Malstroem.C33_bluespot_network",
    "Malstroem.fits_of_flowdir"
   ],
   "note": "C33_acyclic for any rank falling along the flow; C33_bluespot_network for what BluespotTool writes under both pour point rules; fits_of_flowdir shows the rule on the filled surface applies to the flow directions computed from it."
  },
  {
   "property": "C34",
   "status": "proved",
   "theorems": [
    "Malstroem.C34_balance",
    "Malstroem.C34_bounds"
   ],
   "note": "Exact arithmetic over any linearly ordered field."
  },
  {
   "property": "C35",
   "status": "proved",
   "theorems": [
    "Malstroem.C35_conserved",
    "Malstroem.C35_conserved_reached"
   ],
   "note": "C35_conserved_reached is the version for networks in which some nodes do not lead to a root."
  },
  {
   "property": "C36",
   "status": "proved",
   "theorems": [
    "Malstroem.C36_reports",
    "Malstroem.C36_repeated_ids_diverge"
   ],
   "note": "C36_repeated_ids_diverge shows that the condition of distinct ids is needed: otherwise the event may never end."
  },
  {
   "property": "C37",
   "status": "proved",
   "theorems": [
    "Malstroem.C37_order"
   ],
   "note": ""
  },
  {
   "property": "C38",
   "status": "proved",
   "theorems": [
    "Malstroem.C38_monotone",
    "Malstroem.C38_same_nodes"
   ],
   "note": ""
  },
  {
   "property": "C39",
   "status": "proved",
   "theorems": [
    "Malstroem.C39_simple_volumes",
    "Malstroem.C39_total"
   ],
   "note": ""
  },
  {
   "property": "C40",
   "status": "proved",
   "theorems": [
    "Malstroem.C40_raster_volumes",
    "Malstroem.C40_total",
    "Malstroem.C40_rejects"
   ],
   "note": "Node ids must not be negative (a negative id would index from the end)."
  },
  {
   "property": "C41",
   "status": "partial",
   "theorems": [
    "Malstroem.C41_histogram_partial",
    "Malstroem.C41_histogram_any_sign",
    "Malstroem.C41_false"
   ],
   "note": "Proved for bluespots without negative elevations. For negative minimum elevations that are not a multiple of the resolution the property is false (C41_false): the bin bounds are truncated towards zero, so the lowest cells are not counted. C41_histogram_any_sign says what is counted for any sign."
  },
  {
   "property": "C42",
   "status": "proved",
   "theorems": [
    "Malstroem.C42_bins",
    "Malstroem.C42_stats_valid"
   ],
   "note": ""
  },
  {
   "property": "C43",
   "status": "proved",
   "theorems": [
    "Malstroem.C43_roundtrip",
    "Malstroem.C43_roundtrip_feature"
   ],
   "note": "Exact numbers; the textual form of floats in files is not modelled, the textual form of the integer counts is."
  },
  {
   "property": "C44",
   "status": "proved",
   "theorems": [
    "Malstroem.C44_cumulative",
    "Malstroem.C44_true_volume",
    "Malstroem.C44_hyps_cumulative"
   ],
   "note": "The bound by the true volume needs a histogram that counts all cells (C41)."
  },
  {
   "property": "C45",
   "status": "proved",
   "theorems": [
    "Malstroem.C45_levels",
    "Malstroem.C45_below_zero_false"
   ],
   "note": "End to end through bluespot_hypsometry_io and approx_water_level_io. C45_below_zero_false shows that the restriction to non-negative elevations is needed."
  },
  {
   "property": "C46",
   "status": "proved",
   "theorems": [
    "Malstroem.C46_flooded",
    "Malstroem.C46_flooded_io",
    "Malstroem.C46_nothing",
    "Malstroem.C46_shrinks",
    "Malstroem.C46_monotone",
    "Malstroem.C46_deep_background"
   ],
   "note": "C46_deep_background shows why elevations below -999 are excluded."
  },
  {
   "property": "C47",
   "status": "partial",
   "theorems": [
    "Malstroem.Io.C47_read_partial",
    "Malstroem.Io.C47_false",
    "Malstroem.Io.C47_integer",
    "Malstroem.Io.C47_tolerance"
   ],
   "note": "False: a nodata value of 0 is never substituted (C47_false), and every value within isclose's tolerance of the nodata value is replaced (C47_tolerance). Proved: with a nonzero nodata value exactly the cells close to it or NaN are replaced; for integer rasters with small nodata values exactly the nodata cells (C47_integer)."
  },
  {
   "property": "C48",
   "status": "proved",
   "theorems": [
    "Malstroem.Io.C48_integer"
   ],
   "note": ""
  },
  {
   "property": "C49",
   "status": "proved",
   "theorems": [
    "Malstroem.C49_alphabet",
    "Malstroem.C49_no_dangerous_characters",
    "Malstroem.C49_names",
    "Malstroem.C49_checked_before_eval"
   ],
   "note": "For every text accepted by check_filter; parse_filter evaluates no other."
  },
  {
   "property": "C50",
   "status": "partial",
   "theorems": [
    "Malstroem.C50_rejects_partial",
    "Malstroem.C50_false"
   ],
   "note": "False as stated: words are removed one after the other, so 'oandr' is accepted (C50_false). Proved: a text is accepted iff each of its names is accepted alone, and a name containing none of the five words is rejected."
  },
  {
   "property": "C51",
   "status": "proved",
   "theorems": [
    "Malstroem.C51_sequence",
    "Malstroem.C51_expression",
    "Malstroem.C51_no_filter"
   ],
   "note": "The text handed to eval is modelled; Python's eval is not."
  },
  {
   "property": "C52",
   "status": "proved",
   "theorems": [
    "Malstroem.Speedups.C52_toggle",
    "Malstroem.Speedups.C52_disable_restores"
   ],
   "note": ""
  },
  {
   "property": "C53",
   "status": "proved",
   "theorems": [
    "Malstroem.C53_pourpoint_attributes"
   ],
   "note": ""
  },
  {
   "property": "C54",
   "status": "proved",
   "theorems": [
    "Malstroem.C54_cell_to_world"
   ],
   "note": ""
  },
  {
   "property": "C55",
   "status": "proved",
   "theorems": [
    "Malstroem.C55_final_state",
    "Malstroem.C55_final_state_distinct"
   ],
   "note": ""
  },
  {
   "property": "C56",
   "status": "proved",
   "theorems": [
    "Malstroem.C56_complete_conserves",
    "Malstroem.C56_exact",
    "Malstroem.C56_compiled_conserves",
    "Malstroem.C56_compiled_exact",
    "Malstroem.Float.C56_float",
    "Malstroem.Float.C56_compiled_float"
   ],
   "note": "With the Python functions, and with the compiled ones unless there are exactly three rows or columns (they raise then, C09); exact arithmetic on volumes; connected component labelling by its contract; a filter must be given (see C58)."
  },
  {
   "property": "C57",
   "status": "proved",
   "theorems": [
    "Malstroem.Float.C57_safe",
    "Malstroem.Float.C57_no_flats",
    "Malstroem.Float.C57_no_flats_compiled",
    "Malstroem.Float.C62_float",
    "Malstroem.Float.C56_float"
   ],
   "note": "float64 and float32 as rationals of 53 and 24 significant bits, rounding to nearest; overflow left out. C57_no_flats is for at least 2x2 cells and at most 2^50 cells, Python fill; C57_no_flats_compiled for the compiled one (not three rows or columns). C62_float and C56_float carry it to DemTool and to the whole chain."
  },
  {
   "property": "C58",
   "status": "partial",
   "theorems": [
    "Malstroem.C58_accept_all_partial",
    "Malstroem.C58_no_filter_fails"
   ],
   "note": "False as stated: without a filter BluespotTool.process raises UnboundLocalError on every input on which it succeeds with a filter."
  },
  {
   "property": "C59",
   "status": "partial",
   "theorems": [
    "Malstroem.C59_accum_code8_raises",
    "Malstroem.C59_accum_returns_partial",
    "Malstroem.C59_exact",
    "Malstroem.C59_edges_not_outward",
    "Malstroem.C59_compiled_hangs"
   ],
   "note": "False as stated: a code 8 cell raises TypeError. C59_exact: accumulated_flow returns if and only if every cell has a code 0..7, for any raster; with codes 0..8 it otherwise raises TypeError, wherever the code 8 cell is. C59_edges_not_outward: it always raises on the output of terrain_flowdirection(edges_flow_outward=False). C59_compiled_hangs: the compiled loop never returns on such a raster when the uninitialised delta holds zeros."
  },
  {
   "property": "C60",
   "status": "proved",
   "theorems": [
    "Malstroem.C60_streams_disjoint"
   ],
   "note": ""
  },
  {
   "property": "C61",
   "status": "proved",
   "theorems": [
    "Malstroem.C61_stream_tool",
    "Malstroem.C61_nodes_only",
    "Malstroem.C61_sums"
   ],
   "note": ""
  },
  {
   "property": "C62",
   "status": "proved",
   "theorems": [
    "Malstroem.C62_dem_outputs",
    "Malstroem.C62_dem_outputs_compiled",
    "Malstroem.Float.C62_float",
    "Malstroem.Float.C62_compiled_float"
   ],
   "note": "Assumptions on rounded elevation arithmetic as in C15, proved for float32 elevations in Float. With the compiled functions (not three rows or columns) the filled terrain is on or above the spill level, see C09."
  },
  {
   "property": "C63",
   "status": "partial",
   "theorems": [
    "Malstroem.C63_close_partial",
    "Malstroem.C63_near_partial",
    "Malstroem.C63_below_highest_ground",
    "Malstroem.C63_false"
   ],
   "note": "Proved for levels at least two bins below the highest ground of the bluespot (C63_close_partial), and for all levels if the exact level is replaced by the highest ground where that is lower, within four bins (C63_near_partial). False above it (C63_false): the interpolation ends at the highest ground, so a bluespot whose spill level is far above its ground gets a much too low level until it is 99.99 % full."
  },
  {
   "property": "C64",
   "status": "partial",
   "theorems": [
    "Malstroem.Speedups.C64_lookup_partial",
    "Malstroem.Speedups.C64_false"
   ],
   "note": "False: malstroem.hyps imports label_stats and label_data by name, so toggling after the import does not reach it (C64_false). Proved: functions looked up through their module follow the flag for every history."
  },
  {
   "property": "C65",
   "status": "partial",
   "theorems": [
    "Malstroem.Io.C65_write_partial",
    "Malstroem.Io.C65_false"
   ],
   "note": "False for long doubles (C65_false: 16777217 is stored as float32). Proved for all other boolean, integer and floating point types."
  },
  {
   "property": "C66",
   "status": "proved",
   "theorems": [
    "Malstroem.Io.C66_roundtrip"
   ],
   "note": ""
  },
  {
   "property": "C67",
   "status": "proved",
   "theorems": [
    "Malstroem.C67_complete_levels"
   ],
   "note": "Python functions; the polygonizing at the end of the command (GDAL) is not modelled. The hypothesis on negative elevations is needed (C45_below_zero_false)."
  },
  {
   "property": "C68",
   "status": "partial",
   "theorems": [
    "Malstroem.C68_sequence_is_complete_partial",
    "Malstroem.C68_sequence_yields_partial",
    "Malstroem.C68_nodata_false",
    "Malstroem.C68_zero_rain_false",
    "Malstroem.C68_oblong_refused",
    "Malstroem.C68_oblong_false"
   ],
   "note": "Equal outputs (if and only if) for square cells, rain other than 0 mm, and accumulated flow or a DEM without nodata cells; each exception has a witness: pourpts reads the DEM without substituting nodata, initvolumes refuses -mm 0, complete refuses cells that are not square. For vector files see C71, for polys C73."
  },
  {
   "property": "C69",
   "status": "partial",
   "theorems": [
    "Malstroem.C69_options_partial",
    "Malstroem.C69_zero_false"
   ],
   "note": "False for -mm 0, which is treated as not given."
  },
  {
   "property": "C70",
   "status": "partial",
   "theorems": [
    "Malstroem.C70_written_is_read_partial",
    "Malstroem.C70_second_write_false"
   ],
   "note": "Proved for layers that do not exist yet, under the stated behaviour of OGR (first section of Model/Vector.lean). False for a writer that is used a second time: attributes that did not occur in the first write are dropped (C70_second_write_false)."
  },
  {
   "property": "C71",
   "status": "proved",
   "theorems": [
    "Malstroem.C71_complete",
    "Malstroem.C71_sequence",
    "Malstroem.C71_complete_files",
    "Malstroem.layerBack_same"
   ],
   "note": "layerBack_same shows that VectorWriter and VectorReader as modelled meet the assumption on files."
  },
  {
   "property": "C72",
   "status": "partial",
   "theorems": [
    "Malstroem.C72_rerun_partial",
    "Malstroem.C72_rerun_false",
    "Malstroem.C72_final_state"
   ],
   "note": "A second run appends, so every feature is there twice (C72_rerun_false, for every non-empty output). Nothing is lost (C72_rerun_partial) and the final state counts repeated nodes once (C72_final_state)."
  },
  {
   "property": "C73",
   "status": "proved",
   "theorems": [
    "Malstroem.C73_polygons",
    "Malstroem.C73_flooded",
    "Malstroem.C73_flooded_several",
    "Malstroem.C73_without_nodata",
    "Malstroem.exists_polygonizeContract"
   ],
   "note": "gdal.Polygonize is a contract (PolygonizeContract); polygons are represented by the cells they cover. The contract is assumed for masks of any shape, so the theorems do not check the shape of the mask band (an edit of it survives, see seeded/LOG.jsonl)."
  },
  {
   "property": "C74",
   "status": "proved",
   "theorems": [
    "Malstroem.C74_returns",
    "Malstroem.C74_bounds",
    "Malstroem.C74_balance",
    "Malstroem.C74_monotone"
   ],
   "note": "float64 rounded to nearest, subnormal numbers included, overflow excluded. sum() is modelled as left-to-right addition (Python before 3.12)."
  },
  {
   "property": "C75",
   "status": "partial",
   "theorems": [
    "Malstroem.C75_percent_partial",
    "Malstroem.C75_percent_false"
   ],
   "note": "At most 2^-45 from the exact percentage. False as stated: a full bluespot of 5792.48 m3 shows more than 100 percent, one of 0.17 m3 less than 100 (C75_percent_false)."
  },
  {
   "property": "C76",
   "status": "proved",
   "theorems": [
    "Malstroem.C76_close",
    "Malstroem.C76_conserved",
    "Malstroem.roundingError_le"
   ],
   "note": ""
  },
  {
   "property": "C77",
   "status": "partial",
   "theorems": [
    "Malstroem.C77_order_partial",
    "Malstroem.C77_order_false"
   ],
   "note": "Equal up to twice the bound of C76. Not equal: C77_order_false."
  },
  {
   "property": "C78",
   "status": "proved",
   "theorems": [
    "Malstroem.Float.C78_balance",
    "Malstroem.Float.C78_compiled_balance"
   ],
   "note": "Cell sizes and rain at least 2^-300, so that nothing underflows; overflow excluded. Coordinates of pour points are exact in the model."
  },
  {
   "property": "C79",
   "status": "partial",
   "theorems": [
    "Malstroem.Float.C79_counts_partial",
    "Malstroem.Float.C79_close",
    "Malstroem.Float.C79_false"
   ],
   "note": "float32 DEMs: proved, with np.histogram as a contract (HistogramCounts; numpy before 2.0 compares float32 data with bounds converted to float32). False for float64 DEMs: a cell at 51.3 is not counted at resolution 0.1 (C79_false); only cells at the extremes can be lost (C79_close)."
  },
  {
   "property": "C80",
   "status": "partial",
   "theorems": [
    "Malstroem.C80_level_surface_partial",
    "Malstroem.C80_level_surface_false"
   ],
   "note": "False of the code: C80_level_surface_false. Holds at least two cells from the edge, and everywhere on DEMs with open edges."
  },
  {
   "property": "C81",
   "status": "partial",
   "theorems": [
    "Malstroem.Float.C81_flowdir_partial",
    "Malstroem.Float.C81_flowdir_false",
    "Malstroem.Float.sqrt2_nearest",
    "Malstroem.Float.invSqrt2_rounded"
   ],
   "note": "False of the code: C81_flowdir_false, a near tie between a straight and a diagonal drop with float32 elevations. Holds, for both engines, when the drops around each cell are at most 2^24 multiples of a power of two."
  },
  {
   "property": "C82",
   "status": "partial",
   "theorems": [
    "Malstroem.C82_same_results_partial",
    "Malstroem.C82_same_files_partial",
    "Malstroem.C82_exact_partial",
    "Malstroem.C82_same_files_false"
   ],
   "note": "False of the code: C82_same_files_false (the compiled fill, C09). Holds on DEMs with open edges (from every cell next to the edge water can leave over the edge), in exact arithmetic; with rounding if the two ways to scale diagonal drops give the same flow directions (C81)."
  },
  {
   "property": "C83",
   "status": "proved",
   "theorems": [
    "Malstroem.C83_outflow",
    "Malstroem.C83_local",
    "Malstroem.C83_bounded"
   ],
   "note": "Exact arithmetic; for the nodes that lead to a root (all nodes of a network made by the streams command, C31)."
  },
  {
   "property": "C84",
   "status": "partial",
   "theorems": [
    "Malstroem.C84_even_raster_partial",
    "Malstroem.C84_bluespots_share",
    "Malstroem.C84_bluespots_differ",
    "Malstroem.C84_false"
   ],
   "note": "False of the code when used as documented, with the raster of bluespots: C84_false; every node gets only the rain on its bluespot (C84_bluespots_share), so the volumes differ whenever a cell outside the bluespots drains into one (C84_bluespots_differ). Holds with the raster of watersheds."
  },
  {
   "property": "C85",
   "status": "proved",
   "theorems": [
    "Malstroem.C85_datum",
    "Malstroem.C85_unit",
    "Malstroem.C85_fill_commutes",
    "Malstroem.C85_fill_nonexpansive",
    "Malstroem.C85_increments_matter"
   ],
   "note": "Elevation differences are exact; areas and volumes may be rounded. The increments are the same in both runs: the tool derives them from the largest elevation, and C85_increments_matter is a DEM on which other increments give other flow directions."
  },
  {
   "property": "C86",
   "status": "proved",
   "theorems": [
    "Malstroem.C86_more_rain"
   ],
   "note": "Both runs in one theorem, under the assumptions of C67 (exact arithmetic, finite elevations that are not negative below the spill level, scipy labelling by its contract). The runs are deterministic, so the outputs named in the theorem are the only ones."
  },
  {
   "property": "C87",
   "status": "proved",
   "theorems": [
    "Malstroem.Command.C87_files",
    "Malstroem.Command.C87_exact",
    "Malstroem.Command.C87_nothing_lost",
    "Malstroem.Command.C87_refused",
    "Malstroem.Command.C87_second_run"
   ],
   "note": "File system and GDAL/OGR as modelled in Model/Command.lean: a raster file keeps its values and georeference, a GeoPackage its layers. C87_nothing_lost holds for every outcome and every prior state."
  },
  {
   "property": "C88",
   "status": "partial",
   "theorems": [
    "Malstroem.Command.C88_filter_partial",
    "Malstroem.Command.C88_dem_partial",
    "Malstroem.Command.C88_refused_false",
    "Malstroem.Command.C88_zresolution_false"
   ],
   "note": "False of the code: a run refused because the directory is not empty exits with status 0 (C88_refused_false), and with a resolution that is not positive the command fails only after most files have been written, after which a repeated run is refused (C88_zresolution_false). Holds for filters that are not accepted and for a DEM that is no raster."
  },
  {
   "property": "C89",
   "status": "proved",
   "theorems": [
    "Malstroem.C89_stricter_filter"
   ],
   "note": "Exact arithmetic for areas and volumes; scipy labelling by its contract."
  },
  {
   "property": "C90",
   "status": "proved",
   "theorems": [
    "Malstroem.C90_fill_up",
    "Malstroem.C90_fill_up_compiled"
   ],
   "note": "Under the assumptions of C56 (SoundTerrain, scipy labelling by its contract), exact areas and volumes. The compiled version excludes DEMs with exactly three rows or columns, on which the compiled fill does not return."
  },
  {
   "property": "C91",
   "status": "partial",
   "theorems": [
    "Malstroem.C91_fill_partial",
    "Malstroem.C91_convert_first",
    "Malstroem.C91_compiled_false",
    "Malstroem.C91_float64_false",
    "Malstroem.C91_depths_false"
   ],
   "note": "False of the code. Pure Python: a float64 DEM whose middle cell is rounded up is never filled (C91_float64_false); C91_fill_partial says exactly for which DEMs of at least 3x3 cells the loop ends, and that the result then is right. Compiled functions refuse every DEM that is not float32 (C91_compiled_false). Depths of a level float64 DEM are above 0 (C91_depths_false). DemTool, and with it the complete command, converts the DEM first and is not affected (C91_convert_first)."
  },
  {
   "property": "C92",
   "status": "partial",
   "theorems": [
    "Malstroem.C92_depths_partial",
    "Malstroem.C92_level_floor_false",
    "Malstroem.C92_false"
   ],
   "note": "False of the code: water above the highest cell of a bluespot that is not 99.99 % full is not shown, so a bluespot with a level floor is shown dry until it is full (C92_level_floor_false for every DEM, C92_false a run). C92_depths_partial gives the volume shown in every case: the smaller of the final volume and the volume below the highest cell, within four bins times the area. Python functions, exact arithmetic, scipy labelling by its contract."
  },
  {
   "property": "C93",
   "status": "partial",
   "theorems": [
    "Malstroem.C93_leaves_partial",
    "Malstroem.C93_threshold_partial",
    "Malstroem.C93_all_false"
   ],
   "note": "False of the code in one point: with the DEM rule a bluespot can have water that leaves it elsewhere than at its pour point (C93_all_false). Proved for both rules: the pour point is a wet cell of the bluespot whose flow goes to a dry cell outside it; all water passes it if the flow leaves the bluespot from one cell only; for DemTool output with small increments, the cell beyond is a threshold at the spill level of all cells of the bluespot. Scipy labelling by its contract."
  },
  {
   "property": "C94",
   "status": "proved",
   "theorems": [
    "Malstroem.C94_lowest_way_out",
    "Malstroem.C94_exact",
    "Malstroem.Float.C94_float",
    "Malstroem.C94_small_steps_needed"
   ],
   "note": "C94_lowest_way_out for any arithmetic with small increments, C94_exact for exact arithmetic, C94_float for float32 DEMs processed in float64 with the increments of minimum_safe_short_and_diag. C94_small_steps_needed shows that without the condition on the distance of elevations the statement fails. Python functions."
  },
  {
   "property": "C95",
   "status": "partial",
   "theorems": [
    "Malstroem.C95_methods_partial",
    "Malstroem.C95_false"
   ],
   "note": "False of the code as documented: a bluespot with one threshold cell can be left from several of its cells, and the rules choose different ones (C95_false). C95_methods_partial: label and watershed rasters agree always, and the pour point with all its attributes if the flow leaves the bluespot from one cell only. Scipy labelling by its contract."
  },
  {
   "property": "C96",
   "status": "partial",
   "theorems": [
    "Malstroem.C96_partial",
    "Malstroem.C96_few_partial",
    "Malstroem.C96_false"
   ],
   "note": "False of the code: _untangle is a recursive generator, and for every recursion limit there is valid input on which it raises RecursionError (C96_false, a comb of streams). C96_partial says exactly when: the result is that of an interpreter without limit unless as many junctions follow one another on a stream as there is room for nested generators. C96_few_partial: fewer pour points than levels suffice."
  },
  {
   "property": "C97",
   "status": "proved",
   "theorems": [
    "Malstroem.C97_tiles",
    "Malstroem.C97_surface_le",
    "Malstroem.C97_surface_eq",
    "Malstroem.C97_under",
    "Malstroem.C97_same_cells",
    "Malstroem.Float.C97_float"
   ],
   "note": "C97_surface_* and C97_same_cells are about fill_terrain for any linear order of elevations. C97_tiles is about DemTool and BluespotTool for any sound arithmetic (SoundTerrain), C97_float for float32 DEMs with the roundings of the program. Python functions; scipy labelling by its contract. An example shows that a bluespot cut by the edge can vanish."
  },
  {
   "property": "C98",
   "status": "proved",
   "theorems": [
    "Malstroem.C98_dig",
    "Malstroem.C98_same_filled",
    "Malstroem.C98_same_noflats",
    "Malstroem.C98_same_dem_outputs"
   ],
   "note": "C98_same_filled, C98_same_noflats: the two fills, any linear order. C98_same_dem_outputs: DemTool, any arithmetic in which the increments are the same for both DEMs. C98_dig: the complete command in exact arithmetic, filters that look at number of cells and area only (a filter on depth or volume may of course decide differently). Python functions; scipy labelling by its contract."
  },
  {
   "property": "C99",
   "status": "partial",
   "theorems": [
    "Malstroem.C99_open_partial",
    "Malstroem.C99_level",
    "Malstroem.C99_open_level",
    "Malstroem.C99_hole_level",
    "Malstroem.C99_hole_false",
    "Malstroem.Float.C99_float"
   ],
   "note": "Proved for areas without data that reach the edge of the raster (C99_open_partial; C99_float with the roundings of the program). False for holes in the data: they become bluespots about a thousand metres deep (C99_hole_false: always, with a filter that accepts all; an example shows the volume). Reading the raster and putting -999 in is C47. Python functions; scipy labelling by its contract."
  }
 ]
}