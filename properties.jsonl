{"id": "C01", "title": "fill_terrain always returns", "statement": "Calling fill_terrain on any DEM with at least two rows and two columns and no NaN cells returns: the sweep loop reaches an iteration in which nothing changes.", "quantifier": "every DEM shape >= 2x2 and every assignment of elevations that the filled raster can hold (float32, to which DemTool converts; see C91 for other DEMs)", "why_tests_cant": "Termination is a statement about unboundedly many sweeps over unboundedly large rasters; a test only shows that one raster finishes.", "anchors": ["malstroem/algorithms/fill.py:fill_terrain", "malstroem/algorithms/fill.py:_fill_terrain", "malstroem/algorithms/fill.py:_fill_cell"]}
{"id": "C02", "title": "Filling never digs and keeps the raster edge", "statement": "Every cell of the raster returned by fill_terrain is at least as high as the DEM, and every cell on the raster edge is exactly as high as the DEM.", "quantifier": "every DEM >= 2x2, every cell", "why_tests_cant": "Must hold for every terrain and every cell.", "anchors": ["malstroem/algorithms/fill.py:fill_terrain", "malstroem/algorithms/fill.py:_initialize_filled", "malstroem/algorithms/fill.py:_fill_cell"]}
{"id": "C03", "title": "Filled terrain is depressionless", "statement": "From every cell of the raster returned by fill_terrain there is an 8-connected path to an edge cell along which the filled elevation never rises.", "quantifier": "every DEM >= 2x2, every cell", "why_tests_cant": "Existential path property for all cells of all terrains; sampling terrains does not establish it.", "anchors": ["malstroem/algorithms/fill.py:fill_terrain"]}
{"id": "C04", "title": "Filled level is exactly the spill level", "statement": "fill_terrain assigns to each cell the smallest elevation z such that water standing at z in that cell can escape: the minimum over all 8-connected paths from the cell to the raster edge of the highest DEM cell on the path. Equivalently it is the lowest depressionless surface that is nowhere below the DEM.", "quantifier": "every DEM >= 2x2, every cell, every path", "why_tests_cant": "Optimality over the infinite set of paths and over all competing surfaces cannot be tested.", "anchors": ["malstroem/algorithms/fill.py:fill_terrain", "malstroem/algorithms/fill.py:_fill_cell"]}
{"id": "C05", "title": "Filling is idempotent, monotone and orientation independent", "statement": "fill_terrain(fill_terrain(dem)) == fill_terrain(dem); raising DEM cells never lowers any filled cell; and transposing or flipping the DEM transposes or flips the result although the four sweeps visit cells in a fixed order.", "quantifier": "every pair of DEMs of equal shape, every transposition/flip", "why_tests_cant": "Relational properties over pairs of arbitrary rasters.", "anchors": ["malstroem/algorithms/fill.py:fill_terrain", "malstroem/algorithms/fill.py:_fill_terrain"]}
{"id": "C06", "title": "No-flats fill always returns and is bracketed", "statement": "fill_terrain_no_flats(dem, short, diag) with short, diag >= 0 returns for every NaN-free DEM >= 2x2; the result equals the DEM on the edge, is nowhere below the DEM and nowhere below fill_terrain(dem).", "quantifier": "every DEM >= 2x2, every non-negative short and diag (including floating point rounding of the additions)", "why_tests_cant": "Termination and bounds over all inputs; rounding makes sampled evidence especially weak.", "anchors": ["malstroem/algorithms/fill.py:fill_terrain_no_flats", "malstroem/algorithms/fill.py:_fill_terrain_no_flats", "malstroem/algorithms/fill.py:_fill_cell_no_flats"]}
{"id": "C07", "title": "No-flats fill leaves a strictly downslope way out of every cell", "statement": "If adding short or diag strictly raises every finite elevation occurring in the result, then from each non-edge cell of fill_terrain_no_flats(dem, short, diag) there is an 8-connected path to the edge along which the elevation strictly decreases, each orthogonal step by at least short and each diagonal step by at least diag.", "quantifier": "every DEM >= 2x2 with finite cells, every positive short and diag, every cell", "why_tests_cant": "Existential path property over all terrains.", "anchors": ["malstroem/algorithms/fill.py:fill_terrain_no_flats"]}
{"id": "C08", "title": "No-flats level is the cheapest climb", "statement": "fill_terrain_no_flats assigns to each cell the minimum, over all 8-connected paths from the cell to the edge, of the elevation obtained by walking the path backwards from the edge, adding short/diag per step and never going below the DEM.", "quantifier": "every DEM >= 2x2, every cell, every path", "why_tests_cant": "Optimality over all paths.", "anchors": ["malstroem/algorithms/fill.py:fill_terrain_no_flats", "malstroem/algorithms/fill.py:_fill_cell_no_flats"]}
{"id": "C09", "title": "Compiled fill gives the same surface as pure Python fill", "statement": "With speedups enabled fill_terrain(dem) returns the same raster as with speedups disabled.", "quantifier": "every DEM the pure Python version accepts", "why_tests_cant": "The tests compare the two on one raster; equality must hold on all.", "anchors": ["malstroem/algorithms/speedups/_fill.pyx:_fill_terrain", "malstroem/algorithms/fill.py:fill_terrain", "malstroem/algorithms/speedups/__init__.py:enable"]}
{"id": "C10", "title": "Compiled no-flats fill gives the same surface as pure Python", "statement": "With speedups enabled fill_terrain_no_flats(dem, short, diag) returns the same raster as with speedups disabled.", "quantifier": "every DEM the pure Python version accepts, every short and diag", "why_tests_cant": "The tests compare the two on one raster; equality must hold on all.", "anchors": ["malstroem/algorithms/speedups/_fill.pyx:_fill_terrain_no_flats", "malstroem/algorithms/fill.py:fill_terrain_no_flats"]}
{"id": "C11", "title": "Compiled fill is still a valid depressionless surface", "statement": "Whenever the compiled fill returns (two or at least four rows and columns) its surface equals the DEM on the edge, is nowhere below the DEM or below the pure Python fill, has no infinite cell if the DEM is finite, and every cell has a non-rising path to the edge; the same holds for the compiled no-flats fill with a strictly falling path.", "quantifier": "every finite DEM >= 2x2 without exactly three rows or columns", "why_tests_cant": "Must hold for every terrain.", "anchors": ["malstroem/algorithms/speedups/_fill.pyx:_fill_terrain", "malstroem/algorithms/speedups/_fill.pyx:_fill_terrain_no_flats"]}
{"id": "C12", "title": "Depths are non-negative, zero outside bluespots, and each bluespot has a horizontal water surface", "statement": "depths = filled - dem is >= 0 everywhere and 0 on the edge, and any two 8-connected cells with positive depth have the same filled level, so all cells of one bluespot share one water level (deepest point + its depth).", "quantifier": "every DEM >= 2x2, every connected set of wet cells of any size", "why_tests_cant": "A statement about all connected regions of all terrains.", "anchors": ["malstroem/dem.py:DemTool.process", "malstroem/algorithms/fill.py:fill_terrain", "malstroem/bluespots.py:BluespotTool.process"]}
{"id": "C13", "title": "Flow direction is the steepest descent", "statement": "For each non-edge cell terrain_flowdirection returns code 8 iff no neighbour is strictly lower, and otherwise the code of a neighbour whose drop per distance (1 orthogonally, sqrt 2 diagonally) is maximal, the first such neighbour clockwise from Up when several tie.", "quantifier": "every terrain, every non-edge cell", "why_tests_cant": "All neighbourhood configurations of real elevations.", "anchors": ["malstroem/algorithms/flow.py:_terrain_flow", "malstroem/algorithms/flow.py:terrain_flowdirection"]}
{"id": "C14", "title": "Edge cells drain off the raster", "statement": "With edges_flow_outward=True every edge cell is given a direction that leads outside the raster; with False every edge cell gets code 8; non-edge cells are unaffected by the flag.", "quantifier": "every raster shape and every cell", "why_tests_cant": "All shapes including single row/column rasters.", "anchors": ["malstroem/algorithms/flow.py:set_edges_flow_outward", "malstroem/algorithms/flow.py:terrain_flowdirection"]}
{"id": "C15", "title": "Every cell of a processed DEM drains off the raster", "statement": "In the flow direction raster computed by DemTool (D8 on the no-flats surface, edges outward) no cell has code 8, and following the directions from any cell visits strictly decreasing no-flats elevations, never revisits a cell and leaves the raster after finitely many steps.", "quantifier": "every finite DEM >= 2x2, every start cell", "why_tests_cant": "Global acyclicity of the flow graph for all terrains.", "anchors": ["malstroem/dem.py:DemTool.process", "malstroem/algorithms/flow.py:terrain_flowdirection", "malstroem/algorithms/fill.py:fill_terrain_no_flats"]}
{"id": "C16", "title": "upstream_cells is the exact inverse of the flow directions", "statement": "upstream_cells(flowdir, c) lists, without duplicates, exactly the raster cells whose flow direction leads to c.", "quantifier": "every flow direction raster with arbitrary codes, every cell", "why_tests_cant": "All rasters and neighbourhoods.", "anchors": ["malstroem/algorithms/flow.py:upstream_cells", "malstroem/algorithms/flow.py:is_upstream_cell", "malstroem/algorithms/flow.py:direction_to_delta", "malstroem/algorithms/flow.py:cell_in_direction"]}
{"id": "C17", "title": "trace_downstream follows the flow", "statement": "trace_downstream(flowdir, c) yields c and then repeatedly the cell the previous one flows to, only cells inside the raster, and stops exactly when the flow leaves the raster or reaches a code 8 cell; on a raster without flow cycles it is finite and repeats no cell.", "quantifier": "every flow direction raster, every start cell", "why_tests_cant": "Unbounded path lengths; cyclic and acyclic rasters.", "anchors": ["malstroem/algorithms/flow.py:trace_downstream"]}
{"id": "C18", "title": "Accumulated flow counts upstream cells", "statement": "On a flow direction raster in which every cell drains off the raster, accumulated_flow returns, for each cell, the number of cells (itself included) whose downstream trace passes through it.", "quantifier": "every draining flow direction raster of any size, every cell", "why_tests_cant": "The order-dependent resolve-and-stop traversal must be right for every tree shape and scan order.", "anchors": ["malstroem/algorithms/flow.py:accumulated_flow", "malstroem/algorithms/flow.py:trace_accumulated_flow"]}
{"id": "C19", "title": "Accumulated flow conserves area and grows downstream", "statement": "On a draining raster the accumulated flow of the cells that flow off the raster sums to rows*cols, every cell has at least 1, and each cell has strictly less than the cell it flows to.", "quantifier": "every draining flow direction raster", "why_tests_cant": "Global conservation over all rasters.", "anchors": ["malstroem/algorithms/flow.py:accumulated_flow"]}
{"id": "C20", "title": "Compiled accumulated flow equals pure Python", "statement": "On every draining flow direction raster the compiled accumulated_flow (which starts a trace in every cell, not only in leaves) returns the same raster as the pure Python one.", "quantifier": "every draining flow direction raster", "why_tests_cant": "Tests compare sums on one raster.", "anchors": ["malstroem/algorithms/speedups/_flow.pyx:accumulated_flow", "malstroem/algorithms/speedups/_flow.pyx:trace_accumulated_flow", "malstroem/algorithms/flow.py:accumulated_flow"]}
{"id": "C21", "title": "Watersheds: each cell gets the first bluespot downstream", "statement": "After watersheds_from_labels(flowdir, labelled, unassigned) on a draining raster each cell carries the label of the first labelled cell on its downstream trace (itself included), and stays unassigned exactly if its trace leaves the raster without meeting a label; in particular labelled cells keep their label and no new label appears.", "quantifier": "every draining flow direction raster, every labelling, every edge visiting order", "why_tests_cant": "Order-dependent stack traversal over unbounded trees.", "anchors": ["malstroem/algorithms/flow.py:watersheds_from_labels", "malstroem/algorithms/flow.py:assign_watersheds_upstream", "malstroem/algorithms/_raster_utils.py:edge_cell_indexes"]}
{"id": "C22", "title": "Watersheds are connected", "statement": "If each label's cells form one 8-connected region then so does each label's watershed.", "quantifier": "every draining flow direction raster, every labelling with connected labels", "why_tests_cant": "The test suite checks one raster; connectivity must hold for all.", "anchors": ["malstroem/algorithms/flow.py:watersheds_from_labels"]}
{"id": "C23", "title": "Watershed computation terminates when edges flow outward", "statement": "watersheds_from_labels returns for every flow direction raster whose edge cells flow off the raster, even if interior directions contain cycles or code 8 cells; cells that do not drain off the raster keep their label.", "quantifier": "every flow direction raster with outward edges (interior arbitrary)", "why_tests_cant": "Termination over cyclic inputs.", "anchors": ["malstroem/algorithms/flow.py:watersheds_from_labels", "malstroem/algorithms/flow.py:assign_watersheds_upstream", "malstroem/algorithms/flow.py:set_edges_flow_outward"]}
{"id": "C24", "title": "label_stats is exact per label", "statement": "For labels in 0..nlabels label_stats returns for each label the minimum, maximum, sum and number of the data values of the cells with that label (inf, -inf, 0, 0 for an absent label); counts over all labels sum to the number of cells.", "quantifier": "every data raster, every labelling, every label", "why_tests_cant": "All rasters and labels.", "anchors": ["malstroem/algorithms/label.py:label_stats", "malstroem/algorithms/speedups/_label.pyx:label_stats"]}
{"id": "C25", "title": "label_min_index / label_max_index locate the extreme cell", "statement": "For each label present, label_min_index (label_max_index) returns the minimum (maximum) data value over that label and the row and column of the first cell in row-major order attaining it; absent labels give row=col=-1.", "quantifier": "every data raster, every labelling", "why_tests_cant": "All rasters, ties included.", "anchors": ["malstroem/algorithms/label.py:label_min_index", "malstroem/algorithms/label.py:label_max_index", "malstroem/algorithms/speedups/_label.pyx:label_min_index"]}
{"id": "C26", "title": "label_count and label_data partition the cells", "statement": "label_count returns for each label 0..max the number of its cells, summing to rows*cols; label_data returns for each non-background label exactly its data values in row-major order and an empty list for the background.", "quantifier": "every raster and labelling, every background label", "why_tests_cant": "All rasters.", "anchors": ["malstroem/algorithms/label.py:label_count", "malstroem/algorithms/label.py:label_data"]}
{"id": "C27", "title": "Compiled label_data equals pure Python", "statement": "With speedups enabled label_data(data, labelled, nlabels, background) returns the same lists as with speedups disabled.", "quantifier": "every raster, labelling, nlabels and background label", "why_tests_cant": "Tests only use background=0.", "anchors": ["malstroem/algorithms/speedups/_label.pyx:label_data", "malstroem/algorithms/label.py:label_data"]}
{"id": "C28", "title": "Bluespot filtering keeps exactly the bluespots that pass", "statement": "After labelling the wet cells, filtering labels with any predicate on their stats and relabelling, a cell is in a final bluespot iff its original bluespot passed the filter, and two cells share a final label iff they shared an original one: filtering neither splits, merges nor resurrects bluespots, and the background is never kept.", "quantifier": "every depth raster, every filter predicate, every connected component labelling satisfying the 8-connectivity contract", "why_tests_cant": "All regions and all predicates.", "anchors": ["malstroem/bluespots.py:filterbluespots", "malstroem/algorithms/label.py:keep_labels", "malstroem/algorithms/label.py:connected_components", "malstroem/bluespots.py:BluespotTool.process"]}
{"id": "C29", "title": "next_downstream_label finds the first foreign label", "statement": "next_downstream_label returns the label of the first cell on the downstream trace that is neither the start cell's label nor the background, with the trace up to and including that cell as geometry; it returns None with the whole trace iff no such cell exists.", "quantifier": "every flow direction raster on which the trace is finite, every labelling, every start cell", "why_tests_cant": "Unbounded traces.", "anchors": ["malstroem/algorithms/net.py:next_downstream_label", "malstroem/algorithms/net.py:pourpoint_network"]}
{"id": "C30", "title": "The stream network keeps every pour point and invents only fresh junctions", "statement": "geometric_pourpoint_network outputs each pour point exactly once with its own id and cell; every other node is a junction with an id above all labels; all ids are distinct; every junction has at least two upstream nodes.", "quantifier": "every draining flow direction raster, every labelling, pour points lying in their own bluespot", "why_tests_cant": "Recursive untangling over arbitrarily many and arbitrarily nested merging paths.", "anchors": ["malstroem/algorithms/net.py:geometric_pourpoint_network", "malstroem/algorithms/net.py:_untangle", "malstroem/algorithms/net.py:_split_into_common_flow_groups", "malstroem/algorithms/net.py:_prune_common_flow"]}
{"id": "C31", "title": "Junction insertion preserves the flow paths", "statement": "Each node's geometry starts in its own cell, a node draining to a junction ends in the junction's cell, and concatenating a pour point's geometry with those of the junctions it drains through gives exactly its original downstream trace, ending at the same downstream bluespot as in pourpoint_network.", "quantifier": "every draining flow direction raster, every labelling, every pour point", "why_tests_cant": "Recursive construction of unbounded depth.", "anchors": ["malstroem/algorithms/net.py:_prune_common_flow", "malstroem/algorithms/net.py:_untangle", "malstroem/algorithms/net.py:geometric_pourpoint_network"]}
{"id": "C32", "title": "The untangling terminates without index errors", "statement": "geometric_pourpoint_network returns (no IndexError from popping an exhausted path, no assertion failure, no endless recursion) for every draining raster whose labelled pour points lie in distinct bluespots.", "quantifier": "every draining flow direction raster, labelling and pour point list meeting the contract", "why_tests_cant": "Failure depends on path suffix structure that tests do not enumerate.", "anchors": ["malstroem/algorithms/net.py:_prune_common_flow", "malstroem/algorithms/net.py:_untangle"]}
{"id": "C33", "title": "The bluespot network is acyclic", "statement": "If each bluespot's pour point is its lowest cell on the surface that produced the flow directions (or its cell of maximal accumulated flow), then following downstream ids from any bluespot never returns to it and ends in a node draining off the raster.", "quantifier": "every DEM, every labelling, both pour point rules", "why_tests_cant": "Global acyclicity over all terrains; a single cyclic terrain makes bluespots vanish from the final state.", "anchors": ["malstroem/bluespots.py:BluespotTool.process", "malstroem/algorithms/net.py:pourpoint_network", "malstroem/streams.py:StreamTool.process"]}
{"id": "C34", "title": "Each node balances its water", "statement": "For each node reached, Network.rain_event reports v + spillv = own volume + sum of spillv of the nodes directly upstream, with v = min(total, capacity) and spillv = max(0, total - capacity); with non-negative inputs 0 <= v <= capacity, spillv >= 0, 0 <= pctv <= 100, and no water is spilled by a node that is not full.", "quantifier": "every set of nodes with distinct ids, every volume and capacity (exact arithmetic)", "why_tests_cant": "All networks and volumes.", "anchors": ["malstroem/network.py:Network._calc_node", "malstroem/network.py:Network.rain_event"]}
{"id": "C35", "title": "Water is conserved over the whole network", "statement": "In a network where every node leads to a root, the sum of the input volumes equals the sum of the retained volumes v plus the sum of the root nodes' spillv.", "quantifier": "every forest of nodes of any size and shape, every volume and capacity (exact arithmetic)", "why_tests_cant": "Global conservation law over unbounded trees.", "anchors": ["malstroem/network.py:Network.rain_event", "malstroem/network.py:Network._calc_stream_tree"]}
{"id": "C36", "title": "rain_event terminates and reports exactly the nodes draining to a root", "statement": "For any nodes with distinct ids, including cyclic or dangling downstream references, rain_event returns without KeyError and reports each node that leads to a root exactly once and no other node.", "quantifier": "every list of nodes with distinct ids", "why_tests_cant": "Termination on arbitrary (cyclic) graphs.", "anchors": ["malstroem/network.py:Network._calc_stream_tree", "malstroem/network.py:Network.add_node", "malstroem/network.py:Network.rain_event"]}
{"id": "C37", "title": "Final state does not depend on node order", "statement": "Adding the same nodes in any order gives each node the same v, spillv and pctv (exact arithmetic).", "quantifier": "every permutation of every node list with distinct ids", "why_tests_cant": "Factorially many orders.", "anchors": ["malstroem/network.py:Network.add_nodes", "malstroem/network.py:Network.rain_event"]}
{"id": "C38", "title": "More rain never means less water anywhere", "statement": "If every node's input volume is increased or kept, every node's v and spillv increase or stay; increasing a capacity never increases any spillv downstream.", "quantifier": "every network, every pair of pointwise ordered inputs", "why_tests_cant": "Relational property over pairs of runs.", "anchors": ["malstroem/network.py:Network.rain_event"]}
{"id": "C39", "title": "Uniform rain volumes", "statement": "SimpleVolumeTool writes for each node wshed_area * mm * 0.001 m3, keeps all other attributes, and the total over all nodes is mm * 0.001 * the total watershed area.", "quantifier": "every node list and rain amount (exact arithmetic)", "why_tests_cant": "All inputs.", "anchors": ["malstroem/rain.py:SimpleVolumeTool.process"]}
{"id": "C40", "title": "Raster rain volumes conserve the precipitation raster", "statement": "RasterVolumeTool assigns to node n the sum of the precipitation cells labelled n times the unit factor and 0 to nodes whose id exceeds every label; if each label has exactly one node, the total over all nodes equals the total of the raster times the factor.", "quantifier": "every label and precipitation raster of equal shape, every unit, every node list (exact arithmetic)", "why_tests_cant": "All rasters.", "anchors": ["malstroem/rain.py:RasterVolumeTool.process"]}
{"id": "C41", "title": "The elevation histogram counts every bluespot cell", "statement": "For each non-background label bluespot_hypsometry_stats returns a histogram whose bounds contain the label's minimum and maximum elevation and whose counts sum to the number of the label's cells.", "quantifier": "every DEM, labelling and positive resolution (exact arithmetic)", "why_tests_cant": "All elevations, including below zero.", "anchors": ["malstroem/hyps.py:histogram_bins", "malstroem/hyps.py:bluespot_hypsometry_stats"]}
{"id": "C42", "title": "Histogram bins are consistent", "statement": "histogram_bins returns at least one bin for zmin <= zmax, upper_bound - lower_bound == num_bins * resolution, and the stats pass assert_hypsometrystats_valid.", "quantifier": "every zmin <= zmax and resolution > 0 (exact arithmetic)", "why_tests_cant": "All real bounds.", "anchors": ["malstroem/hyps.py:histogram_bins", "malstroem/hyps.py:assert_hypsometrystats_valid"]}
{"id": "C43", "title": "Hypsometry stats survive flattening to attributes", "statement": "hypsometrystats_from_flatdict(_hypsometrystats_to_flatdict(h)) == h for every histogram whose number of counts equals num_bins, including the empty background histogram.", "quantifier": "every hypsometry record of any length", "why_tests_cant": "String encoding of unboundedly many unbounded integers.", "anchors": ["malstroem/hyps.py:_hypsometrystats_to_flatdict", "malstroem/hyps.py:hypsometrystats_from_flatdict"]}
{"id": "C44", "title": "Cumulative volumes are the discretised basin volumes", "statement": "The volume reported below bin i is cell_area * resolution * sum over lower bins k of counts[k] * (i - k); it starts at 0, never decreases with i, and never exceeds the true volume below the lower bound of bin i + 1.", "quantifier": "every histogram (exact arithmetic)", "why_tests_cant": "All histograms of all lengths.", "anchors": ["malstroem/approx.py:_cumulative_volume", "malstroem/hyps.py:cumulative_volume"]}
{"id": "C45", "title": "Approximate water levels stay within the bluespot and grow with volume", "statement": "approx_water_level_io gives each bluespot a level between its lowest cell and its spill level, equal to the lowest cell at volume 0 (if its capacity is positive) and to the spill level when full, and a larger final volume never gives a lower level.", "quantifier": "every bluespot with non-negative elevations, every resolution, every pair of volumes (exact arithmetic)", "why_tests_cant": "Monotonicity over the reals for all bluespots.", "anchors": ["malstroem/approx.py:approx_water_level_io", "malstroem/approx.py:_bin_waterlevel_z"]}
{"id": "C46", "title": "Approximate bluespots are the cells below the water level", "statement": "approx_bluespots keeps a cell's label iff its DEM elevation is at most the water level of its bluespot, turns the others into background, and reports max(0, level - elevation) as depth; the extent only shrinks, grows with the levels, and background cells have depth 0.", "quantifier": "every label raster, every water level dictionary covering its labels, every DEM not below -999", "why_tests_cant": "All rasters and levels.", "anchors": ["malstroem/approx.py:approx_bluespots", "malstroem/approx.py:approx_bluespots_io", "malstroem/approx.py:_labelvaluedict_to_list", "malstroem/algorithms/label.py:set_label_to_value"]}
{"id": "C47", "title": "Reading a raster replaces nodata and only nodata", "statement": "RasterReader.read with a substitute value returns the stored raster with exactly the cells that are (close to) the dataset's nodata value replaced by the substitute; without nodata or substitute the data is returned unchanged.", "quantifier": "every raster, nodata value (including NaN and 0) and substitute", "why_tests_cant": "All values.", "anchors": ["malstroem/io.py:RasterReader.read"]}
{"id": "C48", "title": "Writing an integer raster never changes values", "statement": "RasterWriter.write stores an integer raster in a file type that can represent each of its values, or raises an error; no value is silently wrapped.", "quantifier": "every integer raster of any numpy integer type", "why_tests_cant": "Boundary values of every type.", "anchors": ["malstroem/io.py:RasterWriter.write"]}
{"id": "C49", "title": "Filter expressions are confined to a safe alphabet", "statement": "check_filter accepts only strings made of the letters of area, maxdepth, volume, and, or, the characters <>=!0123456789.() and white space, so no accepted filter contains a quote, an underscore, a square bracket, a comma or a colon, and every name in it (a maximal run of characters outside the allowed punctuation) contains one of those five words, so it cannot be eval, open, import or any other name free of them. No filter reaches eval without having passed this check.", "quantifier": "every string", "why_tests_cant": "An adversarial string space.", "anchors": ["malstroem/scripts/_utils.py:check_filter", "malstroem/scripts/_utils.py:parse_filter"]}
{"id": "C50", "title": "check_filter rejects everything but the allowed words", "statement": "check_filter raises for every string that is not a sequence of the words area, maxdepth, volume, and, or, the allowed characters and white space.", "quantifier": "every string", "why_tests_cant": "An adversarial string space.", "anchors": ["malstroem/scripts/_utils.py:check_filter"]}
{"id": "C51", "title": "Filter expressions mean what they say", "statement": "Every filter written with comparisons of area, maxdepth and volume, and/or and parentheses passes check_filter, and the expression handed to eval is the same expression with area, maxdepth and volume replaced by the area, max and volume entries of the bluespot's stats.", "quantifier": "every well formed filter expression of any depth", "why_tests_cant": "Infinitely many expressions; textual substitution could interfere with itself.", "anchors": ["malstroem/scripts/_utils.py:parse_filter", "malstroem/scripts/_utils.py:check_filter"]}
{"id": "C52", "title": "Toggling speedups is consistent", "statement": "After any sequence of speedups.enable() and disable() the flag enabled says whether the compiled or the original functions are installed, either all of the nine replaceable functions are compiled or none is, and disable always restores the original functions.", "quantifier": "every finite history of enable/disable calls, with or without compiled modules", "why_tests_cant": "All histories.", "anchors": ["malstroem/algorithms/speedups/__init__.py:enable", "malstroem/algorithms/speedups/__init__.py:disable"]}
{"id": "C53", "title": "Pour point attributes are consistent", "statement": "assemble_pourpoints gives each bluespot its own label as id, its cell count and depth sum times the cell area as area and volume, the watershed's cell count times the cell area as watershed area; summed over all pour points the watershed areas equal the raster area, and each watershed is at least as large as its bluespot so bspot_fumm is never divided by zero.", "quantifier": "every labelling produced by the bluespot tool, every geotransform with non-zero cell size", "why_tests_cant": "All rasters.", "anchors": ["malstroem/bluespots.py:assemble_pourpoints", "malstroem/bluespots.py:BluespotTool.process"]}
{"id": "C54", "title": "Cell to world transformation hits the cell centre", "statement": "transform_cell_to_world maps (row, col) to the affine image of (col + 0.5, row + 0.5); for a non-degenerate geotransform distinct cells get distinct points and neighbouring columns and rows are one cell width and height apart.", "quantifier": "every geotransform and cell (exact arithmetic)", "why_tests_cant": "All transforms.", "anchors": ["malstroem/vector.py:transform_cell_to_world"]}
{"id": "C55", "title": "Final state output keeps every feature", "statement": "FinalStateCalculator writes every input feature once per distinct node id, unchanged except that nodes leading to a root get spillv, v and pctv.", "quantifier": "every feature list", "why_tests_cant": "All inputs including duplicate ids.", "anchors": ["malstroem/network.py:FinalStateCalculator.process"]}
{"id": "C56", "title": "Rain on the terrain equals stored plus departed water, end to end", "statement": "Running the complete chain (fill, flow directions, bluespots, watersheds, pour points, network, uniform rain, final state) on any finite DEM, the rain volume mm * 0.001 * raster area equals the water retained in all nodes plus the water spilled by nodes draining off the raster.", "quantifier": "every finite DEM >= 2x2, every filter, every rain amount (exact arithmetic)", "why_tests_cant": "An end-to-end conservation law over all terrains.", "anchors": ["malstroem/scripts/complete.py:process_all", "malstroem/dem.py:DemTool.process", "malstroem/bluespots.py:BluespotTool.process", "malstroem/streams.py:StreamTool.process", "malstroem/rain.py:SimpleVolumeTool.process", "malstroem/network.py:FinalStateCalculator.process"]}
{"id": "C57", "title": "Safe short and diag really separate floating point elevations", "statement": "With short, diag = minimum_safe_short_and_diag(dem), adding short or diag in float64 strictly raises every value whose magnitude is at most the largest elevation magnitude in dem (and up to 1024 times it), so that the no-flats fill of a float32 DEM has no flats: from every cell a way leads to the edge that falls at every step.", "quantifier": "every finite DEM, every float64 value in the range", "why_tests_cant": "All 2^64 floats.", "anchors": ["malstroem/algorithms/fill.py:minimum_safe_short_and_diag"]}
{"id": "C58", "title": "Bluespot tool works without a filter", "statement": "BluespotTool.process called with no filter function produces the same bluespots, watersheds and pour points as with a filter that accepts everything.", "quantifier": "every depth raster", "why_tests_cant": "Must hold for all inputs.", "anchors": ["malstroem/bluespots.py:BluespotTool.process"]}
{"id": "C59", "title": "Accumulated flow accepts every flow direction raster", "statement": "accumulated_flow returns for each flow direction raster with codes 0..8, code 8 cells simply ending the flow.", "quantifier": "every flow direction raster with codes 0..8", "why_tests_cant": "All rasters, including those from terrain_flowdirection(edges_flow_outward=False).", "anchors": ["malstroem/algorithms/flow.py:accumulated_flow", "malstroem/algorithms/flow.py:cell_in_direction", "malstroem/algorithms/flow.py:direction_to_delta"]}
{"id": "C60", "title": "Streams do not overlap", "statement": "In the result of geometric_pourpoint_network the geometries of two different nodes share no cells except possibly their last ones, so every stream cell is drawn once (the background node 0, whose stream is at most one step long, excepted).", "quantifier": "every draining flow direction raster, every labelling, pour points whose water does not come back into their own bluespot", "why_tests_cant": "All shapes of merging streams, any number of streams meeting in any order.", "anchors": ["malstroem/algorithms/net.py:geometric_pourpoint_network", "malstroem/algorithms/net.py:_untangle", "malstroem/algorithms/net.py:_split_into_common_flow_groups"]}
{"id": "C61", "title": "Node and stream features describe the network", "statement": "StreamTool writes one point feature per network node, in the centre of its cell, with the node's id, downstream id, type and cell; pour point nodes carry the bluespot id, area, volume and catchment area of their own pour point and junctions carry none; catchment areas and capacities of all nodes add up to those of the pour points. With a stream output it also writes one line per non-empty path through the centres of the path's cells.", "quantifier": "every network input (draining flow directions, labelled bluespots, pour point features in order of their bluespot ids)", "why_tests_cant": "All networks, any number of junctions; a wrong index would attach another bluespot's volume to a node.", "anchors": ["malstroem/streams.py:StreamTool.process"]}
{"id": "C62", "title": "The rasters DemTool writes belong together", "statement": "DemTool.process returns for every DEM of at least 2x2 finite cells with square cells. The filled raster is the spill level of every cell; the depth raster is filled minus DEM, never negative, positive exactly below the spill level and 0 on the edge; the flow directions drain every cell off the raster, falling on a surface not below the filled terrain; the accumulated flow is written if and only if asked for and belongs to the written flow directions.", "quantifier": "every DEM of at least 2x2 finite cells", "why_tests_cant": "All DEMs.", "anchors": ["malstroem/dem.py:DemTool.process"]}
{"id": "C63", "title": "Approximate water levels are close to the exact levels", "statement": "The level written by approx_water_level_io differs from the level at which a horizontal surface over the bluespot's ground holds exactly the final volume by at most two histogram bins.", "quantifier": "every bluespot with non-negative elevations, every resolution, every volume (exact arithmetic)", "why_tests_cant": "An error bound over all terrains, resolutions and volumes.", "anchors": ["malstroem/approx.py:approx_water_level_io", "malstroem/approx.py:_cumulative_volume", "malstroem/approx.py:_bin_waterlevel_z"]}
{"id": "C64", "title": "Disabling the compiled functions reaches every tool", "statement": "After speedups.disable() every tool, including the hypsometry, runs the pure Python functions, and after speedups.enable() every tool runs the compiled ones, whatever the order of imports and calls.", "quantifier": "every history of enable and disable calls before and after importing malstroem.hyps, compiled modules available or not", "why_tests_cant": "Tests run one configuration and compare results, not which function ran; the bug is a name bound at import time, which shows only in histories that toggle after the import.", "anchors": ["malstroem/algorithms/speedups/__init__.py:enable", "malstroem/algorithms/speedups/__init__.py:disable", "malstroem/hyps.py:label_stats", "malstroem/hyps.py:label_data"]}
{"id": "C65", "title": "Writing a raster never changes values", "statement": "If RasterWriter.write returns, the file holds exactly the values of the array, in a type that can represent every one of them, with the shape of the array and the transform, crs and nodata value of the writer.", "quantifier": "every boolean, integer and floating point numpy array of any shape, every writer", "why_tests_cant": "All dtypes and all values: the type of the file is chosen from the minimum and maximum, so only particular values at the limits of a type go wrong.", "anchors": ["malstroem/io.py:RasterWriter.write"]}
{"id": "C66", "title": "A raster written by one tool is read unchanged by the next", "statement": "RasterReader on a file RasterWriter has written returns the shape, values, transform and crs that were written, unless the reader substitutes nodata cells by another value.", "quantifier": "every array of up to 64 bit numbers, every writer with a transform, every reader with no substitute or whose substitute is the nodata value, provided no other value of the raster is within the tolerance of it", "why_tests_cant": "All arrays, all combinations of nodata values and substitutes.", "anchors": ["malstroem/io.py:RasterWriter.write", "malstroem/io.py:RasterReader.read"]}
{"id": "C67", "title": "The complete command turns rain into consistent water levels and flooded extents", "statement": "The complete command succeeds on every DEM it accepts. Every bluespot has one spill level for all its cells and is given one water level between its lowest ground and that spill level, belonging to the volume of water the network left in it; the written final extent and final depths are those of water standing at these levels, nowhere deeper than in the full bluespot; the rain is balanced.", "quantifier": "every DEM of at least 2x2 cells without negative elevations below the spill level, every filter, amount of rain and resolution (exact arithmetic)", "why_tests_cant": "An end-to-end statement over all terrains; tests compare one terrain with stored files.", "anchors": ["malstroem/scripts/complete.py:process_all", "malstroem/hyps.py:bluespot_hypsometry_io", "malstroem/approx.py:approx_water_level_io", "malstroem/approx.py:approx_bluespots_io"]}
{"id": "C68", "title": "The subcommands run in sequence write the same files as complete", "statement": "Running filled, depths, flowdir, [accum], bspots, wsheds, pourpts, network, hyps, initvolumes, finalvolumes, finallevels and finalbluespots one after the other, each on the files of the ones before, writes exactly the rasters and features the single command complete writes for the same DEM and options; one succeeds if and only if the other does.", "quantifier": "every DEM file (with or without nodata cells), filter, amount of rain, resolution, with and without accumulated flow, Python and compiled functions", "why_tests_cant": "Two separate code paths over all inputs; each is tested alone and on one terrain. They differ in when nodata is substituted, which label count is passed on and which checks are made, which shows on particular inputs only.", "anchors": ["malstroem/scripts/complete.py:process_all", "malstroem/scripts/dem.py:process_filled", "malstroem/scripts/dem.py:process_depths", "malstroem/scripts/dem.py:process_flowdir", "malstroem/scripts/dem.py:process_accum", "malstroem/scripts/bluespot.py:process_bspots", "malstroem/scripts/bluespot.py:process_wsheds", "malstroem/scripts/bluespot.py:process_pourpoints", "malstroem/scripts/stream.py:process_network", "malstroem/scripts/initvolume.py:process_volumes", "malstroem/scripts/finalstate.py:process_net", "malstroem/scripts/hyps.py:process_hypsometry"]}
{"id": "C69", "title": "initvolumes takes exactly one source of water", "statement": "initvolumes accepts exactly one of a rain depth (-mm) and a rain raster (-pr, which needs -bluespots), refuses any other combination with a usage error, and then writes the volumes of the tool for the source given.", "quantifier": "every combination of options and values, including 0 mm", "why_tests_cant": "All values: options are tested by their truth value, so one particular number behaves as if it was not given.", "anchors": ["malstroem/scripts/initvolume.py:process_volumes", "malstroem/rain.py:SimpleVolumeTool", "malstroem/rain.py:RasterVolumeTool"]}
{"id": "C70", "title": "Features written to a layer are read back", "statement": "VectorReader.read_geojson_features returns the features VectorWriter.write_geojson_features was given, in the same order, with their geometry and every attribute value; attributes that only some features have are kept and are null in the others; an integer may come back as a real number where other features have real numbers. Other layers of the datasource are unchanged.", "quantifier": "every sequence of features (also none), every set of attributes, every datasource, any number of writes", "why_tests_cant": "All combinations of attributes: the fields of the layer are taken from one feature and values are copied by name, silently dropping what does not fit.", "anchors": ["malstroem/io.py:VectorWriter.write_geojson_features", "malstroem/io.py:VectorWriter._init_fields", "malstroem/io.py:VectorWriter._write_ogr_feature", "malstroem/io.py:VectorReader.read_geojson_features"]}
{"id": "C71", "title": "Results do not depend on the intermediate vector files", "statement": "The complete command and the sequence of subcommands, in which each step reads the layers of the steps before from a file, succeed and write the same rasters and the same features as if every step had been handed the features of the one before directly: that missing attributes come back as nulls, integers as real numbers, feature ids and geometries changed, has no influence.", "quantifier": "every DEM, filter, amount of rain and resolution, and every file format that gives back attribute values (integers possibly as real numbers)", "why_tests_cant": "All terrains and formats; tests use one or two formats, and a null where a key was missing only matters in particular features.", "anchors": ["malstroem/scripts/complete.py:process_all", "malstroem/io.py:VectorReader", "malstroem/io.py:VectorWriter", "malstroem/streams.py:StreamTool.process", "malstroem/network.py:FinalStateCalculator.process", "malstroem/hyps.py:bluespot_hypsometry_io", "malstroem/approx.py:approx_water_level_io"]}
{"id": "C72", "title": "Running a tool again", "statement": "A tool that is run a second time with the same output layer leaves one copy of its features there; at least it loses nothing, and steps that read the layer give the same result.", "quantifier": "every sequence of features and every datasource", "why_tests_cant": "Tests write to fresh files; whether a second run replaces, appends or mixes is a statement about all contents.", "anchors": ["malstroem/io.py:VectorWriter._init_datasource", "malstroem/io.py:VectorWriter.write_geojson_features", "malstroem/network.py:FinalStateCalculator.process"]}
{"id": "C73", "title": "One polygon per bluespot and watershed", "statement": "Vectorizing gives exactly one polygon per bluespot and one per watershed, with the bluespot id, covering exactly the cells of the bluespot or watershed. The polygons of the flooded extents cover exactly the flooded cells, each lies in the bluespot whose id it has; a partly filled bluespot may have several.", "quantifier": "every depths raster, flow directions, filter and water levels", "why_tests_cant": "All shapes of bluespots and watersheds; that a watershed is never split into several polygons needs an argument about all flow patterns.", "anchors": ["malstroem/vector.py:vectorize_labels_file", "malstroem/vector.py:vectorize_labels_file_io", "malstroem/bluespots.py:BluespotTool.process"]}
{"id": "C74", "title": "The final state is sensible in floating point arithmetic", "statement": "With float64 arithmetic FinalStateCalculator returns, and in its output no node holds a negative volume or more than its capacity, no spill is negative, only nodes filled to capacity spill, what a node holds and spills is what arrives up to one rounding per upstream node and two more, and more rain never gives less spill anywhere or less water in a node.", "quantifier": "every network whose nodes lead to a root and every non-negative float64 volume and capacity (no overflow)", "why_tests_cant": "Rounding errors depend on the values; tests compare a few sums with a tolerance.", "anchors": ["malstroem/network.py:Network.rain_event", "malstroem/network.py:Network._calc_node", "malstroem/network.py:FinalStateCalculator.process"]}
{"id": "C75", "title": "The fill percentage lies between 0 and 100", "statement": "pctv lies between 0 and 100, is 100 for a full bluespot, and differs from the exact percentage of v in bspot_vol by rounding only; it is null exactly for nodes without capacity.", "quantifier": "every network and every non-negative float64 volume and capacity", "why_tests_cant": "The rounding of 100*v/cap depends on the bits of the capacity.", "anchors": ["malstroem/network.py:FinalStateCalculator.process"]}
{"id": "C76", "title": "Rounding errors of the final state are bounded", "statement": "Every volume in the output of FinalStateCalculator differs from the one of exact arithmetic by at most about 3.4e-16 times the number of nodes times the total water, and so does the sum of retained and leaving water from the water put in.", "quantifier": "every network whose nodes lead to a root, of every size and depth, and every non-negative float64 volume and capacity", "why_tests_cant": "Errors accumulate along flow paths of any length; tests see only small networks.", "anchors": ["malstroem/network.py:Network.rain_event", "malstroem/network.py:Network._calc_node", "malstroem/network.py:FinalStateCalculator.process"]}
{"id": "C77", "title": "The final state does not depend on the order of the nodes in floating point arithmetic", "statement": "Permuting the input features changes the volumes FinalStateCalculator computes by no more than rounding errors; ideally not at all.", "quantifier": "every network and every permutation of its features", "why_tests_cant": "All permutations of all networks; float addition is not associative.", "anchors": ["malstroem/network.py:Network._calc_node", "malstroem/network.py:FinalStateCalculator.process"]}
{"id": "C78", "title": "The water balance of the complete command in floating point arithmetic", "statement": "With float32 elevations and float64 arithmetic throughout, the complete command returns, and the water held by all nodes plus the water spilled by those without a downstream node equals the rain on the whole raster up to about 3 n + 5 roundings (relative) for n nodes. No node holds a negative volume or more than its capacity; a node that spills is full. Areas are within two roundings of cell count times cell area, capacities of a bluespot with k cells within k + 2 roundings of the sum of its depths times the cell area.", "quantifier": "every float32 DEM of at least 2x2 cells, every filter, cell size and amount of rain (no overflow or underflow), Python and compiled functions", "why_tests_cant": "Rounding errors accumulate through depths, sums, areas, volumes and a network of any size.", "anchors": ["malstroem/scripts/complete.py:process_all", "malstroem/bluespots.py:BluespotTool.process", "malstroem/rain.py:SimpleVolumeTool.process", "malstroem/network.py:FinalStateCalculator.process", "malstroem/algorithms/label.py:label_stats"]}
{"id": "C79", "title": "The elevation histogram counts every cell in floating point arithmetic", "statement": "With float64 arithmetic the histogram that bluespot_hypsometry_stats returns for a bluespot counts every cell of it, its bounds enclose the elevations up to rounding and are at most one step away from them, and the number of cells in the first i bins is the number of cells below the upper edge of bin i, up to cells within rounding of that edge.", "quantifier": "every labelling and DEM (elevations not negative and at most 2^20 steps), every resolution; float32 and float64 DEMs", "why_tests_cant": "int(z * (1 / resolution)) * resolution is above z for some z and resolution; which ones depends on their bits.", "anchors": ["malstroem/hyps.py:bluespot_hypsometry_stats", "malstroem/hyps.py:histogram_bins"]}
{"id": "C80", "title": "Water surfaces are level with the compiled functions", "statement": "With the compiled fill installed, cells that are under water (filled above the DEM) and connected through such cells have the same filled elevation.", "quantifier": "every DEM the compiled fill accepts", "why_tests_cant": "The compiled sweeps skip a row and a column each; whether that leaves a step in a water surface depends on the terrain near the edge.", "anchors": ["malstroem/algorithms/speedups/_fill.pyx:fill_terrain", "malstroem/algorithms/speedups/__init__.py:enable", "malstroem/dem.py:DemTool.process"]}
{"id": "C81", "title": "Flow directions do not depend on the engine or on rounding", "statement": "The flow directions computed in floating point are those of exact arithmetic, with the Python functions and with the compiled ones.", "quantifier": "every terrain of doubles; both settings of the edge option; any rounding to nearest", "why_tests_cant": "Python divides diagonal drops by sqrt(2), the compiled code multiplies with the rounded reciprocal; near ties between a straight and a diagonal drop decide, and a test has to hit one.", "anchors": ["malstroem/algorithms/flow.py:terrain_flowdirection", "malstroem/algorithms/flow.py:_terrain_flow", "malstroem/algorithms/speedups/_flow.pyx:terrain_flow"]}
{"id": "C82", "title": "Compiled functions do not change the results of complete", "statement": "The complete command writes files with the same contents with the compiled functions installed as with the Python functions.", "quantifier": "every DEM the compiled functions accept, every filter, amount of rain and resolution", "why_tests_cant": "Installing the compiled functions replaces the algorithms behind every step; a difference in one cell can move pour points, watersheds and streams far away.", "anchors": ["malstroem/algorithms/speedups/__init__.py:enable", "malstroem/scripts/complete.py:process_all", "malstroem/dem.py:DemTool.process", "malstroem/bluespots.py:BluespotTool.process"]}
{"id": "C83", "title": "Water moves only downstream", "statement": "The water leaving a bluespot is what was put in upstream of it less what is held there; water put in at some bluespots changes nothing at those not downstream of them; and where more water is put in, no downstream bluespot gets more than was added upstream of it.", "quantifier": "every stream network in which each node leads to a root, every distribution of volumes over the nodes", "why_tests_cant": "Whether a change of one input leaks into an unrelated branch depends on the shape of the network and the order in which nodes are handled.", "anchors": ["malstroem/network.py:Network.rain_event", "malstroem/network.py:Network._calc_node", "malstroem/network.py:Network._calc_stream_tree"]}
{"id": "C84", "title": "An even precipitation raster is even rain", "statement": "initvolumes with a precipitation raster that holds the same amount everywhere gives every node the volume it gets from the option for even rain of that amount.", "quantifier": "every DEM complete accepts, every filter, every amount, both engines; the bluespot label raster the documentation asks for", "why_tests_cant": "The two ways count different cells: one multiplies the watershed area, the other sums over a label raster; they agree on some DEMs.", "anchors": ["malstroem/rain.py:RasterVolumeTool.process", "malstroem/rain.py:SimpleVolumeTool.process", "malstroem/scripts/initvolume.py:process_volumes", "docs/cli.rst"]}
{"id": "C85", "title": "The height datum and the unit of elevation do not matter", "statement": "Adding a constant to all elevations adds it to the filled elevations and changes no other result of complete up to the final state, for the same increments on flats; multiplying all elevations and increments by a positive number multiplies filled elevations and depths and leaves flow directions and accumulated flow as they are. Filling commutes with every change of elevations that keeps their order, such as rounding, and does not enlarge differences between two DEMs.", "quantifier": "every DEM, constant, factor, filter, amount of rain, both engines; exact elevation differences", "why_tests_cant": "A comparison with an absolute elevation, a wrong start value or a nodata value taken for an elevation shows only for some offsets.", "anchors": ["malstroem/algorithms/fill.py:fill_terrain", "malstroem/algorithms/fill.py:fill_terrain_no_flats", "malstroem/algorithms/flow.py:terrain_flowdirection", "malstroem/dem.py:DemTool.process", "malstroem/bluespots.py:BluespotTool.process", "malstroem/scripts/complete.py:process_all"]}
{"id": "C86", "title": "More rain never lowers the water anywhere, from the DEM to the flooded cells", "statement": "Running the complete command on the same DEM with a larger amount of rain (and the same settings) leaves the terrain outputs, the bluespots, the network and the hypsometry unchanged; every node holds at least as much water and spills at least as much; no bluespot has a lower water level; every flooded cell stays flooded by the same bluespot; and nowhere in a bluespot is the water less deep.", "quantifier": "All DEMs of finite elevations with at least two rows and columns (not negative below their spill level), square cells, filters, histogram resolutions and pairs of rain amounts mm <= mm', whatever the pits, watersheds, network and fill order", "why_tests_cant": "A scenario comparison is made between two whole runs: tests compare a few rain amounts on one DEM, while the claim is that the composition of filling, labelling, routing, interpolation and flooding is monotone for all terrains.", "anchors": ["malstroem/scripts/complete.py:process_all", "malstroem/rain.py:SimpleVolumeTool.process", "malstroem/network.py:Network.rain_event", "malstroem/approx.py:approx_water_level_io", "malstroem/approx.py:approx_bluespots_io"]}
{"id": "C87", "title": "The complete command writes its results into an empty directory and touches nothing else", "statement": "Given an empty directory, a successful run of complete leaves in it exactly the documented rasters, all with the transform and crs of the DEM, and a GeoPackage with the documented layers. However a run ends, no existing file is changed or removed and nothing is created outside the output directory. In a directory that is not empty, such as that of an earlier run, it changes nothing.", "quantifier": "every state of the file system, every DEM, all options and every outcome of the run, including exceptions at any step", "why_tests_cant": "Tests run the command once in a fresh directory and look for some files; that nothing else changes, and that a step reads what the step before wrote, has to hold for every prior content and every way to fail.", "anchors": ["malstroem/scripts/complete.py:process_all", "malstroem/io.py:RasterWriter.write", "malstroem/io.py:VectorWriter", "malstroem/io.py:VectorReader"]}
{"id": "C88", "title": "A run of complete that gives no results says so and can be repeated", "statement": "If complete does not write its results because of its arguments, its exit status is not 0 and the output directory is as before, so that the command can be repeated with better arguments.", "quantifier": "every state of the file system, every DEM and all arguments", "why_tests_cant": "Depends on which checks come before the first write and on how the return value reaches the shell; tests call the function and look at results of good arguments.", "anchors": ["malstroem/scripts/complete.py:process_all", "malstroem/scripts/_utils.py:parse_filter", "malstroem/hyps.py:bluespot_hypsometry_io"]}
{"id": "C89", "title": "A stricter filter only removes bluespots", "statement": "If one filter accepts only bluespots that another filter accepts too, every bluespot written with the first is also written with the second: the same cells, the same pour point, depth, area and volume (its number may differ). No bluespot is split, joined or changed by the filter, and the watershed of a bluespot that stays contains the watershed it had.", "quantifier": "every depths raster, flow directions that drain, pairs of filters of which one implies the other, both rules for pour points, both engines", "why_tests_cant": "Users tune the filter and compare runs. The two runs number bluespots differently and compute watersheds again, so the claim is about a renumbering between two whole results for all rasters and filters.", "anchors": ["malstroem/bluespots.py:BluespotTool.process", "malstroem/bluespots.py:filterbluespots", "malstroem/algorithms/flow.py:watersheds_from_labels", "malstroem/bluespots.py:assemble_pourpoints"]}
{"id": "C90", "title": "bspot_fumm is the rain that fills a bluespot", "statement": "After even rain of at least bspot_fumm millimetres a bluespot is full in the final state, and with more it spills. If no other bluespot spills towards it, bspot_fumm is exact: with less rain it is not full, does not spill, and holds the proportional part of its volume.", "quantifier": "every DEM, filter and amount of rain, every bluespot, both engines; exact arithmetic", "why_tests_cant": "The attribute is computed by one tool and the volumes by three others with their own units and area; a test compares numbers of one terrain.", "anchors": ["malstroem/bluespots.py:assemble_pourpoints", "malstroem/rain.py:SimpleVolumeTool.process", "malstroem/network.py:Network.rain_event", "malstroem/scripts/complete.py:process_all"]}
{"id": "C91", "title": "A DEM of any number type can be filled", "statement": "fill_terrain and the filled subcommand end for a DEM of any number type (float64, integers) and give each cell its spill level, rounded to float32, the type of the filled raster; subtracting the DEM gives 0 outside of depressions.", "quantifier": "every DEM of at least 3x3 cells, every rounding to the type of the filled raster that keeps the order, pure Python and compiled", "why_tests_cant": "Whether the loop ends depends on single bits of elevations that are rounded when stored. Tests use float32 data, and only a proof about all sweeps tells an endless loop from a slow one.", "anchors": ["malstroem/algorithms/fill.py:fill_terrain", "malstroem/algorithms/fill.py:_fill_cell", "malstroem/algorithms/fill.py:_initialize_filled", "malstroem/scripts/dem.py:process_filled", "malstroem/scripts/dem.py:process_depths"]}
{"id": "C92", "title": "The final depths show the water of the final state", "statement": "In each bluespot the water in the final depths written by complete (depth times cell area, summed over the bluespot) is the final volume written for the bluespot, up to four bins of the hypsometry (-zresolution) times the area of the bluespot.", "quantifier": "every DEM without negative elevations in depressions, filter, amount of rain, resolution and bluespot; exact arithmetic", "why_tests_cant": "The volume passes through a network, a histogram, an interpolation and a comparison with every cell. A test can compare two totals on one terrain; whether water gets lost depends on the shape of the depression.", "anchors": ["malstroem/scripts/complete.py:process_all", "malstroem/approx.py:approx_water_level_io", "malstroem/approx.py:approx_bluespots_io", "malstroem/hyps.py:bluespot_hypsometry_io"]}
{"id": "C93", "title": "The pour point is where water leaves the bluespot", "statement": "The pour point of a bluespot is the point where water leaves it when it is full: a cell of the bluespot from which water flows to a dry cell outside it, over ground at exactly the level of the full bluespot; and water from every cell of the bluespot passes it.", "quantifier": "every DEM, filter and bluespot, both ways of choosing pour points", "why_tests_cant": "The pour point is picked by comparing one number per cell; that water really leaves there follows only from how the fill, the flow directions and the labelling fit together on all terrains. A test checks coordinates on one terrain.", "anchors": ["docs/cli.rst", "malstroem/bluespots.py:BluespotTool.process", "malstroem/algorithms/label.py:label_min_index", "malstroem/algorithms/label.py:label_max_index", "malstroem/algorithms/flow.py:terrain_flowdirection"]}
{"id": "C94", "title": "Water takes the lowest way out", "statement": "The flow directions lead from each cell over the edge of the raster on a lowest possible way: the filled terrain never rises along it, and the highest ground on the way is the spill level of the cell.", "quantifier": "every DEM whose different elevations are further apart than the number of cells times the increment that is added to get rid of flats (for float32 DEMs below 100 m with elevations in whole millimetres: up to 10 million cells); exact arithmetic and as computed in float64", "why_tests_cant": "Flow directions are computed from a surface that is changed a little to have no flats. Whether these changes ever add up to a wrong way out depends on the size and all elevations of the raster.", "anchors": ["malstroem/dem.py:DemTool.process", "malstroem/algorithms/fill.py:fill_terrain_no_flats", "malstroem/algorithms/fill.py:minimum_safe_short_and_diag", "malstroem/algorithms/flow.py:terrain_flowdirection"]}
{"id": "C95", "title": "Choosing pour points by DEM or by accumulated flow", "statement": "The two ways of choosing pour points give the same bluespots and watersheds, and the same pour point for every bluespot with one threshold cell only.", "quantifier": "every DEM, filter and bluespot; rasters that fit the flow directions", "why_tests_cant": "The documentation says when outputs differ; a test can only show terrains on which they do or do not.", "anchors": ["docs/cli.rst", "malstroem/bluespots.py:BluespotTool.process", "malstroem/scripts/bluespot.py:process_pourpoints"]}
{"id": "C96", "title": "The stream network can be built however many streams join", "statement": "geometric_pourpoint_network (network subcommand) returns the network for every valid set of flow directions, labels and pour points, no matter how many streams join one after the other.", "quantifier": "every raster, every set of pour points, every recursion limit of the interpreter", "why_tests_cant": "The number of nested calls is the number of junctions one stream passes, which only grows with the size of the terrain. Test rasters have a handful.", "anchors": ["malstroem/algorithms/net.py:geometric_pourpoint_network", "malstroem/algorithms/net.py:_untangle", "malstroem/streams.py:StreamTool.process"]}
{"id": "C97", "title": "A window of the DEM shows the bluespots inside it as they are", "statement": "If a window is cut out of the DEM and processed alone, its filled terrain is nowhere higher than that of the whole DEM, and every bluespot of the whole DEM that lies inside the window and touches no edge cell of it is found again: the same cells, filled elevations and depths, the same bspot_dmax, bspot_area and bspot_vol, whatever the filter. (A bluespot cut by the edge of the window may be smaller or missing.)", "quantifier": "every DEM, every window of at least 2x2 cells, every filter, both ways of choosing pour points; any sound arithmetic, in particular float32 DEMs as computed", "why_tests_cant": "Large terrains are processed in tiles. The level of a cell depends on all ways out of the raster, so whether cutting it changes a bluespot is a statement about all terrains around the window.", "anchors": ["malstroem/algorithms/fill.py:fill_terrain", "malstroem/dem.py:DemTool.process", "malstroem/bluespots.py:BluespotTool.process", "malstroem/bluespots.py:filterbluespots"]}
{"id": "C98", "title": "Changes under the water surface change depths and volumes only", "statement": "If the DEM is changed only in cells that are and stay below their spill level (a basin is dug deeper, or partly filled), the complete command writes the same filled terrain, flow directions, accumulated flow, bluespots, watersheds, pour points, nodes and streams, but for depths and volumes; the volume of a bluespot changes by what was taken out times the cell area. If ground is only taken out, no node spills more in the final state. This holds for filters that look at the number of cells and the area only.", "quantifier": "every DEM and every such change, every such filter, every amount of rain, both ways of choosing pour points; exact arithmetic (filling and DemTool outputs: any arithmetic with the same increments)", "why_tests_cant": "Planners dig basins and compare runs. That nothing else changes needs all ways out of the raster and all tools of the chain; a test compares two runs on one terrain.", "anchors": ["malstroem/scripts/complete.py:process_all", "malstroem/algorithms/fill.py:fill_terrain", "malstroem/algorithms/fill.py:fill_terrain_no_flats", "malstroem/bluespots.py:BluespotTool.process", "malstroem/streams.py:StreamTool.process", "malstroem/network.py:Network.rain_event"]}
{"id": "C99", "title": "Areas without data neither hold water nor stop it", "statement": "Where the DEM has no data (the commands put -999 there), water runs off the terrain: such an area holds no water, is in no bluespot and in no bluespot's watershed, and terrain beside it drains into it at the lowest possible level. Water that reaches it does not come back.", "quantifier": "every DEM with any set of cells without data, all data above -999, every filter, both ways of choosing pour points; any sound arithmetic; for float32 DEMs with elevations from -998 m to 9000 m up to 122 million cells", "why_tests_cant": "DEMs of coasts and catchments have areas without data of any shape. Whether water can stand in or come back from them depends on all of the terrain and on the increments added to flats.", "anchors": ["malstroem/io.py:RasterReader.read", "malstroem/scripts/complete.py:process_all", "malstroem/scripts/dem.py", "malstroem/algorithms/fill.py:fill_terrain", "malstroem/dem.py:DemTool.process", "malstroem/bluespots.py:BluespotTool.process"]}
{"id": "C100", "title": "Turning or mirroring the DEM turns or mirrors the bluespots", "statement": "If the DEM is turned by quarters or mirrored, the filled terrain (with and without flats), the depths and the bluespots are turned or mirrored: as many bluespots, the same cells, bspot_dmax and bspot_area, and up to the rounding of sums the same bspot_vol. Only their numbers change. (Flow directions and watersheds may differ, where two neighbours have the same drop.)", "quantifier": "every DEM, the eight symmetries of the grid, every filter (with rounding: every filter that does not look at sum and volume), both ways of choosing pour points; any sound arithmetic, in particular float32 DEMs as computed", "why_tests_cant": "The algorithms scan the raster row by row from one corner and update cells in place, so the result could depend on the orientation; no finite set of test rasters excludes that.", "anchors": ["malstroem/algorithms/fill.py:fill_terrain", "malstroem/algorithms/fill.py:fill_terrain_no_flats", "malstroem/dem.py:DemTool.process", "malstroem/bluespots.py:BluespotTool.process", "malstroem/bluespots.py:filterbluespots"]}
{"id": "C101", "title": "The number of passes over the raster is bounded by its size", "statement": "On a raster with N cells, of which I are not on the edge, the loops of fill_terrain and fill_terrain_no_flats run at most I/4 + 1 times whatever the elevations (compiled versions: at most I + 1 times); trace_downstream either never ends, because it runs into a cycle, or ends after at most N steps; accumulated_flow follows the flow at most N steps from each cell it starts at, and watersheds_from_labels handles at most N cells from each edge cell. So no loop of DemTool and BluespotTool runs more than N + 1 times. Building the network takes no loop more than N + P + 2 runs, P the number of pour points, and gives at most 2P nodes; no loop of FinalStateCalculator runs more often than there are nodes. No loop of the whole complete command runs more than 2N + 2 times.", "quantifier": "every DEM of at least 2x2 cells (compiled: without 3 rows or columns), all elevations and increments; every raster of flow directions; both sets of functions; any arithmetic with monotone increments", "why_tests_cant": "A terrain on which the loop runs unusually long can always be larger than the one tested (long winding valleys), and elevations differ in unboundedly many ways.", "anchors": ["malstroem/algorithms/fill.py:fill_terrain", "malstroem/algorithms/fill.py:fill_terrain_no_flats", "malstroem/algorithms/speedups/_fill.pyx", "malstroem/algorithms/flow.py:trace_downstream", "malstroem/algorithms/flow.py:accumulated_flow", "malstroem/algorithms/flow.py:watersheds_from_labels", "malstroem/dem.py:DemTool.process", "malstroem/bluespots.py:BluespotTool.process", "malstroem/algorithms/net.py:geometric_pourpoint_network", "malstroem/network.py:Network.rain_event", "malstroem/scripts/complete.py:process_all"]}
{"id": "C102", "title": "Units and the origin of the coordinates do not matter", "statement": "If the georeference of the DEM is given in another unit of length and another coordinate origin, and elevations, increments, rain, histogram resolution and filter in another unit of height, the complete command does the same: the same error, or the same flow directions, accumulated flow, bluespots, watersheds, nodes, percentages and histogram counts, and every elevation, depth, area, volume and coordinate written is the old one in the new units (areas are lengths squared, volumes areas times heights). Another origin alone only moves the geometries. For the final depths and extent all elevations have to be above -999 in both units.", "quantifier": "every DEM, every georeference, every positive pair of factors and every shift, every filter, every amount of rain, Python and compiled functions; exact arithmetic up to the final state also any rounding that commutes with the factors, for a shift any rounding and any arithmetic of elevations", "why_tests_cant": "Every formula of every tool has to be dimensionally consistent: a forgotten cell area, a constant 1000 or a pixel size used once too often shows up only when units are changed, and a test changes them for one terrain.", "anchors": ["malstroem/scripts/complete.py:process_all", "malstroem/bluespots.py:BluespotTool.process", "malstroem/bluespots.py:assemble_pourpoints", "malstroem/streams.py:StreamTool.process", "malstroem/rain.py:SimpleVolumeTool", "malstroem/network.py:Network", "malstroem/hyps.py", "malstroem/approx.py"]}
{"id": "C103", "title": "How the final state responds to the amount of rain", "statement": "Water can be put in by portions: a rain event, and then a second one on the capacity the first has left, leave and spill the same water as one event with all of it. Two rain events together spill at every node at least what they spill one by one; the water spilled grows at least in proportion to the rain; and between two amounts of rain no node spills more than what is interpolated between the two runs. Without rain nothing is held or spilled.", "quantifier": "every network and all water put in (Network.rain_event); every DEM, filter and amount of rain (complete command), both sets of functions; exact arithmetic", "why_tests_cant": "The final state is a chain of minima and maxima along the network, and users run a few amounts of rain and read off the ones between. A test compares some amounts on one network.", "anchors": ["malstroem/network.py:Network.rain_event", "malstroem/network.py:Network._calc_node", "malstroem/network.py:FinalStateCalculator.process", "malstroem/rain.py:SimpleVolumeTool.process", "malstroem/scripts/complete.py:process_all"]}
{"id": "C104", "title": "A number that is missing is not taken for zero", "statement": "If the watershed area of a node is missing, null or text that is no number, SimpleVolumeTool (initvolumes) fails and writes nothing; so does FinalStateCalculator (finalvolumes) if the volume attribute, bspot_vol or wshed_area of any node is that leads to a root; and so do the water levels (finallevels) if the final volume of a pour point is.", "quantifier": "every list of features (node ids distinct), every attribute name, every amount of rain, any arithmetic", "why_tests_cant": "Nodes are edited in a GIS, and a node without value may be anywhere in the network. Tests use complete data.", "anchors": ["malstroem/rain.py:SimpleVolumeTool.process", "malstroem/network.py:FinalStateCalculator.process", "malstroem/network.py:Network._calc_node", "malstroem/approx.py:approx_water_level_io"]}
{"id": "C105", "title": "Label rasters of every integer type", "statement": "With the compiled functions installed, watersheds_from_labels gives for labels of any integer type (int8 to uint64) exactly the labels the pure Python function gives, values of the same type, if the unassigned value and all labels fit the C integer it works with (int32 for int32 labels, otherwise int64). Otherwise it raises OverflowError, never wrong labels. For the types up to int64 with an unassigned value of the type there is no error; an unassigned value that is no value of the type means that no label changes.", "quantifier": "every raster of flow directions that drain, every integer type, all labels of the type, every unassigned value", "why_tests_cant": "There are three compiled versions, chosen by the type of the raster, and labels are converted to C integers of two sizes. Tests use one type and small labels.", "anchors": ["malstroem/algorithms/speedups/_flow.pyx:assign_watersheds_upstream", "malstroem/algorithms/flow.py:watersheds_from_labels"]}
{"id": "C106", "title": "Subcommands touch only their outputs and depend only on their inputs", "statement": "Whatever the options and files, and however a subcommand ends, no file but those given with -out, -out_depths, -out_bluespots changes, appears or goes, and in a vector file no layer but the written ones changes. If the directories of the outputs exist, a subcommand that fails has changed nothing. What a subcommand does depends only on the files named in its options. Subcommands of which neither writes a file the other uses can be given in any order: the script ends well if and only if it did before, with the same files. A subcommand that writes rasters can be given again without changing anything.", "quantifier": "every subcommand, all options, every state of the disk, every script of subcommands and every change of order of independent ones", "why_tests_cant": "Users put subcommands into scripts, run them in parallel or again after an error. Tests run single subcommands in one order on a fresh directory.", "anchors": ["malstroem/scripts/dem.py", "malstroem/scripts/bluespot.py", "malstroem/scripts/stream.py", "malstroem/scripts/hyps.py", "malstroem/scripts/initvolume.py", "malstroem/scripts/finalstate.py", "malstroem/io.py:RasterWriter", "malstroem/io.py:VectorWriter"]}
{"id": "C107", "title": "The documented subcommands do what complete does, with their files", "statement": "The subcommands given one after the other as documented, each reading the files of the ones before, end well if their computations do, and leave exactly: the rasters in the files named on the command line, with the georeference of the DEM, and the seven layers added to the vector file, whose other layers are kept. All other files are as before. In exact arithmetic they come to an end for every DEM of at least 2x2 square cells without nodata, and the rasters they leave are those of complete, the features too up to the conversions of storing them.", "quantifier": "every state of the disk, every choice of different output files in existing directories, new vector files and GeoPackages without these layers, all options; for the last part every DEM as described, every rain other than 0 and every filter", "why_tests_cant": "The chain has 13 commands that only share files, paths and layer names. Tests run each command on prepared files.", "anchors": ["malstroem/scripts/complete.py:process_all", "malstroem/scripts/dem.py", "malstroem/scripts/bluespot.py", "malstroem/scripts/stream.py", "malstroem/scripts/hyps.py", "malstroem/scripts/initvolume.py", "malstroem/scripts/finalstate.py", "docs/cli.rst"]}
{"id": "C108", "title": "Every subcommand does its job on files that come from elsewhere", "statement": "Given files that exist and hold what the option asks for, whoever made them: filled writes the spill level of each cell, depths after it the difference to the elevations, flowdir directions that lead off the raster down a surface nowhere below the filled terrain; accum writes the number of cells upstream and 0 for cells fed by a cycle; bspots numbers the connected sets of wet cells that pass the filter (cells need not be square); wsheds writes for each cell the first label its flow reaches; pourpts one point per label with its depth, area, volume and watershed, at the cell of most accumulated flow; initvolumes the rain on each watershed; finalvolumes a balanced final state; finalbluespots depths and extent of the water, one or both; polys one polygon per label. Rasters get the georeference of the input, layers are added to a GeoPackage and nothing else on the disk changes. Contradicting or missing rain options and a polygon layer that exists are errors that leave the disk as it was.", "quantifier": "every state of the disk, all paths and layer names, all rasters and features satisfying the stated condition on the single input; exact arithmetic for flowdir and what follows from it", "why_tests_cant": "Users mix malstroem with other tools: depressions drawn by hand, flow directions of another program, edited nodes. Tests feed each command with the files made by the one before.", "anchors": ["malstroem/scripts/dem.py", "malstroem/scripts/bluespot.py", "malstroem/scripts/initvolume.py", "malstroem/scripts/finalstate.py", "malstroem/io.py:RasterReader", "malstroem/io.py:RasterWriter", "malstroem/io.py:VectorWriter", "malstroem/vector.py:vectorize_labels_file_io"]}
{"id": "C109", "title": "Cells of a precipitation raster without data are not rain", "statement": "initvolumes with a precipitation raster gives each node the rain on the cells labelled with its id; cells that have the nodata value of the precipitation file add nothing.", "quantifier": "every state of the disk, all precipitation rasters of the shape of the bluespots, with or without nodata value and cells, all labels, nodes and units", "why_tests_cant": "Precipitation rasters cover the area of a radar or model and usually have a nodata value. Tests use rasters without nodata.", "anchors": ["malstroem/scripts/initvolume.py:initvolumes", "malstroem/rain.py:RasterVolumeTool.process", "malstroem/io.py:RasterReader.read"]}
{"id": "C110", "title": "Junctions only pass water on", "statement": "The final state that complete reports can be computed without streams and junctions: each bluespot (and the background, number 0) gets the rain on its watershed plus what those bluespots spill whose water, running down from their pour points, meets it as first other bluespot; it holds that up to its volume and spills the rest. Every bluespot has a node with these numbers; all other nodes are junctions and hold nothing.", "quantifier": "every DEM as in C56, every filter, every amount of rain, with and without accumulated flow, pure Python and compiled functions", "why_tests_cant": "Untangling streams and inserting junctions is the most intricate part of the program. Whether the water still arrives where it should, for every layout of streams, is beyond single networks.", "anchors": ["malstroem/scripts/complete.py:process_all", "malstroem/algorithms/net.py:geometric_pourpoint_network", "malstroem/network.py:Network.rain_event", "malstroem/streams.py:StreamTool"]}
{"id": "C111", "title": "The numbers of the bluespots do not matter", "statement": "The labelling function may number the bluespots in any order. Results with two labellings differ only by a renumbering that keeps 0: number of bluespots, labels, watersheds, pour points (cell, depth, area, volume, watershed area, rain to fill), the next bluespot downstream, and what each bluespot holds and spills.", "quantifier": "every DEM as in C56, every pair of labelling functions meeting the contract of connected component labelling, every filter and amount of rain, with and without accumulated flow, pure Python and compiled functions", "why_tests_cant": "The numbers come from scipy, which promises no order; the filter relabels. Tests compare with numbers stored from one version.", "anchors": ["malstroem/scripts/complete.py:process_all", "malstroem/bluespots.py:BluespotTool.process", "malstroem/algorithms/label.py:connected_components", "malstroem/algorithms/net.py:geometric_pourpoint_network"]}
{"id": "C112", "title": "Ignored bluespots keep no water", "statement": "Bluespots that do not pass the filter are ignored in all subsequent calculations, their capacity is not taken into account (docs/cli.rst:112, 237, 245): rain on ground that drains to no remaining bluespot all leaves the terrain, and the node that stands for this ground neither receives water from bluespots nor passes water to them.", "quantifier": "every DEM as in C56, every filter and amount of rain, with and without accumulated flow, pure Python and compiled functions", "why_tests_cant": "The volume of cells without a label is summed for label 0 like for any other label. Tests never look at the node with id 0.", "anchors": ["malstroem/scripts/complete.py:process_all", "malstroem/bluespots.py:BluespotTool.process", "malstroem/bluespots.py:assemble_pourpoints", "malstroem/streams.py:StreamTool.process", "malstroem/network.py:FinalStateCalculator.process"]}
{"id": "C113", "title": "Ignoring bluespots never means less water in the others", "statement": "With the same DEM and rain, a stricter filter never makes a bluespot that both runs have hold less water, or spill less.", "quantifier": "every DEM as in C56, every pair of filters one of which implies the other, every non-negative amount of rain, with and without accumulated flow, pure Python and compiled functions", "why_tests_cant": "Compares two runs. An ignored bluespot keeps nothing back, but its water may also take another way than through its pour point.", "anchors": ["malstroem/scripts/complete.py:process_all", "malstroem/bluespots.py:filterbluespots", "malstroem/algorithms/net.py:geometric_pourpoint_network", "malstroem/network.py:Network.rain_event"]}
{"id": "C114", "title": "A dug basin relieves what lies downstream, and only that", "statement": "Ground is taken out under water (as in C98). The bluespots then drain to each other as before, and for each of them: it spills no more; it holds at most what it held plus what was taken out of it; if nothing was taken out of it or of a bluespot that drains to it, directly or through others, it holds and spills exactly what it did; what it spills less equals what it and the bluespots upstream hold more, and is at most the volume taken out there.", "quantifier": "every DEM of finite exact elevations with at least two rows and columns, every change as in C98 that lowers ground only, every filter on size only, every amount of rain, with and without accumulated flow, pure Python functions", "why_tests_cant": "Planning a retention basin is what the program is used for. The claim compares two runs over every network and every place of the basin.", "anchors": ["malstroem/scripts/complete.py:process_all", "malstroem/network.py:Network.rain_event", "malstroem/bluespots.py:BluespotTool.process", "malstroem/algorithms/fill.py:fill_terrain"]}
{"id": "C115", "title": "The same terrain in smaller cells has the same water levels and the same bluespots", "statement": "Cut every cell of a DEM into k by k cells of the same elevation and shrink the cell size accordingly. The filled terrain and the depths are the same at every place. The bluespots are the same places up to their numbers, and each has the same greatest depth, area and volume, if the filter does not use the number of cells. (The watersheds need not be the same.)", "quantifier": "every DEM of finite exact elevations with at least two rows and columns, every k, every pair of square cell sizes in that proportion, every filter on depth, area and volume, pure Python functions", "why_tests_cant": "Resampling is routine preprocessing; the claim compares two runs on rasters of different size, for every terrain and every k.", "anchors": ["malstroem/algorithms/fill.py:fill_terrain", "malstroem/dem.py:DemTool.process", "malstroem/bluespots.py:BluespotTool.process", "malstroem/bluespots.py:assemble_pourpoints", "malstroem/algorithms/label.py:label_stats"]}
{"id": "C116", "title": "The flow accumulated at a pour point is that of the watersheds upstream of it", "statement": "In one run of the complete command, of every bluespot: the cells whose flow passes its pour point are the cells of its own watershed and of the watersheds of all bluespots that drain to it, directly or through others. So the accumulated flow there, times the cell area, is the sum of their wshed_area, and the bluespot spills the rain on these cells less the water held in it and upstream.", "quantifier": "every DEM, filter and amount of rain, both sets of functions, both rules for the pour points, every bluespot", "why_tests_cant": "It ties together four outputs (accumulated flow, watersheds, pour points, network) computed by separate passes; tests compare each with stored arrays of one terrain.", "anchors": ["malstroem/algorithms/flow.py:accumulated_flow", "malstroem/algorithms/flow.py:watersheds_from_labels", "malstroem/bluespots.py:BluespotTool.process", "malstroem/algorithms/net.py:geometric_pourpoint_network", "malstroem/rain.py:SimpleVolumeTool.process", "malstroem/network.py:Network.rain_event", "malstroem/scripts/complete.py:process_all"]}
{"id": "C117", "title": "Rain given as a raster: where it falls decides who gets it", "statement": "The nodes of a terrain get their volumes from a precipitation raster (initvolumes -r with the watersheds or the bluespots as zones), then finalvols runs. Each bluespot gets the rain on its zone and what comes from upstream, holds that up to its volume and spills the rest. Two rasters that agree on the zones of a bluespot and of all bluespots upstream give it the same state, whatever falls elsewhere. If the second has nowhere less rain, no bluespot holds or spills less, and the water it holds and spills in addition is at most the rain added on these zones.", "quantifier": "every DEM as in C56, every filter, every one or two precipitation rasters of its shape in any accepted unit (negative values too), both label rasters, pure Python and compiled functions", "why_tests_cant": "Compares two runs over every terrain, network and distribution of rain; tests run the raster tool on one stored event.", "anchors": ["malstroem/rain.py:RasterVolumeTool.process", "malstroem/network.py:FinalStateCalculator.process", "malstroem/network.py:Network.rain_event", "malstroem/bluespots.py:BluespotTool.process", "malstroem/streams.py:StreamTool.process"]}
{"id": "C118", "title": "Errors in the elevations are not amplified", "statement": "If the elevations of two DEMs differ by at most e in every cell, the filled levels differ by at most e and the depths by at most 2e. Cells deeper than 2e in one are in a bluespot in both (with a filter on depth: cells deeper than its limit and 2e), and such cells that touch are in the same bluespot in both. A bluespot of the same cells differs by at most 2e in depth and by 2e times its area in volume.", "quantifier": "every pair of DEMs of the same shape with finite exact elevations and at least two rows and columns, every e, every pair of filters that let pass all bluespots deeper than some limit, with and without accumulated flow, pure Python functions; filling and the removal of flats for every order-preserving bound, floats too", "why_tests_cant": "Surveys have errors, and a user must know how far they carry. The claim compares two runs for all terrains; one low cell in a rim changes levels far away.", "anchors": ["malstroem/algorithms/fill.py:fill_terrain", "malstroem/algorithms/fill.py:fill_terrain_no_flats", "malstroem/dem.py:DemTool.process", "malstroem/bluespots.py:BluespotTool.process", "malstroem/bluespots.py:filterbluespots"]}
{"id": "C119", "title": "Flow over filled areas takes the shortest way out", "statement": "The flow from a cell of a bluespot runs over raised cells until it comes to a cell that is not raised. No way over neighbouring cells to another cell that is not raised is shorter, if that cell is no higher than the one the flow comes to and the way does not climb above it. In general the length of the flow path times the drop per cell width, plus the elevation it comes to, is no more than that of any other such way.", "quantifier": "every DEM with finite exact elevations and at least two rows and columns, every positive smallest drop and length of a diagonal, every cell of a bluespot, every way over the raster, with and without accumulated flow, pure Python functions", "why_tests_cant": "The documentation promises that flow over filled areas is routed to the nearest pour point. Tests look at a few small basins; the claim compares the flow with every possible way out of every basin.", "anchors": ["malstroem/algorithms/fill.py:fill_terrain_no_flats", "malstroem/algorithms/fill.py:minimum_safe_short_and_diag", "malstroem/algorithms/flow.py:terrain_flowdirection", "malstroem/dem.py:DemTool.process", "docs/cli.rst:malstroem flowdir"]}
{"id": "C120", "title": "A window that covers a drainage basin gives the basin's water as the whole DEM does", "statement": "The complete chain is run on a DEM and on a window cut out of it, with the same filter and rain. Take a set of cells closed under the flow of the DEM, upstream and downstream, that lies in the window together with all neighbouring cells, where the neighbouring cells outside the set are not raised by filling. Over these cells water surface, depths, flow directions and accumulated flow agree. The bluespots of the basin have the same cells, watersheds, pour points and attributes, their water goes on to the same bluespots, and after the rain each holds and spills the same. If a bluespot has outlets in two basins, covering one of them is not enough.", "quantifier": "every DEM with finite elevations and every window of it, every set of cells meeting the conditions, every filter and amount of rain, with and without accumulated flow, exact arithmetic with any positive smallest drops, pure Python functions", "why_tests_cant": "The documentation says that the DEM must cover an entire drainage basin. That this suffices is a claim about all terrains outside the window, which no test can vary.", "anchors": ["malstroem/dem.py:DemTool.process", "malstroem/bluespots.py:BluespotTool.process", "malstroem/streams.py:StreamTool.process", "malstroem/rain.py:SimpleVolumeTool.process", "malstroem/network.py:FinalStateCalculator.process", "malstroem/scripts/complete.py:process_all", "docs/index.rst:Assumptions"]}
{"id": "C121", "title": "The final level of a bluespot depends only on its ground, its spill level and its water", "statement": "There is one rule that gives the final water level of every bluespot in every run of complete from the cell area, the resolution, the elevations of the bluespot's cells (not their places or order), its spill level and the volume left in it. So two numberings of the bluespots give the same levels, depths and, up to the numbers, extents; and on a window that covers a drainage basin each bluespot of the basin gets the level, and each of its cells the depth, it gets on the whole DEM.", "quantifier": "every DEM of at least 2 by 2 finite elevations that is not below zero where water stands, every filter, amount of rain and resolution, every two numberings, every window and basin as in C120, exact arithmetic, pure Python functions", "why_tests_cant": "The level comes out of histograms and interpolation over records gathered by label; that nothing else enters, for any terrain, no finite set of runs can show.", "anchors": ["malstroem/scripts/complete.py:process_all", "malstroem/hyps.py:bluespot_hypsometry_io", "malstroem/approx.py:approx_water_level_io", "malstroem/approx.py:approx_bluespots_io"]}
{"id": "C122", "title": "Two DEMs that share the terrain of a drainage basin agree on its water", "statement": "The complete chain is run on two DEMs of whatever size that are the same in a window, which covers a basin in both as in C120; outside the window the terrain, and how much of it there is, may differ. Over the basin both runs give the same water surface, depths and flow directions; the same bluespots with the same watersheds, pour points and attributes, up to their numbers; their water goes on to the same bluespots, and each holds and spills the same. With complete's final levels, the bluespots have the same levels and the cells the same depths.", "quantifier": "every two DEMs with finite elevations and every window they have in common, every set of cells of the window that is covered in both, every filter and amount of rain, exact arithmetic with any positive smallest drops, pure Python functions; for the levels elevations not below zero where water stands", "why_tests_cant": "Whether a change of the terrain elsewhere, or another extract of it, changes the results for a basin is a claim about all pairs of terrains.", "anchors": ["malstroem/dem.py:DemTool.process", "malstroem/bluespots.py:BluespotTool.process", "malstroem/streams.py:StreamTool.process", "malstroem/rain.py:SimpleVolumeTool.process", "malstroem/scripts/complete.py:process_all", "docs/index.rst:Assumptions"]}
{"id": "C123", "title": "Water levels and flooded areas survive rounding", "statement": "With all arithmetic rounded to float64 and a float32 DEM, the water level of every bluespot is a number that is not below its lowest ground and, up to a relative error of 2^-22, not above the level at which it spills. The level of a full bluespot is not below any of its ground, although its greatest depth is rounded to float32, so its whole area is drawn as flooded. As long as less than 99.98% of the capacity is filled the level is, up to a relative error of 2^-50, not above the highest ground; and more water gives no lower level, up to the same error. approx_bluespots draws exactly the cells at or below the level, and each depth is the exact one rounded once.", "quantifier": "every label raster and float32 DEM with elevations from zero to 2^20 steps of the resolution, every resolution between 2^-100 and 2^100, every cell area, capacity and volume, every way ties are rounded, np.interp computing with or without fused multiply-add; no overflow", "why_tests_cant": "A level one rounding error too low leaves dry cells in a full bluespot, and an interpolation between rounded volumes may leave the range of the elevations; which inputs do this cannot be found by trying some.", "anchors": ["malstroem/approx.py:approx_water_level_io", "malstroem/approx.py:approx_bluespots", "malstroem/approx.py:_cumulative_volume", "malstroem/approx.py:_bin_waterlevel_z", "malstroem/hyps.py:bluespot_hypsometry_stats"]}
{"id": "C124", "title": "The water levels and flood maps of the complete command survive rounding", "statement": "With every operation of the complete command rounded, from filling the float32 DEM to the maps of the flooded areas, the command succeeds. Every bluespot has a final state whose volume is between zero and its capacity, and a water level that is not below its lowest ground and, up to a relative error of 2^-22, not above the level at which it spills. A bluespot that is full, in particular one that spills, is drawn as flooded in all its cells. The extent consists of the cells at or below the level of their bluespot and each depth is the exact depth of the water rounded once.", "quantifier": "every float32 DEM of at least 2 by 2 and at most 2^50 cells with elevations up to 2^20 steps of the resolution and no bluespot ground below zero, every resolution between 2^-100 and 2^100, every (nearly) square cell size between 2^-300 and 2^100, every rainfall, filter and choice of outputs, every way ties are rounded; the Python functions; no overflow", "why_tests_cant": "Depths in float32, sums, capacities and spilled volumes in float64, histogram bounds and interpolated levels are all rounded, and an error early in the chain could leave a full bluespot partly dry at its end; tests see the chain on one or two DEMs.", "anchors": ["malstroem/scripts/complete.py:process_all", "malstroem/dem.py:DemTool", "malstroem/bluespots.py:BluespotTool", "malstroem/hyps.py:bluespot_hypsometry_io", "malstroem/approx.py:approx_water_level_io", "malstroem/approx.py:approx_bluespots_io"]}
{"id": "C125", "title": "Rain given as a raster is conserved up to rounding", "statement": "With a raster of rain as input, in millimetres, litres or cubic metres per cell, every node of the network gets the rain on the cells carrying its label in cubic metres, with a relative error of at most the number of these cells plus 4 roundings, and never a negative volume; a node without cells gets zero. The volumes add up to the rain on the whole raster. After these volumes have run through the network, what the nodes hold and the roots spill is the rain of the raster, up to 3 roundings per node, one per cell and 4; no node holds a negative volume or more than its capacity and a node that spills is full. This holds on every network whose labels all have their node, in particular on the network of a whole run with either its watersheds or its bluespots as labels.", "quantifier": "every float32 DEM without nodata of at least 2 by 2 and at most 2^50 cells, every filter, every raster of rain of the same size with float64 values that are zero or at least 2^-149, every unit and attribute name (but the four names the network needs), every cell size of at least 2^-300, every way ties are rounded; Python and compiled functions; no overflow", "why_tests_cant": "The sums over thousands of cells are rounded at every step, and so are unit factor, products and the flow through the network; tests compare a few values on small rasters.", "anchors": ["malstroem/rain.py:RasterVolumeTool", "malstroem/algorithms/label.py:label_stats", "malstroem/network.py:FinalStateCalculator"]}
{"id": "C126", "title": "More rain never means less water, in floating point arithmetic too", "statement": "If the amount of rain is raised, or a raster of rain is replaced by one that is nowhere lower, the rasters, bluespots, nodes and streams stay the same and every node holds and spills at least as much water as before and shows at least the same fill percentage, although every sum and product is rounded.", "quantifier": "every float32 DEM without nodata of at least 2 by 2 and at most 2^50 cells, every filter, every two amounts of rain and every two rasters of rain that are ordered, every unit, every way ties are rounded; Python and compiled functions; no overflow", "why_tests_cant": "A rounding that is not monotone in one of the steps, or a subtraction of nearly equal volumes, could let a bluespot lose water when it rains more; tests compare single runs with stored results.", "anchors": ["malstroem/rain.py:SimpleVolumeTool", "malstroem/rain.py:RasterVolumeTool", "malstroem/network.py:FinalStateCalculator", "malstroem/scripts/complete.py:process_all"]}
{"id": "C127", "title": "Errors in volumes and capacities are not amplified along the network", "statement": "If the volumes put into the nodes or the capacities of the bluespots are changed a little, the water held by all nodes and spilled from the roots changes by no more than the sum of the changed volumes plus twice the changed capacities, however long the network is. So the final state computed in floating point arithmetic, for even rain or a raster of rain, differs at every node from the exact final state of the same nodes by at most 3 roundings per node and a few more, as a fraction of the rain.", "quantifier": "every network with distinct ids where every node leads to a root, every two assignments of volumes and capacities; for rounding every float64 volumes, areas and rain, every float32 DEM for whole runs, Python and compiled functions; no overflow", "why_tests_cant": "Whether a small error in one bluespot grows on its way through a long chain of spills depends on the shape of the network; tests use networks with a few nodes.", "anchors": ["malstroem/network.py:FinalStateCalculator", "malstroem/rain.py:SimpleVolumeTool", "malstroem/rain.py:RasterVolumeTool", "malstroem/scripts/complete.py:process_all"]}
{"id": "C128", "title": "The final state is the exact water balance of the bluespots found, up to a proved error", "statement": "Take the bluespots and watersheds a run of the complete command wrote as rasters. Give every node exactly the rain on the cells of its watershed and a capacity of exactly the summed depths of its bluespot times the cell area, and let every node hold the water that arrives up to its capacity and spill the rest downstream. The volume and the spill the run writes for a node differ from that exact balance by at most 3 roundings per node and 5 of the rain on the DEM, plus twice one rounding per cell and 2 of the volume of all depths: no error in areas, capacities, rain or routing is amplified. The same holds for a raster of rain put on the watersheds of the run, with one rounding per cell and 4 instead of 5.", "quantifier": "every float32 DEM of at most 2^50 cells, every filter, every amount of even rain and every raster of float64 rain that do not underflow, Python and compiled functions; no overflow", "why_tests_cant": "Rounding errors of areas, capacities, volumes and routing add up along the whole chain of tools; tests compare a few files with files computed by the same rounded arithmetic.", "anchors": ["malstroem/scripts/complete.py:process_all", "malstroem/bluespots.py:BluespotTool", "malstroem/rain.py:SimpleVolumeTool", "malstroem/rain.py:RasterVolumeTool", "malstroem/network.py:FinalStateCalculator"]}
{"id": "C129", "title": "With rounding, the subcommands write the files of the complete command to the last bit", "statement": "On a DEM with square cells and rain that is not 0, running the subcommands one after the other, each on the files written before, gives an error-free result if and only if complete does, and then every file holds the same values, although all of them are computed in floating point arithmetic: both do the same operations in the same order. Required: accumulated flow is computed or the DEM has no nodata cells, and no filled elevation is within the tolerance of -999 without being -999 (C68 shows that this and the rain are needed).", "quantifier": "every DEM, filter, amount of rain but 0 and resolution, every way of rounding results, Python and compiled functions; for the float32 run every DEM of at most 2^50 cells whose bluespots are not below 0", "why_tests_cant": "Equality to the last bit of two long chains of floating point operations for all inputs; a test compares a few DEMs, where a different order of operations may happen to give the same bits.", "anchors": ["malstroem/scripts/complete.py:process_all", "malstroem/scripts/bluespot.py:bspots", "malstroem/scripts/bluespot.py:pourpts", "malstroem/scripts/initvolume.py:process_volumes", "malstroem/scripts/finalstate.py"]}
