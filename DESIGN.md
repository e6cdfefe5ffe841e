# Formal model of malstroem in Lean 4 - design

## Layout

* `lean/Verif/Spec/*.lean` - small, model-independent specification vocabulary (cells, king-move adjacency, paths,
  spill level, downstream relation, ...). No code of malstroem is modelled here.
* `lean/Verif/Model/*.lean` - the model, function by function; every definition cites file and lines in `/repo`.
* `lean/Verif/Proofs/*.lean` - helper lemmas and invariants.
* `lean/Verif/Props/*.lean` - the property theorems (`C01_...`), with an `example` beside each one showing that its
  hypotheses are met by a concrete non-trivial case.
* `properties.jsonl`, `MANIFEST.json`, `seeded/LOG.jsonl`.
  An entry of the log counts only if the edited definition itself compiles: four edits that did not
  (they used an operation or a name not available there) tested no theorem, were taken out, and were
  replaced by well-formed edits of the same definitions.

## Modelling conventions

* A numpy 2D array is `Raster a`: a shape and a total function from (row, col) : Int x Int. Values outside the shape are
  junk that no property mentions. In-place mutation becomes returning the updated raster.
* Python `while` loops take a fuel argument and return `none` when it is used up. `Returns f r` means: for all
  sufficiently large fuel `f` yields `r`; termination is the statement that some `r` is returned. More fuel never changes a
  result (`Proofs/Fuel.lean`), so a computed run settles what the chain returns (`Fuel.yields_of_run`).
* Python exceptions are values (`Except PyErr`).
* Elevations of the fill algorithms are elements of an arbitrary linear order with a top element (`float('inf')`), since
  the code only compares, takes min/max and copies. This covers IEEE float32/float64 without NaN exactly (with +0/-0
  identified). The additions `+ short` and `+ diag` are arbitrary functions assumed monotone and not lowering their
  argument, which IEEE round-to-nearest addition of a non-negative constant satisfies. The DEM holds values of the type
  of the filled raster (float32, to which `DemTool` converts); C91 is about other DEMs.
* Flow directions: slopes are computed by abstract operations; the exact version uses a linear ordered field with any
  positive constant for sqrt 2.
* Volumes, areas, histogram positions: elements of an arbitrary linear ordered (floor) field, i.e. exact arithmetic.
  Floating point rounding of sums and products is NOT modelled there (but see C74-C79, C123-C129); the properties say "exact arithmetic".
* C57, C62_float and C56_float instantiate the abstract elevation arithmetic with floating point numbers: rationals of 24
  or 53 significant bits and a least exponent (subnormal numbers are included), rounded to nearest. Overflow, infinities and NaN are left out.
* C74-C77 do the same for network.py, C78 for the whole chain, C79 for hyps.py, C123 for approx.py, C124 for all of them together, C125 for rain given as a raster: definitions whose names end in `Fl` take a function `fl` applied
  to every arithmetic result; the exact ones are their instances at the identity. Coordinates of pour points stay exact. `sum()` adds from
  left to right (Python before 3.12; later versions compensate).
* The compiled (Cython) functions are modelled separately (`FillCython`, `FlowCython`, `LabelCython`); `Dem.Engine` and
  `Bluespots.Engine` are the two sets of functions that `speedups` switches between.
* Labels, ids, counts, accumulated flow: unbounded `Int`/`Nat` (no overflow).

## Plan per property

| id | model | proof |
|----|-------|-------|
| C01 | `fill_terrain` with its four sweeps and keep-going logic | each change strictly lowers a cell to a value that is the cost of a simple path; finitely many such values -> measure |
| C02 | same | invariant over cell updates |
| C03 | same | witness path carried in the invariant |
| C04 | same | invariant (value is cost of some path) + fixpoint at exit gives lower bound by induction over paths |
| C05 | same | corollaries of C04: idempotence, monotonicity, symmetry of the path spec under transposition/flips |
| C06-C08 | `fill_terrain_no_flats` | same invariants, generic in the two step functions; plain fill is the instance id/id |
| C09, C10 | compiled sweeps (`while row != torow`, which skip the last row/column) | false: concrete witness; partial: cells every sweep visits are stable at exit, and cells that can drain over the edge get their own elevation at the first visit |
| C11 | compiled sweeps | same invariants as C02/C03, first iteration visits every cell |
| C12 | `filled - dem` | fixpoint equation at two adjacent wet cells; induction along connected paths |
| C13, C14 | `_terrain_flow`, `set_edges_flow_outward` | the eight-way running maximum is the argmax; case analysis |
| C15 | composition used by `DemTool.process` | C07 gives a lower neighbour, C13 picks one; strict descent on a finite set |
| C16, C17 | `upstream_cells`, `trace_downstream` | case analysis over directions; induction over steps |
| C18-C20 | Python and compiled `accumulated_flow` | invariant "0 or final; a resolved cell's unresolved successor has an unresolved predecessor"; well-founded induction |
| C21-C23 | `watersheds_from_labels` stack machine | tree induction on the upstream forest; stack invariant |
| C24-C28 | label functions, filter, relabel; `scipy.ndimage.label` as a contract parameter | induction over the row-major scan; connectivity argument |
| C29-C32 | `net.py` | induction over traces; structural/measure induction over the recursive untangling |
| C33 | composition | strictly decreasing surface (or increasing accumulation) along network edges |
| C34-C38, C55 | `Network`, `FinalStateCalculator` | forest induction; order independence through uniqueness of the solution of the balance equations |
| C39, C40 | volume tools | sums over lists |
| C41-C44 | hypsometry | floor/truncation arithmetic; sums. C41 is false for negative elevations (truncation towards zero): witness + partial |
| C45, C46 | approx | monotone piecewise linear interpolation; pointwise |
| C47, C48 | io logic around GDAL | pointwise; C47 is false for nodata == 0: witness + partial |
| C49-C51 | filter strings as `List Char` with Python `replace`/`strip` | C50 is false ("oandr"): witness + partial |
| C52 | speedups state machine | invariant over histories |
| C53, C54 | pourpoint assembly, affine transform | sums; algebra |
| C56 | composition of everything | C15+C21+C28+C33+C35+C39+C53 |
| C57 | binary floating point numbers as dyadic rationals with monotone rounding | gaps between floats |
| C58, C59 | error branches | false: witnesses; partial theorem for the accepted inputs; C59 exactly: returns iff every cell has a code 0..7 (a code 8 cell has no cycle upstream, so some trace gets there) |
| C60 | `geometric_pourpoint_network` | the untangled paths are disjoint: induction over the groups of common flow |
| C61 | `StreamTool.process` | one row per node; attribute lookups; sums over the nodes |
| C62 | `DemTool.process`, both engines | C04, C12, C13, C15, C18 put together |
| C63 | `approx_water_level_io` | the interpolated volume is within one bin of the exact volume; false above the highest ground: witness |
| C64 | name binding at import in `hyps.py` | states and histories; false: witness |
| C65, C66 | `RasterWriter.write`, `RasterReader.read`, GDAL types as value sets | case analysis over dtypes; false for long doubles: witness |
| C67 | the whole `complete` command, up to flooded extents | C56 + C42 + C45 + C46 |
| C68 | every subcommand as a function from files to files, and their sequence | both sides unfolded to their steps at every fuel; label count = largest label; a filter accepting everything changes nothing; false for nodata cells without accumulated flow, 0 mm and oblong cells: witnesses |
| C69 | option checks of `initvolumes` | case analysis; false for `-mm 0` |
| C70 | `VectorWriter`, `VectorReader` on an OGR layer as a table with typed fields | fold over the features; lookup by field name; false for a second write: witness |
| C71 | `complete` and the subcommands with a file between the steps | a relation between features (same values, extra nulls, integers as reals) is preserved by every tool; fuel monotonicity |
| C72 | a second `VectorWriter` on the same layer | field lookup finds the first field of a name; setting a dict entry to its value changes nothing; false: every non-empty output is doubled |
| C73 | `vectorize_labels_file`, `gdal.Polygonize` as a contract parameter | bluespots and watersheds (C22) are connected, so their cells are one region |
| C74 | network.py with a rounding after every operation | float lemmas of C57 (monotone, exact on floats); induction from upstream to downstream |
| C75 | `pctv` with rounding | two relative errors; false: quotients of two concrete floats |
| C76 | the same | induction over the nodes from upstream to downstream; the error of all water in transit is carried along |
| C77 | the same, two orders | C76 twice and exact order independence; false: three addends |
| C78 | the chain with a rounding after every operation | relative errors of products and sums multiply up; C57 for the terrain, C76 for the network |
| C79 | `histogram_bins` and `bluespot_hypsometry_stats` with a rounding after every operation; `np.histogram` as a contract | relative errors of the bounds; a float32 number is not passed by rounding to float32. False for float64 DEMs, witness 51.3 at resolution 0.1 |
| C80 | the compiled sweeps | stability of neighbouring wet cells, as for C12; false: `demoDem` |
| C81 | flow directions with rounded drops and both diagonal factors | a tie-free comparison: squares of whole drops never differ by a factor 2; false: `demoTie` |
| C82 | the whole command with both sets of functions | the fills agree on open edges (C09, C10), every other function agrees on its inputs; then the runs agree step by step. False: `demoQ` |
| C83 | events of two runs of `rain_event` on the same network with other volumes | balance of each node summed over everything upstream of it; induction over the path to the root |
| C84 | both volume tools on the nodes of a run of `complete`, with the raster of watersheds and of bluespots | cell counts of the labels against the areas of the pour points (C53, C61); counting argument for the difference. False: `demoValley` |
| C85 | `complete` up to the final state and DemTool, both engines, on a DEM and on the DEM with its elevations changed by a strictly increasing function | the two runs correspond step by step, for every amount of fuel; for the plain fill any monotone function, from the spill levels (C04) |
| C86 | Two runs of `Complete.processWithLevels` (`Model/Complete.lean`) on one DEM with different rain. | The network of C61 is the same for both; the balance equations of the two final states are compared node by node in upstream order (spill is monotone in the inflow); the level of each bluespot is one monotone function of its volume (`levels_of_finals`), and flooding is monotone in the level. |
| C87 | `process_all` of complete.py with its effects (`Model/Command.lean`): a file system, the checks, each tool reading and writing its files and layers, exceptions that leave what was written | the tools are run one after another on a description of the output directory; that nothing else changes is an invariant of every command, whatever its outcome |
| C88 | the same, and the exit status of the program | direct runs of the model: the checks before the first write, and the one in the hypsometry step |
| C89 | `BluespotTool.process` twice with two filters | both results are characterised by C28 and C21; the renumbering is defined by a cell of each bluespot, watersheds by induction along the trace |
| C90 | `process_all` up to the final state, `assemble_pourpoints` | the balance of the bluespot's node (C34) with the area and volume of its pour point (C53); spills are not negative |
| C91 | `fill_terrain` with every value converted when it is stored; the type check of the compiled sweep | side by side with filling the converted DEM: the same rasters, but a dry cell that was rounded up and has a lower neighbour is reported as changed for ever; witnesses for float64 |
| C92 | the complete command up to the final depths | every volume has an exact level (least of finitely many quotients); the written level is within four bins of it or of the highest ground; volume is Lipschitz in the level |
| C93 | DemTool and BluespotTool | the outlets of a label as in C33; a flow step out of a component of wet cells ends dry; below a small-step surface without flats the filled terrain does not rise; counterexample by evaluation |
| C94 | DemTool, exact and in float64 as in C57 | the surface without flats is below the filled terrain plus one increment per cell, so its order decides that of the filled terrain; induction over the trace |
| C95 | BluespotTool, run twice | the two runs share everything but the chosen cells; these are outlets in the sense of C93; counterexample by evaluation |
| C96 | `geometric_pourpoint_network` with a limit on nested generators | induction on the limit next to the proof of C31; a family of combs as counterexample |
| C97 | `fill_terrain`, DemTool and BluespotTool on a DEM and on a window of it | a way out of the DEM cut off at the edge of the window is a way out of the window; a lower surface inside would leak to the edge through wet cells; then connected sets, lists and statistics are carried over cell by cell |
| C98 | both fills, DemTool, the complete command on a DEM and on a changed one | the climb of every way out is the same because below the surface the ground is never the maximum; two-run argument through the labelling, watersheds and network; monotonicity of spills (C68) |
| C99 | fill, DemTool and BluespotTool on a DEM with the substitute in the cells without data | fixed point of the fill along the area; increments bounded by the number of cells (C94), so no flow leaves the area; every way out of a hole meets data |
| C100 | both fills, DemTool and BluespotTool on a DEM and on its images under the symmetries of the grid | spill levels and cheapest climbs are carried over path by path; bluespots are connected components, statistics do not depend on the order of the cells (sums: without rounding) |
| C101 | number of runs of every `while` loop in fill.py, _fill.pyx, flow.py, _flow.pyx, of DemTool and BluespotTool as a whole, of net.py and network.py, and of the complete command | after j full sweeps the surface is below the climb of every way out with j steps (Proofs/FillBound); cheapest ways out repeat no cell; upstream counts bound traces and stacks; lengths of paths bound the untangling; every junction has two inflows, so there are fewer junctions than pour points |
| C102 | the whole of `process_all` in two systems of units and coordinates (Spec/Units.lean lists the unit of every attribute) | every function of the model commutes with the change of units: `f (change x) = change <$> f x`, composed along the command (Proofs/Units, Proofs/UnitsLevels) |
| C103 | `Network.rain_event` with different water in the same network; the complete command as a function of the rain (Spec/Response.lean) | induction from upstream to downstream over the runs at once: what a node spills is max(0, arriving - capacity), which is convex, superadditive and splits on the remaining capacity |
| C104 | `SimpleVolumeTool`, `FinalStateCalculator`, `approx_water_level_io` on features with missing values (Spec/Missing.lean) | inversion of the successful run: the tree of a root is closed under upstream nodes, so `_calc_node` was called for each node that leads to it |
| C105 | the three compiled versions of `assign_watersheds_upstream`, their choice by dtype and the conversions to C integers (Model/LabelTypes.lean) | simulation: the loop with conversions does what the loop without does, until it meets a label that does not fit; every cell is met because every cell drains to an edge cell |
| C106 | the functions of the 14 subcommands with the files they read and write (Model/Subcommands.lean), scripts of subcommands | a relation `Uses R W` between a command, the files it reads and the files it writes, closed under sequencing, and one more for "nothing is written before the last thing that can fail"; reordering by induction over adjacent swaps |
| C107 | the 13 documented subcommands as a script over the model of C106 | what each subcommand does when its input files hold the values of the computation, chained; comparison with `complete` by C68, C71 and C87 |
| C108 | the functions of C106 on any file system | the property of the computation (C01, C04, C18, C21, C28, C39, C40, C46, C55, C62) under the condition on the input files alone, and what the command does with the files |
| C109 | `initvolumes -pr` on a file with nodata | false of the code (witness); corollary of C108 if no cell has the nodata value |
| C110 | `complete`; final state by rasters and pour points alone (Spec/Direct) | junctions are contracted one by one in the balance (Proofs/Direct), paths from C31 |
| C111 | `complete` with two labelling functions | labels, watersheds and pour points are unique up to a renumbering; the final state of C110 has only one solution because water runs down |
| C112 | `complete` with any filter | false of the code (witness); the background has no bluespot upstream or downstream, so its state is that of one node with the volume of the ignored bluespots |
| C113 | `complete` with two filters | false in general (witness); otherwise the network of the strict run is the one of the loose run with the ignored nodes contracted, and removing a node's capacity only adds water downstream: induction over the rank of the nodes |
| C114 | `complete` on a DEM before and after ground is taken out under water | `C98_dig` gives the same bluespots with larger volumes; two final states of one network are then compared by induction over the rank of the nodes, and the balance of all that lies upstream of a node gives what it spills less |
| C115 | DemTool and BluespotTool on a DEM and on the same DEM with each cell cut into k by k cells | paths of the fine grid go to paths of blocks and back, so spill levels and connected parts agree; the listed cells of a part are k² for each coarse cell, so the statistics scale; labels agree up to a renumbering as in C108 |
| C116 | `complete`: accumulated flow, watersheds, pour points and network of one run | following the flow from a cell down to a pour point meets the bluespots in the order of the network, by induction on the flow path; conversely by induction on the network path; counting cells by watershed then gives the areas, and the balance upstream (as in C114) the spilled water |
| C117 | `bspots`, `network` and twice `initvolumes -r` with `finalvols` on the same nodes | the final state on a network (C71) for arbitrary volumes; equal or growing inflow by induction on the rank of the nodes; the balance upstream (as in C114) bounds the added water; sums over zones are regrouped into one sum over cells |
| C118 | DemTool and BluespotTool on two DEMs that differ by at most `e` | the best way out of a cell in one DEM is a way out in the other, at most `e` higher (C04, C08); a cell deeper than the limit is in a connected set that passes the filter; sums of differences of depths |
| C119 | DemTool: terrain without flats and flow directions, with lengths of ways | the terrain without flats is below every way plus its cost (C08); the steepest neighbour of a raised cell drops at least the smallest drop per length (C13); induction over the number of lower cells along the flow |
| C120 | the chain on a DEM and on a window of it | every way off the window from a cell of the basin passes a cell at the basin's boundary that is not raised, so both fills agree on the basin (C04, C08); then flow directions, traces, components, labels, pour points and the final state are carried over one by one, the last by induction along the flow |
| C121 | the chain with the final levels, on any two DEMs | the record of a bluespot is determined by its elevations up to their order (the bins start at multiples of the resolution), and the level by the record, the capacity and the volume; then C111 and C120 |
| C122 | the chain on two DEMs and on a window they share | C120 from each DEM to the window; the correspondence of bluespots is composed, and what the run on the window reports is unique (C111); levels by the rule of C121 |
| C123 | approx.py with a rounding after every operation; `np.interp` as a contract | the nodes of the interpolation are sorted and between lowest and highest ground in spite of rounding; relative errors; a difference rounded to float32 is not less than the difference to any number in between |
| C124 | hyps.py, approx.py and complete.py with a rounding after every operation | C78 for the chain to the final volumes, C62 for spill levels of the rounded fill, C123 for each bluespot; capacities are bounded because sums of bounded numbers round to at most their exact bound |
| C125 | rain.py `RasterVolumeTool` with a rounding after every operation | error bounds of sums and products as for C78; C76 for the flow through the network; the network of a run has a node for every label |
| C126 | rain.py, network.py and complete.py with a rounding after every operation | rounding is monotone, so the volumes put in are; C74_monotone for the network |
| C127 | network.py with exact arithmetic; rain.py, network.py and complete.py with a rounding after every operation | induction along the network from upstream to downstream: the differences held so far plus those still on their way; then C76_close and the error of the volumes |
| C128 | complete.py and all tools it runs with a rounding after every operation | C76_close for the routing of the computed volumes, C127_stable between the computed nodes and the exact ones, the error of every node from the chain of C123, totals over all labels |
| C129 | scripts/*.py and complete.py with a rounding after every operation | the steps of both programs are matched one by one as in C68; C124 and C78 for the run |

Not expressible in the model: GDAL/OGR file formats, click option parsing, performance, memory.

## Trusted base

**Kernel.** Lean 4.33.0's kernel checks every theorem. Concrete witnesses and examples use `decide` or `decide +kernel`
(evaluated by the kernel); nothing uses `native_decide`, `bv_decide`, `implemented_by`, `unsafe` or `sorry`.

**Axioms.** No axiom is declared in this project. Every theorem depends on a subset of `propext`, `Classical.choice` and
`Quot.sound`, the axioms of Lean's core library. `#print axioms <name>` shows the subset for a theorem; in this project
all three occur in nearly every theorem since Mathlib's order and list lemmas use them.

**Assumptions that are hypotheses of theorems** (visible in the statements, not axioms):

| assumption | where | stands for |
|---|---|---|
| `LabelContract cc` | C25, C28, C33, C53, C56, C58, C67, C68, C71, C78, C82, C84-C87, C89, C90, C92, C93, C95, C97-C101, C103, C107, C108, C110-C118, C120-C122, C124-C129 | `scipy.ndimage.label` labels the 8-connected components 1..n |
| `HistogramCounts conv histogram` | C79, C123, C124, C129 | `np.histogram(data, bins, (lo, hi))` counts the values between the bounds converted to the type of the data (float32: numpy before 2.0, as pinned in requirements), and sorts them into bins up to a tolerance of hi/2^23 |
| `Interpolates fl interp` | C123, C124, C129 | `np.interp` finds two neighbouring nodes around the argument and computes slope, product and sum in float64, the product possibly fused with the sum (numpy/core/src/multiarray/compiled_base.c) |
| `SoundTerrain` (sign of differences, monotone additions) | C56, C62, C82, C84, C90, C93, C94, C97, C99-C101, C103, C110-C113, C115-C117, C120-C122 | float subtraction, multiplication by 1/sqrt 2 and addition; met by exact numbers and, by C57, by floats |
| `PolygonizeContract` | C73, C108 | `gdal.Polygonize` makes one polygon per 8-connected set of equal unmasked cells. It is assumed for masks of any shape, so C73 and C108 do not notice a mask band of another shape than its raster: an edit of `maskBand` with the wrong number of columns survives (seeded/LOG.jsonl). Not tightened |
| `CellsOnly cc` | C68, C107, C108, C129 | labelling looks at the cells of a raster only |
| `SquareCells`, `SquareCellsFl` | every theorem about `DemTool` or `complete` from C56 on | the cell size check of `DemTool.process` |
| `filter` is a total Boolean function | C28, C56 | Python's `eval` of an accepted filter text |
| a layer gives back its features (`SameAttributes`) | C71 | OGR files; met by the model of VectorWriter/VectorReader |
| rounding to nearest (`IsRounding`) | C56, C57, C62, C74-C79, C81, C91, C94, C97, C99, C100, C123-C129 | IEEE 754 arithmetic without overflow |

**Assumptions that are in the model.** numpy operations used by the code (elementwise arithmetic, comparison, `where`, boolean
indexing, `bincount`, `histogram`, `interp`, `argsort`, `isclose`, `unique`, `min`/`max`) are modelled by their
documented meaning, each in the definition that uses it. Python dictionaries keep insertion order. GDAL returns from a
file the values, transform and projection that were written in a type that can hold them; the file types are modelled as
sets of values. OGR's GeoJSON driver makes one field of every property name, real if one of its values is, and a layer gives
back the values put into its fields. Python integers and the `int32`/`int64` rasters of labels and counts do not overflow.
In `Command.lean` a file system is a list of directories and a list of files; reading and writing raise no exceptions
of the operating system but for a missing directory, and nobody else changes files during a run. click ignores the value a
command returns and ends the program with status 0; an exception ends it with status 1.

**Modelled** (`lean/Verif/Model`, each definition cites its lines):

| file in /repo/malstroem | model |
|---|---|
| algorithms/fill.py | `Fill.lean`, `Safe.lean` (safe constants), `FillStored.lean` (number types of the raster) |
| algorithms/flow.py | `Flow.lean` |
| algorithms/label.py | `Label.lean` |
| algorithms/net.py | `Net.lean` |
| algorithms/_raster_utils.py, dtypes.py | inlined where used |
| algorithms/speedups/_fill.pyx, _flow.pyx, _label.pyx | `FillCython.lean`, `FlowCython.lean`, `LabelCython.lean`, `LabelTypes.lean` (integer types of label rasters) |
| algorithms/speedups/__init__.py | `Speedups.lean` |
| dem.py | `Dem.lean` |
| bluespots.py | `Bluespots.lean`, `Filter.lean` |
| streams.py | `Streams.lean` |
| network.py | `Network.lean` |
| rain.py | `Rain.lean` |
| hyps.py | `Hyps.lean` |
| approx.py | `Approx.lean` |
| io.py: RasterReader, RasterWriter | `Io.lean` |
| scripts/complete.py | `Complete.lean` (what it computes), `Command.lean` (what it does to files) |
| scripts/dem.py, bluespot.py, stream.py, hyps.py, initvolume.py, finalstate.py | `Scripts.lean`, `ScriptsFloat.lean` (with rounding), `Stored.lean` (with vector files), `Subcommands.lean` (what they do to files) |
| io.py: VectorReader, VectorWriter | `Vector.lean`, `Feature.lean` (features and Python dicts) |
| vector.py | `Polygons.lean`, `Bluespots.lean` (transform_cell_to_world) |

**Not modelled:** corner coordinates of polygons, OGR formats (field name and text limits, coordinate systems,
transactions), option parsing by click, logging, progress messages and timing, memory, and the recursion limit of the
interpreter (it is modelled for `_untangle`, the only recursive function, in C96).

## Where the code and the expected property disagree

Each is proved in Lean with a concrete witness; the part that does hold is the `_partial` theorem of the same property.

* C09, C10: the compiled fill skips the last row and column of each sweep, can stop above the Python result and rejects rasters
  with exactly three rows or columns.
* C80: with the compiled fill, water surfaces that reach the cells next to the edge need not be level.
* C81: at near ties between a straight and a diagonal drop the Python and the compiled flow directions differ.
* C82: where water stands next to the edge, `complete` gives other filled elevations with the compiled functions.
* C84: `initvolumes -pr … -bluespots bluespots.tif`, as documented, counts only the rain on the bluespots themselves; the rest of each watershed is counted for node 0.
* C88: `complete` in a directory that is not empty does nothing and exits with status 0; with `-zresolution 0` it fails after writing most of its files, and the directory cannot be used again.
* C27: the compiled `label_data` ignores its background argument.
* C41: histogram bounds are truncated towards zero, so with negative elevations the lowest cells are not counted.
* C47: a nodata value of 0 is not substituted, and values close to the nodata value are.
* C50: filter words are removed one after another, so `oandr` is accepted.
* C58: `BluespotTool.process` without a filter raises `UnboundLocalError`.
* C59: `accumulated_flow` raises `TypeError` whenever some cell has code 8 (no direction); the compiled one hangs when
  the uninitialised delta is zero.
* C63: water levels between the highest ground and the spill level are interpolated to the highest ground.
* C64: `hyps` binds its label functions at import.
* C65: long doubles are stored as float32 or float64.
* C45_below_zero_false: with negative elevations water levels can lie above the spill level and fall as the volume grows.
* C46_deep_background: background cells below -999 get a water depth.
* C68: `pourpts -dem` reads the DEM without substituting nodata and can choose another pour point than `complete`; `initvolumes`
  refuses `-mm 0`; only `complete` checks that cells are square.
* C69: `initvolumes -mm 0` counts as not given.
* C70: a `VectorWriter` used a second time appends, but drops attributes that did not occur in the first write.
* C72: running a tool again with the same output layer appends, so every feature is there twice.
* C75: a full bluespot is shown as filled to slightly more or less than 100 percent, depending on its capacity.
* C77: with another order of the nodes, volumes differ in the last bits.
* C91: filling a float64 DEM with pure Python may never end, compiled functions refuse it, and depths are not 0 on dry ground;
  `DemTool` converts the DEM, the subcommands `filled`, `depths` and `flowdir` do not.
* C92: a bluespot with a level floor is shown without water until it is 99.99 % full.
* C93: with pour points chosen by the DEM, water can leave a bluespot without passing its pour point.
* C95: the two ways of choosing pour points can differ for a bluespot with one threshold cell (docs/cli.rst:287-288 says
  they do not).
* C99: a hole in the data (an area without data that does not reach the edge of the raster) becomes a bluespot, filled from
  -999 to the level of the ground around it.
* C96: with about a thousand junctions one after the other on a stream, the network function raises RecursionError.
* C109: cells of a precipitation raster with the nodata value (say -9999) count as that much rain.
* C112: the volume of bluespots the filter ignores holds back rain in the node with id 0 (docs/cli.rst says that their capacity is
  not taken into account).
* C116: the flow leaves some bluespots at several cells, so less than their watershed drains through their pour point.
* C113: ignoring a shallow bluespot on a divide can mean less water in a bluespot next to it.
