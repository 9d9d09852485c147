# Formal model of metno/fimex: design

## Scope

The code in /repo (C++ and C) is read as text only. Nothing is compiled or run.
The model is written in Lean 4. Each model definition cites the file and lines it
describes. Each property in `properties.jsonl` is stated through a separate, small
specification (in terms of lists, multi-indices, sets, arithmetic), and a theorem relates
the model of the code to that specification for all inputs.

## Layout

- `lean/Verif/<Area>/Model.lean`: function-by-function model of the code.
- `lean/Verif/<Area>/Lemmas.lean`: helper lemmas (no property claims).
- `lean/Verif/<Area>/Props.lean`: specification, property theorems, and for each theorem a
  concrete instance that meets its hypotheses.
- `lean/Verif/Basic.lean`: outcomes (value, exception, undefined behaviour), checked reads.

## Modelling conventions

- `size_t`: natural numbers when wrap-around cannot matter; arithmetic modulo 2^64 where the
  code's behaviour at wrap-around is part of the claim (slice builder, copying, ranges).
- `float`/`double`: an arbitrary linearly ordered field (exact arithmetic); NaN ("undefined")
  is `none` in `Option K`. Rounding errors, infinities and signed zero are not modelled.
- Exceptions: outcome `throws`. C++ undefined behaviour (reads or writes outside an
  array, dereference of an end iterator, non-terminating loops): outcome `ub`, distinct from
  `throws`. Theorems that claim safety prove the outcome is never `ub`.
- `std::map`/`std::set`: lists sorted by key, or functions, as stated per definition.
- Strings: `List Char`.
- External libraries (udunits, proj, netcdf, grib, libxml2, std::regex, file system) are
  parameters of the model.

## Trusted base

- The Lean 4.33.0 kernel; axioms used by the theorems: at most `propext`, `Classical.choice`,
  `Quot.sound` (section "Axioms" below).
- That the model definitions describe the cited C++ lines. The correspondence is by reading,
  there is no mechanical extraction.
- The simplifications named above and in the comments of the definitions.
## Plan per property

- **C01 Slice requests stay inside the variable.** State machine over the builder fields with wrapping 64-bit addition; invariant by induction over histories; a witness shows the wrap-around acceptance.
- **C02 Slice builder remembers exactly the dimensions that were set.** Same state machine; relate the set to the history by induction.
- **C03 Slicing an array returns exactly the addressed hyper-rectangle.** Model the pointer-moving recursion, prove equal to index-by-index specification by induction on rank.
- **C04 Slicing rejects every request it cannot serve and never reads outside the array.** Checked memory model: a read outside returns an explicit undefined-behaviour outcome; prove that outcome unreachable.
- **C05 Slicing composes.** Corollary of the index-wise refinement theorem.
- **C06 Copying values into an array touches only the target range.** Model with wrapping 64-bit subtraction and checked writes; witness for start positions beyond the end.
- **C07 Repacking keeps physical values.** Exact ordered-field arithmetic; algebra.
- **C08 Scaled-unit reading equals scale then convert.** Field algebra on the composed coefficients.
- **C09 Array index maps are bijective.** Model strides; prove mixed-radix bijection by induction.
- **C10 Array loops visit each shared index once and address each array correctly.** Odometer model; prove it enumerates mixed-radix counting and that incremental offsets equal the closed form.
- **C11 Dataset names stay unique under any editing history.** State machine + invariant by induction on the history.
- **C12 Renaming a variable keeps everything else.** Model; prove for distinct names; the code violates the missing-variable and same-name cases: prove the negation with witnesses.
- **C13 Renaming a dimension is consistent.** Model; induction over variables.
- **C14 A dimension in use is never removed.** Model + invariant.
- **C15 Attribute store behaves like a map.** Refinement to a partial map keyed by (variable, attribute).
- **C16 Generic slice reading equals slicing the full data.** Model the loop over unlimited positions; prove equal to the multi-dimensional slice.
- **C17 Extraction by positions selects exactly those positions.** Model chunking and joining; prove for a reduced slowest dimension; negation witness for a reduced faster dimension.
- **C18 Contiguous position chunks cover the selection.** Model run splitting; list induction.
- **C19 Dimension reduction checks positions.** Model with the code's comparison; negation witness for position = length and for repeated reduction.
- **C20 Start/end reduction selects the documented range.** Model with wrapping arithmetic; decision logic.
- **C21 Axis range extraction keeps exactly the values in range.** Model lower_bound/upper_bound and mirroring; prove set equality.
- **C22 Bounding-box extraction keeps every grid point inside the box.** Model the set building loop; membership proof by induction.
- **C23 Joined files read as their concatenation.** Model cumulative lengths + upper_bound; prove equal to list concatenation.
- **C24 Joined region reads equal slicing the concatenation.** Loop invariant over the files.
- **C25 Union aggregation takes the first provider.** Model list search.
- **C26 Tokenizing drops only separators.** Model find_first_of loops; induction on the text.
- **C27 Dotted number lists expand to the arithmetic progression.** Model with explicit step function; prove contents for non-zero step; prove non-termination for zero step.
- **C28 String list index is stable and duplicate free.** Invariant over histories.
- **C29 Time comparison is calendar comparison.** Model shifts and ors; prove equal to mixed-radix sum; order lemma.
- **C30 Printed times parse back.** Model formatter and parser on characters; round trip.
- **C31 Horizontal position search is correct.** Model binary search and interpolation on an ordered field.
- **C32 Bilinear interpolation stays within its neighbours and reproduces grid values.** Checked memory model over an ordered field; negation witness for the upper border.
- **C33 Nearest neighbour picks the rounded cell or undefined.** Model rounding; prove in-bounds.
- **C34 One-dimensional interpolation endpoints and limits.** Ordered field model.
- **C35 Fill algorithms never touch defined values.** Loop invariants over the sweeps.
- **C36 Reading only the needed sub-domain does not change interpolation results.** Index-shift lemma for windows with margin.
- **C37 Forward interpolation aggregates the values that map to each cell, per layer.** Model the loops; prove for one layer; negation witness for the second layer.
- **C38 Neighbour search returns distinct bracketing elements.** Model both searches; prove interior case; negation witness at the first element.
- **C39 Time interpolation uses bracketing input times.** Model lower_bound from last position; invariant over the output list.
- **C40 Border smoothing blends between inner and outer data.** Ordered field model with unsigned index arithmetic.
- **C41 Overlay prefers the top dataset where defined.** Model the cell loop.
- **C42 Merged axes contain both axes.** Model the extension loops; prove content and termination.
- **C43 Auxiliary variable selection is closed.** Reachability closure.
- **C44 Shape comparison ignores exactly the length-one dimensions.** Model the two-pointer loop; prove equal to filtering.
- **C45 Generated names are fresh.** Model the search; freshness.
- **C46 Coordinate system axes stay consistent.** Invariant over histories including raising calls.
- **C47 Grid definition ordering is usable as a map order.** Prove irreflexivity and asymmetry in the same-resolution case; negation witnesses for the rest.
- **C48 Data type names round-trip.** Exhaustive case analysis.
- **C49 Pairwise min/max search is correct.** Model pairwise loop; induction by two.
- **C50 Directory scanning reports each file with its true relative path.** Recursive tree model; prove for file-name matching; negation witness for sibling directories.
- **C51 Splitting a path into directory and file name is lossless.** List model of find_last_of.
- **C52 Accumulation does not depend on the order of reading.** State machine with cache; invariant by induction over the read history; witness for empty slices with undefined first values.
- **C53 De-accumulation inverts accumulation.** Algebra on the running sum.
- **C54 Quality control masks exactly the rejected cells.** Model the status rewriting and the masking loop.
- **C55 GRIB step units divide the step.** Divisibility case analysis.
- **C56 Vertical coordinate formulas invert.** Field algebra.
- **C57 Method names map to the documented method.** Exhaustive; negation witness for forward_undef_min.
- **C58 Filling an existing file writes each value at its coordinate.** Model position mapping; induction.
- **C59 Undefined values survive the interpolation round trip.** Map composition.
- **C60 Longitude normalisation.** Loop model with termination measure.
- **C61 File type detection precedence.** Argmax fold model.
- **C62 Scaled write-back restores the packed data.** Compose the C08 theorem with the write path; rounding of integers is the identity.
- **C63 Coordinate queries are never stale.** Cache invariant by induction over the history; witness for edits through references.
- **C64 Variable search is exact.** Model the two find_if loops; prove equal to a filter.
- **C65 Text helpers are exact.** List induction; a reader of quoted regular expressions as specification.
- **C66 Merge compatibility compares all dimensions.** Model the double loop with its hopping; specification by filtering; witness where a trailing dimension is ignored.
- **C67 Chunked reading delivers the bytes of the file in order.** Offset invariant by induction over the requests; buffer invariant by induction over the pieces; witness for a short response.
- **C68 Relative axis specifications address the data range.** Model the regular expression as a greedy reader, truncation as undefined outside int; reuse C26/C27; negation theorems for x-d in times and for starts that are no multiples.
- **C69 Slices of a coordinate system keep one reference time.** Frame lemma for the base call (C01), lifted to the derived calls; invariant by induction over the history; witness that a raising call may have changed the first of two axes.
- **C70 NcML renaming keeps what is renamed.** Use the dataset model of C17; induction over the rename list; negation theorems for chains of renames and for the dangling attribute reference.
- **C71 NcML values are taken as written.** First-occurrence specification of the pieces as an inductive relation with uniqueness; induction over the text; decision table for the ways to give values.
- **C72 Filled values stay in range and follow the unit.** Range invariant of one relaxation step, induction over the passes; simulation between the run and the run in the other unit, including the convergence test; witness that over-relaxation leaves the range.
- **C73 Index files restore the dataset description.** Messages as records; lemma that an index added to a sound string list stays valid in every longer list; induction over attributes, dimensions and variables; exact description of what is read back, with violation witnesses for lists of strings, empty arrays, long dimensions and equal file names.
- **C74 GRIB messages are indexed by time, level and member.** State invariant by induction over the messages; level lists stay valid while more are added; injectivity of the place in the table; negation theorem for variables without time.
- **C75 GRIB slices have each value at its place.** Blocks appended in order by the nested loops when the computed place is the next one; exact condition on the slice, and a proof that the code writes outside the array in all other cases.
- **C76 Bicubic interpolation is cubic convolution.** Rewrite the matrix product as kernel weights by ring identities on the unit interval; exactness from the moments of the kernel; witness that values outside the range of the cells may result.
- **C77 Grid distances are those to the next cells.** Loop invariants for the three passes; unique row and column of an index; witness on a grid of 3 by 2 for the wrong row.
- **C78 Vectors and directions are rotated with the grid.** Loop invariants for the values; bearings as angles between tangent vectors over the real numbers; exact condition on the size of the grid for reading outside; witness that a half turn is taken for none.
- **C79 Slices of interpolated variables are slices of the interpolated field.** Decomposition of slices into layers and windows within layers; induction over the dimensions for the request passed to the reader; layer-wise form of the interpolations and of the rotation; proof that requests for a part of the grid raise when the dimensions were renamed.
- **C80 Vertical velocity comes from wind and pressure.** Loop invariants for half levels, hydrostatic integration, inner cells and border; closed form with sums over levels; witnesses for air at rest above a slope, descending axes, narrow grids and no levels.
- **C81 Vertical interpolation stays in its column.** Visits of the loop as assignments of indices to names; invariant that processed places hold their value and others are untouched; composition with the theorems on neighbours and one-dimensional interpolation; violation witnesses.
- **C82 The shape of a vertical converter and the slices it reads.** Closed form of the shape kept by induction over the merged dimensions; builders as functions from names to regions; witnesses for time sharing a dimension and for scalar axes.
- **C83 Vertical converters deliver their formula for every slice.** Exact theorem on the loop over blocks with arguments passed as numbers or as arrays; composition with slices of variables and with the one-dimensional formulas; witness for shapes with a common beginning; undefined behaviour for null pointers that are not asked for.
- **C84 Altitude is the hypsometric sum from the surface.** Invariant of the climb through a column and of the loop over columns; exact value of the scan for the direction; sums over layers over the real numbers; witnesses for a direction taken across columns and for reading outside.
- **C85 Time points follow the calendar.** Stepping specification of the calendar with month lengths and leap years; the algorithms with eras proved inverse to each other by decomposition into centuries, four-year cycles and years; induction over seconds; witnesses for the limits.
- **C86 GRIB messages keep their times.** Composition of the writer, the table of units and the reader over the stepping calendar; exact outcome for all other codes; witnesses for truncated, negative and daily steps.
- **C87 Pressure conversions make the variables they promise.** Round trip of the text by induction over options; description of the new dataset as a relation; invariant of the scan for the longest axis; induction over operations; exact conditions for undefined behaviour.
- **C88 Pressure conversions compute their formula at every point.** Composition of slices of the converter with loops over arrays, indices by names; identities over the real numbers; exact condition for packed potential temperatures; witnesses for the dangling name, supersaturation, other orders and shapes of dimensions.
- **C89 The netCDF writer's configuration edits the dataset as it says.** Exact dataset after the removals as lists filtered by independent predicates; edits of attributes as a relation proved equivalent to the function; first and last occurrences as separate definitions; invariant of the dataset kept.
- **C90 Chunk sizes and compression levels are ones the netCDF library takes.** Invariant of the loop over dimensions with a positive product; library as a contract; witnesses for chunks outside the intended limits and for level 10.
- **C91 The netCDF writer writes every variable completely.** Invariant over the steps on a model of the netCDF library with hyper-rectangles; description of the complete file independent of the order of steps; witnesses for silently missing data and renamed unlimited dimensions.
- **C92 The netCDF reader delivers what the file holds.** Exact dataset of every valid file; hyper-rectangles compared by indices in reverse order; effect of putting described for all cells; witnesses for another order of dimensions, scalars and lengths not updated.
- **C93 Writing to netCDF and reading again is the identity.** Composition of the complete file (C91) with the reader (C92); identity of types, names, attributes and values.
- **C94 Types of the axes of CF datasets.** Rules as tables and an independent relation; equivalence of function and relation for all attributes; invariance under the case of letters; witness for 'positive'.
- **C95 Coordinate systems of CF datasets.** Exact characterisation of the listing by the sets of axes of the variables; witnesses for names with commas, the order of names and two dimensions of the same type.
- **C96 Grids and projections of CF coordinate systems.** First element with a property as a separate definition; proofs over the phases of the listing; witness for two grid mappings on the same axes.
- **C97 Vertical transformations of CF coordinate systems.** Grammar of the terms as a relation, proved equal to the loop of regex searches; table of formulas; exact dependencies; witnesses for the terms 'b' and 'p' and for missing terms.
- **C98 Components of vectors.** Invariant over all lines and variables; completeness by monotonicity; the whole table by kernel evaluation; witness for names that are beginnings of others.
- **C99 Horizontal coordinate systems for interpolation.** Last element with a property as a separate definition; folds over the maps; success from C95 and C96; witnesses for two projections and two pairs of coordinates on the same axes.
- **C100 The dataset on a new grid.** Invariant over the loop over grids relating the dataset to the old one; exact effect of each later step; composition with C99; witnesses for common dimensions, auxiliary coordinates and rotated poles.
- **C101 Projections and their texts.** Regular expressions as searches for words; texts as lists of words, so that each key of a written text is found; tables of keys for reading and for writing, proved separately and composed; witnesses for the lost parameters.
- **C102 Merged datasets.** Exact decision by reduction to C66; exact description of the result by folds over the operations of the dataset, composed with the closure of C43; witnesses for units, lengths, scalar axes, missing horizontal axes and unreadable variables.
- **C103 Nearest cells by coordinates.** Invariant of the two walks: the best so far is the best of those visited, and all further points are farther by the difference of latitudes; angles from dot products of unit vectors, separately from the formula of the code; composition with C33; witness for degrees.
- **C104 Cross sections.** Legs as a separate relation; induction over coordinates and over cross sections; exact effect of each edit of the dataset.
- **C105 The aggregated dataset.** Invariant over added readers, kept by the loops over variables and dimensions; composition with the search of C23; witnesses for new dimensions, missing coordinate values and errors in scans.
- **C106 Rotated vectors and directions.** Invariant over calls that keep the state on errors; exact effect of each pair; composition with C78 (matrices), C98 (vectors found by name); witnesses for the direction of cached matrices, null matrices, offsets and accumulation.
- **C107 Datasets with new levels.** Exact effect of each edit, composed over variables and systems into one description of the edited dataset; induction over the text for whole words; composition with C95 (systems of CF datasets) and C45 (new names); witnesses for unknown axes, names inside of names and datasets left half changed.
- **C108 Longitude and latitude for all grids.** Invariant over the grids of the map; specification of the map as what the systems with the same key give; composition with C45 (new names), C95 and C96 (systems listed before and afterwards); witnesses for names with underscores, two projections, other coordinates and units.
- **C109 Coordinate systems of WRF datasets.** State and outcome of each call; relation of datasets with more variables kept by all calls; stability of repeated calls; invariant over the variables for the map of systems; witnesses for the first and second call and for names with commas.
- **C110 Grids survive writing to GRIB and reading.** Messages as stores of keys; exact list of the keys each projection sets; round trip through the store and the reader of the same projection; loops by induction; witnesses for poles cut to whole degrees, lost parallels, longitudes and poles of stereographic grids, turned Lambert grids, unequal steps, and scale factors of the axes of the earth.
- **C111 Levels, parameters and values of GRIB messages.** Induction over the loop of the writer (an alternating recurrence) and closed form; round trip with the reader; exact result of each search; witnesses for axes with the surface first, levels that are cut, and parameters that are never found.
- **C112 Messages of GRIB files.** State of the message and the file; what an action writes is composed over the four loops; settings of different kind keep each other; for several reference times the exact messages that are written are proved; witnesses for attributes that stay and empty fields that are written.
- **C113 Fields of Felt files.** Files as lists of bytes with a stream that can fail; words commute with take and drop; induction over the index; entries specified as digits to the base 32767; calendar of C86; exact behaviour proved for files with too few fields, fields that are too short, and truncated files.
- **C114 Arrays of Felt files.** Sorted maps with the order of the code as a parameter; invariant over the fields by induction from the right that gives both the exact condition for success and the contents; round trip of the restrictions as text; witnesses for fields that are lost and for mixed ensembles.
- **C115 Data of Felt files.** Loop over levels and members with the cells written so far as invariant; places by division into blocks of equal length; values through C114; the position just behind the times, arrays of one member, variables with smaller grids, larger fields and two kinds of fill values are proved as violations.
- **C116 Interpolation onto new grids.** Composition of C31 (positions), C32/C33 (values) and C36 (reduced input) over a conversion that is a parameter; exactness of linear interpolation along an axis by cases of the cell; one conversion per point; box by membership. Partial: the box of axes of equal length covers the diagonal only, and that of rotated projections is converted twice; both are proved by witnesses.
- **C117 Datasets on the points of a template.** Set-like description of the new dataset, proved by following the loop over the grids with the representation of C100; names of the template that are in the dataset already are treated by cases and by witnesses for what goes wrong.
- **C118 Changing the projection several times.** State machine over the five parts of the state with calls that may fail anywhere; two runs are related step by step; the conditions on the single steps are proved for the models of C99, C100 and C117. Vectors after methods that use coordinates take the matrix of an earlier change, and the same points cannot be set twice; both are proved as violations.
- **C119 Options of the program and the readers it builds.** Readers as terms, the program as calls with a log of what is given out; options without effect by showing that each stage depends on a list of keys only, options with effect by a complete table of witnesses; operations by membership in a relation on the options; nested configurations by induction on the depth.
- **C120 Datasets changed by NcML documents.** Each pass as a fold over the elements; what a step may change as lemmas; the last element that matters splits the list, the steps after it are shown not to touch what it set, nor the later passes. Unreadable variables of the type long, the attribute _Unsigned without effect and wrong or missing data of unlimited dimensions are proved as violations.
- **C121 Index files of GRIB files.** Writer and reader as functions from messages to nodes and back, round trip node by node and by induction over messages; scanning by induction over messages with the bytes before as parameter; the path that is not escaped, cut indexes that lose messages silently, a figure of the earth that is used for another file, and lengths from uninitialised variables are proved as violations.
- **C122 Messages of GRIB files find their parameters in the configuration.** Belonging to an element is defined from the texts of the document; the index by numbers is shown to refine the search in document order by induction over elements and parameters. Vectors that are never declared, templates that stay, keys that a message lacks and a factor of zero are proved as violations.
- **C123 Datasets made from GRIB messages are consistent and have the axes of the messages.** Every step only adds to the dataset and keeps it consistent; facts about dimensions and variables are carried to the end along this relation, by induction over grids, types, positions, further variables and variables. Axes that are not double but have further variables, further variables that fail but have attributes, and empty names of axes are proved as violations.
- **C124 Patterns of file names select the files they stand for.** The text of the expression is read back by a reader of the grammar and shown to be the classes of the pattern; matching by induction over the pattern against an inductive relation; number of slashes in a match equals that of the pattern; search by the theorems on scanning directories. Files in the second of two directories that are missed, or found by a pattern they do not match, are proved as violation.
- **C125 Formats of files are told apart and opened as named.** Recognisers are shown equivalent to tables or decompositions of the text; exclusion by disjointness of the tables and of the first bytes; regular expressions by a matcher with existential characterisation; tokens by the theorems on tokenize. Exchanged lengths of the first bytes, unrecognised 64 bit files, a tie between two formats, cut expressions and an edition that ignores the type are proved as violations.
- **C126 Datasets written as NcML documents are read back.** Round trip: escaping inverted by a model of attribute and text decoding of XML; every written element is shown to be a node with the facts that the passes of the reader need; the passes of the reader (C120) folded over such nodes from the empty dataset. What is lost or refused is proved on datasets as violations.
- **C127 Templates in attributes of configurations are replaced.** A backtracking matcher for the expression; how a text is made up is an inductive relation, and the loop is shown to compute it by induction over that relation. Merged places, formats that are never used, offsets that stay, buffers too short and null pointers are proved as violations.
- **C128 The configuration of the quality control is applied as written.** Meaning of an element as a declarative relation, shown equivalent to the code per element, then induction over the elements; slices as an inductive relation equivalent to the recursion; termination by a rank. A shadowed vector by which nothing is found, refused values, a second element that keeps values of the first, lengths that are not compared and circular status variables are proved as violations.
- **C129 Parameters of the Felt reader are those of the configuration.** Round trip: a pattern that occurs in no part of a text is shown to match only at its place, so that search and removal give the parts back; then an invariant over the list of parameters. Unknown types, ids that contain the restriction, empty restrictions and types with digits are proved as violations.
- **C130 The interface for C keeps to the memory of the caller and reports errors.** Memory of the caller is a list and writing outside of it undefined; what is written is stated for every size. Histories of calls are reduced to those of C01, and functions by an invariant over the list of calls. Exceptions that leave the functions, lengths of 2^32 and fill values of another type are proved as violations.
- **C131 Cutting GRIB messages keeps the values of the columns in the bounding box.** The loop is the last position that meets a test; bounds by the order of linear values for both directions; the rectangle by C03; files and messages by induction. That only the first row is kept is proved for all grids and boxes on their side, the wrong last longitude for all messages, and the lost last column, longitudes behind 180 degrees and silent errors on examples.
- **C132 The axes of a Felt file are those its header describes.** Loops over parameters by induction against a recursive specification of pairs and triples; axes as linear functions over an ordered field, where the two reversals of falling latitudes cancel. Conic grids and longer axes are proved as violations.
- **C133 The contents shown of a file are exactly the slices asked for, with their statistics.** Loops are reduced to sums and extremes by induction; quantiles by counting in the sorted list; slices by membership in the nested loops, with an induction over the other dimensions. Violations are proved on witnesses, the one of time for all options.
- **C134 A column of a vertical converter is at exactly the position asked for.** Each change of the slice builder keeps the specification of all regions, for any shape; times from the sizes and the position of the adapter are then compared.

## Where the code does not have the property

Each of these is proved about the model by a theorem named in the manifest (a concrete witness or a
general statement), next to the part of the property that does hold.

- **Slices.** Range checks wrap at 2^64: `start = 2^64-1, size = 2` is accepted (C01, C04). Copying to a
  start position beyond the target writes outside (C06).
- **Packing.** 64 bit integer targets are damaged beyond 32 bits, values outside the target type wrap,
  NaN with equal encodings is rounded (C07). A slightly curved unit conversion is taken for linear (C08).
  Writing back integer typed data casts NaN to an integer (C62).
- **Array loops.** A zero last length is accepted by one constructor (C10).
- **Dataset.** A failed rename deletes the variable of the new name; renaming to the own name deletes
  (C12, C13). Edits by reference leave coordinate systems stale (C63).
- **Reading.** `getData` leaves missing slices uninitialised while `getDataSlice` fills them (C16).
- **Extraction.** Wrong order of values when a fast dimension is reduced to non-consecutive positions,
  and an empty request reads data (C17). Position = length accepted, second reduction relative to the
  source (C19). Ranges whose end lies before the start wrap (C20). Descending axes whose first two
  values are equal are not recognised (C21). Points without position count as inside the box (C22).
- **Aggregation.** Fill of a missing variable along a new dimension has the wrong size (C23).
- **Text.** `2,2,...,1` never ends, trailing dots are undefined, a blank after the dots is refused (C27).
  Index 0 is returned although excluded (C28). Relative specifications: `x-d` in times is 0, `xd`
  subtracts, `x+12` is cut to `x+1`, relative 0 is the last multiple before the start (the second after
  it when negative), `unit=` of axes is documented but raises, large quotients are undefined (C68).
- **Time.** Years from 4096 and minutes from 128 break the comparison (C29); fields of more than two
  digits are printed as `??` (C30). Unordered output times get the wrong neighbours (C39).
- **Interpolation.** Reads outside the field below the last row; undefined neighbours of weight zero
  (C32). `lround` results are cut to 32 bits (C33). Single-value axes read outside (C31). The last cell of
  a 2^16 x 2^16 field is taken for invalid (C36). Forward interpolation repeats the first layer; extremes
  with undefined values depend on the order; NaN is handed to `nth_element` (C37). Neighbour search
  returns the first element twice (C38). Equal coordinates ignore the no-extrapolation rule (C34).
  Conversion overwrites the reader's array; large integers change (C59). Longitude normalisation does not
  end for huge values (C60).
- **Filling.** Single-row fields read outside the array; a default value is not used when nothing is
  defined; negative weights undefine cells (C35). Over-relaxation (documented between 1.2 and 2) gives
  values outside the range of the data (C72).
- **Merging.** Smoothing is not symmetric; a variable without horizontal dimension reads
  `dimSizes[-1]` (C40). A top value equal to the base's fill value is lost, a short top slice is read past
  its end (C41). An axis with zero step never ends (C42). A trailing dimension is ignored (C66).
- **Coordinate systems.** A raising `setAxis` loses the axis of the same name (C46). `operator<` of grid
  definitions is no strict weak order (C47). A raising `setAxisStartAndSize` may have changed the first of
  two axes (C69).
- **Tables.** NcML "char" is read as no type (C48). `forward_undef_min` selects another method (C57).
- **Files.** Siblings after a directory are compared with wrong paths (C50). Files shorter than the longest
  magic are not recognised by content (C61). A short HTTP response counts as success (C67).
- **Processing.** Accumulation and de-accumulation of one variable corrupt the cache; empty slices make
  results depend on the history (C52, C53). "highest"/"lowest" status never works, an empty status slice is
  undefined, automatic configuration writes into an empty vector (C54).
- **Vertical.** Equal surface and top pressure divides by zero (C56).
- **Filling files.** Shape comparison reads past the end or accepts shorter shapes; a misfit raises only
  after other variables were written; a translation without slices raises although documented to do
  nothing; a translated dimension still has to match by value when both files have it (C58).
- **NcML.** Chained renames of variables read from the wrong variable, `orgName` = `name` deletes, chained
  renames of dimensions cut the data, an attribute rename uses a dangling reference (C70). `start` and
  `increment` for an empty dimension write outside the array (C71).
- **Index files.** A list of strings is read from the beginning of the string table instead of through its
  indices, or past its end; an empty array becomes a null pointer, which cannot be written again; lengths are
  cut to 32 bits; vector directions are lost; `strncmp` never compares the bytes after the zero byte of the
  magic; files of equal name in different directories are confused (C73).
- **GRIB index.** A variable without time (configured with `constantTime="true"`, as in the delivered
  configurations) makes the reader fail: its messages are kept under the encoded time 0, which is never one of
  the times of the file, so that `find_index` throws (`C74_timeless_refused`). Next to it, not modelled:
  `setAsSpatialVector` is called only if the name of the counterpart is empty (`GribCDMIndexer.cc:949`).
- **GRIB slices.** `GribCDMReader::getDataSlice` computes the place of a message in the result with the full
  lengths of the level and member dimensions (`GribCDMReader.cc:252-253`). Whenever some but not all members are
  selected for more than one level, or some but not all messages for more than one time, it writes beyond the
  array (`C75_gap_is_undefined`, for all such slices). Rounding to a precision goes through `int`, so that values
  of more than 2^31 times the precision wrap around (`C75_precision_overflow`).
- **Grid distances.** `mifi_griddistance` fills the last row from the cell `ny` positions before instead of `nx`; on grids that are not
  square the values are those of another cell (`C77_last_row_wrong`; right on square grids, `C77_last_row_partial`).
- **Rotation of vectors.** The angle between two projections is found from one step along an axis of the input; a
  quotient replaced by 0 makes the sign of a half turn with a positive step, and of no turn with a negative step,
  the wrong one (`C78_identity_turned_around`). The step is also measured from the middle cell to its neighbour across, which
  is outside a grid of two rows, and of two columns with fewer than five rows (`C78_two_rows_undefined`).
- **Slices after interpolation.** `getOutputDataSlice` recognises x and y by the names in the input, but `changeCDM` renames the
  dimensions of the second and further coordinate systems; requests for a part of the grid then raise an exception
  (`C79_renamed_dimensions_raise`). The counterpart of a vector is processed with the number of values of the variable itself; if
  it has fewer, memory outside its array is read (`C79_short_counterpart_undefined`).
- **Vertical velocity.** The slope of the geopotential (interpolation.c:1030) is not multiplied with the wind, so air at rest above
  sloping ground rises; `addVerticalVelocity` takes the absolute value of the spacing of an axis, so a field stored from north to
  south gets another result than the same field stored from south to north; a grid of two columns or rows has no inner cells and
  the result is what was in memory; `nz = 0` starts the loop over the half levels at 2^64-1 (C80).
- `CDMVerticalInterpolator.cc:429-466`: the limits of validity are read for all positions of the unlimited dimension,
  but the loop over them starts at the beginning, so the limits of position 0 are used at every position
  (`C81_limits_of_the_first_position`).
- `CDMVerticalInterpolator.cc:535`: with `find_closest_neighbor_distinct_elements` a height equal to the first height of
  the column gives an undefined value, and so does a height beyond that end of the column, with every method; beyond
  the other end values are extrapolated (`C81_first_height_undefined`, `C81_first_end_undefined`).
- `CDMVerticalInterpolator.cc:389`: the method for nearest neighbours takes the neighbour below, not the nearest one
  (`C81_nearest_takes_lower`).
- `CDMVerticalInterpolator.cc:540`: the return code of the interpolation is not looked at; the logarithmic methods then
  leave uninitialised memory in the output if a height is not positive (`C81_log_uninitialised`).
- `CDMVerticalInterpolator.cc:393-398`: dimensions are looked up by the name of the vertical axis; if the axis is not
  called like its dimension all values are undefined (`C81_axis_not_called_like_dimension`).
- Read, not modelled: `OceanSCoordinateGToDepthConverter::getValidityMin` delivers the sea surface elevation (positive
  upwards) as the smallest depth (positive downwards).
- `ShapeMerger::merge` (VerticalTransformationUtils.cc:124): a coordinate system with an axis that is a scalar variable
  (a height of 2 m, say) makes the shape of a converter undefined: the first element of an empty shape is taken
  (`C82_scalar_axis_undefined`).
- `ShapeMerger::merge` (VerticalTransformationUtils.cc:236): where time and position run along the same dimension (a
  trajectory), other dimensions are inserted before it and x is not first (`C82_time_dimension_shared`).
- Vertical converters (e.g. HybridSigmaApToPressureConverter.cc:79-95): a variable that is passed as a number is
  taken at the beginning of the slice in all dimensions with which every shape of the group begins, e.g. where all
  variables depend on the levels only (`C83_hybrid_sigma_ap_exact`, `C83_common_dimension_violated`).
- The hybrid height converter does not ask whether `b` has data (`C83_hybrid_height_without_b`); the reference pressure
  of HybridSigmaToPressureConverter.cc:77 is read for position 0 only and without asking
  (`C83_no_reference_pressure`); the standard atmosphere converters read the size through a null pointer
  (`C83_standard_without_data`).
- OceanSCoordinateGToDepthConverter.cc:114-117: `getValidityMax` calls `BasicVerticalConverter::getValidityMin`, so
  the depth of the ocean is never a limit although the shape of the limit is that of the depth (read, not proved).
- PressureIntegrationToAltitudeConverter.cc:143-145: the dimensions are added to the group, by copy, before the vertical
  dimension is marked as not shared, so the loop that looks for the direction of the pressure visits single values and
  not columns. The second value of a pair is then not from the end of the same column: the direction can be taken
  from two different columns (`C84_direction_across_columns`), and if no pair is positive the loop reads behind the end of
  the pressures instead of reporting the error (`C84_no_pressure`, `C84_direction_beyond_the_end`).
- PressureIntegrationToAltitudeConverter.cc:125: the vertical axis is used without asking whether there is one
  (`C84_no_axis_undefined`); line 150 reads the pressures before line 188 asks whether there are any (in the model).
- `GribFileMessage::getValidTime` (C86): for step units of days, months and years (codes 2 to 7) the case computes a
  duration and throws it away; `timeOffset` is added without having been set. Daily data written by fimex itself
  get the unit `D` and cannot be read back.
- `GribApiCDMWriter_ImplAbstract::setTime` (C86): the difference of the times is divided as `unsigned long`, so a valid time
  before the reference time becomes a huge step; the division truncates before .5 is added, so steps that are no multiple of
  the unit are cut, not rounded; seconds of the reference time are lost, the step is still computed with them.
- `fromTimePoint` (C85): `to_time_t` takes a time point in nanoseconds; years before 1677 or after 2262 overflow (climate
  runs, `max_date_time`-like fill times). Milliseconds are dropped by `asTimePoint`, although `operator<` uses them.
  Impossible days of a month are not detected. `date::year` keeps a `short`.
- `GribCDMIndexer` lines 226-231: the variables `t_max` and `t_min` have their names exchanged, but are used consistently.
- C87: `specific2relative` searches a temperature with a loop that advances the iterator over the humidities
  (src/CDMPressureConversions.cc:357-358): if the first temperature is not complete for the coordinate system, the
  iterator runs past the end (`C87_humidity_second_temperature`). Without any temperature the message of line 360
  dereferences the end of the list (`C87_humidity_without_temperature`).
- C87: the `coordinates` of the vertical velocity are looked up for the new variable in the input (line 479) and so
  never taken over (`C87_omega_coordinates`). An exception of `getConverter` is reported as "skipped", but the null
  converter is used in line 579 (`C87_pressure_exception`). The result of `regex_replace` in line 193 is thrown away, so
  no name is ever derived. A word without `=` that is not the last option is joined with the next key
  (`C87_flag_not_last`).
- C88: the converter for potential temperatures keeps a reference to a string of a local vector (lines 217, 257, 286):
  every read is undefined (`C88_theta_dangling`). With a valid name the formula is right for packed data only if
  the scale factor is 1, the offset 0 or the pressure 1000 hPa (`C88_theta_partial`); fill values are not looked at.
- C88: the relative humidity is no longer limited to 1 because the limit is 100 % and the code works with fractions:
  supersaturated values exceed `valid_max` and values from 1.3107 do not fit in a `short`, undefined
  (`C88_humidity_not_limited`). NaN is undefined too; there is no `_FillValue`.
- C88: arrays are compared by size only. Sources with another order of dimensions than the pressure are combined with the
  pressure of other points (`C88_transposed`); `air_pressure4D` is declared with four dimensions although the data have
  those of the converter (`C88_pressure_size`).
- NetCDF_CDMWriter.cc:97-103 (`ncDimId`) looks the unlimited dimension up under its old name: if the configuration renames
  it, writing raises (`C91_renamed_unlimited`), and if another dimension is given its name, the variables with the
  unlimited dimension are silently left out (`C91_exchanged_names_are_silent`).
- NetCDF_CDMWriter.cc:711-730: exceptions while writing values are only logged, so arrays of the wrong size and values the
  library refuses leave the file silently without data (`C91_wrong_size_is_silent`, `C91_refused_is_silent`). A second
  unlimited dimension (netCDF-4) has length 0 while writing and ends up there too.
- NetCDF_CDMWriter.cc:546-580 (`convertData`): if the units cannot be converted the data is written unconverted although
  scale, offset and fill value of the file are the new ones (`C91_failed_conversion`).
- CDM.cc:477-492 with NetCDF_CDMWriter.cc:546-580: a text variable with `_FillValue` or `missing_value` cannot be written
  (`C91_text_with_fill`). With a new `type` the dataset already has the new type when the data is converted, so old and
  new type are the same and the attribute `_FillValue` is converted by itself.
- NetCDF_CDMWriter.cc:387-395: scalar variables without a type are defined as int but never written; with no filling (classic
  formats) their cell is undefined.
- NetCDF_CDMWriter.cc:703-710: the fill value of a text variable in the classic formats is NaN, whose cast to char is
  undefined behaviour.
- NetCDF_CDMWriter.cc:351-367: lengths pass through `int`: 2^31 and more are garbled (2^32 becomes 1, as length 0 does).
- NetCDF_CDMWriter.cc:403-461: the chunk of a dimension is the quotient of all values so far and a minimum; so chunks of 16
  values and of 76 million values occur (`C90_small_chunks`, `C90_large_chunks`); configured chunks of the unlimited
  dimension are ignored; level 10 is refused by the library (`C90_level_10`).
- NetCDF_CDMWriter.cc:383-386 and 473-477: dimensions of a shape that do not exist and attributes of variables that do not
  exist dereference `end()`.
- NetCDF_CDMWriter.cc:332-341: the value of an attribute edit without type is ignored (`C89_value_needs_type`); a dimension
  renamed twice has the last name, but a variable of the same name has the first one.
- With netCDF-4 the unlimited dimension is shorter than in the reader if no variable has data at the last positions
  (the classic formats write fill values there).
- NetCDF_CDMReader.cc:147-160,222-236: the unlimited dimension is assumed to be the slowest dimension of a variable; netCDF-4
  files may have it elsewhere, and then a slice is taken along the wrong dimension (`C92_record_not_first`).
- NetCDF_CDMReader.cc:187-191,266-272: `&start[0]` of an empty vector for regions of scalars (`C92_scalar_region`).
- NetCDF_CDMReader.cc:206-278: putting data behind the end makes the file longer but not the dataset
  (`C92_length_not_updated`).
- NetCDF_CDMReader.cc:113-128: a variable called `_GLOBAL` shares its attributes with the global ones.
- CF1_xCoordSysBuilder.cc:204-213: `positive` is compared with "up" letter by letter and everything else means down, although CF (4.3)
  has it without regard to case (`C94_positive_letters`).
- CF1_xCoordSysBuilder.cc:335-351 with CoordinateSystem.cc:305-345: an auxiliary axis of the type of a dimension is dropped if its name comes
  later in the alphabet than the dimension's, and kept otherwise; a variable with a dropped axis has no complete system
  (`C95_order_of_names`). Two dimensions of the same type on one variable make the listing of the whole dataset raise (`C95_two_times`).
- CoordinateSystem.cc:159-164: ids join names with commas, so systems of axes with commas in their names collide and one is lost
  (`C95_comma`).
- CF1_xCoordSysBuilder.cc:293: the pattern `.*` does not match texts with line breaks, so such `coordinates` are not axes of the dataset.
- CF1_xCoordSysBuilder.cc:407-431: the projection belongs to the axes, and the first variable on them decides; another variable with
  another `grid_mapping` gets the wrong projection (`C96_other_mapping`).
- CF1_xCoordSysBuilder.cc:489: the formula term "p" is checked, which is no term of the hybrid sigma coordinate, and "b" is not, although it
  is used (`C97_b_elsewhere`). Missing terms give transformations that refer to a variable with the empty name (`C97_missing_terms`).
- CF1_xCoordSysBuilder.cc:558-559: standard names are searched with the pattern `name.*`, and several names of the table are beginnings of
  others: `eastward_wind` is connected with `northward_wind_shear` if that comes first (`C98_other_quantity`).
- C99, `findBestHorizontalCoordinateSystems`: the map of systems has the names of the horizontal axes as keys, and a later system replaces an
  earlier one. With two projections on the same axes all variables are interpolated with the projection of the last system
  (`C99_two_projections`); with two pairs of longitude and latitude all with the last pair, and the variables of the other pair are removed
  as incompatible (`C99_two_coordinates`).
- `changeCDM` (src/CDMInterpolator.cc:794-797) removes the dimensions of each further grid although the shapes of other variables may use them: with
  staggered grids that share a dimension (x,y / xs,y) `removeDimension` raises and no interpolation is possible; with (x,y / x,ys) the comparison of
  the first dimension only leaves `ys` over with its old length and removes the variable `x`, so that the attributes of the axis are lost
  (`C100_common_dimension`, `C100_dimension_left`).
- Auxiliary coordinates on the horizontal dimensions (for example a height of the surface in `coordinates`) are axes of the system and therefore neither
  interpolated nor removed: the new dataset has them on the dimensions of the new grid, and their values are read from the old one
  (`C100_auxiliary_coordinate`).
- The test for `projection_rotated_latitude_longitude` (src/CDMInterpolator.cc:838) never holds for texts of the projection library, where a rotated pole is
  `ob_tran`; the new axes are called `projection_x_coordinate` and `projection_y_coordinate`. `scale_factor` and `add_offset` of an old axis stay although the
  values are new (`C100_rotated_pole`).
- C101: `LambertConformalConicProjection` and `AlbersConicalEqualAreaProjection` write the second standard parallel only if there are more
  than two (`size() > 2`), so that two different parallels become twice the first (`C101_second_parallel_lost`); an empty
  `standard_parallel` is read at its first place (`C101_no_parallels`). The parallels are printed with 6 digits.
- C101: the scale factor is written as `+k_0=` by merc, omerc and tmerc but only `+k=` is read (`C101_scale_lost`); `+sweep=` is read into
  `sweep_axis` and written from `sweep_angle_axis` (`C101_sweep_lost`); `+rf=` is written but not read, so Bessel's ellipsoid becomes a
  sphere the second time (`C101_flattening_lost`), and stays in a text whose earth is replaced (`C101_flattening_stays`).
- C101: `+o_lon_p=` below 1/10000 is left out (`C101_pole_longitude_lost`); `+lon_0=` of UTM is read with `[0-9]+`, so not when west of
  Greenwich and without decimals (`C101_utm_meridian_lost`); a polar stereographic text without `+lon_0=` raises (`C101_polar_raises`);
  unknown ellipsoids and inverse flattenings give the sphere without a message (`C101_unknown_ellipsoid`); omerc gets `+gamma=0`
  (`C101_gamma_added`).
- C102: `makeMergedCDM` (src/CDMMergeUtils.cc:269-270) passes the unit of the x axis for both axes, so y values in another unit are taken wrongly
  (`C102_unit_of_y`). `is_compatible` asks coordinate systems without horizontal axes for the names of these, a null pointer, for every variable with a
  coordinate system whose dimensions have different names, e.g. coefficients of levels (`C102_null_axis`); it does not compare lengths when the names
  are the same (`C102_same_names`), nor without coordinate systems (`C102_no_system`). A scalar coordinate such as a height raises, as `axisLength`
  takes every axis for a dimension (`C102_scalar_axis_raises`). A needed variable that the base does not have, as a grid mapping of another name, stays
  in an overlay and cannot be read (`C102_auxiliary_unreadable`). Variables of the outer dataset are described with the lengths of dimensions of the
  inner one (`C102_outer_length`).
- C103: `changeProjectionByCoordinates` (src/CDMInterpolator.cc:1337-1340) multiplies the distance by the radius of the earth on grids in degrees, without
  converting it to radians, and also if it was set in metres: above 2 every target finds a cell (`C103_kd_degrees`, `C103_antipode`). With a single known
  cell the distance of the search by latitude is not a number and nothing is found (`C103_single`); if all cells looked at are unknown, `min_element` of an
  empty vector is read (`C103_distance_unknown`). The contract of the tree says that points with NaN are never found; nanoflann was not examined for this.
- C104: `changeProjectionToCrossSections` (src/CDMInterpolator.cc) does not reset the dataset, so that a second call always raises (`C104_twice`); a
  method that is not for points raises only after the dataset has been changed (`C104_sections`). The size of a cell is taken from the first two values
  of each axis. A projection that fails gives no number, whose conversion to `size_t` is not defined; this is not modelled.
- C105: with a new dimension, `addOtherReader` (src/AggregationReader.cc) does not add the other dimensions of joined variables, which may then not exist
  (`C105_new_dimensions_missing`), and joined variables keep data that a reader has in memory, so they have the values of one reader only
  (`C105_new_keeps_data`). Coordinate values of only some readers give a coordinate variable that is shorter than its dimension
  (`C105_coordinates_missing`). A reader with an unlimited dimension of a name that is a limited one before raises (`C105_unlimited_later`). In
  `NcmlAggregationReader`, of several `aggregation` elements none is used although the message says the first one is (`C105_several_aggregations`); all
  files of a scan get the same coordinate value, since the number is that of the scan (`C105_scan_values`); a scanned file for which `addReader` raises
  stays in `readers_` without an end position, so that later positions are read from the wrong reader (`C105_scan_error`).
- C106: `cachedVectorReprojection` of the processor (src/CDMProcessor.cc:478-482) is kept by system and not by direction, so that a call back to the
  grid after one to latitude and longitude turns the wrong way (`C106_direction_ignored`).  `rotateDirectionToLatLon` registers a variable before its
  matrix is made; after an error reading it uses a null pointer (`C106_null_matrix`), and a failed call for vectors leaves them marked as turned
  (`C106_failed_call_marks`).  Vectors, unlike directions, are turned as packed numbers (`C106_offset_ignored`), and the counterpart is read without
  accumulation (`C106_counterpart_not_accumulated`).
- **Levels of an axis that does not exist (C107).** `interpolateToAxis` does not look whether the name is a dimension; the call returns, and
  the variables have a shape with a dimension that does not exist (`C107_axis_unknown`).
- **A second change of levels (C107).** `interpolateToFixed` stores the levels before it raises because the dimension exists; data are then read
  with the new levels while the dataset describes the old ones (`C107_second_call`).
- **Names inside of names (C107).** The axis is removed from `coordinates` by `\b…\b`, which also cuts `lev` out of `lev-a`
  (`C107_coordinates_cut`); `C107_coordinates` is for texts of word characters and blanks.
- **Half-changed datasets (C107).** A vertical axis listed in `coordinates` of a variable without that dimension makes the call raise after the
  new axis and some of the variables have been changed (`C107_refused`, `C107_half_changed`).
- **Grids with underscores (C108).** `generateProjectionCoordinates` joins the names of the axes with `_` as key, so `a_b`, `c` and `a`, `b_c` are
  one grid: variables of one get coordinates on the dimensions of the other (`C108_key_taken`).
- **Two projections on the same axes (C108).** The last coordinate system decides; variables of the other projection get wrong longitude and
  latitude (`C108_last_projection`).
- **Other coordinates (C108).** The attribute `coordinates` is replaced, so other auxiliary coordinates of a variable are no longer named; they
  become variables of the grid, and a second call adds longitude and latitude again, even for the first ones (`C108_coordinate_lost`).
- **Units of axes (C108).** The numbers of the axes are given to the projection without a look at their units, so kilometres are taken as
  metres (`C108_units_ignored`).
- C109: `wrfListCoordinateSystems` (src/coordSys/WRFCoordSysBuilder.cc:389-399, 438-445) adds `forecast_reference_time`, and a variable for any other
  dimension, as `CDM_INT` and then gives them `float` data; `CDMVariable::setData` raises for that. So the first listing of a plain WRF file always raises
  (`C109_needs`, `C109_first_raises`); the half made variable stays, without data, and a second listing succeeds.
- C109: the test `if (reader)` (334) is the wrong way round: the times of the variable `Times` are never read, equal steps since `START_DATE` are
  assumed (`C109_levels_time`).
- C109: the latitude of true scale is not used for Mercator (146-148, `C109_mercator`), and a polar stereographic projection gets the latitude of the
  centre of the grid as its `lat_0` (140-143, `C109_projection`), which makes it oblique.
- C109: shapes are told apart by their names joined by commas (414); names with commas can make two shapes one (`C109_comma`).
* GRIB grids (C110): `GribApiCDMWriter_Impl2::setProjection` compares the projection with the misspelt name
  "polar_stereograhpic", so the longitude of polar stereographic grids is written as 0 (`C110_stereographic_lost`); a standard
  parallel is not written, the centre flag is not written (grids around the south pole are read around the north pole), the test of
  the scale factor `x <= 1 || x >= -1` is always true, and edition 1 cuts steps to whole metres. Poles of rotated grids are cut to
  whole degrees in both editions (`C110_pole_cut`). Lambert grids are read with positive steps whatever the scan direction
  (`C110_lambert_turned`). Only the first two points of each axis are looked at (`C110_unequal_steps`). `getGridDefRotatedLL` divides
  by the number of points instead of the number of steps (`C110_rotated_by_ends`). `getEarthsOblateFigure` applies the scale factor with the
  wrong sign and multiplies the (then zero) factor instead of the value by 1000 (`C110_oblate`, for all messages).
* GRIB levels and parameters (C111): `GribApiCDMWriter_Impl2::setLevel` writes hybrid coefficients by a loop that runs past the array for
  every axis with the surface first (`C111_written`), and gives the border at the surface the coefficients 0 and 0, thus the pressure 0
  (`C111_surface`, for all axes). Levels are cast to whole numbers in both editions (`C111_level_kept`, `C111_levels_merged`). `getNodePtr`
  raises an error as soon as several elements have the name, before it looks at the level by which they are told apart, and compares
  levels relatively without absolute value, so that level 0 is never found (`C111_parameter_lost`). The reader applies the factor of an
  element to all values before it, too (`C111_elements`), and refuses the last coefficient (`C111_extra`).
* GRIB messages (C112): in `GribApiCDMWriter_ImplAbstract::run` the position `rtPos` of the reference time is never increased, and the times of
  further reference times are read with the slice builder cut to one time, so that the same field is written for all of them
  (`C112_reference_times`). Exceptions of `getLevels` and `setTime` are not caught and end the run (`C112_stops`). The handle is not
  reset, so that attributes of one parameter stay in the messages of the next (`C112_attribute_kept`). Empty fields are counted with `==`, so
  that fields of NaN are never omitted (`C112_empty_written`).
* Felt files (C113): `FeltFile::get_` does not look at the state of the stream. Of a field that goes past the end of the file the missing words
  are zeros, and as `failbit` is never cleared, all fields read later are zeros, too (`C113_truncated`). A file that has fewer fields than
  word 9 of its first block says is read past its end, into an array that is not initialised (`C113_too_few`). The length of the grid
  wraps around if the entry is shorter than the header: such a field is valid and has nearly 2^64 values (`C113_short_field`).
* Felt arrays (C114): `Felt_Array2::addField_` only compares the type of a field with the one it replaces, so that three fields of one time and
  level with types 3, 2, 3 are accepted and the first and second one are lost (`C114_twice_accepted`); `parameter()` of an ensemble field is
  taken modulo 1000, so that one array can mix both kinds, with members as second levels (`C114_mixed`). The constructor of
  `FeltParameters` makes an exception for unknown data types but does not throw it; negative numbers after `=` are ignored.
* Felt data (C115): `FeltCDMReader2::getDataSlice` compares the position by `>` instead of `>=`, so that the position just behind the times reads
  behind the end of a vector (`C115_behind`); an ensemble with one member only is read as member 0 and all of its data are missing if that is not its
  number (`C115_one_member`, for all such arrays); a variable with a smaller grid than another one of the file has its levels at wrong places and cells
  that are never written (`C115_small_grid`); sizes of fields are only compared by an `assert`, and larger fields are written behind the end
  (`C115_large_field`); without `_FillValue` in the configuration missing values in float fields are -32767, but missing fields are 9.97e36, and only the
  latter is the fill value of the variable (`C115_two_fills`).
- **C116** `changeProjection` with axes that need start or end tells axes from two-dimensional coordinates by comparing
  their lengths (`src/CDMInterpolator.cc:384`).  For a latitude/longitude grid with as many columns as rows only the
  diagonal is used for the box (`C116_box_square`).  For rotated projections the box is converted from radians to degrees
  although `reproject_values` already gives degrees (`src/CDMInterpolator.cc:399-404`, `C116_box_rotated`).
- **C116** a template with one-dimensional latitudes and longitudes has fewer points than cells; the positions are then read
  beyond the end of the array (`src/CDMInterpolator.cc:1625-1667`, `C116_template_axes`).
- **C117** `changeCDMToLatLonTemplate` keeps the old axes if one of them has the name of an axis of the template
  (`src/CDMInterpolator.cc:1500-1507`, `C117_axis_left`), fails if both have the name of the other one
  (`C117_names_exchanged`), fails if there is a dimension called x or y without a variable (`C117_dimension_exists`),
  and takes over unrelated dimensions called x or y, so that other variables have another length than their data
  (`C117_dimension_taken`).
- **C118** `changeProjection` for axes resets the dataset and the variables but not the matrices for vectors
  (`src/CDMInterpolator.cc:433-434`).  Methods that use coordinates never set them, so after an earlier change with projections
  the vectors are rotated with the matrix of the earlier axes, which may even have another size (`C118_matrix_of_before`,
  `C118_stale_matrix`).
- **C118** `changeProjection` for lists of points does not reset the dataset (`src/CDMInterpolator.cc:457-490`); the same call a second time
  fails for a grid of longitudes and latitudes (`C118_points_twice`).
- **C118** methods that use coordinates add longitudes and latitudes to the dataset of the reader, after the own copy has been made
  (`src/CDMInterpolator.cc:433, 696-699`); the next change then starts from another dataset (`C118_reader_changed`).
- **C119** `extract.reduceTime.start` is asked for twice where `extract.reduceTime.end` is meant (`src/binSrc/fimex.cc:481-484`): a program with
  only an end of the time extracts nothing and says nothing (`C119_time_end`).
- **C119** `qualityExtract.autoConfString` and `qualityExtract2.autoConfString` are declared under these names (`src/binSrc/fimex.cc:154, 223`) but
  looked up as `autoConfigString` (`src/binSrc/fimex.cc:583-586`), so they never have an effect; `process.printNcML`, `process.printCS` and
  `process.printSize` are never asked for, and `verticalInterpolate.level2` is ignored with a warning (`C119_unread`, `C119_ignored`).
- **C119** with a start that is not 0 and no end, `endPos[i]` is read beyond the vector (`src/binSrc/fimex.cc:502-506`): `endPos.at(i)` is only
  evaluated if the start is 0.  That the numbers of values differ is reported, but the program goes on (`C119_end_missing`).
- **C119** `merge.inner.cfg`, `merge.projString` and `merge.keepOuterVariables` do not lead to a merger by themselves (`C119_merge_extras`), and a
  configuration that names itself as `merge.inner.cfg` leads to a recursion without end (`C119_endless`).

- **C120** a variable that the document adds with the type `long` is made with 32-bit data (`string2datatype`, `src/NcmlCDMReader.cc:420-423`), then changed to
  64 bits (`src/NcmlUtils.cc:126-135`), which drops the data; reading it then asks the other reader for a variable it does not have and raises
  (`C120_added_partial`, `C120_long_unreadable`).
- **C120** the XPath `/nc:attribute[@name='_Unsigned']` (`src/NcmlCDMReader.cc:244`) begins at the document, not at the variable: `_Unsigned` never has an
  effect on the type (`C120_unsigned_ignored`, `C120_unsigned_witness`).
- **C120** the data of a dimension that becomes unlimited are fetched before variables are renamed (`src/NcmlCDMReader.cc:143-147, 474-480`): if the variable is
  renamed together with the dimension nothing is fetched (`C120_prefetch_missed`), and another variable of the new name gets the data of the old one
  (`C120_prefetch_wrong`).
- **C120** a document that only changes shapes leaves the coordinate systems of the other reader marked as valid (`C120_stale_systems`, compare C63).
- **C120** without a document the constructor dereferences a null pointer; the branch "not a ncml-file, ignoring" of `init` is never reached, since the
  constructor has raised before (`C120_refused`).
- **C121** the path of an index is printed without escapes (`src/io/grib/GribFileIndex.cc:1290`): with `&`, `<` or a quote in it the index file is malformed
  (`C121_path_not_escaped`, `C121_ampersand`). The result of reading the old index is ignored when a file is appended (`src/io/grib/GribFileIndex.cc:1150`), so all
  its messages are dropped and the append succeeds (`C121_unreadable_index_dropped`); the same for what follows a cut (`C121_cut_index`).
- **C121** the figure of the earth is a variable of the file which is reset at the end of `init` only (`src/io/grib/GribFileIndex.cc:1155-1167`): after an exception the
  next index without that option uses it (`C121_figure_left`, `C121_figure_of_another_file`).
- **C121** bytes after the last message, fewer than 16, make the whole file fail (`C121_short_rest`); a head with an edition other than 1 and 2 leaves the bounds of a
  loop uninitialised (`src/io/grib/GribFileIndex.cc:462-480`, `C121_other_edition`).
- **C121** one message with a unit of steps outside of the code table prevents the index of the whole file from being written (`C121_written`).
- **C121** a message of an index file without the elements of its edition is refused, one with its parameters only is read and leads to the use of uninitialised members (`C121_uninitialised`).
- C122: `initAddVariables` of the GRIB reader (src/io/grib/GribCDMIndexer.cc:949-951) calls `setAsSpatialVector` if the counterpart is empty, not if it is given. No variable of a GRIB dataset is a spatial vector (`C122_never_a_vector`), although the configuration has `spatial_vector` elements; winds are then interpolated without rotation unless standard names help.
- C122: `initUpdateTemplatedAttributeValues` replaces templates in the attributes of the configuration, but `loadOneMessage` has copied them before; the dataset keeps texts like `%MIN_DATETIME%` (`C122_templates_stay`).
- C122: `findVariableConfig` compares further keys only if the message has them; an `extraKey` restriction is met by a message without the key (`C122_missing_key_not_looked_at`).
- C122: `scale_factor="0"` gives an attribute with value 0 and data that are not packed (`C122_factor_zero`); an attribute `scale_factor` beside `precision` ends the reading (`C122_twice`).
- C123: `initSpecialLevels_` of the GRIB reader gives levels with further variables values of type double; `setData` refuses them if the configuration gives the axis another type, and the file cannot be read (`C123_level_type`). The configurations of the project have `double` there.
- C123: a further variable of an axis that cannot be made is announced as warning, but its attributes are added after the `try` block: with attributes the reader fails (`C123_further_variable_fails`). If its name is taken, its attributes go to the variable that has the name (`C123_further_variable_taken`).
- C123: `initCreateVarMessages` recognises dimensions by name. Without members the name of their dimension is empty; a vertical axis with empty id is then taken for the members, and the shape may be read past its end (`C123_empty_id`).
- C123: the reference time is stored with the type of the time axis as seconds since 1970, whatever its units (`C123_time`); types like short cannot hold it.
- C124: `globFiles` uses `scanFiles` with relative paths, so that the pattern `*/f.nc` finds the file of the first directory only, and `*/*/f.nc` finds `b/f.nc` if there is a directory `a` before `b` (`C124_second_directory_missed`). The comment in the code says that `?` becomes `[^/]?`, the code and the documentation say exactly one character.
- C125: `NetCDFIoFactory::matchMagic` compares seven bytes if there are four, and four if there are seven: with a buffer of four to six bytes it may read behind its end (`C125_short_buffer`). The library itself always asks for seven or more. Classic files with 64 bit offsets or data (`CDF\002`, `CDF\005`) are not recognised (`C125_other_classic_formats`).
- C125: expressions given as `memberRegex:` are cut at the first colon (`C125_regex_cut`); without anything behind the colon `at` raises (`C125_member_missing`).
- C125: `GribIoFactory::createWriter` writes edition 2 if the extension says so even if the type is `grib1` (`C125_edition_of_extension`). A netCDF file opened for changing with the prefix `file:` keeps the prefix (`C125_netcdf_writeable`).
- C126: what the NcML writer writes is not always read back by the NcML reader. Attributes that are empty texts are lost and line ends in attributes become spaces (`C126_attributes_lost`); several texts in one attribute are separated by space although the reader divides also at commas and drops empty texts (`C126_commas`); numbers without sign become numbers with sign, and variables get an attribute `_Unsigned` (`C126_unsigned`); values of a variable with an unlimited dimension of length 0, and variables that are texts, are refused (`C126_no_values`, `C126_text_variable`).
- C126: the text of the element `values` and the attribute `shape` are not escaped: `<` in a value, or a quote in the name of a dimension, makes a document that is not well-formed (`C126_markup`, `C126_shapes`), and a dimension name with a space becomes two. Values that end like the marker between texts are divided at the wrong place without error (`C126_marker`). Spatial vectors are not written (`C126_vectors`). Sixteen digits do not tell all numbers of double precision apart (`C126_digits`).
- C127: two templates with brackets in one attribute, of the same name or with the name that comes first in the alphabet before the other, are read as one from the first opening bracket to the last closing one (`C127_merged`, `C127_merged_witness`): `%MAX_DATETIME(f)% to %MIN_DATETIME(g)%` loses the second time, while the other order works (`C127_two`).
- C127: a template without brackets sets the empty format, because the groups of the expression are always there; the format an object is made with is never used, and `%MIN_DATETIME%` gives the empty text (`C127_no_default`). An offset stays with the object for later places and attributes (`C127_offset_stays`). A time of 80 characters or more leaves the buffer undefined (`C127_long`). An XML attribute with an empty value is read through a null pointer (`C127_empty_property`).
- C128: the automatic configuration of the quality control never controls a variable: `findCorrespondingVariables` puts what it finds into a second vector of the same name (`C128_auto_nothing`). The documented form `values=0,1` is refused (`C128_auto_refused`).
- C128: of two elements for a variable, values and file of the first stay if the second gives a rule and no file (`C128_two_elements`). Lengths of dimensions are not compared if their names are equal, also for another file (`C128_same_names`); a status variable that does not exist is accepted (`C128_missing_status`); circular status variables are accepted and never end (`C128_circular`).
- C129: types of Felt parameters that are not known are taken: the exception is constructed and not thrown (`C129_unknown_type`). If the restriction for all is also in an id, it is cut out there too, also in the middle of a number (`prod=7` of `prod=74`), and the reader, which asks by the id, gets no restriction at all (`C129_restriction_in_id`); the same for an empty restriction and for types such as `float64` (`C129_other_names`).
- C130: functions for C let exceptions through: a region outside of a dimension, an unknown dimension and a number behind the last dimension end in an exception instead of a negative number or empty text (`C130_refused`, `C130_dim_names`). Lengths of 2^32 and more are reported modulo 2^32 (`C130_long`). If a variable has no longitude, an empty name and the number 1 are given instead of an error (`C130_no_longitude`). `mifi_set_callback_double` on a reader not made for C dereferences a null pointer: `dynamic_cast` of a pointer does not throw, and the branch that returns -2 is never reached. A name behind the last one is the null pointer, documented is the empty text (`C130_names`).
- C130: setting a function changes the type of the variable to double, but not its fill value. If that has another type, the variable can then not be read with scale at all (`C130_fill_type`); if it has the same, values that equal the packed fill value become missing (`C130_fill_value`).
- C131: `fiGribCut` searches latitudes in the wrong direction: the distance, which GRIB gives without sign, is made negative for grids that scan to the north and kept positive for those that scan to the south, so that for every box on the side of the grid exactly the first row is kept (`C131_rows`). Numbers of columns and rows exclude the last position, but the last longitude and latitude are written for it (`C131_last_longitude`), and the last column of a grid is never kept (`C131_last_column`). For falling values the tolerance is added to the second bound instead of subtracted, so that a value at the bound is not kept (`C131_down`). Boxes with western longitudes are not found in grids from 0 to 360 degrees (`C131_dateline`).
- C131: a message that cannot be read at all is not counted, and 256 errors give the exit code 0 (`C131_silent`). For a file that cannot be opened `fclose` is called with the null pointer when the pointer is released (modelled as undefined).
- C132: a conic grid (type 6) without words behind it is always refused, because its tangent is then zero (`C132_accepted`). Latitudes that fall are turned with the number of rows of the first parameter and turned back with the largest number of rows of all parameters, so that they are shifted if these differ (`C132_latitudes`, `C132_more_rows`). Texts of projections are printed with six digits (not modelled).
- C133: in `fiXYcontents` the variable `zAxis` of the option `verticalLayer` is set from `getGeoXAxis`, so that pressure levels are left out when asked for (`C133_wrong_axis`). Slices are only made in the loop over times, so that nothing is shown of variables without time axis (`C133_no_time`). The deviation of one value is 0/0 (`C133_single`), and for an even number of values the median is the larger one of the two in the middle.
- C134: the constructor of `ToVLevelConverterAdapter` takes `getShape().front()` of the axes without looking whether there is a dimension, undefined for scalar coordinates (`C134_scalar`). In the repository the adapter is made only through the `getConverter` with a position of the unlimited dimension, which only a test calls, and `getSimpleAxes` is called nowhere; both are interfaces for users of the library.

## What is modelled and what is not

Modelled are the functions cited in the comments of the definitions under `lean/Verif`; a comment names
every simplification. Libraries (netCDF, ecCodes, PROJ, udunits, libxml2, nanoflann, MIfelt, METGM) are parameters,
with a contract where one is needed. Not modelled: parsing of XML and XPath, logging, threads and OpenMP, memory
management and destructors (except where arrays are shared, C52/C53/C59), the C, Fortran, Python and R
interfaces, the command line programs except `fimex`, plug-in loading, FELT, METGM, PROJ and WDB files, floating point rounding
(except as a parameter in C59/C60), and all functions not cited.
## Axioms

Printed by `#print axioms` for every theorem in the manifest (namespace `Fimex` left out). No axiom was added.

**none** (18):
`Aggregation.C25_incompatible_provider_is_skipped`, `ArrayLoop.C10_constructor_accepts_zero_last_length`, `Cdm.C14_second_unlimited_ignored`, `Command.C119_end_missing`, `CoordSys.C46_raising_setAxis_loses_axis`, `DataCopy.C06_start_beyond_target_is_ub`, `Extractor.C20_end_equal_to_length_accepted`, `Files.Chunks.C67_http_request_bounds`, `Files.Chunks.C67_short_response_accepted`, `Files.C61_short_file_not_recognised`, `Merged.C102_smoothing_source`, `MinMax.C49_empty`, `MinMax.C49_minimaximize_empty_range`, `Netcdf.C90_small_chunks`, `Netcdf.C90_large_chunks`, `Reader.C16_memory_position_beyond_end`, `SB.C02_repeated_name_raises`, `Text.C28_index_zero_returned`.

**propext** (78):
`ArrayLoop.C10_changed_dims`, `CApi.C130_names`, `CApi.C130_long`, `CApi.C130_null`, `Cdm.C12_rename_missing_destroys`, `Cdm.C12_rename_to_itself_destroys`, `Cdm.C13_rename_to_itself_destroys`, `Cdm.C13_overwrite_changes_length`, `Cdm.C63_edit_by_reference_is_stale`, `Command.C119_unread`, `Command.C119_no_file`, `Command.C119_endless`, `Command.C119_depth`, `Command.C119_interpolation`, `Command.C119_merging`, `Template.C127_unchanged`, `Template.C127_empty_property`, `Extractor.C17_order_wrong_after_split`, `Extractor.C17_empty_request_reads_data`, `Extractor.C19_position_equal_to_length_accepted`, `Extractor.C19_second_reduction_relative_to_source`, `Felt.C113_toy_file`, `Felt.C113_toy_times`, `Grbml.C121_own_ensemble`, `GribRun.C112_attribute_kept`, `GribRun.C112_two_references`, `GribRun.C112_empty_written`, `Pb.C73_string_list_not_restored`, `Pb.C73_string_list_read_out_of_bounds`, `Pb.C73_empty_array_not_restored`, `Pb.C73_long_dimension_not_restored`, `Pb.C73_variable_named_global_unreadable`, `Pb.C73_open_file_undefined`, `Pb.C73_wrong_kind_accepted`, `Interp.C77_last_row_wrong`, `History.C118_template`, `History.C118_refused`, `History.C118_unknown`, `History.C118_stale_matrix`, `History.C118_reader_changed`, `Merged.C102_no_system`, `Overlay.C41_top_value_lost`, `MinMax.C49_minimize_maximize`, `MinMax.C49_minimaximize`, `Ncml.C70_missing_name_raises`, `Ncml.C70_chain_reads_wrong_variable`, `Ncml.C70_own_name_removes`, `Ncml.C70_chain_of_dimensions`, `Ncml.C70_attribute_wrong_one_renamed`, `Ncml.C70_request_case`, `Ncml.C70_chain_cuts_dimension`, `Netcdf.C92_record_not_first`, `Netcdf.C92_length_not_updated`, `Pressure.C87_omega_coordinates`, `Processor.C53_undefined_values_spread`, `Processor.C52_both_steps_corrupt_cache`, `Processor.C53_chain_depends_on_history`, `Processor.C52_empty_slices_depend_on_history`, `QualityConfig.C128_circular`, `Reader.C16_memory_and_fixed`, `Reader.C16_getData_missing_slice_is_indeterminate`, `Names.C45_numbering_differs`, `Slice.C03_slice_scalar`, `Slice.C04_wraparound_is_accepted`, `SB.CS.C69_case`, `SB.CS.C69_raising_call_may_have_an_effect`, `SB.C01_wraparound_is_accepted`, `Time.C85_limits`, `Time.C86_limits`, `Time.C29_year_4096_wraps`, `Time.C29_minute_128_overwrites_year`, `Column.C134_scalar`, `Shapes.C82_time_dimension_shared`, `Writer.C58_misfit_raises_after_writing`, `Writer.C58_longer_input_shape_undefined`, `Writer.C58_shorter_input_shape_accepted`, `Writer.C58_translation_without_slices_raises`, `Writer.C58_translated_dimension_must_match`.

**Quot.sound, propext** (144):
`Aggregation.C23_new_dimension_fill_has_wrong_size`, `ArrayLoop.C10_added_dims_wellformed`, `ArrayLoop.C10_constructed_dims`, `CApi.C130_refused`, `CApi.C130_types`, `CApi.C130_dup`, `CApi.C130_filled`, `CApi.C130_callbacks`, `CApi.C130_fill_type`, `CApi.C130_set_callback`, `Cdm.C11_adding_existing_name_raises`, `Cdm.C13_refused_rename_changes_nothing`, `Cdm.C14_unlimited_dimension`, `Command.C119_dimensions`, `Command.C119_ignored`, `Command.C119_chain`, `Command.C119_run`, `Command.C119_merge_extras`, `Template.C127_replaced`, `Template.C127_replaced_all`, `Template.C127_plain`, `Template.C127_attributes`, `Template.C127_node`, `Template.C127_time`, `Template.C127_no_default`, `Template.C127_two`, `CoordSys.C46_axes_consistent`, `Cf.C97_loop_ends`, `Sections.C104_names`, `Wrf.C109_mercator`, `DataIndex.C09_short_index_is_zero_padded`, `DataIndex.C09_overloads_agree`, `Extractor.C19_reduction_partial`, `Extractor.C20_positive_end`, `Extractor.C20_reversed_range_wraps`, `Extractor.C20_too_negative_end_wraps`, `Extractor.C22_invalid_boxes_raise`, `Felt.C113_short_field`, `FeltGrid.C132_latitudes`, `FeltGrid.C132_latitudes_same`, `Felt.C115_other_times`, `Felt.C115_behind`, `Files.Chunks.C67_http_buffer_safe`, `Files.C61_cases_complete`, `Glob.C124_extension`, `Glob.C124_extension_is_of_file`, `Files.C51_split_is_lossless`, `Files.C51_replace`, `Files.C51_join`, `Files.C50_too_deep`, `GribCut.C131_box`, `GribCut.C131_messages`, `GribCut.C131_bad_box`, `GribData.C123_further_variable_fails`, `GribData.C123_further_variable_taken`, `Grbml.C121_positions`, `Grib.C74_building_defined`, `GribLevels.C111_extra`, `GribLevels.C111_elements`, `GribLevels.C111_hybrid_level`, `GribLevels.C111_no_level`, `GribLevels.C111_parameter_found`, `GribLevels.C111_parameter_set`, `Pb.C73_unknown_types_refused`, `Pb.C73_magic_accepted_iff`, `Pb.C73_message_found`, `Interp.C79_nearest_layers`, `Longitude.C60_absorbed_never_ends`, `Interp.C34_nearest`, `Interp.C34_log_refuses`, `Regrid.C116_refused`, `Interp.C79_short_counterpart_undefined`, `Interp.Undefined.C59_nan_and_back`, `Interp.C78_length_kept`, `Interp.C78_step_not_tiny`, `Merged.C102_no_grid`, `Overlay.C41_overlay`, `Overlay.C41_overlay_fill_values_partial`, `Overlay.C41_overlay_scaled`, `Overlay.C41_short_top_undefined`, `Overlay.C41_choice_of_data`, `Smoothing.C40_widths`, `Smoothing.C40_missing_horizontal_dimension`, `MinMax.C49_min_max_element`, `Ncml.C70_attribute_absent`, `Ncml.C70_request`, `Ncml.C71_empty_marker_never_ends`, `Netcdf.C90_small_variable`, `Netcdf.C90_configured_size`, `Netcdf.C90_level`, `Netcdf.C90_level_10`, `Netcdf.C91_unchanged`, `Netcdf.C91_converted`, `Netcdf.C91_failed_conversion`, `Pressure.C87_sources`, `Pressure.C87_humidity_without_temperature`, `Processor.C53_inverts_accumulation`, `Processor.C53_accumulation_inverts`, `Rotate.C106_quantities_partial`, `Rotate.C106_others_read`, `QualityConfig.C128_sizes`, `QualityConfig.C128_same_names`, `QualityConfig.C128_missing_status`, `QualityConfig.C128_slices`, `Quality.C54_other_sizes`, `Quality.C54_empty_status_undefined`, `Quality.C54_extreme_never_found`, `Quality.C54_auto_configuration_undefined`, `Reader.C16_wrong_slice_size_raises`, `Reader.C16_getData_is_concatenation`, `Names.C45_fresh_dim_var_name`, `Shapes.C66_left_over_dimension_accepted`, `SB.CS.C69_calls_touch_their_axes`, `SB.CS.C69_one_reference_time`, `SB.CS.C69_time_variable_missing`, `SB.C01_raising_call_has_no_effect`, `SB.C01_region_inside_after_any_history`, `SB.C01_region_is_last_accepted`, `Tables.C55_codes_and_texts`, `Tables.C55_round_trip`, `Text.AxisSpec.C68_relative_values`, `Text.AxisSpec.C68_place_minus`, `Text.AxisSpec.C68_time_minus_is_zero`, `Text.C26_tokenize_is_words`, `Text.C26_tokens_drop_only_delimiters`, `Text.C26_split_any_is_pieces`, `Text.C26_join_of_split`, `Text.C28_index_addresses_string`, `Text.C28_equal_index_iff_equal_string`, `Text.C28_no_index_zero`, `Text.C65_trim_removes_outer_whitespace`, `Text.C65_starts_with`, `Text.C65_ends_with`, `Time.C86_reference_time`, `Time.C86_no_valid_time`, `TimeInterp.C39_bracketing_times`, `TimeInterp.C39_slice_decisions`, `TimeInterp.C39_undefined_behaviour`, `Time.C29_special_values_are_extremes`, `Column.C134_axes`, `Column.C134_valid`, `Column.C134_simple`, `Column.C134_times`, `Vertical.C80_no_levels_undefined`.

**Classical.choice, Quot.sound, propext** (809):
`Aggregation.C23_position_maps_to_reader`, `Aggregation.C23_position_reads_concatenation`, `Aggregation.C24_region_equals_slice_of_concatenation`, `Aggregation.C23_new_dimension_position_is_reader`, `Aggregation.C25_first_provider_partial`, `Aggregation.C25_served_variables_fit_union_dimensions`, `AggSet.C105_dataset`, `AggSet.C105_origin`, `AggSet.C105_joined_existing`, `AggSet.C105_joined_new`, `AggSet.C105_complete`, `AggSet.C105_length`, `AggSet.C105_shapes_partial`, `AggSet.C105_coordinates`, `AggSet.C105_init`, `AggSet.C105_no_error`, `AggSet.C105_elements`, `AggSet.C105_element_errors`, `AggSet.C105_location`, `AggSet.C105_several_aggregations`, `AggSet.C105_new_dimensions_missing`, `AggSet.C105_new_keeps_data`, `AggSet.C105_coordinates_missing`, `AggSet.C105_unlimited_later`, `AggSet.C105_scan_values`, `AggSet.C105_scan_error`, `ArrayLoop.C10_loop_visits_each_combination_once`, `ArrayLoop.C10_group_building_is_safe`, `ArrayLoop.C10_common_block`, `CApi.C130_text`, `CApi.C130_text_read`, `CApi.C130_no_longitude`, `CApi.C130_regions`, `CApi.C130_dim_names`, `CApi.C130_new_memory`, `CApi.C130_written`, `CApi.C130_fill_value`, `Cdm.C11_names_unique_after_any_history`, `Cdm.C12_rename_keeps_everything_else_partial`, `Cdm.C12_rename_failure`, `Cdm.C13_rename_dimension_consistent`, `Cdm.C14_remove_dimension`, `Cdm.C14_shapes_exist_after_any_history`, `Cdm.C15_set_attribute`, `Cdm.C15_add_attribute`, `Cdm.C15_remove_attribute`, `Cdm.C15_attribute_history`, `Cdm.C63_queries_never_stale`, `Cdm.C64_find_variables`, `Command.C119_processor`, `Command.C119_extractor`, `Contents.C133_quantile`, `Contents.C133_stats`, `Contents.C133_between`, `Contents.C133_variance`, `Contents.C133_order`, `Contents.C133_single`, `Contents.C133_slices`, `Contents.C133_once`, `Contents.C133_near`, `Contents.C133_no_time`, `Contents.C133_kind`, `Contents.C133_wrong_axis`, `Command.C119_heard`, `Command.C119_target`, `Command.C119_time_end`, `Command.C119_bad_extract`, `Template.C127_time_offset`, `Template.C127_offset_stays`, `Template.C127_long`, `Template.C127_merged`, `Template.C127_merged_witness`, `CoordSys.C46_setAxis`, `CoordSys.C46_find_axis`, `CoordSys.C46_find_axis_of_types`, `Cf.C99_systems`, `Cf.C99_variables`, `Cf.C99_incompatible`, `Cf.C99_nothing_left`, `Cf.C99_cf_ok`, `Cf.C99_own_partial`, `Cf.C99_two_projections`, `Cf.C99_two_coordinates`, `Cf.C94_type_by_rules`, `Cf.C94_letters_partial`, `Cf.C94_priority`, `Cf.C94_positive_letters`, `Cf.C96_simple`, `Cf.C96_projection`, `Cf.C96_own_mapping_partial`, `Cf.C96_other_mapping`, `Cf.C95_clash_raises`, `Cf.C95_axes`, `Cf.C95_marks`, `Cf.C95_sorted`, `Cf.C95_unique`, `Cf.C95_complete_partial`, `Cf.C95_raises_iff`, `Cf.C95_order_of_names`, `Cf.C95_comma`, `Cf.C95_two_times`, `Cf.C97_terms`, `Cf.C97_vertical_partial`, `Cf.C97_rules_unique`, `Cf.C97_dependencies`, `Cf.C97_b_elsewhere`, `Cf.C97_missing_terms`, `Change.C100_dimensions_exist`, `Change.C100_handed_through_partial`, `Change.C100_projection_name`, `Change.C100_change`, `Change.C100_common_dimension`, `Change.C100_dimension_left`, `Change.C100_auxiliary_coordinate`, `Change.C100_rotated_pole`, `Change.C100_new_dataset`, `GridDef.C47_irreflexive_asymmetric`, `GridDef.C47_map_order_partial`, `GridDef.C47_mixed_modes_not_asymmetric`, `GridDef.C47_not_transitive`, `GridDef.C47_equivalence_not_transitive`, `LonLat.C108_kept`, `LonLat.C108_coordinates_partial`, `LonLat.C108_cf_one_grid`, `LonLat.C108_axes`, `LonLat.C108_listed`, `LonLat.C108_key_taken`, `LonLat.C108_last_projection`, `LonLat.C108_coordinate_lost`, `LonLat.C108_units_ignored`, `Proj.C101_second_parallel_lost`, `Proj.C101_scale_lost`, `Proj.C101_sweep_lost`, `Proj.C101_flattening_lost`, `Proj.C101_pole_longitude_lost`, `Proj.C101_utm_meridian_lost`, `Proj.C101_polar_raises`, `Proj.C101_unknown_ellipsoid`, `Proj.C101_gamma_added`, `Proj.C101_no_parallels`, `Proj.C101_flattening_stays`, `Proj.C101_word`, `Proj.C101_create`, `Proj.C101_which`, `Proj.C101_one_class`, `Proj.C101_read`, `Proj.C101_figure`, `Proj.C101_utm`, `Proj.C101_rotated`, `Proj.C101_rotated_ends`, `Proj.C101_write`, `Proj.C101_text_kept_partial`, `Proj.C101_unknown`, `Proj.C101_class_kept`, `Proj.C101_rotated_kept`, `Proj.C101_replace`, `Sections.C104_points`, `Sections.C104_through`, `Sections.C104_spacing`, `Sections.C104_bounds`, `Sections.C104_dataset`, `Sections.C104_raises`, `Sections.C104_axes`, `Sections.C104_sections`, `Sections.C104_twice`, `Sections.C104_empty`, `Template.C117_new_dataset`, `Template.C117_dimensions_exist`, `Template.C117_refused`, `Template.C117_names_exchanged`, `Template.C117_axis_left`, `Template.C117_dimension_exists`, `Template.C117_dimension_taken`, `Vectors.C98_kept`, `Vectors.C98_new_vectors`, `Vectors.C98_mutual`, `Vectors.C98_none_left`, `Vectors.C98_table`, `Vectors.C98_names_partial`, `Vectors.C98_example`, `Vectors.C98_other_quantity`, `Wrf.C109_kept`, `Wrf.C109_axes`, `Wrf.C109_systems_partial`, `Wrf.C109_again`, `Wrf.C109_needs`, `Wrf.C109_levels_time`, `Wrf.C109_projection`, `Wrf.C109_toy`, `Wrf.C109_first_raises`, `Wrf.C109_comma`, `DataCopy.C06_copy_touches_only_range`, `DataCopy.C06_createDataSlice`, `DataCopy.C06_createDataSlice_defined_iff`, `DataCopy.C06_setFromRange`, `DataIndex.C09_getPos_is_flat_position`, `DataIndex.C09_index_bijective`, `DataIndex.C09_long_index`, `DataIndex.C09_setDims`, `Extractor.C17_extracted_values_partial`, `Extractor.C18_chunks_cover_selection`, `Extractor.C18_chunks_are_maximal_runs`, `Extractor.C19_reduce_then_read`, `Extractor.C20_end_counted_from_back`, `Extractor.C21_ascending_axis_range`, `Extractor.C21_descending_axis_range`, `Extractor.C21_descending_with_equal_start_loses_values`, `Extractor.C22_box_keeps_exactly_rows_and_columns`, `Extractor.C22_undefined_position_counts_as_inside`, `Felt.C114_init`, `Felt.C114_name`, `Felt.C114_restrictions`, `Felt.C114_has_time`, `Felt.C114_times`, `Felt.C114_levels`, `Felt.C114_field`, `Felt.C114_reference`, `Felt.C114_axes`, `Felt.C114_slice`, `Felt.C114_values`, `Felt.C114_toy_params`, `Felt.C114_toy`, `Felt.C114_toy_twice`, `Felt.C114_twice_accepted`, `Felt.C114_mixed`, `Felt.C113_entry`, `Felt.C113_open`, `Felt.C113_refused`, `Felt.C113_too_few`, `Felt.C113_field`, `Felt.C113_no_data`, `Felt.C113_truncated`, `Felt.C113_byte_order`, `Felt.C113_times`, `FeltGrid.C132_extra`, `FeltGrid.C132_encoded`, `FeltGrid.C132_pole`, `FeltGrid.C132_accepted`, `FeltGrid.C132_stereographic`, `FeltGrid.C132_geographic`, `FeltGrid.C132_mercator`, `FeltGrid.C132_more_rows`, `FeltGrid.C132_defined`, `FeltParams.C129_parameters`, `FeltParams.C129_restrictions`, `FeltParams.C129_type_and_fill`, `FeltParams.C129_unknown_type`, `FeltParams.C129_restriction_in_id`, `FeltParams.C129_other_names`, `Felt.C115_readable`, `Felt.C115_slice`, `Felt.C115_kept`, `Felt.C115_one_member`, `Felt.C115_toy`, `Felt.C115_toy_one_member`, `Felt.C115_small_grid`, `Felt.C115_large_field`, `Felt.C115_two_fills`, `Files.Chunks.C67_stream_is_prefix`, `Files.Chunks.C67_stream_reaches_end`, `Files.C61_precedence`, `Formats.C125_types`, `Formats.C125_types_exclusive`, `Formats.C125_first_bytes`, `Formats.C125_first_bytes_exclusive`, `Formats.C125_short_buffer`, `Formats.C125_other_classic_formats`, `Formats.C125_zarr`, `Formats.C125_names_exclusive`, `Formats.C125_url`, `Formats.C125_zarr_clash`, `Formats.C125_extension_cdf`, `Formats.C125_netcdf_opens`, `Formats.C125_netcdf_writeable`, `Formats.C125_netcdf_version`, `Formats.C125_member`, `Formats.C125_member_missing`, `Formats.C125_regex_cut`, `Formats.C125_further_files`, `Formats.C125_many`, `Formats.C125_grib_opens`, `Formats.C125_grib_edition`, `Formats.C125_edition_of_extension`, `Glob.C124_pattern`, `Glob.C124_initial`, `Glob.C124_one_directory`, `Glob.C124_files_partial`, `Glob.C124_real_files`, `Glob.C124_second_directory_missed`, `Files.C50_scan_names`, `Files.C50_scan_paths_partial`, `Files.C50_siblings_get_wrong_paths`, `Fill.C72_fill_stays_in_range`, `Fill.C72_over_relaxation_leaves_range`, `Fill.C72_fill_commutes_with_units`, `Fill.C72_creepfill_commutes_with_units`, `Fill.C72_creepfillval_commutes_with_units`, `Fill.C35_fill2d`, `Fill.C35_fill2d_single_row_undefined`, `Fill.C35_creepfill2d`, `Fill.C35_creepfillval2d`, `Fill.C35_creepfill2d_single_row_undefined`, `Fill.C35_default_not_used_without_defined_value`, `Fill.C35_negative_weight`, `GribConfig.C122_first_parameter`, `GribConfig.C122_no_parameter`, `GribConfig.C122_variables`, `GribConfig.C122_chosen`, `GribConfig.C122_refused`, `GribConfig.C122_missing_key_not_looked_at`, `GribConfig.C122_variable`, `GribConfig.C122_declared`, `GribConfig.C122_never_a_vector`, `GribConfig.C122_direction_without_counterpart`, `GribConfig.C122_templates_stay`, `GribConfig.C122_scaling`, `GribConfig.C122_factor_zero`, `GribConfig.C122_twice`, `GribCut.C131_up`, `GribCut.C131_down`, `GribCut.C131_part`, `GribCut.C131_last_longitude`, `GribCut.C131_rows`, `GribCut.C131_sample`, `GribCut.C131_last_column`, `GribCut.C131_dateline`, `GribCut.C131_refused`, `GribCut.C131_copy`, `GribCut.C131_silent`, `GribData.C123_consistent`, `GribData.C123_variables`, `GribData.C123_lengths`, `GribData.C123_time`, `GribData.C123_members`, `GribData.C123_levels`, `GribData.C123_grids`, `GribData.C123_level_type`, `GribData.C123_empty_id`, `GribGrid.C110_oblate`, `GribGrid.C110_earth`, `GribGrid.C110_oblate_example`, `Grbml.C121_index_kept`, `Grbml.C121_written`, `Grbml.C121_uninitialised`, `Grbml.C121_path_not_escaped`, `Grbml.C121_ampersand`, `Grbml.C121_all_messages`, `Grbml.C121_append`, `Grbml.C121_unreadable_index_dropped`, `Grbml.C121_cut_index`, `Grbml.C121_short_rest`, `Grbml.C121_other_edition`, `Grbml.C121_file_kept`, `Grbml.C121_members`, `Grbml.C121_figure_left`, `Grbml.C121_longitude`, `Grbml.C121_longitude_below`, `Grbml.C121_figure_of_another_file`, `GribGrid.C110_regular`, `GribGrid.C110_rotated`, `GribGrid.C110_lambert`, `GribGrid.C110_stereographic_partial`, `GribGrid.C110_loops`, `GribGrid.C110_refused`, `GribGrid.C110_toy`, `GribGrid.C110_pole_cut`, `GribGrid.C110_stereographic_lost`, `GribGrid.C110_lambert_turned`, `GribGrid.C110_unequal_steps`, `GribGrid.C110_rotated_by_ends`, `GribGrid.C110_fine_circle`, `Grib.C74_loading`, `Grib.C74_message_table`, `Grib.C74_timeless_refused`, `GribLevels.C111_written`, `GribLevels.C111_read_again`, `GribLevels.C111_all_levels`, `GribLevels.C111_surface`, `GribLevels.C111_halves`, `GribLevels.C111_levels`, `GribLevels.C111_level_kept`, `GribLevels.C111_parameter_lost`, `GribLevels.C111_values`, `GribLevels.C111_toy`, `GribLevels.C111_surface_first`, `GribLevels.C111_levels_merged`, `GribLevels.C111_levels_scaled`, `GribLevels.C111_value_lost`, `GribRun.C112_messages`, `GribRun.C112_reference_times`, `GribRun.C112_stops`, `Pb.C73_index_read_back`, `Pb.C73_index_restores_dataset_partial`, `Pb.C73_closed_files_are_read_safely`, `Pb.C73_written_magic_accepted`, `Pb.C73_message_index_restored`, `Pb.C73_same_name_confused`, `Grib.C75_slice_values_partial`, `Grib.C75_unreadable_message`, `Grib.C75_gap_is_undefined`, `Grib.C75_dimension_roles`, `Grib.C75_time_slice`, `Grib.C75_precision_partial`, `Grib.C75_precision_overflow`, `Interp.C77_great_circle`, `Interp.C78_bearing`, `Interp.C78_rotation_partial`, `Interp.C78_identity_turned_around`, `Interp.C78_matrix_partial`, `Interp.C78_direction_agrees`, `Interp.C78_angle_range`, `Interp.C76_bicubic`, `Interp.C76_grid_values`, `Interp.C76_quadratic_fields`, `Interp.C76_overshoot`, `Interp.Forward.C37_forward_partial`, `Interp.Forward.C37_all_layers_repeat_first`, `Interp.Forward.C37_second_layer_repeats_first`, `Interp.Forward.C37_undefined_values_order`, `Interp.C77_grid_distances`, `Interp.C77_last_row_partial`, `Interp.C77_line`, `History.C118_sound`, `History.C118_points_twice`, `History.C118_projection`, `History.C118_coordinates_partial`, `History.C118_points`, `History.C118_sections`, `History.C118_reader`, `History.C118_as_first`, `History.C118_current`, `History.C118_matrix_of_before`, `Interp.C33_nearest_neighbour`, `Interp.C33_cell_is_nearest`, `Interp.C33_far_position_wraps`, `Interp.C32_bilinear_partial`, `Interp.C32_reads_outside_the_field`, `Interp.C32_between_neighbours`, `Interp.C32_outside_undefined`, `Interp.C32_grid_point_partial`, `Interp.C32_grid_point_with_undefined_neighbour`, `Interp.C79_bilinear_layers`, `Interp.C79_bicubic_layers`, `Interp.C36_bicubic`, `Interp.C79_rotation_layers`, `Longitude.C60_normalised`, `Longitude.C60_two_normal_forms`, `Nearest.C103_search`, `Nearest.C103_nan`, `Nearest.C103_distance`, `Nearest.C103_distance_unknown`, `Nearest.C103_single`, `Nearest.C103_translate`, `Nearest.C103_on_cell`, `Nearest.C103_kd`, `Nearest.C103_max_distance`, `Nearest.C103_kd_translate_partial`, `Nearest.C103_kd_degrees`, `Nearest.C103_methods_agree`, `Nearest.C103_value`, `Nearest.C103_antipode`, `Interp.C34_linear`, `Interp.C34_between`, `Interp.C34_no_extrapolation`, `Interp.C34_weak_extrapolation`, `Interp.C34_constant_extrapolation`, `Interp.C34_equal_coordinates`, `Interp.C34_log_endpoints`, `Interp.C34_log_between`, `Interp.C31_position_search`, `Interp.C31_all_points`, `Interp.C31_single_value_axis_undefined`, `Interp.C31_longitude_positions`, `Interp.C31_full_circle_range`, `Interp.C36_bilinear`, `Interp.C36_nearest_neighbour`, `Interp.C36_last_cell_taken_for_invalid`, `Regrid.C116_grid_positions`, `Regrid.C116_point_positions`, `Regrid.C116_forward_positions`, `Regrid.C116_inside_safe`, `Regrid.C116_not_finite_safe`, `Regrid.C116_bilinear_exact`, `Regrid.C116_nearest_cell`, `Regrid.C116_direct`, `Regrid.C116_box_partial`, `Regrid.C116_box_square`, `Regrid.C116_box_rotated`, `Regrid.C116_box_refused`, `Regrid.C116_template_axes`, `Regrid.C116_toy`, `Interp.C79_slices_partial`, `Interp.C79_vector_slices_partial`, `Interp.C79_whole_partial`, `Interp.C79_renamed_dimensions_raise`, `Interp.Undefined.C59_float_round_trip`, `Interp.Undefined.C59_integer_round_trip`, `Interp.Undefined.C59_double_is_rounded`, `Interp.Undefined.C59_float_data_of_reader_changed`, `Interp.Undefined.C59_large_integers_change`, `Interp.Undefined.C59_integer_without_fill_undefined`, `Interp.C78_vectors_rotated`, `Interp.C78_direction_turned`, `Interp.C78_directions_turned`, `Interp.C78_step_defined_partial`, `Interp.C78_two_rows_undefined`, `Auxiliary.C43_auxiliary_closure`, `Auxiliary.C43_idempotent`, `MergeAxis.C42_extended_axis`, `MergeAxis.C42_refused`, `MergeAxis.C42_zero_step_never_ends`, `Merged.C102_unit_of_y`, `Merged.C102_same_names`, `Merged.C102_other_names`, `Merged.C102_null_axis_case`, `Merged.C102_scalar_axis_raises`, `Merged.C102_auxiliary_unreadable`, `Merged.C102_outer_length`, `Merged.C102_grid`, `Merged.C102_units_partial`, `Merged.C102_compatible`, `Merged.C102_matching_accepted`, `Merged.C102_null_axis`, `Merged.C102_dataset`, `Merged.C102_succeeds`, `Merged.C102_shapes`, `Merged.C102_lengths_partial`, `Merged.C102_overlay_source`, `Smoothing.C40_smoothing`, `Smoothing.C40_edge_weights`, `Smoothing.C40_blend_everywhere`, `Smoothing.C40_edges_not_symmetric`, `Smoothing.C40_smoothed_slice`, `NcmlDoc.C120_refused`, `NcmlDoc.C120_unique`, `NcmlDoc.C120_kept`, `NcmlDoc.C120_removed`, `NcmlDoc.C120_length`, `NcmlDoc.C120_unlimited`, `NcmlDoc.C120_type`, `NcmlDoc.C120_unsigned_ignored`, `NcmlDoc.C120_values`, `NcmlDoc.C120_vector`, `NcmlDoc.C120_attribute`, `NcmlDoc.C120_global`, `NcmlDoc.C120_shape`, `NcmlDoc.C120_added_partial`, `NcmlDoc.C120_long_unreadable`, `NcmlDoc.C120_unsigned_witness`, `NcmlDoc.C120_prefetch_wrong`, `NcmlDoc.C120_prefetch_missed`, `NcmlDoc.C120_stale_systems`, `NcmlDoc.C120_attribute_absent`, `Ncml.C70_variables_move`, `Ncml.C70_read_from_original_partial`, `Ncml.C70_dimensions_partial`, `Ncml.C70_attribute_partial`, `Ncml.C70_attribute_not_renamed`, `Ncml.C71_split_marker`, `Ncml.C71_join_of_split`, `Ncml.C71_split_of_join`, `Ncml.C71_shape_reversed`, `Ncml.C71_number_of_values`, `Ncml.C71_start_increment`, `Ncml.C71_list_of_values`, `Ncml.C71_ambiguous_values_raise`, `Ncml.C71_empty_cases`, `NcmlWrite.C126_read_back`, `NcmlWrite.C126_texts`, `NcmlWrite.C126_markup`, `NcmlWrite.C126_attributes_lost`, `NcmlWrite.C126_commas`, `NcmlWrite.C126_unsigned_attributes`, `NcmlWrite.C126_unsigned`, `NcmlWrite.C126_no_values`, `NcmlWrite.C126_text_variable`, `NcmlWrite.C126_marker`, `NcmlWrite.C126_shapes`, `NcmlWrite.C126_fill`, `NcmlWrite.C126_vectors`, `NcmlWrite.C126_digits`, `Netcdf.C90_chunks_fit`, `Netcdf.C90_accepted_partial`, `Netcdf.C89_removed`, `Netcdf.C89_still_closed`, `Netcdf.C89_attributes`, `Netcdf.C89_value_needs_type`, `Netcdf.C89_configured`, `Netcdf.C91_wrong_size_is_silent`, `Netcdf.C91_refused_is_silent`, `Netcdf.C91_exchanged_names_are_silent`, `Netcdf.C91_data_written_partial`, `Netcdf.C91_success_means_read`, `Netcdf.C91_renamed_unlimited`, `Netcdf.C91_text_with_fill`, `Netcdf.C93_round_trip_partial`, `Netcdf.C92_put_slice_partial`, `Netcdf.C92_put_region_partial`, `Netcdf.C92_slice_partial`, `Netcdf.C92_region_partial`, `Netcdf.C92_scalar_region`, `Netcdf.C92_opened`, `Netcdf.C93_reread_partial`, `Pressure.C88_omega`, `Pressure.C88_humidity_cell`, `Pressure.C88_humidity`, `Pressure.C88_humidity_not_limited`, `Pressure.C88_theta_partial`, `Pressure.C88_theta_dangling`, `Pressure.C88_pressure`, `Pressure.C88_pressure_size`, `Pressure.C88_transposed`, `Pressure.C87_operation_text`, `Pressure.C87_flag_not_last`, `Pressure.C87_theta`, `Pressure.C87_humidity`, `Pressure.C87_humidity_second_temperature`, `Pressure.C87_omega`, `Pressure.C87_pressure`, `Pressure.C87_pressure_exception`, `Pressure.C87_construct`, `Pressure.C87_unknown`, `Processor.C52_accumulated_slices`, `Processor.C52_reads_leave_data_alone`, `Processor.C53_differences`, `Rotate.C106_dataset`, `Rotate.C106_refused`, `Rotate.C106_fields`, `Rotate.C106_vectors_have_matrices`, `Rotate.C106_directions_have_matrices_partial`, `Rotate.C106_vectors_read`, `Rotate.C106_rotated_partial`, `Rotate.C106_directions_read`, `Rotate.C106_all`, `Rotate.C106_example`, `Rotate.C106_all_example`, `Rotate.C106_direction_ignored`, `Rotate.C106_null_matrix`, `Rotate.C106_failed_call_marks`, `Rotate.C106_offset_ignored`, `Rotate.C106_counterpart_not_accumulated`, `QualityConfig.C128_accepted`, `QualityConfig.C128_controls`, `QualityConfig.C128_two_elements`, `QualityConfig.C128_auto_nothing`, `QualityConfig.C128_auto_refused`, `QualityConfig.C128_ends`, `Quality.C54_masked_exactly`, `Quality.C54_highest_fails`, `Reader.C16_region_equals_slice_of_complete`, `Reader.C16_slice_from_memory`, `Names.C45_fresh_name`, `Shapes.C44_shapes_equal_up_to_ones`, `Shapes.C66_compatible_shapes_partial`, `Scale.C07_float_target_keeps_physical_value`, `Scale.C07_int_target_within_half_step`, `Scale.C07_int64_target_is_corrupted`, `Scale.C07_out_of_range_wraps`, `Scale.C07_nan_with_equal_encoding_is_undefined`, `Scale.C08_scaled_unit_is_scale_then_convert`, `Scale.C08_linear_converters_are_faithful`, `Scale.C08_curved_converter_taken_for_linear`, `Scale.C62_scaled_write_back_restores_packed`, `Scale.C62_integer_typed_data_is_undefined`, `Neighbours.C38_closest_distinct_partial`, `Neighbours.C38_closest_first_not_distinct`, `Neighbours.C38_neighbours_partial`, `Neighbours.C38_first_element_twice`, `Neighbours.C38_below_ascending_sequence`, `Slice.C03_slice_is_hyperrectangle`, `Slice.C03_slice_depends_only_on_region`, `Slice.C04_slice_rejects_or_succeeds`, `Slice.C05_slice_of_slice`, `Slice.C05_full_slice_is_identity`, `SB.CS.C69_time_variable_slice`, `SB.CS.C69_axis_types`, `SB.C02_unset_is_complement_of_accepted`, `SB.C02_names_in_shape_order`, `Tables.C48_native_round_trip`, `Tables.C48_native_reading`, `Tables.C48_ncml_round_trip`, `Tables.C48_ncml_reading`, `Tables.C48_ncml_char_is_no_type`, `Tables.C55_longest_dividing_unit`, `Tables.C55_step_is_kept`, `Tables.C57_method_names_partial`, `Tables.C57_unknown_names`, `Tables.C57_undef_min_unreachable`, `Text.AxisSpec.C68_time_sections`, `Text.AxisSpec.C68_axis_sections`, `Text.AxisSpec.C68_number_cut`, `Text.AxisSpec.C68_final_is_last_multiple`, `Text.AxisSpec.C68_zero_is_start_partial`, `Text.AxisSpec.C68_zero_is_not_first_multiple`, `Text.AxisSpec.C68_final_after_negative_end`, `Text.AxisSpec.C68_relative_progression`, `Text.AxisSpec.C68_large_quotient_undefined`, `Text.C27_dots_expand_partial`, `Text.C27_progression`, `Text.C27_equal_numbers_never_end`, `Text.C27_dots_need_two_numbers`, `Text.C27_text_that_never_ends`, `Text.C27_trailing_dots_undefined`, `Text.C27_blank_after_dots_rejected`, `Text.C26_tokenize_of_join`, `Text.C26_split_of_join`, `Text.C65_regex_escape_quotes`, `Time.C85_points_count_seconds`, `Time.C85_order`, `Time.C85_from_point`, `Time.C85_round_trip`, `Time.C85_invalid_point`, `Time.C86_valid_time`, `Time.C86_write_read`, `Time.C86_no_reference`, `TimeInterp.C39_interpolated_slice`, `TimeInterp.C39_extrapolated_slice`, `TimeInterp.C39_unordered_output_times`, `Time.C29_packed_form_decodes`, `Time.C29_comparison_is_calendar_order`, `Time.C29_validity`, `Time.C30_printed_time_parses_back`, `Time.C30_large_field_not_printable`, `Column.C134_column`, `Column.C134_values`, `Column.C134_range`, `Converters.C83_converter_loop`, `Converters.C83_hybrid_sigma_ap`, `Converters.C83_hybrid_sigma`, `Converters.C83_sigma`, `Converters.C83_ln_pressure`, `Converters.C83_hybrid_height`, `Converters.C83_altitude_height`, `Converters.C83_ocean_g1`, `Converters.C83_ocean_g2`, `Converters.C83_standard_pressure`, `Converters.C83_standard_altitude`, `Converters.C83_standard_round_trip`, `Converters.C83_no_data`, `Converters.C83_hybrid_height_without_b`, `Converters.C83_no_reference_pressure`, `Converters.C83_standard_without_data`, `Converters.C83_ocean_incomplete`, `Converters.C83_hybrid_sigma_ap_exact`, `Converters.C83_common_dimension_violated`, `NewLevels.C107_refused`, `NewLevels.C107_example`, `NewLevels.C107_axis_example`, `NewLevels.C107_template_example`, `NewLevels.C107_example_fits`, `NewLevels.C107_axis_unknown`, `NewLevels.C107_coordinates_cut`, `NewLevels.C107_half_changed`, `NewLevels.C107_start`, `NewLevels.C107_fixed`, `NewLevels.C107_second_call`, `NewLevels.C107_axis`, `NewLevels.C107_template`, `NewLevels.C107_coordinates`, `NewLevels.C107_cf`, `Vertical.C56_sigma_round_trip`, `Vertical.C56_sigma_needs_difference`, `Vertical.C56_hybrid`, `Vertical.C56_omega_round_trip`, `Vertical.C56_barometric_round_trip`, `Vertical.C56_standard_atmosphere`, `Vertical.C56_pressure_falls`, `Vertical.C56_layers_add`, `Vertical.C56_saturation`, `Vertical.C56_humidity`, `Vertical.C56_dewpoint`, `Vertical.C56_virtual_temperature`, `Vertical.C56_ocean_range`, `Vertical.C56_short_input_undefined`, `Hypsometric.C84_direction_first_pair`, `Hypsometric.C84_direction_beyond_the_end`, `Hypsometric.C84_altitude`, `Hypsometric.C84_altitude_by_columns`, `Hypsometric.C84_no_pressure`, `Hypsometric.C84_direction_across_columns`, `Hypsometric.C84_sum_of_layers`, `Hypsometric.C84_isothermal`, `Hypsometric.C84_undefined_below`, `Hypsometric.C84_no_axis_undefined`, `Levels.C81_every_value`, `Levels.C81_vertical_interpolation_partial`, `Levels.C81_extrapolation_partial`, `Levels.C81_first_height_undefined`, `Levels.C81_first_end_undefined`, `Levels.C81_limits_of_the_first_position`, `Levels.C81_nearest_takes_lower`, `Levels.C81_log_uninitialised`, `Levels.C81_axis_not_called_like_dimension`, `Shapes.C82_shape_of_variables`, `Shapes.C82_ordered_once`, `Shapes.C82_unknown_variable_refused`, `Shapes.C82_scalar_axis_undefined`, `Shapes.C82_slice_of_variable`, `Shapes.C82_slice_adapted_twice`, `Shapes.C82_slice_at_position`, `Vertical.C80_vertical_velocity`, `Vertical.C80_layers_fill_the_column`, `Vertical.C80_still_air_partial`, `Vertical.C80_still_air_rises`, `Vertical.C80_descending_axis_differs`, `Vertical.C80_narrow_grid_unset`, `Writer.C58_every_cell_at_its_coordinate`, `Writer.C58_positions`, `Writer.C58_translated_dimensions`.

