{"id": "C01", "title": "Slice requests stay inside the variable", "statement": "After any sequence of calls on a slice builder in which every call either succeeded or raised, the region requested for each dimension of fixed length satisfies start + size <= length of that dimension, provided no accepted call had start + size >= 2^64. A call that raises leaves the requested region as it was.", "quantifier": "every list of dimensions and lengths, every finite history of setStartAndSize / setAll calls (valid or not)", "why_tests_cant": "Histories of calls and 64-bit arguments form an unbounded space; tests try a few calls on one variable.", "anchors": ["src/SliceBuilder.cc: SliceBuilder::setStartAndSize, setAll, init, getDimPos"]}
{"id": "C02", "title": "Slice builder remembers exactly the dimensions that were set", "statement": "The list of unset dimensions reported by a slice builder is exactly the set of the variable's dimensions that no successful call of the history named, and dimension positions report the variable's shape order.", "quantifier": "every list of distinct dimension names, every finite history of calls", "why_tests_cant": "The claim is about all histories, including failed calls between successful ones.", "anchors": ["src/SliceBuilder.cc: getUnsetDimensionNames, getDimensionNames, getDimPos"]}
{"id": "C03", "title": "Slicing an array returns exactly the addressed hyper-rectangle", "statement": "For an array stored with the first dimension varying fastest, slicing with (lengths, start, size) that lie inside the array yields an array of product(size) values whose value at multi-index j is the source value at start + j.", "quantifier": "every rank, every shape, every start and size inside the shape, every content", "why_tests_cant": "Rank and extents are unbounded; the recursive copier moves two raw pointers and only a general argument covers all strides.", "anchors": ["src/DataImpl.h: DataImpl::slice", "include/fimex/RecursiveSliceCopy.h: recursiveCopyMultiDimData"]}
{"id": "C04", "title": "Slicing rejects every request it cannot serve and never reads outside the array", "statement": "Array slicing raises an error exactly when some start + size exceeds the dimension length or the product of lengths differs from the number of stored values; otherwise every read address is below the number of stored values and every write address below the size of the result.", "quantifier": "every rank, shape, start, size, content", "why_tests_cant": "Out-of-bounds reads do not reliably fail in tests.", "anchors": ["src/DataImpl.h: DataImpl::slice", "include/fimex/RecursiveSliceCopy.h: recursiveCopyMultiDimData"]}
{"id": "C05", "title": "Slicing composes", "statement": "Slicing a slice equals slicing the original with summed starts, and slicing with start 0 and full sizes returns the original values.", "quantifier": "every rank, shape and pair of nested regions", "why_tests_cant": "Algebraic law over all nested regions.", "anchors": ["src/DataImpl.h: DataImpl::slice", "src/CDMReader.cc: CDMReader::getDataSlice"]}
{"id": "C06", "title": "Copying values into an array touches only the target range", "statement": "Copying source values [first,last) to position p changes exactly the positions p .. p+k-1 with k = min(last, source size) - first cut to the room left, leaves every other value, and raises when first exceeds the source size.", "quantifier": "every source, target, start position not beyond the target end, every range", "why_tests_cant": "Boundary arithmetic on unsigned sizes over all inputs.", "anchors": ["src/DataImpl.h: copyData, DataImpl::setValues"]}
{"id": "C07", "title": "Repacking keeps physical values", "statement": "Converting packed values between two (scale, offset, fill) encodings keeps the physical value: newScale*out + newOffset = oldScale*in + oldOffset for floating targets, and within half of |newScale| for integer targets in range; values equal to the old fill value, and only those, become the new fill value unless the arithmetic result itself hits the new fill.", "quantifier": "every value, scale, offset and fill value with non-zero new scale (exact arithmetic)", "why_tests_cant": "All reals; tests check a handful of packed numbers.", "anchors": ["include/fimex/DataUtils.h: ScaleValue, ScaleValueUnits", "include/fimex/MathUtils.h: data_caster"]}
{"id": "C08", "title": "Scaled-unit reading equals scale then convert", "statement": "Reading data scaled to a unit with a linear conversion equals applying the variable's scale and offset first and the unit conversion second, for every value, and fill values become undefined.", "quantifier": "every scale, offset, unit slope and unit offset, every value", "why_tests_cant": "Equality of two arithmetic pipelines for all inputs.", "anchors": ["src/CDMReader.cc: CDMReader::scaleDataToUnitOf, scaleDataOf"]}
{"id": "C09", "title": "Array index maps are bijective", "statement": "The flat position computed for a multi-index in a shape is below the number of elements, different in-range multi-indices have different positions, and every position is reached.", "quantifier": "every shape, every in-range multi-index", "why_tests_cant": "Injectivity and surjectivity over all shapes.", "anchors": ["src/DataIndex.cc: DataIndex::DataIndex", "include/fimex/DataIndex.h: DataIndex::getPos"]}
{"id": "C10", "title": "Array loops visit each shared index once and address each array correctly", "statement": "Looping over a group of arrays visits every combination of the loop dimensions exactly once, in order, and at each visit every array's offset is the sum of index times stride over its own dimensions.", "quantifier": "every group of arrays, any number and order of shared and private dimensions of positive length", "why_tests_cant": "Number of dimensions and arrays unbounded.", "anchors": ["src/ArrayLoop.cc: Loop::next, ArrayGroup::add, ArrayDims::add", "include/fimex/ArrayLoop.h"]}
{"id": "C11", "title": "Dataset names stay unique under any editing history", "statement": "After any sequence of add / rename / remove operations on a dataset description, no two variables share a name and no two dimensions share a name; adding an existing name raises and changes nothing.", "quantifier": "every finite history of dataset edits", "why_tests_cant": "Histories are unbounded.", "anchors": ["src/CDM.cc: addVariable, addDimension, removeVariable, renameVariable, renameDimension, removeDimension"]}
{"id": "C12", "title": "Renaming a variable keeps everything else", "statement": "Renaming an existing variable to a name gives a dataset where the old name is gone, the new name has the old variable's type, shape and attributes, and every other variable is as before; renaming a missing variable reports failure and changes nothing.", "quantifier": "every dataset and pair of names", "why_tests_cant": "All datasets, including name clashes and missing names.", "anchors": ["src/CDM.cc: CDM::renameVariable"]}
{"id": "C13", "title": "Renaming a dimension is consistent", "statement": "After renaming a dimension every variable that used the old name uses the new one in the same place, lengths are kept, and no variable refers to the old name; a refused rename changes nothing.", "quantifier": "every dataset and pair of names", "why_tests_cant": "All datasets and shapes.", "anchors": ["src/CDM.cc: CDM::renameDimension, testDimensionInUse"]}
{"id": "C14", "title": "A dimension in use is never removed", "statement": "Removing a dimension that some variable uses raises and changes nothing; removing an unused dimension removes exactly that one, and the property that every variable's shape names only existing dimensions is preserved.", "quantifier": "every dataset, every name", "why_tests_cant": "All datasets.", "anchors": ["src/CDM.cc: CDM::removeDimension, testDimensionInUse"]}
{"id": "C15", "title": "Attribute store behaves like a map", "statement": "After setting an attribute, reading it returns the value set; all other attributes are unchanged; after removal it is absent; adding to a missing variable raises.", "quantifier": "every dataset, every finite history of attribute edits", "why_tests_cant": "Histories unbounded; interplay with variable removal.", "anchors": ["src/CDM.cc: addAttribute, addOrReplaceAttribute, removeAttribute, getAttribute"]}
{"id": "C16", "title": "Generic slice reading equals slicing the full data", "statement": "Reading a region of a variable through the generic reader (slice by slice along the unlimited dimension, then joined) equals slicing the complete variable.", "quantifier": "every shape with the unlimited dimension last, every region inside the variable", "why_tests_cant": "All shapes and regions; tests read a few.", "anchors": ["src/CDMReader.cc: CDMReader::getDataSlice(varName, sb), getData, getDataSliceFromMemory"]}
{"id": "C17", "title": "Extraction by positions selects exactly those positions", "statement": "Reading through an extractor whose dimension was reduced to a set of positions returns, at index k of that dimension, the source value at the k-th smallest selected position, for every region requested.", "quantifier": "every position set, every rank, every requested region", "why_tests_cant": "Sets and shapes unbounded; the code joins contiguous chunks in an order only correct when slower dimensions have size one.", "anchors": ["src/CDMExtractor.cc: CDMExtractor::getDataSlice, getDataSlice_, joinSlices, reduceDimension"]}
{"id": "C18", "title": "Contiguous position chunks cover the selection", "statement": "The runs of consecutive positions that the extractor reads are disjoint, increasing, maximal, and together contain exactly the requested sub-range of selected positions.", "quantifier": "every strictly increasing position list, every start and size", "why_tests_cant": "All position sets.", "anchors": ["src/CDMExtractor.cc: getDataSlice_"]}
{"id": "C19", "title": "Dimension reduction checks positions", "statement": "Reducing a dimension to positions raises when a position is outside the dimension, and otherwise the new length equals the number of selected positions.", "quantifier": "every dimension length and position set, also repeated reductions", "why_tests_cant": "All sets, and histories of reductions.", "anchors": ["src/CDMExtractor.cc: reduceDimension, reduceDimensionStartEnd"]}
{"id": "C20", "title": "Start/end reduction selects the documented range", "statement": "Reducing with (start, end) keeps positions start..end for positive end and start..length-1+end for end <= 0.", "quantifier": "every length, start and end (also negative)", "why_tests_cant": "Signed/unsigned corner cases over all integers.", "anchors": ["src/CDMExtractor.cc: reduceDimensionStartEnd, reduceDimension(start,len)"]}
{"id": "C21", "title": "Axis range extraction keeps exactly the values in range", "statement": "Extracting an axis range keeps a contiguous block of positions that are exactly those whose value lies in [start - delta, end + delta], for ascending and descending axes.", "quantifier": "every monotone axis, every range", "why_tests_cant": "All axes; reversed case mirrors indices.", "anchors": ["src/CDMExtractor.cc: reduceAxes"]}
{"id": "C22", "title": "Bounding-box extraction keeps every grid point inside the box", "statement": "After extraction of a latitude/longitude box every grid point inside the box is still present, and every kept row and column contains a point inside the box or lies between kept ones.", "quantifier": "every grid of latitudes and longitudes, every box", "why_tests_cant": "All grids, including wrap at 180 degrees.", "anchors": ["src/CDMExtractor.cc: reduceLatLonBoundingBox"]}
{"id": "C23", "title": "Joined files read as their concatenation", "statement": "In a join along an existing unlimited dimension, reading position p returns the slice of the file that holds p in the concatenation of all files, at the local position.", "quantifier": "every list of files and lengths, every position", "why_tests_cant": "Number of files and lengths unbounded; boundaries between files.", "anchors": ["src/AggregationReader.cc: findJoinReader, extendJoinedUnLimDimBy, getDataSlice"]}
{"id": "C24", "title": "Joined region reads equal slicing the concatenation", "statement": "Reading a range of the joined dimension that spans several files equals slicing the concatenated data.", "quantifier": "every list of files, every range", "why_tests_cant": "Ranges crossing many files.", "anchors": ["src/AggregationReader.cc: getDataSlice(varName, sb)"]}
{"id": "C25", "title": "Union aggregation takes the first provider", "statement": "In a union of datasets, a variable's data come from the first dataset in order that has the variable.", "quantifier": "every list of datasets", "why_tests_cant": "All lists.", "anchors": ["src/AggregationReader.cc: findUnionReader, addOtherReader"]}
{"id": "C26", "title": "Tokenizing drops only separators", "statement": "Splitting text on a set of delimiter characters yields non-empty tokens without delimiters, in order, whose concatenation is the text without delimiters; joining delimiter-free non-empty tokens and splitting again gives them back.", "quantifier": "every text and every delimiter set", "why_tests_cant": "All strings.", "anchors": ["src/StringUtils.cc: tokenize, split_any, join", "include/fimex/StringUtils.h"]}
{"id": "C27", "title": "Dotted number lists expand to the arithmetic progression", "statement": "A list 'a,b,...,c' expands to a, b, b+(b-a), ... up to and including c (within rounding tolerance), for increasing and decreasing steps; the expansion always terminates.", "quantifier": "every start, step and end", "why_tests_cant": "All progressions; termination for all inputs.", "anchors": ["include/fimex/TokenizeDotted.h: tokenizeDotted"]}
{"id": "C28", "title": "String list index is stable and duplicate free", "statement": "Adding strings to an indexed list returns, for each string, an index that addresses that string forever after; equal strings get equal indices and different strings different ones.", "quantifier": "every finite history of additions", "why_tests_cant": "Histories unbounded.", "anchors": ["src/StringUtils.cc: StringListBuilder"]}
{"id": "C29", "title": "Time comparison is calendar comparison", "statement": "Comparing two times gives the lexicographic order on (year, month, day, hour, minute, second, millisecond), and the packed form decodes to the same time, for years below 4096 and in-range fields.", "quantifier": "every pair of valid times", "why_tests_cant": "About 2^60 times; the packing shifts bytes in 32-bit integers.", "anchors": ["src/FimexTime.cc: toEncoded, fromEncoded", "include/fimex/FimexTime.h"]}
{"id": "C30", "title": "Printed times parse back", "statement": "Formatting a valid time in ISO-8601 form and parsing the text returns the same time.", "quantifier": "every valid time with four digit year", "why_tests_cant": "All times; digit level reasoning.", "anchors": ["src/FimexTime.cc: parseISO8601, operator<<"]}
{"id": "C31", "title": "Horizontal position search is correct", "statement": "Searching a coordinate in a monotone axis returns the fractional index whose linear interpolation of the axis is that coordinate, ascending or descending; exact matches return the integer index.", "quantifier": "every strictly monotone axis of at least two values, every coordinate", "why_tests_cant": "All axes and values.", "anchors": ["src/interpolation.c: mifi_points2position, bsearchDoubleIndex"]}
{"id": "C32", "title": "Bilinear interpolation stays within its neighbours and reproduces grid values", "statement": "Bilinear interpolation at a grid point returns the grid value, between grid points a value between the smallest and largest of the neighbours used, outside the grid undefined; no value outside the field is ever read.", "quantifier": "every field, every position", "why_tests_cant": "Positions are continuous; memory safety at the borders.", "anchors": ["src/interpolation.c: mifi_get_values_bilinear_f"]}
{"id": "C33", "title": "Nearest neighbour picks the rounded cell or undefined", "statement": "Nearest-neighbour interpolation returns the value of the cell nearest to the position, and undefined exactly when that cell is outside the field, for all layers.", "quantifier": "every field, layer count and position", "why_tests_cant": "All positions, border halves.", "anchors": ["src/interpolation.c: mifi_get_values_f"]}
{"id": "C34", "title": "One-dimensional interpolation endpoints and limits", "statement": "Linear interpolation between two fields returns field A at coordinate a, field B at b and stays between them in between; the no-extrapolation form is undefined outside [a,b], the weak form outside one interval on each side, the constant form equals the nearer end.", "quantifier": "all coordinates a, b, x and all values", "why_tests_cant": "Continuous domain and all case boundaries.", "anchors": ["src/interpolation.c: mifi_get_values_linear_f, _weak_extrapol_f, _no_extrapol_f, _const_extrapol_f"]}
{"id": "C35", "title": "Fill algorithms never touch defined values", "statement": "The extrapolating fill and the two creep fills leave every value that was defined on input unchanged; a field with no undefined value or no defined value is returned as is; creep filling with a default value defines every cell.", "quantifier": "every field size and pattern of undefined cells, every iteration count", "why_tests_cant": "All patterns; iterative algorithms.", "anchors": ["src/interpolation.c: mifi_fill2d_f, mifi_creepfill2d_f, mifi_creepfillval2d_f"]}
{"id": "C36", "title": "Reading only the needed sub-domain does not change interpolation results", "statement": "Interpolating from the automatically reduced input domain gives the same result as interpolating from the whole input field, for nearest neighbour and bilinear methods.", "quantifier": "every input field, every set of target positions", "why_tests_cant": "All positions and domain shapes; an off-by-one would show only at certain edges.", "anchors": ["src/CachedInterpolation.cc: createReducedDomain, CachedNNInterpolation"]}
{"id": "C37", "title": "Forward interpolation aggregates the values that map to each cell, per layer", "statement": "For each layer and target cell forward interpolation returns the aggregate (sum, mean, min, max, median) of the defined source values of that layer that map to the cell, and undefined when there is none.", "quantifier": "every mapping, layer count and field", "why_tests_cant": "All mappings and layers.", "anchors": ["src/CachedForwardInterpolation.cc: interpolateValues, aggregators"]}
{"id": "C38", "title": "Neighbour search returns distinct bracketing elements", "statement": "Searching the neighbours of a value in a monotone sequence returns two distinct positions that bracket the value whenever the value lies within the sequence's range.", "quantifier": "every monotone sequence of at least two different values, every value", "why_tests_cant": "All sequences and values.", "anchors": ["include/fimex/FindNeighborElements.h: find_closest_neighbor_distinct_elements, find_closest_distinct_elements"]}
{"id": "C39", "title": "Time interpolation uses bracketing input times", "statement": "For ascending output times, each output time is interpolated from the two neighbouring input times that bracket it, or the two outermost input times when outside.", "quantifier": "every ascending input axis and ascending output axis", "why_tests_cant": "Lengths unbounded; search restarts from the last position.", "anchors": ["src/CDMTimeInterpolator.cc: changeTimeAxis"]}
{"id": "C40", "title": "Border smoothing blends between inner and outer data", "statement": "Border smoothing returns the outer value in the border, the inner value in the interior, and a value between both in the transition zone.", "quantifier": "every grid size at least twice border plus transition, every cell and value", "why_tests_cant": "All grid sizes and cells.", "anchors": ["src/CDMBorderSmoothing_Linear.cc: operator()"]}
{"id": "C41", "title": "Overlay prefers the top dataset where defined", "statement": "Overlaying two slices of equal size returns at each cell the top value when it is defined and the base value otherwise.", "quantifier": "every pair of slices", "why_tests_cant": "All undefined patterns.", "anchors": ["src/CDMOverlay.cc: overlayDataSlices"]}
{"id": "C42", "title": "Merged axes contain both axes", "statement": "Extending the inner axis by the outer axis yields a regular axis that contains the inner values at a consecutive run, stays within the range of the outer axis and has less than one step left to its ends.", "quantifier": "every regular strictly monotone inner and outer axis", "why_tests_cant": "All axes; loop termination.", "anchors": ["src/CDMMerger.cc: extendInnerAxis"]}
{"id": "C43", "title": "Auxiliary variable selection is closed", "statement": "Selecting auxiliary variables for merging yields the smallest set containing the start variables and every variable their attributes refer to, directly or indirectly; selection terminates on cyclic references.", "quantifier": "every reference graph", "why_tests_cant": "Cycles and depth unbounded.", "anchors": ["src/CDMMergeUtils.cc: addAuxiliary"]}
{"id": "C44", "title": "Shape comparison ignores exactly the length-one dimensions", "statement": "Two variables compare as same-shaped exactly when their lists of dimensions with length other than one have the same names and lengths in order; this is an equivalence relation.", "quantifier": "every pair of variables", "why_tests_cant": "All shapes, interleavings of length-one dimensions.", "anchors": ["src/CDMReaderUtils.cc: compareCDMVarShapes"]}
{"id": "C45", "title": "Generated names are fresh", "statement": "The name generator returns a name that no dimension and no variable of the dataset has, starting with the requested base name.", "quantifier": "every dataset and base name", "why_tests_cant": "All datasets.", "anchors": ["src/CDMReaderUtils.cc: findUniqueDimVarName, findUniqueVarName, findUniqueDimName"]}
{"id": "C46", "title": "Coordinate system axes stay consistent", "statement": "After any sequence of axis additions to a coordinate system, no two main axes share a defined type and no name occurs twice among main and auxiliary axes.", "quantifier": "every finite history of setAxis / setAuxiliaryAxis calls", "why_tests_cant": "Histories unbounded.", "anchors": ["src/coordSys/CoordinateSystem.cc: setAxis, setAuxiliaryAxis, removeAxis, findAxisOfType"]}
{"id": "C47", "title": "Grid definition ordering is usable as a map order", "statement": "The ordering of grid definitions used as map key is a strict weak order: irreflexive, asymmetric, transitive, with transitive equivalence.", "quantifier": "every triple of grid definitions", "why_tests_cant": "Triples of reals; tolerance breaks transitivity only for chains.", "anchors": ["src/GridDefinition.cc: operator<"]}
{"id": "C48", "title": "Data type names round-trip", "statement": "Converting a data type to its name and back gives the same type, for the native names and for NcML names, for every type except 'not a type'.", "quantifier": "all data types (finite)", "why_tests_cant": "Finite table; proved exhaustively.", "anchors": ["src/CDMDataType.cc: string2datatype, datatype2string", "src/NcmlUtils.cc: datatype_cdm2ncml, datatype_ncml2cdm"]}
{"id": "C49", "title": "Pairwise min/max search is correct", "statement": "The one-pass pairwise search for minimum and maximum returns positions of a smallest and a largest element of any non-empty sequence.", "quantifier": "every non-empty sequence over a linear order", "why_tests_cant": "All lengths, odd and even.", "anchors": ["include/fimex/min_max.h: min_max_element"]}
{"id": "C50", "title": "Directory scanning reports each file with its true relative path", "statement": "Scanning a directory tree with a path pattern reports exactly the regular files, down to the allowed depth, whose path relative to the start directory matches.", "quantifier": "every directory tree and every predicate", "why_tests_cant": "All trees; sibling directories.", "anchors": ["src/FileUtils.cc: scanFiles_"]}
{"id": "C51", "title": "Splitting a path into directory and file name is lossless", "statement": "The directory part followed by the file-name part is the original path; the file-name part contains no slash; replacing the file name keeps the directory.", "quantifier": "every string", "why_tests_cant": "All strings.", "anchors": ["src/FileUtils.cc: extractFilename, removeFilename, replaceFilename, joinFilename"]}
{"id": "C52", "title": "Accumulation does not depend on the order of reading", "statement": "Reading an accumulated variable at a position returns the running sum of the source slices up to the position, whatever was read before.", "quantifier": "every sequence of source slices, every history of reads", "why_tests_cant": "Histories of reads with a cache.", "anchors": ["src/CDMProcessor.cc: CDMProcessor::getDataSlice, addDataP2Data"]}
{"id": "C53", "title": "De-accumulation inverts accumulation", "statement": "Taking differences of consecutive accumulated slices returns the original slices.", "quantifier": "every sequence of slices", "why_tests_cant": "All lengths and values.", "anchors": ["src/CDMProcessor.cc: CDMProcessor::getDataSlice"]}
{"id": "C54", "title": "Quality control masks exactly the rejected cells", "statement": "Quality extraction replaces a data value by the fill value exactly when its status value is not among the allowed values (or outside the allowed range), repeating the status over additional outer layers, and leaves all others.", "quantifier": "every data and status field with a whole size ratio", "why_tests_cant": "All patterns.", "anchors": ["src/CDMQualityExtractor.cc: CDMQualityExtractor::getDataSlice"]}
{"id": "C55", "title": "GRIB step units divide the step", "statement": "The step unit chosen for a positive number of seconds divides it exactly and is the longest supported unit that does; unit codes and texts convert back and forth without loss.", "quantifier": "every positive number of seconds; all unit codes", "why_tests_cant": "All naturals.", "anchors": ["src/io/grib/GribUtils.cc: gribSeconds2stepUnits, gribStepUnits2seconds, gribStepUnitsFromText, gribStepUnitsToText"]}
{"id": "C56", "title": "Vertical coordinate formulas invert", "statement": "Converting sigma to pressure and back returns sigma; hybrid formulas agree with the CF definitions; vertical wind and omega conversions are inverse.", "quantifier": "all values with surface pressure different from top pressure, positive pressure and temperature", "why_tests_cant": "Continuous domain.", "anchors": ["src/vertical_coordinate_transformations.c"]}
{"id": "C57", "title": "Method names map to the documented method", "statement": "Each documented interpolation method name selects its own method and no two different names select the same method.", "quantifier": "all documented names (finite)", "why_tests_cant": "Finite table; proved exhaustively.", "anchors": ["src/interpolation.c: mifi_string_to_interpolation_method"]}
{"id": "C58", "title": "Filling an existing file writes each value at its coordinate", "statement": "When filling an existing file, each input coordinate found in the output is written at the position of that coordinate, new coordinates on an unlimited dimension get consecutive positions after the existing ones, and no two new coordinates share a position.", "quantifier": "every pair of coordinate lists", "why_tests_cant": "All lists.", "anchors": ["src/FillWriter.cc: FillWriter"]}
{"id": "C59", "title": "Undefined values survive the interpolation round trip", "statement": "Converting fill values to undefined before interpolation and back afterwards returns the same data when nothing is interpolated.", "quantifier": "every data array and fill value", "why_tests_cant": "All arrays.", "anchors": ["src/interpolation.c: mifi_bad2nanf, mifi_nanf2bad", "src/CDMInterpolator.cc: data2InterpolationArray, interpolationArray2Data"]}
{"id": "C60", "title": "Longitude normalisation", "statement": "Normalising a longitude ends and returns a value in [-180, 180] that differs from the input by a multiple of 360; values already there are unchanged.", "quantifier": "every longitude", "why_tests_cant": "All values; termination.", "anchors": ["include/fimex/MathUtils.h: normalizeLongitude180"]}
{"id": "C61", "title": "File type detection precedence", "statement": "The reader chosen for a file is one with the highest positive match; an explicit type that any reader recognises wins over file content, and content wins over the file name.", "quantifier": "every set of installed readers and match scores", "why_tests_cant": "All plug-in sets.", "anchors": ["src/CDMFileReaderFactory.cc: findFactory, findFactoryFromFileType"]}
{"id": "C62", "title": "Scaled write-back restores the packed data", "statement": "Reading a packed integer variable scaled to a unit and writing the result back from that unit stores the same packed values, fill values included.", "quantifier": "every packed array, scale, offset, fill value and pair of mutually inverse unit conversions (exact arithmetic)", "why_tests_cant": "All packed values and encodings; composition of two pipelines.", "anchors": ["src/CDMReader.cc: CDMReader::scaleDataToUnitOf", "src/CDMReaderWriter.cc: CDMReaderWriter::unscaleDataFromUnitOf"]}
{"id": "C63", "title": "Coordinate queries are never stale", "statement": "After any history of edits through the dataset interface, interleaved with coordinate queries, a query answers from the coordinate systems of the current content.", "quantifier": "every history of edits and queries", "why_tests_cant": "Histories are unbounded; staleness needs a particular interleaving.", "anchors": ["src/CDM.cc: enhance, CDMImpl::coordsInitialized, all editing functions"]}
{"id": "C64", "title": "Variable search is exact", "statement": "Searching variables by attribute patterns and dimensions returns exactly the variables that have all dimensions and matching attributes, in dataset order.", "quantifier": "every dataset, every set of patterns and dimensions", "why_tests_cant": "All datasets and criteria.", "anchors": ["src/CDM.cc: CDM::findVariables, checkVariableAttribute"]}
{"id": "C65", "title": "Text helpers are exact", "statement": "Trimming removes exactly the leading and trailing white space; prefix and suffix tests are exact; an escaped text used as a regular expression stands for exactly that text.", "quantifier": "every text", "why_tests_cant": "All strings, all character sets.", "anchors": ["src/StringUtils.cc: trim, starts_with, ends_with, regex_escape"]}
{"id": "C66", "title": "Merge compatibility compares all dimensions", "statement": "Two variables accepted for merging have, after leaving out dimensions of length one, the same number of dimensions, geographic axes at the same places and equal lengths elsewhere; only those are accepted.", "quantifier": "every pair of shapes", "why_tests_cant": "All pairs of shapes; left-over dimensions at the end of one shape.", "anchors": ["src/CDMMergeUtils.cc: is_compatible"]}
{"id": "C67", "title": "Chunked reading delivers the bytes of the file in order", "statement": "Whatever requests the XML parser makes, and whichever of them fail, the bytes handed over are the beginning of the file without gap or repetition; receiving over HTTP never writes outside the caller's buffer and returns the bytes sent, an over-long response being an error.", "quantifier": "every file, every sequence of requests and failures, every splitting of a response into pieces", "why_tests_cant": "Request sequences and splittings are unbounded.", "anchors": ["src/ChunkReaderXmlInputCtx.cc: ChunkReaderXmlInputCtx::read", "src/HttpChunkReader.cc: WriteCallback, HttpChunkReader::read"]}
{"id": "C68", "title": "Relative axis specifications address the data range", "statement": "A specification is split into its sections or rejected; in a relative list a number counts from the start value, x is the last multiple of the step not after the end, x+d lies d after and x-d lies d before it, and 0,d,...,x gives the progression in between; 0 stands for the first multiple of the step not before the start of the data.", "quantifier": "every list of sections, every range, step and number", "why_tests_cant": "All texts and all ranges; the wrong cases depend on sign and divisibility of the start.", "anchors": ["src/TimeSpec.cc: translateRelativeTime, TimeSpec::TimeSpec", "src/SpatialAxisSpec.cc: TranslateRelativePlace, SpatialAxisSpec::init"]}
{"id": "C69", "title": "Slices of a coordinate system keep one reference time", "statement": "A call selecting along an axis type changes only the regions of the dimensions of that axis, and if it does not raise they have the requested region; after any history of calls exactly one reference time is selected; the slice for the time variable has the same region as the slice of the field in each of its dimensions.", "quantifier": "every coordinate system with distinct axis names, every history of accepted and refused calls", "why_tests_cant": "Histories of calls and sets of axes are unbounded.", "anchors": ["src/CoordinateSystemSliceBuilder.cc: CoordinateSystemSliceBuilder::setReferenceTimePos, setTimeStartAndSize, setAxisStartAndSize, getTimeVariableSliceBuilder, getAxisTypes"]}
{"id": "C70", "title": "NcML renaming keeps what is renamed", "statement": "Renaming variables by an NcML document moves each variable, with its attributes, to its new name and leaves the others alone, a missing name raising an error; data requested under a new name are those of the original variable; renaming a dimension renames it in the shapes of all variables; an attribute keeps its value under the new name; a slice is cut at the same positions of the dimensions under their original names.", "quantifier": "every dataset, every list of renames, every request", "why_tests_cant": "All rename lists, including chains and swaps, and all datasets.", "anchors": ["src/NcmlCDMReader.cc: NcmlCDMReader::initVariableNameChange, initDimensionNameChange, initAttributeNameChange, getDataSlice"]}
{"id": "C71", "title": "NcML values are taken as written", "statement": "Splitting a value list at a separator gives exactly the pieces between the separators, joining them gives the text back; a variable gets as many values as its shape has places, start and increment give the arithmetic progression, a list gives its values in order, and ambiguous or miscounted values raise an error; a shape attribute is read in reverse order.", "quantifier": "every text, separator, shape and number reader", "why_tests_cant": "All texts and separators; overlapping separators.", "anchors": ["src/NcmlCDMReader.cc: split_marker, split_ncml_values, fimexShapeFromXmlAtt, NcmlCDMReader::initVariableDataChange"]}
{"id": "C72", "title": "Filled values stay in range and follow the unit", "statement": "Extrapolating fill with a correction between 0 and 1 gives values between the smallest and the largest defined value; filling a field given in another unit (any linear change of unit, also one that reverses the order) gives the filled field in that unit, after the same number of passes and with the same failures, for the extrapolating and both creeping fills.", "quantifier": "every grid size, field, number of passes and change of unit", "why_tests_cant": "All fields and iteration counts; invariance relates two runs.", "anchors": ["src/interpolation.c: mifi_fill2d_f, mifi_creepfill2d_f, mifi_creepfillval2d_f"]}
{"id": "C73", "title": "Index files restore the dataset description", "statement": "Writing a dataset description to an index file and reading the file gives the same dimensions, variables, types, shapes, data and attributes; a file whose string references are all valid is read without undefined behaviour and leaves names unique; a file is accepted exactly if its first bytes are those of an index file; the message index is restored and each message is looked for in its file.", "quantifier": "every dataset description with unique names, every message, every sequence of bytes", "why_tests_cant": "Descriptions, string tables and files are unbounded; sharing of strings between names and values matters only for particular combinations.", "anchors": ["src/ProtobufCDM.cc: readCDM, writeCDM, readData, writeData", "src/io/grib/GribProtobufIndexReader.cc: checkGribProtobufIndexMagic, readGribIndex", "src/io/grib/GribProtobufIndexWriter.cc: writeGribIndex", "src/StringUtils.cc: StringListBuilder::add"]}
{"id": "C74", "title": "GRIB messages are indexed by time, level and member", "statement": "Messages are accepted if and only if each agrees in presence of time and ensemble, type of level and grid with the first message of its variable; every variable then gets a table over all times, its own levels in ascending order and its members, in which each place names the file, start and size of the last message read for it, or none if there is none; a variable without time is refused.", "quantifier": "every sequence of messages", "why_tests_cant": "Sequences of messages, levels and members are unbounded; order of messages and gaps matter.", "anchors": ["src/io/grib/GribCDMIndexer.cc: GribCDMIndexer::loadOneMessage, buildLevels, initCreateVarMessages, find_index", "src/StringUtils.cc: StringListBuilder::add"]}
{"id": "C75", "title": "GRIB slices have each value at its place", "statement": "A slice of a GRIB variable has at each place the value that the message for this time, level and member has at this grid point, or the missing value if there is no message or it has too few values; messages that cannot be read or have too many values raise an exception; values are rounded to the nearest multiple of the precision.", "quantifier": "every table of messages, every contents of the messages, every slice", "why_tests_cant": "The slices for which the places are wrong are combinations of partial dimensions; all sizes.", "anchors": ["src/io/grib/GribCDMReader.cc: GribCDMReader::getDataSlice, RoundValue", "src/io/grib/GribFileIndex.cc: readGribData"]}
{"id": "C76", "title": "Bicubic interpolation is cubic convolution", "statement": "Bicubic interpolation at a position with two cells on each side gives the cubic convolution of the surrounding four by four cells, and the undefined value elsewhere; it gives the value of a cell at its centre and fields that are quadratic in each direction exactly; nothing outside the field is read.", "quantifier": "every field size, field, position and number of levels", "why_tests_cant": "All positions and field values; agreement with the convolution kernel is an identity of polynomials.", "anchors": ["src/interpolation.c: mifi_get_values_bicubic_f"]}
{"id": "C77", "title": "Grid distances are those to the next cells", "statement": "On a grid of at least two columns and rows each cell with a right and a lower neighbour gets the distances to these, the other cells of the last column those of their left neighbour, the cells of the last row those of the cell above; on a single row or column each cell gets the distance to the next one; a single cell is an error; nothing outside the arrays is read or written.", "quantifier": "every grid size, all positions of the points, every distance function", "why_tests_cant": "Sizes are unbounded, and an exchanged size shows only on grids that are not square.", "anchors": ["src/interpolation.c: mifi_griddistance"]}
{"id": "C78", "title": "Vectors and directions are rotated with the grid", "statement": "At every place of the output grid vectors are rotated by the angle by which the projections are turned against each other at this place, lengths are kept, undefined components stay undefined; directions are turned by the same angle and given between 0 and 360 degrees, and agree with the direction of the rotated vector; the step used to find the angle is never near zero; nothing outside the arrays is read or written.", "quantifier": "every grid size, field, number of layers and every transformation that locally turns and scales", "why_tests_cant": "All transformations and angles; the formulas go through bearings on the sphere and quotients that vanish for particular angles only.", "anchors": ["src/reproject.cc: get_vector_reproject_matrix_points_proj_delta, get_vector_reproject_matrix_proj, mifi_vector_reproject_values_by_matrix_f, mifi_vector_reproject_direction_by_matrix_f, mifi_bearing", "src/CachedVectorReprojection.cc: reprojectValues, reprojectDirectionValues"]}
{"id": "C79", "title": "Slices of interpolated variables are slices of the interpolated field", "statement": "For every request the interpolator gives the requested part of the whole interpolated field, whose layers are the interpolated layers of the input, with all processes applied before and after and vectors rotated with the layer of the other component; this holds whether or not the domain of the input is reduced, for nearest neighbours, bilinear and bicubic interpolation.", "quantifier": "every number and size of dimensions, every history of calls making the request, every field, process and interpolation that works by layer", "why_tests_cant": "Ranks, sizes, requests and histories are unbounded; names of dimensions decide which part of the request is used twice.", "anchors": ["src/CDMInterpolator.cc: CDMInterpolator::getDataSlice, processArray_", "src/CachedInterpolation.cc: getInputDataSlice, getOutputDataSlice, interpolateValues"]}
{"id": "C80", "title": "Vertical velocity comes from wind and pressure", "statement": "The vertical velocity in an inner cell is the one given by the divergence of the mass flux above and in its layer and by the slope of the geopotential integrated from the ground; cells at the border have that of the nearest inner cell and the top layer has none; the layers fill the whole column; air at rest has no vertical velocity; nothing outside the arrays is read or written and no cell is left unset.", "quantifier": "every grid size and number of levels, every field with pressure growing downwards", "why_tests_cant": "Sizes are unbounded, sums run over all levels, and the formula is compared as an identity.", "anchors": ["src/interpolation.c: mifi_compute_vertical_velocity", "src/CDMProcessor.cc: CDMProcessor::addVerticalVelocity, getDataSlice"]}
{"id": "C81", "title": "Vertical interpolation stays in its column", "statement": "Every value on the new vertical axis is computed from the input values that have the same indices in all other dimensions, whatever the order of dimensions in the variable, the input heights, the output heights and the limits: outside the limits of validity it is undefined; between two heights of the column it is the value of the straight line, in the coordinate of the chosen method, between neighbouring heights; it is put within the valid range; nothing outside the arrays is read or written.", "quantifier": "every number, order and size of dimensions, every position of the unlimited dimension, all heights, values, limits and methods", "why_tests_cant": "Orders and sizes of dimensions are unbounded, and offsets of five arrays with different dimensions have to agree at every step of the loop.", "anchors": ["src/CDMVerticalInterpolator.cc: CDMVerticalInterpolator::getLevelDataSlice", "include/fimex/ArrayLoop.h: GroupDims, Loop", "src/coordSys/verticalTransform/VerticalTransformationUtils.cc: makeArrayDims, forceUnLimDimLength1"]}
{"id": "C82", "title": "The shape of a vertical converter and the slices it reads", "statement": "If every axis has a dimension and time has one of its own, the shape of a converter is the dimension of the x axis, of the y axis, of the z axis, all other dimensions of its variables in the order in which they appear, and last that of the time axis, each once, whatever variables are merged in whatever order; unknown variables are refused. For every request the slice read of a variable is the requested part of the dimensions it shares with the request and all of its other dimensions; requests that do not fit are refused; a position of the unlimited dimension asks for that position only.", "quantifier": "every sequence of variables with any shapes, every request made by any history of calls, every position", "why_tests_cant": "Sequences, ranks and histories are unbounded; where a dimension is inserted depends on which others were inserted before.", "anchors": ["src/coordSys/verticalTransform/VerticalTransformationUtils.cc: ShapeMerger::merge, findAxis, axisDim, copySliceBuilder, adaptSliceBuilder, createSliceBuilder, setUnLimDimPos, verticalData4D"]}
{"id": "C83", "title": "Vertical converters deliver their formula for every slice", "statement": "For every slice that is asked for, the converters for hybrid sigma (both forms), sigma, logarithmic pressure, hybrid height, height above ground, ocean s-coordinates and the standard atmosphere deliver at every index the value of their formula for the values the variables have at the same indices, whatever the order of dimensions, if not all variables begin with the same dimension as the shape of the converter; nothing outside the arrays is read and no value is left unset; where a variable has no data the pressure converters deliver none, and incomplete ocean variables are refused.", "quantifier": "every number, order and size of dimensions, every request, all values of the variables, whatever was in the memory of the result before", "why_tests_cant": "Shapes and requests are unbounded; the loops hand over blocks of the arrays whose size depends on how the shapes begin.", "anchors": ["src/coordSys/verticalTransform/HybridSigmaApToPressureConverter.cc: getDataSlice", "src/coordSys/verticalTransform/HybridSigmaToPressureConverter.cc: getDataSlice", "src/coordSys/verticalTransform/SigmaToPressureConverter.cc: getDataSlice", "src/coordSys/verticalTransform/LnPressureToPressureConverter.cc: getDataSlice", "src/coordSys/verticalTransform/AtmosphereHybridHeight.cc, AltitudeHeightConverter.cc, OceanSCoordinateGToDepthConverter.cc: getDataSlice", "src/coordSys/verticalTransform/VerticalTransformationUtils.cc: VarDouble, VerticalConverterDouble"]}
{"id": "C84", "title": "Altitude is the hypsometric sum from the surface", "statement": "For every requested part of the levels and columns the altitude is that of the surface and the sum of the thicknesses of all layers from the surface up to the level, also of those not asked for, with the virtual temperature where there is humidity; with one temperature it is the barometric formula; an undefined value at or below a level makes its altitude undefined. This holds for pressures growing or falling along the axis if the first requested column has positive pressures at both ends, or if the vertical dimension is the last requested one in the pressures and the columns with positive ends agree in direction. Without any positive pressure no altitude is delivered: with one level there is no data, with more the code reads outside the pressures.", "quantifier": "every number, order and size of dimensions, every request, all values, whatever was in the memory of the result before", "why_tests_cant": "Shapes, requests and numbers of levels are unbounded, and layers below the request have to be added in.", "anchors": ["src/coordSys/verticalTransform/PressureIntegrationToAltitudeConverter.cc: getDataSlice", "src/interpolation.c: mifi_barometric_layer_thickness, mifi_virtual_temperature"]}
{"id": "C85", "title": "Time points follow the calendar", "statement": "Times of the calendar up to the year 32767 become the number of seconds since 1970-01-01 on the calendar: the first second of 1970 is 0 and each second counts one; so numbers are ordered as times are, apart from milliseconds, which are dropped. A number is turned back into its calendar time, and times of the years 1678 to 2261 come back; numbers that the clock of the standard library does not reach give undefined behaviour. Times with an impossible month have the invalid number, which no time of the calendar has and which comes back as the smallest time.", "quantifier": "every time of the calendar, every number", "why_tests_cant": "Every second of 32768 years is covered, and month lengths and leap years are compared with an independent stepping calendar.", "anchors": ["src/TimeUtils.cc: make_time_point, asTimePoint, fromTimePoint, timePoint2epochTime, fimexTime2epochTime"]}
{"id": "C86", "title": "GRIB messages keep their times", "statement": "The reference time of a message is read from the digits of its date and time. With the step units seconds, minutes, hours and 3, 6 and 12 hours the valid time is the given number of steps later, or earlier, on the calendar in the years 1678 to 2261; with the units for days, months and years the code reads an offset that was never set, and unknown units raise. A reference time at a whole minute and a valid time any whole number of such steps later are read back as they were written; without a reference time the valid time is written and read as both.", "quantifier": "every reference time, step unit and number of steps within the range of the clock", "why_tests_cant": "Steps are unbounded apart from the range of the clock and cross months, leap days and years.", "anchors": ["src/io/grib/GribFileIndex.cc: GribFileMessage::getReferenceTime, getValidTime", "src/io/grib/GribApiCDMWriter_ImplAbstract.cc: setTime", "src/io/grib/GribUtils.cc: gribStepUnits2seconds"]}
{"id": "C87", "title": "Pressure conversions make the variables they promise", "statement": "The text of an operation, a conversion followed by key=value pairs and perhaps a last word, each after a semicolon, is read as just these, the first value counting for a key. A conversion starts from the variable an option names or from all with the standard name. theta2T and specific2relative make one variable from the first source that has a complete coordinate system, omega2vwind from exactly one velocity and one temperature that share one, add4Dpressure from the first of the suitable systems with the longest vertical axis; the new variable has the name, shape and attributes described, an existing name is left alone, and an unknown conversion is refused. After any operations the dataset is well formed with the same dimensions, every variable without a converter is one of the input with its attributes and data, and only sources of theta2T and omega2vwind disappear. specific2relative needs the first temperature to be complete for the system of each humidity (otherwise undefined behaviour), and the message about a missing temperature uses it.", "quantifier": "every dataset, any number of variables, attributes and coordinate systems, every text of an operation, every sequence of operations", "why_tests_cant": "Operations, variables, attributes and systems are unbounded and operations see the results of earlier ones.", "anchors": ["src/CDMPressureConversions.cc: CDMPressureConversions::CDMPressureConversions, getDataSlice, findVariables, deriveVariableName, ThetaTemperatureConverterFactory, HumidityConverterFactory, OmegaVerticalConverterFactory, AddPressure4DConverterFactory", "src/coordSys/CoordinateSystem.cc: findCompleteCoordinateSystemFor"]}
{"id": "C88", "title": "Pressure conversions compute their formula at every point", "statement": "For every position of the unlimited dimension the converted data have at every index the value of the formula for pressure, temperature and source at the same index: the upward velocity is -omega R T / (g M p), the relative humidity a fraction in steps of 1/25000 within half a step and not below 0, the pressure that of the converter, and the temperature theta (p/1000 hPa)^(R/cp); the sources having the dimensions of the pressure in the same order.", "quantifier": "every number and size of dimensions, every position, all values", "why_tests_cant": "Shapes are unbounded and formulas are compared as identities over the real numbers.", "anchors": ["src/CDMPressureConversions.cc: ThetaTemperatureConverter::getDataSlice, HumidityConverter::getDataSlice, OmegaVerticalConverter::getDataSlice, AddPressure4DConverter::getDataSlice", "src/coordSys/verticalTransform/VerticalTransformationUtils.cc: verticalConverter, verticalData4D, checkData", "src/vertical_coordinate_transformations.c: mifi_omega_to_vertical_wind_f, mifi_specific_to_relative_humidity"]}
{"id": "C89", "title": "The netCDF writer's configuration edits the dataset as it says", "statement": "Removing global attributes, attributes of variables, variables and dimensions leaves exactly the variables not named, the dimensions that were not named or that a kept variable needs, and the other attributes; with automatic removal the dimensions no variable needs go too. The dataset stays well formed, and no shape loses a dimension. Each edit of an attribute replaces the attribute of that name in the chosen variable by one with the new name, and with the new value if a type is given, other attributes staying as they are; edits apply one after the other, and they fail only where there is no such variable, dimension or attribute, where a value cannot be read or where the new name is in use. The last new name, type and compression given for a variable counts, the last new name of a dimension too, and a variable named like a renamed dimension is renamed with it unless it has its own new name.", "quantifier": "every dataset, every configuration, any number of edits in any order", "why_tests_cant": "Datasets and configurations are unbounded, and edits see what earlier edits did.", "anchors": ["src/io/netcdf/NetCDF_CDMWriter.cc: initRemove, initFillRenameDimension, initFillRenameVariable, initFillRenameAttribute", "src/io/netcdf/NetCDF_CDMWriter.cc: getVariableName, getDimensionName"]}
{"id": "C90", "title": "Chunk sizes and compression levels are ones the netCDF library takes", "statement": "Every chunk has at least one cell and not more cells along a dimension than the dimension has, an unlimited dimension counting as one; a variable of fewer than 2^21 values without configured sizes is one chunk; a configured size is used as far as there are cells. Levels up to 9 are used as they are, 11 to 19 are levels 1 to 9 with shuffling. A library that refuses nothing else then takes chunks and level of every variable.", "quantifier": "every number and size of dimensions, every configuration of chunk sizes and levels", "why_tests_cant": "Numbers and lengths of dimensions are unbounded and products wrap around.", "anchors": ["src/io/netcdf/NetCDF_CDMWriter.cc: defineVariables"]}
{"id": "C91", "title": "The netCDF writer writes every variable completely", "statement": "After writing, the file has the dimensions, variables and attributes of the configured dataset under their new names, the dimensions of each variable slowest first, and at every index the value supplied for the variable at that position of the unlimited dimension and index, whatever the order in which threads write; cells nothing is supplied for are as the library made them, and the unlimited dimension is as long as the last position something was supplied for. Supplied is the data of the reader, converted if units, scale, offset or fill value differ, and fill values in the classic formats where the reader has none. If writing succeeds, all data was read. The name of the unlimited dimension must not change, dimensions are shorter than 2^31, no shape has a dimension twice, and the library takes the values.", "quantifier": "every dataset with at most one unlimited dimension, any number, order and size of dimensions, all values, every order of steps, all formats", "why_tests_cant": "Datasets, shapes, positions and the interleavings of threads are unbounded.", "anchors": ["src/io/netcdf/NetCDF_CDMWriter.cc: NetCDF_CDMWriter, defineDimensions, defineVariables, writeAttributes, convertData, writeData, ncDimId", "src/io/netcdf/NetCDF_Utils.cc: ncPutValues, cdmDataType2ncType"]}
{"id": "C92", "title": "The netCDF reader delivers what the file holds", "statement": "An opened file has the dimensions, variables and attributes of the file in its order, the dimensions of variables fastest first, the first unlimited dimension as the unlimited one, and texts without a terminating zero. The data at a position of the unlimited dimension, or of a requested region, are the values of the file at these places in the order of the dataset, and positions or regions outside raise. Data that is put at a position or into a region is read from there afterwards, all other cells, variables and attributes are as before and no other dimension changes its length. The unlimited dimension must be the slowest one of the variable, and requests of regions need a dimension.", "quantifier": "every file of the library, any number, order and size of dimensions, every position and region, all values", "why_tests_cant": "Files, shapes and requests are unbounded; order of dimensions and of values are reversed in between.", "anchors": ["src/io/netcdf/NetCDF_CDMReader.cc: NetCDF_CDMReader, getDataSlice, putDataSlice, addAttribute", "src/io/netcdf/NetCDF_Utils.cc: ncGetValues, ncGetAttValues, ncType2cdmDataType"]}
{"id": "C93", "title": "Writing to netCDF and reading again is the identity", "statement": "A dataset written to a netCDF file and read again has the same variables with their types and shapes, the dimensions that are used, with their lengths, and at every position the same data; attributes are the same if they are numbers, texts without a terminating zero or, in the netCDF-4 format, lists of texts. With a configuration the names and types are those of the configuration. Fixed dimensions of length 0 come back with length 1, and the unlimited dimension must be the slowest one of each variable.", "quantifier": "every dataset with at most one unlimited dimension whose data has the type and size of the variable, all formats the library accepts it for, every order of writing", "why_tests_cant": "Datasets, shapes and positions are unbounded, and two independent programs have to agree on the order of dimensions and values.", "anchors": ["src/io/netcdf/NetCDF_CDMWriter.cc: NetCDF_CDMWriter, writeData, defineVariables, writeAttributes", "src/io/netcdf/NetCDF_CDMReader.cc: NetCDF_CDMReader, getDataSlice"]}
{"id": "C94", "title": "Types of the axes of CF datasets", "statement": "The type of an axis is the one a table of rules gives for its attributes: the standard name first, then the units, then 'positive' together with the units, then 'axis'; an earlier attribute that decides is never overruled by a later one, and every type comes from exactly one rule. Standard names, 'axis' and, as far as the library of units does not distinguish, units are compared without regard to the case of letters.", "quantifier": "all texts of the four attributes, each present or missing, and every library of units", "why_tests_cant": "The attributes are arbitrary texts, and the rules overlap.", "anchors": ["src/coordSys/CF1_xCoordSysBuilder.cc: getAxisTypeCF1_x"]}
{"id": "C95", "title": "Coordinate systems of CF datasets", "statement": "If all grid mappings make projections, the listing raises exactly if a variable that is not an axis has two dimensions of the same type. Otherwise the systems are listed in the order of their ids without duplicates; the axes of each system are those of a variable: its dimensions, and its coordinates apart from those whose type is that of a dimension with an earlier name; a system is marked complete for a variable exactly if all its axes are among those of the variable, and a system for it exactly if all axes of the variable are among its own. Every data variable whose axes are all kept and have no commas in their names has exactly one system that is both.", "quantifier": "every dataset, any number of dimensions and variables, all attributes", "why_tests_cant": "Datasets are unbounded, and the result depends on the order of names and on collisions of ids.", "anchors": ["src/coordSys/CF1_xCoordSysBuilder.cc: listCoordinateSystems, getCoordinateAxesNamesCF1_x, getCoordinateNamesCF1_x", "src/coordSys/CoordinateSystem.cc: id, isCSFor, isComplete"]}
{"id": "C96", "title": "Grids and projections of CF coordinate systems", "statement": "A system is marked as a simple grid exactly if its x and y axes are dimensions with one-dimensional variables. Its projection is that of the first variable, in the order of the dataset, that it is complete for and that offers one: through a grid mapping variable that exists, or as longitude and latitude if there is no grid mapping and the axes themselves are longitude and latitude; it has none if no variable offers one. A variable gets the projection of its own grid mapping if all variables with the same axes name the same mapping.", "quantifier": "every dataset, any number of variables and coordinate systems, every library of projections", "why_tests_cant": "Datasets are unbounded and the choice goes over all variables.", "anchors": ["src/coordSys/CF1_xCoordSysBuilder.cc: listCoordinateSystems", "src/coordSys/CoordinateSystem.cc: getGeoXAxis, getGeoYAxis, hasAxisType", "src/CDM.cc: getProjectionOf"]}
{"id": "C97", "title": "Vertical transformations of CF coordinate systems", "statement": "A text of pairs 'key: variable' in 'formula_terms' is read as these pairs, and the loop ends for every text. A system has the transformation of its z axis: height, depth or pressure by the type of the axis, otherwise the formula with the standard name of the axis, if the variables of the formula the code looks at are on the dimensions of the system; the rules leave no choice. Variables the transformation, the projection and the bounds of axes need are recorded as dependencies, and nothing else.", "quantifier": "every dataset, all texts of formula_terms, all coordinate systems", "why_tests_cant": "The attribute is an arbitrary text that is searched with a regular expression.", "anchors": ["src/coordSys/CF1_xCoordSysBuilder.cc: listCoordinateSystems, isCSForTerm, is_altitude_name"]}
{"id": "C98", "title": "Components of vectors", "statement": "Enhancing a dataset changes nothing but which variables are components of vectors. Components that were there stay as they are; every new component has another new one as counterpart, the two name each other, and in CF datasets they have the same shape, standard names that begin with the two names of one line of a fixed table, and the directions of that line; in WRF datasets they are the wind components of WRF. If all vectors of the dataset were mutual, they still are. Of two variables of the same shape with the two names of a line at least one is a component afterwards. In the table the two names of each line are the same up to x/y and eastward/northward, and the directions are those the names say.", "quantifier": "every dataset with different and nonempty names of variables, all standard names and shapes, both conventions", "why_tests_cant": "Datasets and standard names are unbounded, and the result depends on the order of variables and of 72 lines.", "anchors": ["src/coordSys/CoordinateSystem.cc: enhanceVectorProperties", "src/coordSys/CF1_xCoordSysBuilder.cc: enhanceVectors, enhanceVectorProperties", "src/coordSys/WRFCoordSysBuilder.cc: enhanceVectorProperties", "src/CDMVariable.cc: setAsSpatialVector, vectorDirectionFromString"]}
{"id": "C99", "title": "Horizontal coordinate systems for interpolation", "statement": "The horizontal systems for interpolation are exactly one for each pair of horizontal axes of a usable system, that is, a simple grid with projection or, if the coordinates are wanted, a system with latitude and longitude: the horizontal part (axes, projection, convention) of the last one with these axes. A variable is connected with the axes of its own system exactly if a usable system has these axes; a variable that has a dimension of a chosen axis is connected, an axis of the chosen system, or reported as incompatible, and incompatible variables are no others. For CF datasets the call always succeeds. A variable gets the projection and coordinates of its own system if all usable systems with these axes have the same.", "quantifier": "every list of systems with different names of axes, every dataset, both kinds of interpolation", "why_tests_cant": "Datasets and lists of systems are unbounded, and the choice depends on their order.", "anchors": ["src/coordSys/CoordinateSystem.cc: findBestHorizontalCoordinateSystems, horizontalId, setAxis", "src/CDMInterpolator.cc: findBestCoordinateSystemsAndProjectionVars"]}
{"id": "C100", "title": "The dataset on a new grid", "statement": "When the grid of a dataset is changed, the new dataset is described completely: the dimensions of the first old grid have the lengths of the new axes and those of all other old grids are gone; the variables are those of the old dataset but the parameters of old projections, the axes of the other grids and the old longitudes and latitudes, interpolated ones being moved to the dimensions of the first grid; the axes have the new values, types, names and units; a new projection has its parameters and the longitude and latitude of the new grid, with names not used before, and interpolated variables refer to exactly these; all other attributes are as before, and the conventions are named. The name of the projection is the word after the first '+proj=' with one. All dimensions of variables exist afterwards. Variables that are not interpolated are those of the old dataset with the same lengths if they are not on the first grid. The grids must have no dimension in common.", "quantifier": "every dataset, any number of grids and variables, all attributes, all new axes and projections", "why_tests_cant": "Datasets are unbounded, and each grid changes shapes, variables and dimensions the next one relies on.", "anchors": ["src/CDMInterpolator.cc: changeCDM, findBestCoordinateSystemsAndProjectionVars, getProjectionName", "src/CDM.cc: generateProjectionCoordinates, removeDimension, removeVariable, addOrReplaceAttribute"]}
{"id": "C101", "title": "Projections and their texts", "statement": "A projection is of the class that its grid_mapping_name says, and a proj4 text gives the class that the first '+proj=' of it says (the stereographic ones by their latitude, the rotated one by the projection below it, UTM as a transverse Mercator one); there is one class for each text and none without '+proj='. A number in the attributes is the number of the text behind the key of that attribute, the figure of the earth is that of the text, and the attributes are written behind the same keys. Reading a text, writing the projection and reading again keeps the class, the numbers of the class, false easting and northing, the scale factor, the first standard parallel, the pole of a rotated system up to whole turns, and the sphere or the two axes of the earth; a text of no known class is kept as it is. Replacing the earth takes out exactly the words of the old one.", "quantifier": "all texts, all lists of attributes, all 17 classes, every way of reading and printing numbers in which printed numbers are words", "why_tests_cant": "Texts and attributes are unbounded; a key can be in other words of the text, and the result depends on the order of 17 questions.", "anchors": ["src/coordSys/Projection.cc: create, createByProj4", "src/coordSys/ProjectionImpl.cc: addParametersFromProj4, getProj4EarthString, getProj4String, replaceProj4Earthfigure", "src/coordSys/*Projection.cc: acceptsProj4, parametersFromProj4, getProj4ProjectionPart"]}
{"id": "C102", "title": "Merged datasets", "statement": "Two datasets are merged on the grid of the first variable of the inner one that the outer one has too and whose complete coordinate system is a simple grid with a projection: its projection, the values of its axes, each in its own unit; without such a variable an error is raised. A variable of both datasets is compatible exactly if neither has a coordinate system for it, or both have and the lengths of the axes of six types fit and the dimensions have the same names or the same lengths in order, horizontal ones facing each other. The merged dataset has exactly the compatible variables of the inner one and those they need, in order and with their attributes, all its dimensions, and if wanted the variables, attributes and dimensions of the outer one that the inner one did not have; once all variables can be compared, merging raises no error. All dimensions of variables exist, variables of the inner dataset keep their lengths, and those of the outer one do if dimensions of the same name have the same length. With smoothed borders all variables can be read; in an overlay all but those that are needed by compatible ones and are neither dimensions nor in the base.", "quantifier": "all pairs of datasets, any number of variables, dimensions and coordinate systems, every interpolation of the outer dataset", "why_tests_cant": "Datasets are unbounded, and what is kept depends on all variables and coordinate systems together.", "anchors": ["src/CDMMergeUtils.cc: makeMergedCDM, is_compatible, checkAxesCompatibility, checkSingleAxisCompatibility, axisLength, getAxisValues, addAuxiliary", "src/CDMOverlay.cc: getDataSlice", "src/CDMBorderSmoothing.cc: getDataSlice"]}
{"id": "C103", "title": "Nearest cells by coordinates", "statement": "For each target with a latitude between the poles, the search by latitude gives column and row of a known cell at the smallest angle on the sphere, provided that this angle is less than the distance of interest, and (-1, -1) otherwise; any sorted order of the points will do. The distance of interest is the largest angle from a cell to the next known one, times 1.414 and not more than half a turn, over all cells of a small grid and 53 of one with more than 1000 cells; one of these must be known, and if no other is known nothing is found. The search with a tree gives a known cell at the smallest angle too, if the straight line to it is shorter than the distance given or, without one, the largest step of the new axes, and (-1000, -1000) otherwise. A target at a known cell finds that place, a target that is not a number finds nothing, both searches find equally near cells, and the values taken are those of the cell on all levels, undefined where none is found. Distances given for a new grid in degrees are converted from metres.", "quantifier": "all grids of any size, all coordinates including unknown ones, all targets, all sorted orders, all trees that meet the contract", "why_tests_cant": "The search stops by latitude, which is correct only because of the geometry of the sphere; places are real numbers.", "anchors": ["src/CDMInterpolator.cc: fastTranslatePointsToClosestInputCell, getGridDistance, flannTranslatePointsToClosestInputCell, getMaxDistanceOfInterest"]}
{"id": "C104", "title": "Cross sections", "statement": "The points of a cross section are its first coordinate and then, for each further one, points at equal steps on the straight line to it in the projection: as many as there can be with steps of at least one cell, but at least one, so that neighbours are less than two cells apart and the last point is the coordinate itself. A cross section of a single coordinate is that point, and one without coordinates is left out. Where the projection and its inverse cancel, a cross section goes through all its coordinates. The bounds written are the positions of the first and last point, so that consecutive cross sections divide all points; the names are written in fields of equal length, each at least 80 long and ended by a zero. The dataset gets exactly three dimensions and two variables with their attributes. Raised are errors for axes with less than two values or with equal first ones, for names that exist, if there are no coordinates at all, for methods that are not for points, and for a second call.", "quantifier": "all lists of cross sections with any number of coordinates, all datasets, all projections given as pairs of functions", "why_tests_cant": "Numbers of coordinates, points and names are unbounded, and steps are real numbers.", "anchors": ["src/CDMInterpolator.cc: changeProjectionToCrossSections", "include/fimex/CrossSectionDefinition.h"]}
{"id": "C105", "title": "The aggregated dataset", "statement": "After any readers have been added, each a proper dataset, names of variables and dimensions are unique and there is at most one unlimited dimension, the joined one. Each variable is joined or comes from exactly one reader, where it has the same attributes, shape, data and lengths. Along an existing dimension the joined variables are exactly those on it, without data of their own and with the other lengths of the reader they come from; along a new one they are those named, with the new dimension last. No variable of a reader is lost but for a dimension on which the datasets do not agree. The joined dimension is as long as those of the readers together, and each position belongs to the reader that is reached after the positions of those before it. If all contributing readers have coordinate values there is one for each position, in order, and initialising gives them to the coordinate variable and changes nothing else. Readers without coordinate values that agree about unlimited dimensions raise no error. A document with one aggregation has the dataset of its elements in order; another type, or an element that cannot be read, raises an error.", "quantifier": "all lists of datasets of any length with any number of variables and dimensions, the three kinds of aggregation", "why_tests_cant": "What is added depends on all earlier readers; numbers of readers, variables and dimensions are unbounded.", "anchors": ["src/AggregationReader.cc: addReader, addFirstReader, addOtherReader, extendJoinedUnLimDimBy, initAggregation", "src/NcmlAggregationReader.cc: NcmlAggregationReader"]}
{"id": "C106", "title": "Rotated vectors and directions", "statement": "After any calls to turn vectors or directions, failed ones included, the components of each vector that is turned belong to the same system, whose matrix is there; the matrix to latitude and longitude is made for all points of its grid. A call that succeeds changes in the dataset only the vectors and standard names of the variables it names, which become components towards longitude and latitude or along the axes. Different numbers of components, variables without projection and components of different systems raise errors. Reading a component gives, at each point of each layer, that of the vector turned by the rotation of the point, undefined if one of the two is undefined; directions are turned as quantities, with the packing undone and done again; all other variables are given as they are, and components of different size raise an error. Turning all vectors, if it succeeds, turns exactly those along the axes, including the ones found by name, and puts a word before their standard names.", "quantifier": "all sequences of calls, all datasets, slices of any size, all matrices and packings", "why_tests_cant": "The state depends on all earlier calls, and slices are unbounded.", "anchors": ["src/CDMProcessor.cc: makeCachedVectorReprojection, rotateAllVectorsToLatLon, rotateVectorToLatLon, rotateDirectionToLatLon, getDataSlice"]}
{"id": "C107", "title": "Datasets with new levels", "statement": "Let the vertical axes of the coordinate systems fit the dataset: they are along dimensions of it, each variable of a system has the dimension of its vertical axis and belongs to one system, and an axis does not belong to the system of another. All datasets of the CF conventions do whose coordinate variables are along themselves and whose coordinates that are dimensions are in the shape. Then changing to fixed levels adds one dimension and one variable of a new name, with the levels and the attributes of one of four types; each variable of a system with horizontal axes and a vertical axis of more than one level has the new dimension in place of the old one and no longer the axis among its coordinates; these axes are removed; everything else is that of the reader, names stay unique and shapes name dimensions. Data are read from memory for the new axis, with new levels for exactly those variables, and from the reader for the others. A second call raises an error and leaves the dataset, but not the levels. Changing to the levels of another axis or of a variable does the same with the dimension of that axis, for all other axes; the former needs a name that is a dimension, and the latter raises an error for variables without such a system or without vertical transformation. A variable of a system without the dimension of its axis raises an error. Other types and methods are refused.", "quantifier": "all datasets with any number of variables, attributes and coordinate systems, all levels, all texts of coordinates", "why_tests_cant": "Numbers of systems and variables are unbounded; each edit works on what the earlier ones left.", "anchors": ["src/CDMVerticalInterpolator.cc: CDMVerticalInterpolator, interpolateToFixed, interpolateToAxis, interpolateByTemplateVariable, getDataSlice, isSimpleZAxis, replaceZaxis"]}
{"id": "C108", "title": "Longitude and latitude for all grids", "statement": "Generating coordinates for a dataset gives each grid with a projection, regular axes and not both longitude and latitude a new longitude and latitude on its axes, with the values the projection gives for the values of the axes, and the attributes of longitude and latitude, if the names of the axes joined by an underscore tell the grids apart and grids on the same axes have the same projection. Each variable of such a grid names them as its coordinates. Everything else stays: dimensions, variables (values of axes may be read into memory), attributes of the dataset, and all other attributes of variables; variables that are not on such a grid keep all attributes. The new names are not used before. Coordinate systems listed afterwards for those variables have longitude and latitude, so that nothing more is generated for them.", "quantifier": "all datasets with any number of grids and variables, all projections and values of axes", "why_tests_cant": "Numbers of grids and variables are unbounded; each grid is added to what the earlier ones left.", "anchors": ["src/CDMReaderUtils.cc: generateProjectionCoordinates(CDMReader_p)"]}
{"id": "C109", "title": "Coordinate systems of WRF datasets", "statement": "Listing the coordinate systems of a dataset of the WRF model leaves all dimensions, variables, data and attributes that exist, also if it raises an error; new variables are ones along their own dimension, or the reference time, and names stay different. If it succeeds and the projection is known: each horizontal dimension without a variable has one with equally spaced values, by the distance given, with the centre of the grid in the middle; levels are numbered from 0, and times are hours in equal steps since the start. Each variable on a horizontal grid has exactly one coordinate system, whose axes are those of its dimensions, with the types of WRF dimensions, in the projection that the attributes of the dataset describe, if names of dimensions have no commas and are not empty; no other variable has one. Listing again changes nothing and gives the same systems. A listing does not succeed if there is neither a time variable nor a reference time, or if a variable of the grid has another dimension without a variable.", "quantifier": "all datasets with any number of variables and dimensions of any length, all projections as functions", "why_tests_cant": "Numbers of variables, dimensions and values are unbounded; what is added depends on what is there.", "anchors": ["src/coordSys/WRFCoordSysBuilder.cc: isMine, wrfListCoordinateSystems"]}
{"id": "C110", "title": "Grids survive writing to GRIB and reading", "statement": "A grid in longitude and latitude with axes of equal steps and at least two, at most 360000 longitudes, is written to a message without an exception and read again, in both editions, with the same axes, up to a multiple of 360 degrees for the longitudes. A rotated grid with its pole at whole degrees is read with the same axes and pole, up to multiples of 360. A Lambert grid with growing axes is read with the same number of points, steps and parallels, its meridian up to a multiple of 360, and axes that start where the projection puts the longitude and latitude of the first point; so is a stereographic grid of edition 2 with the pole of the message before and the latitude of true scale that belongs to the scale factor. Loops over degrees end. Datasets without projection, with another projection or with axes of fewer than two points raise errors. The figure of the earth of a message is that of its code, with axes in metres if the message gives them so.", "quantifier": "all grids of any size, all numbers as axes and parameters, all messages of the library as start", "why_tests_cant": "Axes and parameters are unbounded, and the two directions are different functions in different files that never call each other.", "anchors": ["src/io/grib/GribApiCDMWriter_Impl1.cc: setProjection", "src/io/grib/GribApiCDMWriter_Impl2.cc: setProjection", "src/io/grib/GribFileIndex.cc: getGridDefRegularLL, getGridDefRotatedLL, getGridDefLambertConformal, getGridDefPolarStereographic, getEarthsFigure", "src/io/grib/GribCDMIndexer.cc: loadAddProjection"]}
{"id": "C111", "title": "Levels, parameters and values of GRIB messages", "statement": "The coefficients of hybrid levels of an axis whose surface is last are written and read again, for any of its levels in any order, times the scale factor of the reader; the levels of the messages are positions from 1. Different numbers of coefficients raise an error. The reader gives means of neighbours of the same half, or the value at the position, and values of several elements one after the other. Levels of an axis are unpacked, converted to the unit of the configuration and packed; unpacked again, the level of a message is that of the axis if that is a whole number, and less than one scale factor away otherwise. An axis that is not configured, or more than once, gives no level. The parameter of a variable is the only element of its name or else of its standard name, with no level or the same level; its number, table, category and discipline and the attributes of the element are set. Values of a message are those of the variable in the same order, unpacked and in the unit of the parameter; missing values stay missing.", "quantifier": "all axes of any length, all coefficients, levels, configurations and data", "why_tests_cant": "Numbers of levels, elements and values are unbounded; writer and reader of the coefficients are in different files with different loops.", "anchors": ["src/io/grib/GribApiCDMWriter_ImplAbstract.cc: getLevels, hasNodePtr, getNodePtr", "src/io/grib/GribApiCDMWriter_Impl1.cc: setLevel, setParameter, handleTypeScaleAndMissingData", "src/io/grib/GribApiCDMWriter_Impl2.cc: setLevel, setParameter, handleTypeScaleAndMissingData", "src/io/grib/GribCDMIndexer.cc: readValuesFromXPath_"]}
{"id": "C112", "title": "Messages of GRIB files", "statement": "Writing a dataset to GRIB, with one reference time for each coordinate system, gives a file whose messages are, in order, exactly those of the fields that can be written: system by system, and in a system by time, variable and level. Each message holds the values of its field and the keys of its grid, time, level, parameter and missing values, although one message is used for all of them. Fields without data, without a known level or parameter and, if they are to be omitted, with nothing but fill values are left out, as are systems without horizontal grid, configured variables or a known projection; the others are not touched by that.", "quantifier": "all datasets with any number of systems, times, variables and levels, all data, all messages as start", "why_tests_cant": "Numbers of systems, times, variables and levels are unbounded, and each message depends on what all earlier ones left.", "anchors": ["src/io/grib/GribApiCDMWriter_ImplAbstract.cc: run"]}
{"id": "C113", "title": "Fields of Felt files", "statement": "Opening a Felt file of complete index blocks gives the fields of its index in order: the first entries with data, as many as the first block says; entry i is the 16 words from word 2048 + 16 i on. A file under update and one with a negative number of fields are refused. A field is read as it was stored, header, values and further words, for every block up to 3276699, every place in a block and every length below 10714809 words, although the entry has only 16 bit for each of them. Reading a field changes nothing for the next one. Files of both byte orders give the same fields. The reference time is that of the entry, and the valid time is the one time of the calendar that is the given number of hours later or earlier, over ends of months and years.", "quantifier": "all files of any length, all numbers of fields, blocks and lengths, all dates and hours", "why_tests_cant": "Files, numbers of fields and lengths are unbounded; the coded block numbers and lengths only differ from plain ones for large files.", "anchors": ["src/io/felt/FeltFile.cpp: FeltFile, getHeaders, getBlock_, get_", "src/io/felt/FeltField.cpp: startBlock, gridSize, extraDataSize, grid, valid", "src/io/felt/FeltTime.cpp: parseTime, operator+"]}
{"id": "C114", "title": "Arrays of Felt files", "statement": "The name of a field of a Felt file is the first one, in the order of names, whose given words it has; words given as text, by position or by name, are the words that are compared, the last one counts, and all others are free. The fields of a file become arrays, one for each name: exactly if all fields of a name have one parameter and kind of level and each field has another type than the one before it with the same time and level; otherwise there is an error. An array then has the last field of each time and level. Its times, levels and ensemble members are those of its fields, each once, growing; an array has no time exactly if it has one time and its first field is a parameter field. A field is found by its time and level, and otherwise there is none. Values are read in order: missing ones as fill value, others times the scale factor as numbers of the file times the power of ten of the field; changes of grid, or of the power of ten for short values, are errors. The reference time is the one of all fields of the arrays, or there is an error; coefficients of hybrid levels are those of the first field.", "quantifier": "all lists of fields in any order, all words, all restrictions, all times, levels and values", "why_tests_cant": "Numbers of fields, names, times and levels are unbounded; the result depends on the order of the fields in the file.", "anchors": ["src/io/felt/Felt_Array2.cc", "src/io/felt/Felt_File2.cc: init, findOrCreateFeltArray, getScaledDataSlice, getUniqueReferenceTime, getFeltTimes, getFeltLevelPairs", "src/io/felt/FeltParameters.cc: diana2feltparameters, getParameterName"]}
{"id": "C115", "title": "Data of Felt files", "statement": "A variable of a Felt file has the axes x and y, ensemble members if its array has more than one, levels unless there is one level of some kinds, and time unless it has none. If all fields of the array have the size of the grid, a slice has as many values as these axes need, and the value at x, y, member, level and time is the one of the field of that time, level and member, or the fill value of the variable if there is no such field; all of them are written. The slice can be read exactly if each such field can be read or there is none and the fill value is known. Each field of the array has a place in the slices. Slices of times the variable does not have are empty, and positions behind the times are an error.", "quantifier": "all files of any number of fields, times, levels and members, all sizes of the grid, all positions", "why_tests_cant": "Numbers of fields, levels, members and times are unbounded; places of the values depend on the order of two loops and on axes that are shared by all variables.", "anchors": ["src/io/felt/FeltCDMReader2.cc: getDataSlice, initAddVariablesFromXML", "src/DataImpl.h: copyData"]}
{"id": "C116", "title": "Interpolation onto new grids", "statement": "After a change to a new projection, the value of the cell in column x and row y of the new grid is that of the input field at the point (x-axis value x, y-axis value y) converted from the new projection to that of the input. For bilinear interpolation of a field that in every layer is a + b x + c y + d x y in the coordinates of its own grid, with axes of any spacing and direction, this is exactly the function at the converted point for every point between the ends of the axes; longitudes count modulo 360 degrees. Nearest neighbours give the old cell whose indices are nearest to the position. A point that the conversion gives no finite coordinates has an undefined value, and a conversion that is refused is an error. Lists of points and templates put the i-th longitude and latitude to the i-th position; forward interpolation puts each input cell, whether longitudes and latitudes are axes or two-dimensional, to its converted position on the new axes. The direct interpolation function gives the same values as the interpolator with its cache and its reduced input. For new axes without start or end, the box is the smallest one with all converted input cells.", "quantifier": "all conversions, all strictly monotone axes of any length, all fields and numbers of layers, all new grids", "why_tests_cant": "Axes, projections and fields are unbounded; errors in order or direction of axes only show for particular grids.", "anchors": ["src/CDMInterpolator.cc: changeProjectionByProjectionParameters, changeProjectionByProjectionParametersToLatLonTemplate, changeProjectionByForwardInterpolation, changeProjection, lonLatVals2Matrix", "src/reproject.cc: reproject_axes, reproject_values, reproject_f", "src/CachedInterpolation.cc: createCachedInterpolation"]}
{"id": "C117", "title": "Datasets on the points of a template", "statement": "A change to the points of a template or of a list of longitudes and latitudes gives a dataset in which each interpolated variable has the dimensions x and y of the points in place of those of its grid, and the attribute coordinates with longitude and latitude; all other attributes but the grid mapping are kept. x and y are axes with the given values, units and type, and longitude and latitude are variables on x and y with the given values. The axes, dimensions, coordinates and grid mappings of the old grids are gone; variables and dimensions that have nothing to do with them are unchanged. All dimensions of variables exist. A projection that is not one of longitudes and latitudes is refused.", "quantifier": "all datasets, all numbers of grids, all points", "why_tests_cant": "Numbers of grids, variables and attributes and their names are unbounded; names of the template can be in the dataset already.", "anchors": ["src/CDMInterpolator.cc: changeCDMToLatLonTemplate, addLonLatWithData"]}
{"id": "C118", "title": "Changing the projection several times", "statement": "Whatever has been done with an interpolator before, including calls that failed, a change to new axes with nearest neighbours, bilinear or bicubic interpolation ends as with a new interpolator of the same reader; if it succeeds, the dataset is the same, and all variables are interpolated in the same way, vectors with the matrix of these axes. A template gives exactly the state of a new interpolator. With methods that use coordinates the same holds for variables that are no vectors. Lists of points and cross sections only depend on the reader and the current dataset. Calls that are refused change nothing; after an unknown method nothing is interpolated. Only methods that use coordinates change the reader.", "quantifier": "all sequences of calls of any length, all readers and new grids, all outcomes of the single steps", "why_tests_cant": "Sequences of calls are unbounded, and errors only show if something of an earlier call is left.", "anchors": ["src/CDMInterpolator.cc: changeProjection, changeProjectionByProjectionParameters, changeProjectionByCoordinates, changeProjectionByForwardInterpolation, changeProjectionByProjectionParametersToLatLonTemplate, changeProjectionToCrossSections, findBestCoordinateSystemsAndProjectionVars, hasXYSpatialVectors, getDataSlice"]}
{"id": "C119", "title": "Options of the program and the readers it builds", "statement": "The readers the program puts on its input are those its options ask for, each one once and in a fixed order (processing, quality, extraction, times, horizontal and vertical interpolation, merging, quality, NcML). The operations of the processor and of the extractor are exactly those asked for, in a fixed order, dimensions in the order they are named; the new grid is the one asked for, and the points of cross sections together are the points given. If the program comes to its end, the files asked for and no others have been written, of the dataset at the end of the chain; if a stage refuses its options or a reader cannot be built, no file has been touched. Incomplete options of the extractor never lead to a dataset. Of the 117 options the program takes, 111 can have an effect and six never have one; the end of a time alone, and a grid or configuration for a merger alone, have no effect. Configurations of the inner dataset that name each other never come to an end.", "quantifier": "all options and values, all libraries that read texts, all outcomes of constructors, all depths of nested configurations", "why_tests_cant": "There are 117 options with any number of values, and nested configurations of any depth; that an option has no effect is a statement about all other options.", "anchors": ["src/binSrc/fimex.cc: getCDMFileReader, printReaderStatements, getInterpolationMethod, getCDMProcessor, getCDMExtractor, getCDMQualityExtractor, getCDMTimeInterpolator, getCDMVerticalInterpolator, createCDMInterpolator, getCDMInterpolator, getNcmlCDMReader, getCDMMerger, applyFimexStreamTasks, fillWriteCDM, writeCDM, run"]}
{"id": "C120", "title": "Datasets changed by NcML documents", "statement": "The constructor of the NcML reader keeps the names of variables, dimensions and attributes unique. A variable that no element names, that is not removed and has no renamed dimension keeps shape, type, data and attributes and is read from the variable of the same name. Removed variables are gone unless an element has their name. The last element that gives a length, a limit, a shape, a type, values, a vector or the value of an attribute decides; values are made for the type and lengths of the resulting dataset; attributes of absent variables are refused. Variables the document adds have the shape and type of their element and can be read, except those of the type long. No document leads to a type without sign. Without a document, a name or the root netcdf there is no reader.", "quantifier": "all documents with any number of elements in any order, all datasets with unique names, all libraries that split texts and convert values", "why_tests_cant": "The result depends on ten passes over a document of any size; that an element has no effect on a variable is a statement about all other elements.", "anchors": ["src/NcmlCDMReader.cc: NcmlCDMReader, init, initRemove, initDimensionNameChange, initDimensionUnlimited, initVariableShapeChange, initVariableNameChange, initVariableTypeChange, initVariableDataChange, initVariableSpatialVector, initAttributeNameChange, initAddReassignAttribute, createAttributeFromXML, getDataSlice, applyVariableTypeChange", "src/XMLDoc.cc: getXPathObject, getXmlProp, getXmlContent", "src/CDMVariable.cc: setData, setDataType, vectorDirectionFromString"]}
{"id": "C121", "title": "Index files of GRIB files", "statement": "An index of messages that is written to an index file and read back is the same index: all messages in order, with parameters, times, levels, ensembles, further keys and grids, if the path has none of the characters & < \" and no line breaks or tabs, numbers have the ranges of their types and doubles are restored by printing and reading. This holds for each index made from a GRIB file. A file of whole messages gives one entry per message, in order, each at the sum of the lengths before it; messages whose grid is unknown are left out. Appending a file to an index keeps the messages of other files in order and replaces those of this file by what the file holds now. An index is written exactly if each message has edition 1 or 2 and a unit of steps of the code table; otherwise an exception is raised. A message that tells nothing of ensembles and clusters is the member whose pattern is the first to match the path. Longitudes from -360 on are brought to 0 to 360 and stay there.", "quantifier": "all messages and indexes of any length, all files of any number of messages, all libraries that decode messages and print numbers, all options", "why_tests_cant": "Indexes have any number of messages with texts and numbers of any size; that appending loses nothing is a statement about all earlier contents.", "anchors": ["src/io/grib/GribFileIndex.cc: GribFileMessage, toString, readGribMessageSize, GribFileIndex, init, initByGrib, initByGrbml, initByXMLReader, operator<<", "src/GridDefinition.cc: GridDefinition"]}
{"id": "C122", "title": "Messages of GRIB files find their parameters in the configuration", "statement": "A message gets the first parameter of the configuration, in the order of the document, that has an element for its edition with its number, whose restrictions it meets: two further numbers, type and number of the level, time range, statistical processing, kind of step, and the further keys the message has; it gets none exactly if there is no such element. With the option to take defined parameters only, exactly the messages without parameter are skipped. Each parameter gives one variable with the name, type, attributes, factor and offset it says; the dataset has the type and attributes configured, none twice, and for whole numbers the attributes undo the packing. Declared vectors and templates in attributes should be in the dataset as configured; they are not.", "quantifier": "all documents with any number of parameters and elements, all messages with any further keys, all libraries that read numbers", "why_tests_cant": "Configurations have hundreds of parameters that shadow each other; that no earlier element fits is a statement about all of them.", "anchors": ["src/io/grib/GribReaderConfig.cc: configFromXML, initXMLConfig, findVariableConfig, getVariableName, pc_grib_any, set_optionals_long, has_optionals_long, set_optionals_string, has_optionals_string, getConfigEarthFigure", "src/io/grib/GribCDMIndexer.cc: loadOneMessage, initUpdateTemplatedAttributeValues, initAddVariables", "src/CDMVariable.cc: vectorDirectionFromString"]}
{"id": "C123", "title": "Datasets made from GRIB messages are consistent and have the axes of the messages", "statement": "The dataset made from loaded messages has unique names of dimensions and variables, shapes with existing dimensions, and attributes of existing variables only. Every variable of the messages is there with x, y, members, levels and times in this order, the last three as its messages have them, with the lengths of its grid, of the largest ensemble, of its levels and of all times; the table of messages, which recovers these from names in the shape, gets exactly these lengths. The time axis is unlimited and has the valid times in ascending order in the units configured; every grid has its own axes and projection, numbered from the second on; every type and position of levels has its own dimension with the values of the messages; names of members can be recovered. Axes of the configuration should not make a readable file unreadable; some do.", "quantifier": "all lists of messages that can be loaded, all configurations with any number of axes and further variables, any number of grids and levels", "why_tests_cant": "Name clashes between axes of grids, members, levels and variables depend on combinations of messages and configuration; the shape is encoded by names and decoded elsewhere, for any number of levels and members.", "anchors": ["src/io/grib/GribCDMIndexer.cc: build, initAddGlobalAttributes, initLevels, initSpecialLevels_, initAddTimeDimension, initCreateVarMessages, initAddEnsembles, loadAddProjection, initAddVariables", "src/CDMReaderUtils.cc: findUniqueDimName", "include/fimex/Data.h: createData", "src/CDMVariable.cc: setData"]}
{"id": "C124", "title": "Patterns of file names select the files they stand for", "statement": "The expression made from a pattern is always a valid regular expression and matches exactly the texts the pattern stands for: a question mark one character other than a slash, one star any number of them, two stars anything, other characters themselves. The search starts at the longest directory without wildcards and does not go deeper than a match can be. With wildcards in the name of the file only, exactly the regular files of that directory whose names match are found, each once and in order; for deeper patterns the same should hold for all files below the directory. Files reported are always regular files there, each once. The extension of a name is what follows the last dot, in small letters, if it has letters, digits and underscores only, and otherwise empty.", "quantifier": "all patterns, all trees of directories with any names, all file names", "why_tests_cant": "Patterns and trees have any size; that no file is missed is a statement about all of them, and characters with a meaning in expressions occur in names.", "anchors": ["src/FileUtils.cc: globFiles, getExtension, scanFiles, scanFiles_, directory_contents", "src/StringUtils.cc: regex_escape"]}
{"id": "C125", "title": "Formats of files are told apart and opened as named", "statement": "Each format recognises exactly the types of its table, and no type belongs to two formats. With as many first bytes as any format asks for, no byte behind them is read, netCDF recognises exactly HDF5 and classic files, GRIB exactly messages and index files, and no bytes belong to two formats. Names that are neither URLs nor zarr stores belong to at most one format; URLs of OPeNDAP go to netCDF whatever the extension. netCDF opens names without file: and with http: for dods:, and names of zarr stores unchanged; files to be changed have no configuration. GRIB opens the files that the name (one, several with a separator, a pattern, a list) and the arguments say, in order, and needs a configuration unless an index file is read; a member by name has an expression that matches exactly the names containing it. Edition and version written are those of the type or extension.", "quantifier": "all types, names, arguments and first bytes of any length", "why_tests_cant": "Types, names and arguments are arbitrary texts; that no other text is recognised and that formats exclude each other is a statement about all of them.", "anchors": ["src/io/netcdf/NetCDFIoFactory.cc: detectHDF5, detectNetCDF, getNetCDFVersion, isNetCDFZarrFile, matchMagic, matchFileType, matchFileName, createReader, createReaderWriter, createWriter", "src/io/grib/GribIoFactory.cc: isGribType, parseGribArgs, matchMagic, matchFileTypeName, createReader, createWriter", "src/io/felt/FeltIoFactory.cc: matchFileTypeName", "src/NcmlIoFactory.cc: matchFileTypeName", "src/NullIoFactory.cc: matchFileTypeName, matchFileName", "src/IoFactory.cc: matchFileName"]}
{"id": "C126", "title": "Datasets written as NcML documents are read back", "statement": "A dataset written as NcML document, with or without the values of its variables, is read back from that document by the NcML reader: it has the same dimensions with lengths and unlimited flags, the same variables with shapes and types in the same order, the same attributes with types and values, and the values that the source delivered, whole or slice by slice along the unlimited dimension. This holds if names and texts are of characters of XML without tabs and line ends, names in shapes are words without space and markup, types are numbers with sign or texts, attributes are not empty, printed numbers are read exactly, values that are texts contain no markup and can be told from the marker between them, every variable has at least one value, and there are no vectors. Texts of attributes come back exactly if they have no tabs and line ends, whatever else is escaped. What the conditions exclude does not come back.", "quantifier": "all datasets with any number of dimensions, variables, attributes and values of any length, with and without data", "why_tests_cant": "Documents have any size and texts any characters; that escaping and parsing, separators and splitting, reversed shapes and types fit together for all of them cannot be tested.", "anchors": ["src/NcmlCDMWriter.cc: shapeToXMLStream, findStringsSeparator, write, writeAttributes, writeVariableHeader", "src/XMLUtils.cc: escapeXmlToStream", "src/NcmlCDMReader.cc: init, split_ncml_values, createAttributeFromXML, initVariableDataChange", "src/DataUtils.cc: initDataByArray", "src/Type2String.cc: type2stream"]}
{"id": "C127", "title": "Templates in attributes of configurations are replaced", "statement": "In an attribute of a configuration, every place of a template, plain, with a format, or with a format and options, is replaced by the text its object gives for that format and these options, and everything else is kept, as long as formats have no comma, options no line end, and behind a place with brackets no closing bracket is followed by a percent sign. A text in which no template occurs is unchanged. The attributes of an element are those of its children of that name, in order, with name and type as written; only the first node found counts. Times are written in the given format, shifted by the first option. Two places with brackets should be replaced each by itself, a place without brackets should use the format of the object, and an offset should be that of its place only; none of these holds.", "quantifier": "all texts with any number of places, all names of templates, all objects with state, all lists of elements, all times, formats and options", "why_tests_cant": "The expression goes back over any length of text and takes the longest match; objects are shared between places and attributes, so that results depend on everything before.", "anchors": ["src/CDM_XMLConfigHelper.cc: replaceTemplateAttribute, fillAttributeListFromXMLNode, readXPathNodeWithCDMAttributes", "src/ReplaceStringTimeObject.cc: operator<<, setFormatStringAndOptions", "include/fimex/ReplaceStringTemplateObject.h: put, setFormatStringAndOptions"]}
{"id": "C128", "title": "The configuration of the quality control is applied as written", "statement": "A document for the quality control is accepted exactly if it has one root and every element for a variable names one status variable, says no type or configuration without a file, gives values or else a rule, and the status variable has the same dimensions or dimensions of the lengths of the first ones of the variable. If no variable has two elements, each is controlled with the status variable, file, fill value and rule of its element, and no other variable is. Sizes of variable and status variable are then in a whole ratio if lengths of equal names are equal. A slice is masked by the slice of the file, of the variable itself, or of the status variable after its own control, and by that of the first position if there are no values; this ends exactly for configurations that are not circular. The automatic configuration should control the variables that belong to flags by their standard names; it does not.", "quantifier": "all documents with any number of elements, all datasets, all chains of status variables, all positions", "why_tests_cant": "Conditions are on all elements and dimensions together; recursion over status variables can have any depth, and that it ends or does not end cannot be observed.", "anchors": ["src/CDMQualityExtractor.cc: CDMQualityExtractor, findCorrespondingVariables, getValidValues, getDataSlice"]}
{"id": "C129", "title": "Parameters of the Felt reader are those of the configuration", "statement": "The texts that the Felt reader makes of the elements of its configuration and takes apart again with regular expressions carry what the configuration says: each parameter is known under its own id, with the restrictions of its id and then those given for all, with the type of its element (short if there is none) and with its first fill value (the general one if there is none), and nothing is known under other names. This holds if ids are different, types are of small letters, fill values have no colon, the words put in between do not occur in ids and restrictions, and the restriction for all is not empty and does not occur inside an id. Types other than short, float and double should be refused; they are not.", "quantifier": "all configurations with any number of parameters, all ids, types, fill values and restrictions", "why_tests_cant": "Ids and restrictions are free texts that are searched and cut by expressions; that nothing is cut from another place, for all texts and any number of parameters, cannot be tested.", "anchors": ["src/io/felt/FeltParameters.cc: FeltParameters, getParameters, getParameterDatatype, getParameterFillValue", "src/io/felt/FeltCDMReader2.cc: initGetKnownFeltIdsFromXML", "src/io/felt/Felt_File2.cc: Felt_File2"]}
{"id": "C130", "title": "The interface for C keeps to the memory of the caller and reports errors", "statement": "A text is copied into exactly the memory the caller gives, followed by zeros, or only zeros and the number 0 if there is no room for it; what the caller reads is then the whole text or the empty one, never a part. Regions of a slice builder set by any sequence of calls are inside the dimensions, are reported for each dimension at the place of its name, and nothing behind the ends of the arrays of the caller is written. Values are copied to the beginning of the given memory with their number, and a number other than zero means that memory and file are as before. After any sequence of calls that set functions for variables, scaled values are those of the function set last for that variable, called with the scaled values of the reader below, and other variables are unchanged. This holds if the memory is as large as said and dimensions are shorter than 2^32; values a function returns that equal the fill value are missing. Calls that are refused should return a number, and a variable with any fill value should be readable; both do not hold.", "quantifier": "all texts, sizes and memory of any length, all sequences of calls that set regions or functions, all readers and functions", "why_tests_cant": "Writing behind the end of memory is not seen in a test; that a region or a function set before does not come through after any sequence of calls cannot be tested.", "anchors": ["src/c_fimex.cc: string_cpy, mifi_get_variable_name, mifi_slicebuilder_get_start_size, mifi_slicebuilder_set_dim_start_size, mifi_get_double_dataslice, mifi_fill_scaled_double_dataslice, mifi_write_scaled_double_dataslice, mifi_set_callback_double", "src/C_CDMReader.cc: setDoubleCallbackFunction, getDataSlice", "src/CDM.cc: getFillValue"]}
{"id": "C131", "title": "Cutting GRIB messages keeps the values of the columns in the bounding box", "statement": "Of any number of files the messages with the parameters asked for are written in order, unchanged if there is no bounding box; those that are refused are left out and counted. A bounding box is accepted exactly if its numbers are latitudes and longitudes in order. With it a message is refused exactly if its grid is not regular, its scanning mode is not by rows from the left, or the number of its values is wrong, and is never undefined; else it becomes a rectangle of its columns and rows in which every value is that of its column and row, longitudes stay with their columns, and all columns between west and east are kept except the last one of the grid. This holds for positive distances, exact numbers and grids with points. Rows between south and north should be kept, the last longitude should be that of the last column, longitudes should be found modulo 360, and errors should be reported; none of these holds.", "quantifier": "all files with any number of messages, all sizes of grids, first points, distances, boxes and parameters", "why_tests_cant": "Positions depend on all comparisons with all points of grids of any size; that no column is lost and no value moves cannot be tested for all grids.", "anchors": ["src/binSrc/fiGribCut.cc: findFirstLastIndex, cutBoundingBox, gribMatchParameters, gribCutHandle, gribCut, main", "src/io/grib/GribUtils.cc: gribGetGridOrientation", "src/DataImpl.h: slice"]}
{"id": "C132", "title": "The axes of a Felt file are those its header describes", "statement": "Words behind a grid give all its parameters, either as pairs or as triples with their own exponent, exactly if their number fits, and leave them alone if there are none; any other number is refused and no number of words is read behind its end. Whole numbers written as pairs come back divided by the scale. Without such words a grid is accepted exactly if its distances are not zero. Latitudes and longitudes of a geographic grid begin at those of the header and go in its steps, whether they grow or fall; in a stereographic grid the pole is at the column and row of the header and has the coordinates zero; a Mercator grid begins at its projected corner. This holds for exact numbers and axes as long as the grid. Conic grids without more words should be accepted, and falling latitudes of an axis longer than the grid should begin at that of the header, but are not (proved).", "quantifier": "all types of grids, words of the header, numbers of words behind the grid, scales, numbers of columns and rows", "why_tests_cant": "Tests read one or two grids; that no sequence of words is read behind its end and that rows are right for all numbers of rows needs a proof.", "anchors": ["src/io/felt/FeltGridDefinition.cpp: scaleGridInfoFirst_, scaleGridInfoSecond_, scaleExtraData_, gridParametersPolarStereo_, gridParametersGeographic_, gridParametersMercator_, gridParametersLambertConic_, gridParameters, getScanMode_, polarStereographicProj_, geographicProj_, mercatorProj_", "src/io/felt/Felt_File2.cc: getXData, getYData"]}
{"id": "C133", "title": "The contents shown of a file are exactly the slices asked for, with their statistics", "statement": "Of a variable exactly those slices are shown, each once, whose time, layer and other positions are asked for; hours count as the same if they are so in whole minutes, layers if they are so in whole tenths. Of the values of a slice those that are no numbers are counted and left out; smallest and largest value, sum, mean, median and variance are those of the values left, do not depend on their order, median and mean are between the smallest and the largest value, and a quantile is one of the values with at most its part of the values below it. The option for vertical layers should ask the vertical axis, variables without time should be shown, and one value should have a standard deviation, but are not (proved).", "quantifier": "all data of any length with any values missing, all parts, numbers of times, layers and other dimensions, all options", "why_tests_cant": "Statistics of a few arrays say nothing about others; that no slice is missing or shown twice for all numbers of dimensions needs a proof.", "anchors": ["src/binSrc/fiXYcontents.cc: quantile, calcStats, runStats"]}
{"id": "C134", "title": "A column of a vertical converter is at exactly the position asked for", "statement": "The slice a vertical converter is asked for has size one at the position given in the first dimension of each of the axes of x, y and time that the converter has, and all of every other dimension; it is an exception exactly if one of the positions is outside of its dimension. A value is valid exactly if it is between those limits of the column that exist. Sizes of simple axes are found exactly if every axis that exists has one known dimension, and else it is an exception; for a caller who takes the times from them the column is that of the time itself, whether time is unlimited or not (no code in the repository combines the two). An axis without dimensions should be refused by the adapter, but is undefined behaviour (proved).", "quantifier": "all shapes without repetition, axes, lengths of dimensions, positions below the largest number of 64 bits, limits and values", "why_tests_cant": "Test files have one shape and a few positions; the claim is about every shape, every set of axes, limited and unlimited time and every position, including those outside.", "anchors": ["src/coordSys/verticalTransform/ToVLevelConverterAdapter.cc: ToVLevelConverterAdapter, operator(), isValid, prepareSliceBuilder", "src/coordSys/CoordSysUtils.cc: getSimpleAxes"]}
