{"id": "C01", "title": "Layer registry stays coherent over every history", "statement": "After any sequence of public CostMap calls starting from a constructor called with distinct layer names, getLayers() has no duplicates, contains a name exactly when exists(name) is true, and every layer's matrix has exactly getSize() rows and columns.", "quantifier": "every list of distinct constructor names and every finite sequence of mutating API calls with arbitrary arguments", "why_tests_cant": "the registry is kept twice (ordered names and keyed matrices); agreement must hold after every interleaving of adds, erases, resizes, moves and merges, which is an unbounded set of histories", "anchors": ["cost_map_core/src/lib/cost_map.cpp: CostMap::CostMap, add, erase, setGeometry, resize, move, addDataFrom, extendToInclude"]}
{"id": "C02", "title": "add is a keyed store update", "statement": "After add(l, M) on a map whose size is M's size, get(l) is M, every other layer reads as before, getLayers() is unchanged when l existed and otherwise is the old list with l appended at the end, and the geometry, basic layers, frame and timestamp are unchanged.", "quantifier": "every map, layer name and matrix", "why_tests_cant": "must hold for every set of existing layers and every matrix content", "anchors": ["cost_map_core/src/lib/cost_map.cpp: add, get, exists, getLayers"]}
{"id": "C03", "title": "erase removes exactly one layer", "statement": "erase(l) returns true exactly when l exists; afterwards l does not exist, every other layer is untouched, l is gone from getLayers() and, when the basic layers are distinct, from the basic layers, and the order of the other names is preserved.", "quantifier": "every map reachable from distinct constructor names and every layer name", "why_tests_cant": "ranges over all registries and their orders; duplicates are the corner that breaks it", "anchors": ["cost_map_core/src/lib/cost_map.cpp: erase, exists, getLayers, getBasicLayers"]}
{"id": "C04", "title": "Missing layers raise out_of_range and leave the map alone", "statement": "get, at, clear, isValid and the inflation and deflation operators applied to a layer that does not exist throw std::out_of_range and leave the whole map unchanged; on a layer that exists get and clear never throw.", "quantifier": "every map, layer name and index", "why_tests_cant": "the set of layer names and of maps is unbounded", "anchors": ["cost_map_core/src/lib/cost_map.cpp: get, at, clear, isValid", "cost_map_core/src/lib/operators/inflation.cpp: Inflate::operator(), Deflate::operator()"]}
{"id": "C05", "title": "A cell write is visible at that cell and nowhere else", "statement": "After at(l, i) = v for an existing layer and an index in range, at(l, i) reads v, and every other (layer, index) pair, the geometry and the registry read as before. An index out of range is undefined behaviour, not an exception.", "quantifier": "every map, layer, in-range index and value", "why_tests_cant": "non-interference has to hold for every pair of cells and layers", "anchors": ["cost_map_core/src/lib/cost_map.cpp: at"]}
{"id": "C06", "title": "clear, clearBasic and clearAll have exactly their documented extent", "statement": "clear(l) sets every cell of l to NO_INFORMATION and nothing else; clearAll does so for all layers; clearBasic for exactly the basic layers; none of them changes geometry, registry or metadata. clearBasic with a basic layer that does not exist throws after clearing the ones before it.", "quantifier": "every map and layer name", "why_tests_cant": "ranges over all maps, sizes and registries", "anchors": ["cost_map_core/src/lib/cost_map.cpp: clear, clearBasic, clearAll"]}
{"id": "C07", "title": "Validity of a cell", "statement": "isValid(i, l) is true exactly when the cell is not NO_INFORMATION; isValid(i, ls) is true exactly when ls is non-empty and every named layer is valid at i; isValid(i) is isValid(i, getBasicLayers()), so with no basic layers every cell is invalid. A false verdict found at an earlier layer hides a missing later one.", "quantifier": "every map, in-range index and list of layer names", "why_tests_cant": "ranges over all layer lists and cell contents", "anchors": ["cost_map_core/src/lib/cost_map.cpp: isValid (three overloads)"]}
{"id": "C08", "title": "Vector and 3D reads agree with the layers", "statement": "getPosition3(l, i) succeeds exactly when the cell is valid and then returns the centre of cell i and the cost as z; getVector(prefix, i) succeeds exactly when prefix+x, prefix+y and prefix+z are all valid at i and then returns their three costs in that order.", "quantifier": "every map, prefix and in-range index", "why_tests_cant": "ranges over all maps and contents", "anchors": ["cost_map_core/src/lib/cost_map.cpp: getPosition3, getVector"]}
{"id": "C09", "title": "setGeometry establishes the map geometry", "statement": "For positive length and resolution setGeometry gives getSize() = length/resolution rounded half away from zero, getLength() = getSize()*resolution, which differs from the requested length by at most half a cell, the given centre and resolution, start index zero, and every existing layer resized and filled with NO_INFORMATION. Non-positive arguments fail an assertion. A positive length under half a cell yields an empty map.", "quantifier": "every map, every length, resolution and position", "why_tests_cant": "ranges over a continuum of lengths and resolutions", "anchors": ["cost_map_core/src/lib/cost_map.cpp: setGeometry, resize, clearAll"]}
{"id": "C10", "title": "Index to position and back is the identity", "statement": "For every index in range, getPosition succeeds, the position it returns is inside the map and getIndex of that position is the same index, whatever the circular-buffer start index; getPosition fails exactly for indices out of range.", "quantifier": "every geometry, every start index in range and every index", "why_tests_cant": "ranges over all geometries, moves and cells", "anchors": ["cost_map_core/src/lib/cost_map.cpp: getPosition, getIndex, isInside"]}
{"id": "C11", "title": "Position to index picks the containing cell", "statement": "getIndex(p) succeeds exactly when isInside(p); the index is then in range and p lies in the half-open square of side resolution around that cell's centre, so no other cell centre is closer by more than a tie.", "quantifier": "every geometry, start index and position", "why_tests_cant": "positions are a continuum", "anchors": ["cost_map_core/src/lib/cost_map.cpp: getIndex, isInside, getPosition"]}
{"id": "C12", "title": "Cells tile the map", "statement": "Distinct indices have centres that differ by at least one resolution in some axis, neighbouring unwrapped indices are exactly one resolution apart with x and y decreasing as the index grows, and every position inside the map belongs to the square of exactly one index.", "quantifier": "every geometry and start index", "why_tests_cant": "ranges over all pairs of cells", "anchors": ["cost_map_core/src/lib/cost_map.cpp: getPosition, getIndex"]}
{"id": "C13", "title": "Nearest-neighbour access by position", "statement": "atPosition(l, p) with nearest interpolation reads the cell that contains p, throws std::out_of_range exactly when p is outside the map (or l is missing), and a value written through atPosition is read back at every position of the same cell and changes no reading in any other cell.", "quantifier": "every map, layer and position", "why_tests_cant": "positions are a continuum; the read and write paths are separate code", "anchors": ["cost_map_core/src/lib/cost_map.cpp: atPosition (both overloads)"]}
{"id": "C14", "title": "The buffer start index is invisible by position", "statement": "Rotating every layer's storage and the start index together changes no result of atPosition, isInside, or of any read by position.", "quantifier": "every map, layer, position and rotation", "why_tests_cant": "ranges over all rotations of all maps", "anchors": ["cost_map_core/src/lib/cost_map.cpp: getIndex, getPosition, atPosition, getStartIndex"]}
{"id": "C15", "title": "CostMapIterator visits every cell exactly once", "statement": "On a non-empty map, the loop `for (CostMapIterator it(map); !it.isPastEnd(); ++it)` ends after exactly rows*cols iterations and *it takes every index in range exactly once, in row-major order of the unwrapped index starting at the start index.", "quantifier": "every size and every start index", "why_tests_cant": "sizes and start indices are unbounded", "anchors": ["cost_map_core/src/lib/iterators/cost_map_iterator.cpp: CostMapIterator, operator++, isPastEnd, operator*, getUnwrappedIndex"]}
{"id": "C16", "title": "SubmapIterator visits exactly the submap", "statement": "For a submap that lies inside the map, the iteration visits exactly the cells of the submap, each once, across the wrap-around of the circular buffer, with getSubmapIndex() running row-major over the submap size; the loop ends after submap rows*cols iterations.", "quantifier": "every size, start index, submap start and submap size that fits", "why_tests_cant": "unbounded sizes and all wrap configurations", "anchors": ["cost_map_core/src/lib/iterators/submap_iterator.cpp: SubmapIterator, operator++, getSubmapIndex"]}
{"id": "C17", "title": "CircleIterator visits exactly the cells in the circle", "statement": "The iteration visits exactly the cells whose centre is within the radius of the centre, each once, and ends.", "quantifier": "every map geometry, start index, centre and radius", "why_tests_cant": "centre and radius are a continuum; the bounding box clipping must never cut a cell off", "anchors": ["cost_map_core/src/lib/iterators/circle_iterator.cpp: CircleIterator, findSubmapParameters, isInside, operator++"]}
{"id": "C18", "title": "EllipseIterator visits exactly the cells in the ellipse", "statement": "The iteration visits exactly the cells whose centre satisfies the rotated ellipse inequality, each once, and ends.", "quantifier": "every map geometry, start index, centre, axis lengths and rotation", "why_tests_cant": "continuum of parameters", "anchors": ["cost_map_core/src/lib/iterators/ellipse_iterator.cpp: EllipseIterator, findSubmapParameters, isInside, operator++"]}
{"id": "C19", "title": "PolygonIterator visits exactly the cells in the polygon", "statement": "The iteration visits exactly the cells whose centre is inside the polygon, each once, and ends, for every circular-buffer start index.", "quantifier": "every map geometry, start index and polygon with at least one vertex", "why_tests_cant": "polygons are unbounded in size and position", "anchors": ["cost_map_core/src/lib/iterators/polygon_iterator.cpp: PolygonIterator, findSubmapParameters, isInside, operator++"]}
{"id": "C20", "title": "LineIterator between two indices is a discrete line", "statement": "Between indices a and b the iterator yields max(|dx|,|dy|)+1 cells, the first is a, the last is b, consecutive cells are 8-neighbours, every cell lies in the bounding box of a and b, and in the minor axis it is within half a cell of the ideal segment.", "quantifier": "every pair of indices", "why_tests_cant": "all slopes and lengths", "anchors": ["cost_map_core/src/lib/iterators/line_iterator.cpp: initializeIterationParameters, operator++, isPastEnd"]}
{"id": "C21", "title": "LineIterator between two positions", "statement": "For two positions the search for the first cell on the map terminates; when both positions are inside the map the line runs between their cells; when the segment misses the map the iteration is empty.", "quantifier": "every map, pair of positions", "why_tests_cant": "continuum of segments; the stepping search must terminate for all of them", "anchors": ["cost_map_core/src/lib/iterators/line_iterator.cpp: LineIterator(Position, Position), getIndexLimitedToMapRange"]}
{"id": "C22", "title": "A spiral ring is exactly one integer annulus", "statement": "Every ring the spiral walk generates terminates and enumerates exactly once each integer offset whose Euclidean norm rounds down to the ring number.", "quantifier": "every ring number", "why_tests_cant": "the walk is a do-while loop with no explicit bound; termination and coverage must hold for all radii", "anchors": ["cost_map_core/src/lib/iterators/spiral_iterator.cpp: generateRing"]}
{"id": "C23", "title": "SpiralIterator covers the disc and only dereferences existing cells", "statement": "For a centre inside the map the spiral visits every cell whose centre is within the radius, never visits a cell twice, only visits cells in range in order of non-decreasing ring, and every dereference before isPastEnd() is of an existing cell.", "quantifier": "every map, centre and radius", "why_tests_cant": "rings may be empty or leave the map at any radius", "anchors": ["cost_map_core/src/lib/iterators/spiral_iterator.cpp: SpiralIterator, operator++, isPastEnd, operator*, isInside"]}
{"id": "C24", "title": "Iterator copies are independent", "statement": "Incrementing a copy of an iterator does not change what the original yields, and comparing two iterators with != tells whether they are at different cells.", "quantifier": "every iterator class and every sequence of increments on two copies", "why_tests_cant": "aliasing shows only for particular interleavings of increments on two copies", "anchors": ["cost_map_core/src/lib/iterators/circle_iterator.cpp: operator=, operator!=", "cost_map_core/src/lib/iterators/ellipse_iterator.cpp", "cost_map_core/src/lib/iterators/polygon_iterator.cpp", "cost_map_core/src/lib/iterators/spiral_iterator.cpp: operator!="]}
{"id": "C25", "title": "A submap reads like its parent", "statement": "When getSubmap succeeds, for every layer and every position inside the submap, the position is inside the parent and atPosition on the submap equals atPosition on the parent; the submap carries the parent's layers, basic layers, frame and timestamp.", "quantifier": "every map with any start index, every requested position and length", "why_tests_cant": "four wrap configurations of the circular buffer over unbounded sizes", "anchors": ["cost_map_core/src/lib/cost_map.cpp: getSubmap", "cost_map_core/src/lib/submap_geometry.cpp: SubmapGeometry"]}
{"id": "C26", "title": "A submap is aligned and covers the request", "statement": "A successful submap's cell centres are cell centres of the parent, it lies inside the parent, it contains every parent position inside the requested rectangle, its size is the smallest with that property up to the boundary tie, and getSubmap succeeds whenever the requested position is inside the map and the requested length is not negative.", "quantifier": "every map, position and length", "why_tests_cant": "continuum of requests", "anchors": ["cost_map_core/src/lib/cost_map.cpp: getSubmap", "cost_map_core/src/lib/submap_geometry.cpp: SubmapGeometry"]}
{"id": "C27", "title": "getSubmap reports the requested cell", "statement": "After getSubmap(position, length, indexInSubmap, isSuccess) succeeds, indexInSubmap is the index in the submap of the cell containing the requested position.", "quantifier": "every map, position and length", "why_tests_cant": "an output parameter left unset shows as arbitrary stale values", "anchors": ["cost_map_core/src/lib/cost_map.cpp: getSubmap (4 arguments)"]}
{"id": "C28", "title": "Wrapped submap regions partition the submap", "statement": "For a submap that fits in the map, the buffer regions used to copy it lie inside the buffer, are pairwise disjoint and together hold exactly the submap's cells, in at most four pieces.", "quantifier": "every size, start index, submap index and size", "why_tests_cant": "all wrap configurations", "anchors": ["cost_map_core/src/lib/cost_map.cpp: getSubmap (use of getBufferRegionsForSubmap)"]}
{"id": "C29", "title": "Moving the map keeps its data stationary", "statement": "After move, every position inside both the old and the new extent reads the same cost as before in every layer.", "quantifier": "every map, start index, target position and layer; every sequence of moves", "why_tests_cant": "each move rotates the circular buffer; errors appear only for particular directions and wrap positions", "anchors": ["cost_map_core/src/lib/cost_map.cpp: move"]}
{"id": "C30", "title": "Moving the map exposes unknown cells", "statement": "After move, every position inside the new extent but outside the old one reads NO_INFORMATION in every layer that move clears (the basic layers if there are any, otherwise all layers), and the regions reported to the caller are exactly the cells whose old content was dropped.", "quantifier": "every map, start index and target position", "why_tests_cant": "same as above, including maps dropped entirely", "anchors": ["cost_map_core/src/lib/cost_map.cpp: move, clearRows, clearCols"]}
{"id": "C31", "title": "Moving the map only translates it", "statement": "After move the size, length, resolution, layers and metadata are unchanged, the centre is the old centre plus a whole number of cells and within half a cell of the requested position, the start index stays in range, and the returned flag is true exactly when the centre changed.", "quantifier": "every map and target position", "why_tests_cant": "continuum of targets; the rounding rule matters at ties", "anchors": ["cost_map_core/src/lib/cost_map.cpp: move"]}
{"id": "C32", "title": "A history of moves and writes behaves like an unbounded world grid", "statement": "For every sequence of moves and cell writes by position, a read by position returns the last value written to that world cell since the cell last left the map, and NO_INFORMATION if there is none.", "quantifier": "every finite history of moves and writes", "why_tests_cant": "histories are unbounded; this is refinement of the circular buffer to an unbounded grid", "anchors": ["cost_map_core/src/lib/cost_map.cpp: move, atPosition, clearRows, clearCols"]}
{"id": "C33", "title": "addDataFrom merges cell by cell", "statement": "After addDataFrom(other, false, overwrite, all, ls) each requested layer exists; a cell takes other's cost exactly when the cell is overwritable (overwrite is set or the cell is not valid) and other has a valid cost at that cell's centre; every other cell and layer is unchanged.", "quantifier": "every pair of maps, flag combination and layer list", "why_tests_cant": "ranges over all relative placements and contents of two maps", "anchors": ["cost_map_core/src/lib/cost_map.cpp: addDataFrom"]}
{"id": "C34", "title": "addDataFrom without overwrite keeps valid data", "statement": "With overwriteData false no valid cost already in the map is replaced.", "quantifier": "every pair of maps and layer list", "why_tests_cant": "ranges over all contents and basic-layer settings", "anchors": ["cost_map_core/src/lib/cost_map.cpp: addDataFrom, isValid"]}
{"id": "C35", "title": "extendToInclude covers both maps", "statement": "After extendToInclude(other) every position that was inside this map and every position inside other is inside this map.", "quantifier": "every pair of maps with positive geometry", "why_tests_cant": "continuum of relative placements; four directions", "anchors": ["cost_map_core/src/lib/cost_map.cpp: extendToInclude"]}
{"id": "C36", "title": "extendToInclude keeps the data where it was", "statement": "After extendToInclude(other) every position of the old extent reads the same cost as before and cells outside the old extent read NO_INFORMATION.", "quantifier": "every pair of maps with positive geometry", "why_tests_cant": "the re-alignment must be exact for every offset and parity", "anchors": ["cost_map_core/src/lib/cost_map.cpp: extendToInclude"]}
{"id": "C37", "title": "Linear interpolation stays between its neighbours", "statement": "atPosition with linear interpolation, where the four surrounding cells exist, returns the truncation of the bilinear blend of those four costs, which lies between their minimum and maximum and equals the cell's cost at its centre; elsewhere it falls back to the nearest cell; unknown interpolation methods throw.", "quantifier": "every map, layer and position", "why_tests_cant": "continuum of positions; a linear solve is hidden inside", "anchors": ["cost_map_core/src/lib/cost_map.cpp: atPositionLinearInterpolated, atPosition"]}
{"id": "C38", "title": "Inflation only adds cost near obstacles", "statement": "After Inflate each destination cell either equals the source cell or lies within the inflation radius of some lethal source cell and holds the inflation cost of its distance to that obstacle combined with the source cost; source and other layers are unchanged.", "quantifier": "every matrix, radius, resolution, inflation computer and every tie-breaking of the priority queue", "why_tests_cant": "the queue's order of equal distances is unspecified, so all schedules must be covered", "anchors": ["cost_map_core/src/lib/operators/inflation.cpp: Inflate::operator(), enqueue"]}
{"id": "C39", "title": "Inflation never hides an obstacle", "statement": "After Inflate no known cost decreases, lethal cells hold at least LETHAL_OBSTACLE's cost, and an unknown cell changes only when the computed cost is at least INSCRIBED_OBSTACLE.", "quantifier": "every matrix, radius, computer and queue order", "why_tests_cant": "all schedules", "anchors": ["cost_map_core/src/lib/operators/inflation.cpp: enqueue"]}
{"id": "C40", "title": "Inflation terminates and stays inside its tables", "statement": "Inflate terminates, each cell is enqueued at most once, and every access to the distance and cost caches, the seen map and the layers is in bounds, for every queue order.", "quantifier": "every matrix, radius and queue order", "why_tests_cant": "unbounded sizes; out-of-bounds reads do not show in tests", "anchors": ["cost_map_core/src/lib/operators/inflation.cpp: Inflate::operator(), enqueue, distanceLookup, costLookup, computeCaches"]}
{"id": "C41", "title": "Inflation reaches every cell in Manhattan range", "statement": "Every cell within Manhattan distance radius-in-cells of a lethal cell is inflated, with a distance no larger than that Manhattan distance and no smaller than the Euclidean distance to the nearest lethal cell.", "quantifier": "every matrix, radius and queue order", "why_tests_cant": "all schedules and obstacle layouts", "anchors": ["cost_map_core/src/lib/operators/inflation.cpp: Inflate::operator(), enqueue"]}
{"id": "C42", "title": "Inflation reaches every cell in Euclidean range", "statement": "Every cell whose centre is within the inflation radius of a lethal cell is inflated, with the cost of its distance to the nearest lethal cell.", "quantifier": "every matrix, radius and queue order", "why_tests_cant": "fails only for rare obstacle layouts and tie-breaks", "anchors": ["cost_map_core/src/lib/operators/inflation.cpp: Inflate::operator(), enqueue"]}
{"id": "C43", "title": "An Inflate object can be reused", "statement": "The result of an Inflate call depends only on its arguments, not on earlier calls on the same object.", "quantifier": "every sequence of calls on one object", "why_tests_cant": "the caches persist between calls", "anchors": ["cost_map_core/src/lib/operators/inflation.cpp: Inflate::operator(), computeCaches"]}
{"id": "C44", "title": "Inflating in place equals inflating into a new layer", "statement": "With source and destination the same layer, Inflate leaves in that layer exactly what it would have put in a separate destination layer.", "quantifier": "every matrix, radius, computer and queue order", "why_tests_cant": "aliasing of the input and output matrix under all schedules", "anchors": ["cost_map_core/src/lib/operators/inflation.cpp: Inflate::operator(), enqueue"]}
{"id": "C45", "title": "ROS inflation cost curve", "statement": "ROSInflationComputer gives LETHAL_OBSTACLE at distance 0, INSCRIBED_OBSTACLE up to the inscribed radius, and beyond it, for a non-negative weight, at most 252; the cost never increases with distance.", "quantifier": "every inscribed radius, weight >= 0 and distance >= 0", "why_tests_cant": "continuum of distances and parameters", "anchors": ["cost_map_core/src/lib/operators/inflation.cpp: ROSInflationComputer::operator()"]}
{"id": "C46", "title": "Deflate keeps obstacles and unknown cells only", "statement": "After Deflate each destination cell equals the source cell if that is at least the threshold (LETHAL_OBSTACLE, or INSCRIBED_OBSTACLE when the inscribed region is kept) and FREE_SPACE otherwise, so unknown cells stay unknown; applying it twice changes nothing more; it works in place.", "quantifier": "every matrix and both settings", "why_tests_cant": "ranges over all matrices", "anchors": ["cost_map_core/src/lib/operators/inflation.cpp: Deflate::operator()"]}
{"id": "C47", "title": "Deflate undoes Inflate", "statement": "If every source cell is FREE_SPACE, LETHAL_OBSTACLE or NO_INFORMATION, then Deflate after Inflate restores the source layer.", "quantifier": "every such matrix, radius, computer and queue order", "why_tests_cant": "all layouts and schedules", "anchors": ["cost_map_core/src/lib/operators/inflation.cpp: Inflate::operator(), Deflate::operator()"]}
{"id": "C48", "title": "A message round trip preserves the map", "statement": "fromMessage of toMessage of a map into an empty map returns true and gives the same frame, timestamp, geometry, start index, layers, basic layers and costs.", "quantifier": "every coherent map with positive size", "why_tests_cant": "ranges over all maps; integer widths of message fields matter", "anchors": ["cost_map_ros/src/lib/converter.cpp: toMessage, fromMessage", "cost_map_msgs/msg/CostMap.msg"]}
{"id": "C49", "title": "fromMessage replaces the map", "statement": "After fromMessage returns true the map has exactly the message's layers; when it returns false the map is unchanged.", "quantifier": "every prior map and message", "why_tests_cant": "ranges over all prior maps and all malformed messages", "anchors": ["cost_map_ros/src/lib/converter.cpp: fromMessage"]}
{"id": "C50", "title": "fromMessage survives every message", "statement": "fromMessage returns true or false for every message a peer can send.", "quantifier": "every message", "why_tests_cant": "malformed messages are an open set", "anchors": ["cost_map_ros/src/lib/converter.cpp: fromMessage", "cost_map_core/src/lib/cost_map.cpp: setGeometry, add", "cost_map_visualisations/src/applications/service_relay.cpp"]}
{"id": "C51", "title": "Occupancy grid cells are placed right", "statement": "toOccupancyGrid puts the cost of each cell in the occupancy cell that covers the same world square: for every position inside the map, the occupancy value at that position is the translation of atPosition.", "quantifier": "every map, start index, layer and position", "why_tests_cant": "row/column order, axis reversal and buffer wrap interact for all sizes", "anchors": ["cost_map_ros/src/lib/converter.cpp: toOccupancyGrid"]}
{"id": "C52", "title": "Occupancy grid values", "statement": "Unknown maps to -1, lethal to 100, inscribed to 99, costs 0..252 map monotonically into 0..98 with 0 to 0 and 252 to 98.", "quantifier": "every cost", "why_tests_cant": "single-precision arithmetic followed by truncation; monotonicity over the whole range", "anchors": ["cost_map_ros/src/lib/converter.cpp: toOccupancyGrid"]}
{"id": "C53", "title": "Grid map conversion preserves layers by position", "statement": "toGridMap into an empty grid map gives the same geometry, layers, frame and timestamp, and at every position inside the map the value 100*cost/255.", "quantifier": "every map, start index, layer and position", "why_tests_cant": "all sizes and buffer rotations", "anchors": ["cost_map_ros/src/lib/converter.cpp: toGridMap"]}
{"id": "C54", "title": "8-bit images become layers", "statement": "addLayerFromROSImage with an 8-bit image of the map's size sets each cell from the pixel at its index: transparent pixels stay NO_INFORMATION, others get floor(254*(1 - gray/256)), which is never NO_INFORMATION, is antitone in gray, is 254 for black and 0 for white. An unknown encoding leaves the map unchanged; a size mismatch returns false.", "quantifier": "every map, image and encoding", "why_tests_cant": "all sizes and pixel values", "anchors": ["cost_map_ros/src/lib/converter.cpp: addLayerFromROSImage"]}
{"id": "C55", "title": "16-bit images become layers", "statement": "With 16-bit images the cost is floor(254*(1 - gray/65536)), antitone in the 16-bit gray value.", "quantifier": "every 16-bit gray value", "why_tests_cant": "byte order shows only for particular values", "anchors": ["cost_map_ros/src/lib/converter.cpp: addLayerFromROSImage"]}
{"id": "C56", "title": "Image bundle metadata round trip", "statement": "fromImageBundle of what toImageBundle wrote restores frame, centre, resolution, size and the set of layers.", "quantifier": "every map", "why_tests_cant": "ranges over all maps", "anchors": ["cost_map_ros/src/lib/image_bundles.cpp: toImageBundle, fromImageBundle"]}
{"id": "C57", "title": "Image bundle cost round trip", "statement": "Saving and loading a bundle keeps unknown cells unknown, keeps the order of costs and changes no cost by more than one; lethal cells stay lethal.", "quantifier": "every map and cost", "why_tests_cant": "double-precision arithmetic and truncation in both directions over the whole range", "anchors": ["cost_map_ros/src/lib/image_bundles.cpp: toImageBundle, fromImageBundle", "cost_map_ros/src/lib/converter.cpp: addLayerFromROSImage"]}
{"id": "C58", "title": "SaveImageBundle saves the first good message once", "statement": "For every sequence of received messages, the bundle file is written at most once, from the first message that converts, finished becomes true exactly then and never goes back.", "quantifier": "every sequence of messages, including ones that fail to convert", "why_tests_cant": "sequences are unbounded", "anchors": ["cost_map_ros/src/lib/image_bundles.cpp: SaveImageBundle::_costmapCallback"]}
{"id": "C59", "title": "The cost map service reports failure", "statement": "A client of the cost map service can tell a failed conversion from a map: a failed conversion is not answered with success, and a relay fed by the service never stops on an assertion.", "quantifier": "every conversion outcome and every sequence of service replies", "why_tests_cant": "failure paths and histories of replies", "anchors": ["cost_map_ros/src/lib/converter.cpp: Costmap2DROSServiceProvider::callback", "cost_map_visualisations/src/applications/service_relay.cpp"]}
{"id": "C60", "title": "Resource names resolve to the named resource", "statement": "resolveResourceName(package/name) returns a registered file that contains both the package and the name, the first such one, and throws invalid_argument without a slash and runtime_error when none matches; it resolves to a file of that package.", "quantifier": "every resource name and every list of registered files", "why_tests_cant": "open set of names", "anchors": ["cost_map_ros/src/lib/utilities.cpp: resolveResourceName"]}
{"id": "C61", "title": "CostMapIterator::end() is the last cell", "statement": "On a non-empty map, end() denotes the last cell that the iteration visits, for every circular-buffer start index.", "quantifier": "every map size and start index", "why_tests_cant": "The existing tests build maps that were never moved, where wrapping and clamping the end index agree; it must hold for every start index.", "anchors": ["cost_map_core/src/lib/iterators/cost_map_iterator.cpp: CostMapIterator::CostMapIterator, CostMapIterator::end"]}
{"id": "C62", "title": "A line between two positions is connected in the world", "statement": "The consecutive cells of a LineIterator built from two positions inside the map are neighbours in the world: their centres are at most one resolution apart on each axis.", "quantifier": "every geometry, circular-buffer start index and pair of positions", "why_tests_cant": "The tests draw lines on maps that were never moved; it must hold for every start index.", "anchors": ["cost_map_core/src/lib/iterators/line_iterator.cpp: LineIterator::LineIterator, initialize, operator++"]}
{"id": "C63", "title": "SpiralIterator visits only cells within the radius", "statement": "Every cell a SpiralIterator visits has its centre within the radius of the requested centre.", "quantifier": "every geometry, centre and radius", "why_tests_cant": "The visited set depends on the sub-cell offset of the centre, a continuous quantity.", "anchors": ["cost_map_core/src/lib/iterators/spiral_iterator.cpp: SpiralIterator::generateRing, isInside"]}
{"id": "C64", "title": "fromCostmap2DROS copies the ROS costmap", "statement": "fromCostmap2DROS returns true and gives a map in the costmap's frame with its resolution, its number of cells and its extent, and at every position inside a cell the cost of the layer is the cost the ROS costmap holds there; other layers keep their names.", "quantifier": "every ROS costmap with at least one cell and every target map", "why_tests_cant": "the axes and the storage order are reversed between the two libraries; it must hold for every size, origin and cell content", "anchors": ["cost_map_ros/src/lib/converter.cpp: fromCostmap2DROS"]}
{"id": "C65", "title": "fromCostmap2DROSAtRobotPose copies the window around the robot", "statement": "The window has the requested lengths, its centre is within half a cell of the robot on each axis, and its costs are those of the ROS costmap at the same positions; the call returns false when the robot's pose is not known or when the window leaves the costmap.", "quantifier": "every ROS costmap, robot pose and requested length", "why_tests_cant": "alignment of the window to the costmap's cells depends on the pose within a cell, a continuous quantity", "anchors": ["cost_map_ros/src/lib/converter.cpp: fromCostmap2DROSAtRobotPose"]}
{"id": "C66", "title": "The service relay shows the layer that was asked for", "statement": "For every sequence of service replies, some of which are failed calls, the relay publishes one occupancy grid per map, in order; each shows the map's only layer if it has one layer, and the layer that was asked for otherwise.", "quantifier": "every sequence of replies", "why_tests_cant": "the relay keeps state between replies; sequences are unbounded", "anchors": ["cost_map_visualisations/src/applications/service_relay.cpp: main"]}
{"id": "C67", "title": "The visualisation node publishes every layer of every map", "statement": "For every sequence of messages, the node publishes for each message that converts and each of its layers the occupancy grid of that layer on the topic of that name, in order, advertises each topic once, and skips messages that do not convert.", "quantifier": "every sequence of messages", "why_tests_cant": "sequences are unbounded, with layers coming and going", "anchors": ["cost_map_visualisations/src/lib/occupancy_grid.cpp: OccupancyGrid::_costMapCallback"]}
{"id": "C68", "title": "An interrupted save never yields wrong costs", "statement": "Whenever toImageBundle is interrupted between two file operations, loading the directory finds the earlier bundle, or fails and leaves the map alone, or gives the map of the complete save with some layers entirely unknown.", "quantifier": "every map, every earlier content of the directory and every crash point", "why_tests_cant": "crash points cannot be scheduled in a unit test", "anchors": ["cost_map_ros/src/lib/image_bundles.cpp: toImageBundle, fromImageBundle"]}
{"id": "C69", "title": "Save node and load node compose", "statement": "The map in the first good message a save node gets, saved and published again by a load node, arrives at a subscriber with the same frame, centre, size and layers, and with the same costs up to one at every cell.", "quantifier": "every map, every sequence of messages around it and every earlier content of the directory", "why_tests_cant": "end-to-end over four conversions with rounding, for all maps", "anchors": ["cost_map_ros/src/lib/image_bundles.cpp: SaveImageBundle, LoadImageBundle"]}
{"id": "C70", "title": "Loading a bundle gives what the bundle says", "statement": "Loading a bundle with usable metadata gives its frame, centre, resolution and size. Every layer it lists exists; a layer whose image has the map's size holds what its pixels stand for; a layer whose image is missing or of another size is unknown everywhere and does not affect the others; layers the map had before that are not in the bundle are unknown everywhere.", "quantifier": "every bundle with usable metadata, every set of image files and every target map", "why_tests_cant": "open set of bundles and files, including damaged ones", "anchors": ["cost_map_ros/src/lib/image_bundles.cpp: fromImageBundle"]}
{"id": "C71", "title": "Every history leaves a usable geometry", "statement": "After any sequence of public calls that ask for no geometry below half a cell and no start index outside of the buffer, a map either was never given a geometry, and then it has no cells and its layers are empty, or it has a positive resolution, at least one row and one column, a length of exactly size times resolution, and a start index that is one of its cells.", "quantifier": "every finite sequence of modelled calls, exceptions and submaps included, with arbitrary arguments but for the two preconditions", "why_tests_cant": "unbounded set of histories that mix moves, merges, extensions, conversions and submaps", "anchors": ["cost_map_core/src/lib/cost_map.cpp: setGeometry, move, getSubmap, extendToInclude, addDataFrom, setStartIndex", "cost_map_ros/src/lib/converter.cpp: fromMessage, fromCostmap2DROS", "cost_map_ros/src/lib/image_bundles.cpp: fromImageBundle"]}
{"id": "C72", "title": "No call reads or writes out of bounds, and every call ends", "statement": "On every map a program can hold after any sequence of public calls, every modelled call whose precondition holds (an index that is a cell of the map, a map with a geometry for calls that look at positions, a message with as many data as it says, a ROS costmap with as many costs as cells, an inflation radius below 2^32-1 cells) returns, throws or fails an assertion: it never reads or writes outside of a layer, an image or a message, and it ends. Without those preconditions there are calls with undefined behaviour.", "quantifier": "every history of calls, every call, every argument that meets the precondition, inflation objects in every used state", "why_tests_cant": "out-of-bounds accesses depend on the combination of geometry, start index, layers and arguments, over unbounded histories, and need not show up when they happen", "anchors": ["cost_map_core/src/lib/cost_map.cpp: all member functions", "cost_map_core/src/lib/operators/inflation.cpp: Inflate::operator(), Deflate::operator()", "cost_map_ros/src/lib/converter.cpp", "cost_map_ros/src/lib/image_bundles.cpp"]}
{"id": "C73", "title": "Cell centres find their cells in floating point", "statement": "In double arithmetic, with every operation rounded, getPosition of every cell of a map gives a position that isInside accepts and for which getIndex returns the same cell; the position is the centre of the cell up to 2^-48 times the extent of the coordinates. setGeometry with a length within a quarter of a cell of n cells makes a map of n cells.", "quantifier": "every resolution, size, centre and start index, as long as the coordinates are less than 2^47 cells from the origin; every rounding with relative error at most 2^-53, round-to-nearest included", "why_tests_cant": "rounding errors depend on every digit of resolution and position; tests try a few round numbers", "anchors": ["cost_map_core/src/lib/cost_map.cpp: setGeometry, getIndex, getPosition, isInside", "grid_map_core GridMapMath.cpp: getIndexFromPosition, getPositionFromIndex, checkIfPositionWithinMap"]}
{"id": "C74", "title": "Lookups by position are right in floating point", "statement": "In double arithmetic isInside is right except within 2^-48 times the extent of the coordinates of the border, and for a position that isInside accepts getIndex returns a cell of the map whose square contains the position up to that tolerance, so that atPosition reads or writes that cell.", "quantifier": "every map whose coordinates are less than 2^47 cells from the origin, every position", "why_tests_cant": "the two formulas for inside and for the index round differently, so they disagree only on single numbers next to a border", "anchors": ["cost_map_core/src/lib/cost_map.cpp: getIndex, isInside, atPosition", "grid_map_core GridMapMath.cpp: getIndexFromPosition, checkIfPositionWithinMap"]}
{"id": "C75", "title": "Moves do not let the map drift", "statement": "In double arithmetic a sequence of moves inside an arena of size B leaves the centre within half a cell plus B/2^47 of the last requested position, and a whole number of cells away from where it was up to B/2^49 per move. A cell that none of the moves reports as new keeps its costs, and the position of its centre changes by at most B/2^46 per move.", "quantifier": "every finite sequence of requested positions in the arena, every map in it, every rounding with relative error at most 2^-53", "why_tests_cant": "errors add up over unboundedly many moves", "anchors": ["cost_map_core/src/lib/cost_map.cpp: move", "grid_map_core GridMapMath.cpp: getIndexShiftFromPositionShift, getPositionShiftFromIndexShift"]}
{"id": "C76", "title": "Merging is cell by cell in floating point", "statement": "In double arithmetic addDataFrom without extension, between two maps of one resolution whose grids agree up to a quarter of a cell, succeeds and keeps the geometry; every cell of a requested layer takes the valid cost of the cell of the other map that lies at its place, and nothing else changes: cells without counterpart, with a counterpart without information, or that must not be overwritten keep their cost.", "quantifier": "every pair of such maps with coordinates less than 2^43 cells from the origin, every start index, layer selection and flag", "why_tests_cant": "the counterpart is found through positions that are rounded at every step; tests use a few round numbers", "anchors": ["cost_map_core/src/lib/cost_map.cpp: addDataFrom, isInside, getIndex, getPosition"]}
{"id": "C77", "title": "Extension in floating point keeps the data and covers both maps", "statement": "In double arithmetic extendToInclude keeps every cost of the map at its place, on the same grid up to rounding; all other cells of the new map have no information. The new map has the cells that were missing on each side and covers both maps up to an eighth of a cell, so that a merge with extension loses no cost.", "quantifier": "every pair of maps whose coordinates are less than 2^39 cells from the origin", "why_tests_cant": "fmod turns a rounding error into a whole cell for some centres only", "anchors": ["cost_map_core/src/lib/cost_map.cpp: extendToInclude, addDataFrom"]}
{"id": "C78", "title": "Submaps in floating point", "statement": "In double arithmetic getSubmap around a position inside the map succeeds; the submap is on the grid of the map up to rounding, is the smallest block of cells around the part of the request inside the map, has the same layers, frame id and time stamp, contains the requested position, and every cell holds the cost the map has at its place.", "quantifier": "every map whose coordinates are less than 2^43 cells from the origin, every requested position and length, every layer and cell", "why_tests_cant": "the corners of the request are moved inside by a few units in the last place; whether that is enough depends on the rounding of four operations at each border", "anchors": ["cost_map_core/src/lib/cost_map.cpp: getSubmap", "cost_map_core/src/lib/submap_geometry.cpp: SubmapGeometry"]}
{"id": "C79", "title": "Indices in 32-bit integers", "statement": "On maps with at most 2^29 rows and columns, and for positions at most 2^29 cells from the centre, getIndex, getPosition, atPosition (with every interpolation), setGeometry, move, getSubmap, addDataFrom, extendToInclude (of maps within 2^25 cells of the origin) and the map, submap, line, circle, ellipse and polygon iterators perform no int operation that overflows, and give the results they would give with unbounded integers; a position outside of the map is refused with out_of_range however far away it is.", "quantifier": "every map, position, index, length and resolution, every start of the circular buffer, every pair of end points of a line, every step of an iteration", "why_tests_cant": "signed overflow is undefined behaviour that usually goes unnoticed; it has to be excluded for every operation on every intermediate value", "anchors": ["cost_map_core/src/lib/cost_map.cpp: getIndex, getPosition, atPosition, setGeometry, move", "cost_map_core/src/lib/iterators/cost_map_iterator.cpp: operator++", "cost_map_core/src/lib/iterators/submap_iterator.cpp: operator++", "cost_map_core/src/lib/iterators/line_iterator.cpp: initializeIterationParameters, operator++", "cost_map_core/src/lib/cost_map.cpp: getSubmap", "cost_map_core/src/lib/iterators/circle_iterator.cpp: findSubmapParameters, operator++", "cost_map_core/src/lib/iterators/ellipse_iterator.cpp: findSubmapParameters, operator++", "cost_map_core/src/lib/iterators/polygon_iterator.cpp: findSubmapParameters, operator++", "cost_map_core/src/lib/cost_map.cpp: addDataFrom, extendToInclude, atPositionLinearInterpolated"]}
{"id": "C80", "title": "Circle, ellipse and polygon iterators in floating point", "statement": "In double arithmetic the circle, ellipse and polygon iterators end, visit no cell twice, never look at an index outside of the map, and visit exactly the cells whose centre is inside the shape; cells whose centre is on the boundary of the shape, up to a stated rounding tolerance, may go either way.", "quantifier": "every map whose coordinates are less than 2^43 cells from the origin, every circle, ellipse and polygon, every start of the circular buffer", "why_tests_cant": "the bounding box is cut to the map with a margin of a few units in the last place, and the index of a corner is used without checking that it is inside; whether a cell beyond the border is read depends on the rounding of six operations", "anchors": ["cost_map_core/src/lib/iterators/circle_iterator.cpp: isInside, findSubmapParameters", "cost_map_core/src/lib/iterators/ellipse_iterator.cpp: isInside, findSubmapParameters", "cost_map_core/src/lib/iterators/polygon_iterator.cpp: isInside, findSubmapParameters"]}
{"id": "C81", "title": "Spiral iterator in floating point and 32-bit integers", "statement": "In double arithmetic and 32-bit integers the spiral iterator ends, visits no cell twice, only visits cells of the map, goes from ring to ring outwards, visits every cell whose centre is within the radius (up to a stated rounding tolerance) and none that is more than one cell farther away; the current radius it reports is the number of the ring times the cell size.", "quantifier": "every map that was not moved, every centre and radius of up to 2^23 cells with room on the map for the radius and one cell", "why_tests_cant": "the number of rings is the rounded quotient of radius and cell size, and the two outermost rings are filtered by a rounded distance test; whether the two agree depends on the last bits of the radius, the cell size and the position", "anchors": ["cost_map_core/src/lib/iterators/spiral_iterator.cpp: SpiralIterator, operator++, isInside, generateRing, getCurrentRadius"]}
{"id": "C82", "title": "Demo costmaps and their printout", "statement": "The demo's ROS costmap server fills a costmap with stripes: all rows are the same, the last column has no information, the one before is lethal, and the costs of the others rise from column to column and stay below the inscribed cost; this needs at least two columns, and the rise is strict exactly for up to 252 columns and for 254. Converted to a cost map, every position has the cost of the stripe it is in. Printing a costmap succeeds and different costs give different texts.", "quantifier": "every costmap whose number of cells fits in 32 bits, whatever it contained; every position; every pair of costmaps of the same size", "why_tests_cant": "the costs are doubles converted to unsigned char, so strictness depends on the rounding of one quotient per column and on the number of columns; the bounds of the loop wrap around on narrow maps", "anchors": ["cost_map_demos/src/lib/from_ros_costmaps.cpp: ROSCostmapServer", "cost_map_demos/src/lib/utilities.cpp: pretty_print, operator<<"]}
{"id": "C83", "title": "Transform broadcaster", "statement": "A broadcaster that is started once, is given all its transforms before, and is shut down (or outlives ROS) before it is destroyed never terminates the process and has no data race, however its thread is scheduled; it sends complete rounds of all its transforms, one per name and the first one given for it, in the order of the names; its destructor returns, and nothing is sent afterwards. Every other order of calls fails in some schedule: starting never or twice terminates the process, adding while the thread runs is a data race, and without a shutdown the destructor waits until ROS goes down.", "quantifier": "every sequence of calls, every interleaving of the calling thread, the broadcasting thread and the end of ROS", "why_tests_cant": "the order in which two threads take turns is not under the control of a test", "anchors": ["cost_map_demos/src/lib/utilities.cpp: TransformBroadcaster::add, startBroadCastingThread, broadcast, shutdown, ~TransformBroadcaster", "cost_map_demos/src/lib/from_ros_costmaps.cpp: broadcastCostmap2DROSTestSuiteTransforms", "cost_map_demos/src/applications/from_ros_costmaps.cpp: main"]}
{"id": "C84", "title": "Conversions of a ROS costmap that is being updated", "statement": "Conversions of a ROS costmap (whole, or around the robot) that run while other threads update the costmap under its mutex give a result that corresponds to one state of the costmap between whole updates, never to a half-done one; the states respect the order of calls that do not overlap, the lock is released whatever a conversion returns or throws, and no call waits for ever.", "quantifier": "every number of concurrent conversions and updates, every interleaving of their single reads and writes, every movement of the robot in between", "why_tests_cant": "a torn read needs an update to happen between two particular reads; tests do not control that", "anchors": ["cost_map_ros/src/lib/converter.cpp: fromCostmap2DROS, fromCostmap2DROSAtRobotPose"]}
{"id": "C85", "title": "The inflations demo from bundle to published grids", "statement": "Started with a usable image bundle that lists the layer obstacle_costs, the program publishes three occupancy grids in the bundle's frame, size and place. Cell by cell: the first shows what the pixels stand for; the second shows 100 exactly where the first does, never less than a known value of the first, and differs from it only within the inflation radius of a cell showing 100; the third keeps 100 and unknown of the second and is 0 elsewhere, so that its obstacles are those of the first. If the resource is not found, the metadata is incomplete, or the layer is missing, the program exits with failure and publishes no grid.", "quantifier": "every bundle with positive resolution and size below 2^23 cells per axis, every image, every order in which the priority queue breaks ties, every monotone rounding to float with 24 bits and exponential function", "why_tests_cant": "A test runs the program on one image and compares pictures; the relation must hold for every image, size and resolution, through loading, inflation, deflation and conversion.", "anchors": ["cost_map_demos/src/applications/inflations.cpp:main", "cost_map_ros/src/lib/image_bundles.cpp:LoadImageBundle", "cost_map_core/src/lib/operators/inflation.cpp", "cost_map_ros/src/lib/converter.cpp:toOccupancyGrid"]}
{"id": "C86", "title": "The from_ros_costmaps demo", "statement": "When the ROS costmaps are usable and the requested windows around the robots fit, the program publishes five occupancy grids, each in the frame and resolution of its costmap and showing its costs at every position inside a cell; nothing of an earlier grid is left in a later one although one message object is used for all. When the pose of a robot is not known, the behaviour of the program is undefined: it takes the first layer of a map that has none.", "quantifier": "every five ROS costmaps of any size, contents and resolution that is a float, every robot position", "why_tests_cant": "The demo is run on five fixed costmaps with a transform broadcaster beside it; the missing pose is a matter of timing.", "anchors": ["cost_map_demos/src/applications/from_ros_costmaps.cpp:main", "cost_map_ros/src/lib/converter.cpp:fromCostmap2DROS", "cost_map_ros/src/lib/converter.cpp:fromCostmap2DROSAtRobotPose", "cost_map_ros/src/lib/converter.cpp:toOccupancyGrid"]}
{"id": "C87", "title": "Exit code of save_image_bundle", "statement": "When save_image_bundle exits with success, the bundle on disk is that of the map in a message that arrived, written once; what arrives later, and what is overtaken by a newer message before a poll, does not matter. When a message makes the conversion throw, it exits with failure and has written nothing. Messages that are refused are waited out.", "quantifier": "every history of messages between polls, every moment of shutdown, every set of files that can be written", "why_tests_cant": "the outcome depends on how messages, polls and shutdown interleave and on the state of the disk", "anchors": ["cost_map_ros/src/applications/save_image_bundle.cpp: main", "cost_map_ros/src/lib/image_bundles.cpp: SaveImageBundle::_costmapCallback, toImageBundle"]}
{"id": "C88", "title": "load_image_bundle publishes once, to everyone", "statement": "load_image_bundle reads the file of the given name if there is one, and otherwise the resource of that name. With a usable bundle every subscriber, whenever it connects, gets exactly one message, and from it a map with the bundle's frame, centre, size, layers and pixel costs. If the bundle is not found or its metadata is incomplete, the tool exits with failure and nobody gets anything.", "quantifier": "every bundle, every set of registered resources, every set of subscribers and every order of connecting and publishing", "why_tests_cant": "subscribers connect at any moment, and bundles are unbounded", "anchors": ["cost_map_ros/src/applications/load_image_bundle.cpp: main", "cost_map_ros/src/lib/image_bundles.cpp: LoadImageBundle"]}
{"id": "C89", "title": "service_relay survives a restart of the service", "statement": "service_relay exits with failure if the service does not appear; otherwise it publishes one grid of the requested layer per answer of the service, in order and at the requested rate, whatever calls fail in between, also when the node that offers the service is stopped and started again.", "quantifier": "every history of answers, refusals, losses of the connection and restarts", "why_tests_cant": "histories are unbounded, and a restart between two calls is a matter of scheduling", "anchors": ["cost_map_visualisations/src/applications/service_relay.cpp: main"]}
{"id": "C90", "title": "Infinities, NaN and overflow are refused", "statement": "A position with a coordinate that is NaN or infinite is never inside a map: isInside answers false, getIndex and atPosition report it as outside, and move refuses it. setGeometry and fromMessage refuse a length, resolution or position that is not a number. With numbers, however large, isInside, getIndex, atPosition, move and setGeometry do what they would do if the arithmetic could not overflow.", "quantifier": "every double, including infinities and NaN, as coordinate of a position, length or resolution, for every map", "why_tests_cant": "the doubles are too many to try, and undefined behaviour need not show in a test", "anchors": ["cost_map_core/src/lib/cost_map.cpp: setGeometry, getIndex, isInside, atPosition, move", "cost_map_ros/src/lib/converter.cpp: fromMessage"]}
{"id": "C91", "title": "Rounding does not change what inflation reaches", "statement": "Inflation computes the number of cells of the radius and the distances in floats and doubles. Nevertheless no cell further from every obstacle than the inflation radius, rounded up to whole cells, is changed; cells whose path along rows and columns to an obstacle is no longer than the radius get a computed cost; the distance given to the cost function is the true one up to a relative error of 2^-22; and cells within the inscribed radius get at least INSCRIBED_OBSTACLE, cells beyond it less.", "quantifier": "every map, source layer, inflation radius, inscribed radius, weight and cost function; every rounding with the precision of binary32 and binary64", "why_tests_cant": "whether a rounded quotient or product crosses a whole number or the inscribed radius depends on the exact radius and resolution, of which there are too many to try", "anchors": ["cost_map_core/src/lib/operators/inflation.cpp: Inflate::operator(), Inflate::computeCaches, ROSInflationComputer::operator()"]}
{"id": "C92", "title": "Linear interpolation in floating point", "statement": "atPosition with linear interpolation computes in doubles and stores the result in a float. Where the four surrounding cells exist the result, before it is cut to a whole number, is the bilinear blend of their costs up to a small error; so it lies between their minimum and maximum, and at the centre of a cell it is that cell's cost. Elsewhere it is the cost of the nearest cell. The conversion of the result to a cost is defined.", "quantifier": "every map, layer and position, every rounding with the precision of binary64 and binary32, every linear solver with the error bound of a Householder decomposition", "why_tests_cant": "whether rounding moves the result across a whole number depends on the coordinates, the resolution and the four costs; far from the origin of the frame the errors grow with the square of the distance", "anchors": ["cost_map_core/src/lib/cost_map.cpp: atPositionLinearInterpolated, atPosition"]}
{"id": "C93", "title": "A line between two positions in floating point", "statement": "Creating a LineIterator between two positions ends, in doubles and 32-bit integers as on the machine. If both positions are in the map the line runs between their cells. Otherwise, if it finds cells of the map at all, the line runs between the cells of two positions in the map that are less than a tenth of a cell from the segment; it finds such cells when the segment crosses the map for four cells or more.", "quantifier": "every map, every pair of positions, every rounding with the precision of binary64 and every square root with that precision", "why_tests_cant": "whether the stepping search stops depends on the rounding errors of all steps for every pair of positions; a search that never stops shows only for particular pairs", "anchors": ["cost_map_core/src/lib/iterators/line_iterator.cpp: LineIterator(Position, Position), getIndexLimitedToMapRange"]}
{"id": "C94", "title": "Inflation with the machine's integers and any radius", "statement": "With the unsigned 32-bit integers the machine uses for cells, and for every float as radius, inflating a map does what it does with unbounded integers: no index wraps, no table is accessed outside of its bounds, and a radius that is no number, or covers more cells than can be counted, is reported rather than ignored.", "quantifier": "every map whose size fits in int, every radius including NaN and the infinities, every earlier use of the inflater, every order of equal distances in the queue", "why_tests_cant": "wrapping shows at the extremes of the index range and for particular cell and obstacle pairs; maps of that size and all radii cannot be enumerated by a test", "anchors": ["cost_map_core/src/lib/operators/inflation.cpp: Inflate::operator(), enqueue, distanceLookup, costLookup, computeCaches"]}
{"id": "C95", "title": "Conversions in floating point", "statement": "In doubles (and floats where the code uses them): a map sent as a message and read again is the same map, bit for bit. Loading a bundle gives the size, centre and resolution of the bundle and its layers. A grid map made from a map has the same geometry, and looking a position up in it gives the value of the cost the map has there. An occupancy grid shows at each position the translation of the cost the map has there.", "quantifier": "every map whose geometry was computed in doubles, every bundle, every position, every rounding with the precision of binary64 and binary32", "why_tests_cant": "whether the number of cells and the cell of a position survive the rounding depends on the resolution, size and position; particular resolutions and sizes fail while neighbouring ones pass", "anchors": ["cost_map_ros/src/lib/converter.cpp: toMessage, fromMessage, toGridMap, toOccupancyGrid", "cost_map_ros/src/lib/image_bundles.cpp: fromImageBundle, toImageBundle"]}
{"id": "C96", "title": "ROS costmaps in floating point", "statement": "In doubles: a map made from a whole ROS costmap has its frame, resolution, size and place, and at every position inside a cell both give the same cost. A window around the robot has the requested size and is centred on the robot's cell, it gets a layer whenever the call returns true, and the cost it shows at a position is that of the ROS costmap at that position.", "quantifier": "every ROS costmap, robot position, window size, map and rounding with the precision of binary64", "why_tests_cant": "whether the corners of the window fall into the intended cells depends on rounding of the pose, the resolution and the length; one pose works and the next gives no layer or shifted costs", "anchors": ["cost_map_ros/src/lib/converter.cpp: fromCostmap2DROS, fromCostmap2DROSAtRobotPose"]}
{"id": "C97", "title": "Any file as a bundle", "statement": "Loading an image bundle from any file throws a std::logic_error and leaves the map unchanged if the file could not be read or is not valid. Otherwise the map has the frame, centre, resolution and size the file says, a layer for every listed image with the costs its pixels stand for, and the layers it had before.", "quantifier": "every YAML tree, every way texts read as numbers, every set of image files with 8 or 16 bits per channel, every map to load into", "why_tests_cant": "files come from other programs and from hand editing; there is no end to the ways a tree, a value or an image can differ from the expected one", "anchors": ["cost_map_ros/include/cost_map_ros/image_bundles.hpp: fromImageBundle", "cost_map_ros/src/lib/image_bundles.cpp: fromImageBundle", "cost_map_ros/src/lib/converter.cpp: addLayerFromROSImage"]}
{"id": "C98", "title": "A save interrupted in the YAML file", "statement": "When a save is interrupted while it writes the YAML file, loading the bundle afterwards either reports an error and leaves the map to load into unchanged, or gives the frame, centre, resolution, size and layers of the map that was being saved.", "quantifier": "every map, every point at which the text may end, every way texts read as numbers, every content of the image files", "why_tests_cant": "the file may end after any character; a test would have to interrupt the program at each", "anchors": ["cost_map_ros/src/lib/image_bundles.cpp: toImageBundle", "cost_map_ros/src/lib/image_bundles.cpp: fromImageBundle"]}
{"id": "C99", "title": "The ROS inflation cost for any parameter", "statement": "The cost function of ROS gives, for every inscribed radius, weight and distance: lethal at distance zero, the inscribed cost up to the inscribed radius, and beyond it at most 252, never more at a larger distance. Inflation with it gives at least the inscribed cost to the cells within the inscribed radius of an obstacle, never more than 252 to a free cell without an obstacle within the inscribed radius, and never fails.", "quantifier": "every float and double given as inscribed radius, weight, inflation radius and resolution, including infinities and NaN, every map", "why_tests_cant": "the costs pass through four roundings and a conversion to an unsigned char that is undefined out of range; tests sample a few parameters", "anchors": ["cost_map_core/src/lib/operators/inflation.cpp: ROSInflationComputer::operator()", "cost_map_core/src/lib/operators/inflation.cpp: Inflate::computeCaches", "cost_map_core/include/cost_map_core/operators/inflation.hpp: ROSInflationComputer"]}
{"id": "C100", "title": "An Inflate object after an exception of its cost function", "statement": "When the cost function given to an Inflate object throws, the call throws the same exception and changes nothing but the destination layer, and later calls do what they do with a new Inflate object.", "quantifier": "every cost function, every map, every radius of the call that throws and of the later call, every memory content", "why_tests_cant": "it is about every history of an object, and about memory that happens to hold something", "anchors": ["cost_map_core/src/lib/operators/inflation.cpp: Inflate::operator()", "cost_map_core/src/lib/operators/inflation.cpp: Inflate::computeCaches"]}
{"id": "C101", "title": "Any history of calls on the machine", "statement": "Take a program that works in a world of at most 2^23 cells: all positions it gives lie in the world and all geometries fit it. Whatever calls it makes on a map, with doubles that are rounded and ints that overflow, and whether they return or throw, the map stays well formed and in the world, no call overflows an int or accesses an element outside of an array, every cell has a position that leads back to it, iterating visits every cell once, and a position gets the cost of a cell around it or is refused as outside.", "quantifier": "every sequence of setGeometry, add, erase, clear, write, move, getSubmap, extendToInclude, addDataFrom, inflation, deflation, conversion from a message, image, bundle or ROS costmap (whole, or a window around the robot); every argument that fits the world; every world", "why_tests_cant": "rounding errors and overflows of one call are the input of the next; the chains of calls are unbounded", "anchors": ["cost_map_core/src/lib/cost_map.cpp: setGeometry, add, erase, atPosition, move, getSubmap, addDataFrom, extendToInclude", "cost_map_core/src/lib/operators/inflation.cpp: Inflate::operator()", "cost_map_ros/src/lib/converter.cpp: fromMessage, addLayerFromROSImage", "cost_map_ros/src/lib/image_bundles.cpp: fromImageBundle", "cost_map_ros/src/lib/converter.cpp: fromCostmap2DROS, fromCostmap2DROSAtRobotPose"]}
{"id": "C102", "title": "Working on a submap: cut, edit, write back", "statement": "Cut a submap out of a map, change costs in it, and merge it back with overwriting. Every cell of the submap starts with the cost the map has at its centre. After the merge the map has, at the centre of every cell of the submap, the cost the submap was given, all other cells keep their cost, and only costs change; with doubles that are rounded and whatever else was written to the map in between.", "quantifier": "every map a program can hold in a world of at most 2^23 cells; every position and length of the submap whose centre and corners the rounding does not push out of the map; every change of costs in the submap and in the map", "why_tests_cant": "the two maps have different origins and start indices, so the cells correspond only up to rounding; the edits are arbitrary", "anchors": ["cost_map_core/src/lib/cost_map.cpp: getSubmap, addDataFrom, atPosition"]}
{"id": "C103", "title": "Loops that change the map they run over", "statement": "A loop with one of the iterators, whose body changes the map, gets the same indices in the same order as if the body changed nothing. A body that computes the cost of the current cell from its cost before, in place or into another layer, changes exactly the cells the iterator is for, each computed once from the cost before the loop. A body that makes any calls on the map which keep its number of cells never accesses an element outside of an array.", "quantifier": "every iterator, every body, every map a program can hold, every list of calls per cell", "why_tests_cant": "the body is an arbitrary program whose effects in one iteration are the input of the next", "anchors": ["cost_map_core/include/cost_map_core/iterators/costmap_iterator.hpp: CostMapIterator", "cost_map_core/src/lib/iterators: CostMapIterator, PolygonIterator, CircleIterator, SubmapIterator", "cost_map_core/src/lib/cost_map.cpp: at"]}
{"id": "C104", "title": "setPosition relocates a map", "statement": "setPosition changes the position of a map and nothing else: every cell keeps its cost, and the cell that was at p is now at p plus the displacement, with the same index. Whatever is done afterwards (looking up costs, moving, merging, lines, spirals) gives what it would have given before, displaced; setting the old position again restores the map. With doubles, lookups at the new cell centres give the costs of the cells.", "quantifier": "every map, also one with a moved buffer; every position; every later query, move, merge, line or spiral", "why_tests_cant": "it relates two whole behaviours for every displacement", "anchors": ["cost_map_core/include/cost_map_core/cost_map.hpp: setPosition", "cost_map_core/src/lib/cost_map.cpp: getPosition, getIndex, atPosition, move, addDataFrom, extendToInclude"]}
{"id": "C105", "title": "Arguments that are part of the map", "statement": "A call gives the same whether its arguments are copies of what the map's getters return (layer names, lists of names, frame, position, length, size, start index, a layer's matrix, the map itself) or those very references.", "quantifier": "every function that takes a reference, every map, every getter", "why_tests_cant": "the function changes the map while it still reads its argument; that must be harmless for every map and every argument", "anchors": ["cost_map_core/src/lib/cost_map.cpp: setGeometry, setBasicLayers, setFrameId, setStartIndex, add, erase, clear, at, move, extendToInclude, addDataFrom"]}
{"id": "C106", "title": "References that are kept", "statement": "A reference that at() returned stays good for the same layer and index through all later calls but erase of its layer and those that change the number of cells: reading through it gives the current cost, writing does what at() does. So a program that keeps references is the same as one that calls at() every time. After one of those calls the reference is dangling for good. The reference get() returned stays good until its layer is erased.", "quantifier": "every sequence of calls, returning or throwing, mixed with writes through any references; every program with any number of references", "why_tests_cant": "the calls in between are any history; dangling references often seem to work", "anchors": ["cost_map_core/src/lib/cost_map.cpp: at, atPosition, get, operator[], add, erase, resize, setGeometry", "cost_map_core/include/cost_map_core/cost_map.hpp: data_"]}
{"id": "C107", "title": "ROS costmaps on the machine", "statement": "Reading a ROS costmap, whole or as a window around the robot, never overflows an int, converts a double out of range or accesses an element outside of an array, and never throws. A costmap of a world of at most 2^23 cells gives a map of that world, with its frame, resolution and size, in which a position within a cell of the costmap has the cost of that cell; when the robot's position is unknown a window returns false and changes nothing. What follows is a history of C101.", "quantifier": "every costmap, robot position, window and world; every map that is there before; every later history", "why_tests_cant": "conversions out of range depend on where the robot is; the results of a test are those of one compiler", "anchors": ["cost_map_ros/src/lib/converter.cpp: fromCostmap2DROS, fromCostmap2DROSAtRobotPose"]}
{"id": "C108", "title": "Occupancy grids, the service and its relay on the machine", "statement": "With doubles that are rounded and ints that overflow: a map that has any history comes back from a message as it was; the occupancy grid of a map has its frame, time and size and shows at every cell the translation of its cost. The costmap service always answers, and a relay that calls it again and again publishes a grid for every answer in which the place of each cell of the window has the translation of the cost that the costmap has there.", "quantifier": "every history of calls, every map, every costmap, robot position, window; every sequence of answered and failed calls", "why_tests_cant": "the numbers of cells, the rounding and the sequences of calls are unbounded", "anchors": ["cost_map_ros/src/lib/converter.cpp: toMessage, fromMessage, toOccupancyGrid", "cost_map_ros/src/lib/converter.cpp: Costmap2DROSServiceProvider::callback", "cost_map_visualisations/src/applications/service_relay.cpp"]}
{"id": "C109", "title": "Many maps merged into one", "statement": "A program merges any number of maps into one, one after the other. If each overwrites, every cell ends with the cost that the last map shows that shows one at that place, or keeps its cost; if none overwrites, known costs stay and the other cells end with the cost of the first map that shows one. Geometry, other layers and the rest stay. Maps that show nothing at the same place can be merged in any order. The same holds with doubles and ints for maps with any history on a common grid.", "quantifier": "every map, every list of maps and layers, every cell; every history of each map on the machine", "why_tests_cant": "the number of maps, their overlaps and histories are unbounded", "anchors": ["cost_map_core/src/lib/cost_map.cpp: addDataFrom"]}
{"id": "C110", "title": "Image bundles on the machine", "statement": "With doubles and floats that are rounded and ints that overflow: a map that has any history can be saved as an image bundle and loaded; the loaded map can be used like any other map. It has the frame, size and layers of the saved one, in some order, and each cell its cost up to one, where unknown, lethal, inscribed and free costs stay what they are and greater costs stay greater or equal. It is the same map at every position, too. The same holds of the two programs that save the first good message and load a bundle.", "quantifier": "every history of calls, every map, every position, every sequence of messages", "why_tests_cant": "the histories, the numbers of cells, the rounding and the sequences of messages are unbounded", "anchors": ["cost_map_ros/src/lib/image_bundles.cpp: toImageBundle, fromImageBundle, SaveImageBundle::_costmapCallback, LoadImageBundle", "cost_map_ros/src/lib/converter.cpp: toMessage, fromMessage"]}
{"id": "C111", "title": "A robot that maps its surroundings", "statement": "A program keeps a map and takes windows of ROS costmaps around the robot into it, again and again, on the machine. The costmaps have the map's resolution, numbers which doubles hold exactly, and cells that lie on the map's grid up to an eighth of a cell; the windows fit into the costmaps with a cell to spare. Then no call throws or is undefined, readings without a robot position change nothing, and every cell of the map ends with the cost that the last costmap has at its place which has a known one there in its window, or keeps its cost. Other layers, the geometry, the frame and the time stay.", "quantifier": "every history of the map, every sequence of readings with and without a position, every cell", "why_tests_cant": "the sequence of readings, the history of the map and the numbers of cells are unbounded", "anchors": ["cost_map_ros/src/lib/converter.cpp: fromCostmap2DROSAtRobotPose", "cost_map_core/src/lib/cost_map.cpp: addDataFrom"]}
{"id": "C112", "title": "A map on a topic", "statement": "One program changes a map by any calls and publishes it from time to time; another reads the messages into a map of its own, always the same one. Messages arrive in order, any time later, or are lost. On the machine, for maps of at most 65536 rows and columns and times below 2^32 seconds: whatever happens in whatever order, nothing is undefined and neither program is stopped; what arrives are the published maps in the order of publishing; the copy is empty until the first one arrives and afterwards shows the last one that arrived (frame, time, placement, basic layers, the costs of its layers, and the same answer at every position); layers of earlier maps which the last one does not have know nothing. If no message is lost and all have arrived, that is the map as it was when last published.", "quantifier": "every map with any history, every interleaving of calls, publications, arrivals and losses", "why_tests_cant": "the interleavings, losses, calls and sizes are unbounded", "anchors": ["cost_map_ros/src/lib/converter.cpp: toMessage, fromMessage", "cost_map_msgs/msg/CostMap.msg"]}
{"id": "C113", "title": "A way that is found clear meets no obstacle", "statement": "Inflate a map whose buffer starts at index (0, 0) and walk the line iterator from one position inside it to another, reading the inflated layer: the walk always ends with an answer. If the cost computer gives at least the threshold up to the inflation radius and no visited cell reaches the threshold, then every point of the straight way between the two positions lies inside the map and every lethal cell of the source layer is farther (in Manhattan distance) from the cell of that point than the radius in cells less two. So with a radius of at least two cells the way meets no lethal cell. The bound is needed: inflated by one cell only, a way through a lethal cell can be found clear, whatever the computer and the threshold. The buffer start is needed too: on a map with another start a way through a lethal cell is found clear although the layer was inflated by two cells, because the line runs through the buffer. Conversely the check does not cry wolf: every visited cell is within two steps of the cell of some point of the way, so if all cells that close are below the threshold in the source layer and farther than the radius from every lethal cell, the answer is that the way is clear.", "quantifier": "all maps with buffer start (0, 0), layers, radii, cost computers, thresholds, queue orders, pairs of positions inside the map and all points of the segment between them", "why_tests_cant": "The line iterator visits one cell per column while the segment touches up to three, so whether a gap can hide an obstacle depends on where in its cells the segment starts and ends; a test tries a few segments out of a continuum.", "anchors": ["cost_map_core/src/lib/iterators/line_iterator.cpp: LineIterator", "cost_map_core/src/lib/operators/inflation.cpp: Inflate::operator()", "cost_map_core/src/lib/cost_map.cpp: at"]}
{"id": "C114", "title": "A way that is found clear meets no obstacle, on the machine", "statement": "C113 with doubles, floats and ints as the machine computes them, on any map a program has made by calls that fit its world and whose buffer starts at index (0, 0): walking the line iterator between two positions clearly inside the map (inside, and clear of the lower edges by the rounding tolerance) always ends with an answer. If every cell within n cells of a lethal one is given at least the threshold, n cells are covered by the radius, and no visited cell reaches the threshold, then every lethal cell is more than n - 2 cells away from the cell the library computes for any position within 1/32 of a cell of the straight way. With n = 2, reading the source layer at any such position gives a cost other than lethal. Conversely the centre of every visited cell is within 17/16 of a cell, along each axis, of a point of the way; so if all such cells are below the threshold in the source layer and out of the inflation's reach of every lethal cell, the answer is that the way is clear.", "quantifier": "all held maps with buffer start (0, 0), layers, radii, computers, thresholds, queue orders, earlier uses of the inflater, pairs of positions and positions near the segment between them, for every rounding of relative error 2^-53", "why_tests_cant": "Adds rounding to C113: the cells of both ends, of the point in between and of the obstacle may each be one off at a border, for a continuum of positions and arbitrary earlier histories.", "anchors": ["cost_map_core/src/lib/iterators/line_iterator.cpp: LineIterator", "cost_map_core/src/lib/operators/inflation.cpp: Inflate::operator()", "cost_map_core/src/lib/cost_map.cpp: at, atPosition, getIndex"]}
{"id": "C115", "title": "Inflating a map that was moved", "statement": "Copy a map into a new one with setGeometry (same length, resolution, centre) and addDataFrom (overwriting, all layers). Whatever moves the map has seen, the calls succeed, the copy has the same geometry and layers, its buffer starts at index (0, 0), and at every position it reads what the map reads. Inflating the copy is right in the world: at the centre of every cell the inflated layer has the source cost, or that cost combined with what the cost computer gives for an obstacle of the original map within the radius, and it has the latter if an obstacle is within the radius counted in steps along the axes; and a straight way that is found clear on the inflated copy (C113) meets no lethal cell of the original map. On the machine the same holds for every map of C101 whose geometry fits the world, at positions clear of the lower edges. Without the copy this is false: on a moved map the inflation leaves the cell next to an obstacle as it is and inflates a cell at the other end of the map.", "quantifier": "all maps (any start index, any history of calls on the machine), layers, radii, cost computers, queue orders, cells and positions", "why_tests_cant": "Inflation and line iterator work on buffer indices; whether that matters depends on where the seam of the buffer lies relative to the obstacles after an arbitrary history of moves.", "anchors": ["cost_map_core/src/lib/cost_map.cpp: setGeometry, addDataFrom, atPosition", "cost_map_core/src/lib/operators/inflation.cpp: Inflate::operator()", "cost_map_core/src/lib/iterators/line_iterator.cpp: LineIterator"]}
{"id": "C116", "title": "Whether a robot fits, from one cost of an inflated layer", "statement": "Inflate a layer and compare the cost at one position of the map with a threshold that the inflation reaches everywhere within its radius of R whole cells. On a map whose buffer starts at index (0, 0) the check always gives an answer inside the map. If the answer is 'clear', no point of a round robot centred there reads a lethal cost in the source layer, provided the robot's radius is at most 1/sqrt(2) of R - 1 cells; along a straight way that is found clear (C113) the same holds at every point for 1/sqrt(2) of R - 3 cells. The check gives no false alarm: if a robot of R + 1 cells fits at a position whose own cost is below the threshold, the answer is 'clear'. Through the copy of C115 all of it holds for maps that were moved, and on the machine (with one cell less) for every map of C101. The margin is needed: a position can be found clear although a robot of the very radius of the inflation touches a lethal cell there, for every cost computer and threshold.", "quantifier": "all maps, layers, radii, cost computers that reach the threshold, thresholds, queue orders, earlier uses of the inflater, positions, straight ways and points of the robot; on the machine every rounding of relative error 2^-53 and every history of calls", "why_tests_cant": "Relates one stored number to a continuum of points under the robot and to obstacles anywhere around it, with the cells of both rounded down separately.", "anchors": ["cost_map_core/src/lib/operators/inflation.cpp: Inflate::operator()", "cost_map_core/src/lib/cost_map.cpp: atPosition, at, getIndex", "cost_map_core/include/cost_map_core/operators/inflation.hpp: InflationComputer"]}
{"id": "C117", "title": "Inflating a layer that was inflated before", "statement": "Inflate a layer with a cost computer that calls nothing but the obstacles themselves lethal and never gives NO_INFORMATION (the ROS computer is one). Inflating the result in place once more, with the same object, radius and computer, changes no cost of any layer. Inflating the result with another computer and the same radius gives what inflating the source with the second one gives, if the second one never gives less, and changes nothing if it never gives more. The same holds on the machine. A computer that gives the lethal cost at a distance makes the obstacles grow with every call.", "quantifier": "all maps, layers, radii, pairs of computers, queue implementations, earlier uses of the objects and cells", "why_tests_cant": "The second pass floods from the result of the first; that it visits the same cells from the same obstacles has to hold for every arrangement of obstacles and every order of the queue.", "anchors": ["cost_map_core/src/lib/operators/inflation.cpp: Inflate::operator(), Inflate::enqueue", "cost_map_core/include/cost_map_core/operators/inflation.hpp: InflationComputer, ROSInflationComputer"]}
{"id": "C118", "title": "Checking a footprint cell by cell", "statement": "A program walks over the cells of a circle or a polygon with the iterator and compares each cost with a threshold. With a polygon it gives, on every map, moved or not, an answer, and the answer is 'clear' exactly if every cell whose centre is inside the polygon has a cost below the threshold. With a circle the same holds where the seam of the buffer does not run through the box of the circle. If the circle is larger than a round robot by one cell and is found clear, no point under the robot reads a lethal cost; likewise for any footprint and a polygon that contains everything within half a cell of it along both axes. Through the copy of C115 the check with a circle is right on every map. Without the margin it is wrong: the robot's own circle, or a polygon thinner than a cell, can be found clear while it overlaps a lethal cell; and on a map that was moved a circle larger by a cell can be found clear around a robot that stands on one. On the machine the same holds up to the rounding, for boxes whose corners are well inside or well outside of the map: a circle a cell larger than the robot, or a polygon that contains everything within 17/32 of a cell of the footprint.", "quantifier": "all maps, layers, thresholds up to the lethal cost, centres, radii, polygons, footprints and points of the footprint; on the machine every rounding of relative error 2^-53 and every history of calls", "why_tests_cant": "Relates a finite walk over cell centres to every point of a continuous footprint, on maps with every position of the buffer start.", "anchors": ["cost_map_core/src/lib/iterators/circle_iterator.cpp: CircleIterator, operator++, isInside, findSubmapParameters", "cost_map_core/src/lib/iterators/polygon_iterator.cpp: PolygonIterator, operator++, isInside", "cost_map_core/src/lib/cost_map.cpp: at"]}
{"id": "C119", "title": "Planning in a window of the map", "statement": "A program cuts a window (getSubmap) out of a map, inflates the window and looks at one cost, at a straight way or at a circle of cells in it. The map may have been moved. At every position of the requested rectangle inside the map there is an answer. If it is 'clear' and the robot does not stick out of the rectangle, no point under the robot reads a lethal cost in the whole map (with the radii of C116 and C118); for a way, at every point of it. There is no false alarm: if a robot of one cell more than the inflation fits in the map, the answer in the window is 'clear', however the window was chosen. Around a position outside of the map the answer is 'not clear'. A robot that sticks out of the window can be found clear although it touches an obstacle beyond the edge. On the machine the same holds for every map that calls can reach, for a robot one cell smaller, if the place and the robot keep a quarter of a cell from the edges of the request.", "quantifier": "all maps, moved or not, windows, layers, radii, cost computers that reach the threshold, thresholds, queue orders, positions, straight ways and points of the robot", "why_tests_cant": "Relates decisions in a cut-out copy to every point under the robot in the whole map, for every cut, buffer start and arrangement of obstacles on both sides of the edge.", "anchors": ["cost_map_core/src/lib/cost_map.cpp: getSubmap, atPosition", "cost_map_core/src/lib/submap_geometry.cpp: SubmapGeometry", "cost_map_core/src/lib/operators/inflation.cpp: Inflate::operator()", "cost_map_core/src/lib/iterators/line_iterator.cpp: LineIterator", "cost_map_core/src/lib/iterators/circle_iterator.cpp: CircleIterator"]}
{"id": "C120", "title": "Planning with the obstacles of another map", "statement": "A program merges one layer of another map into its map with addDataFrom, overwriting, without extending it. The grids need not be aligned, and both buffers may be rotated. If the cells of the map are not larger than those of the other map, every known cost of the other map, at a position at least one of its cells inside the map, is afterwards in the map, less than one of its cells away; nothing is made up: every known cost of the merged layer was in the map at that position or is in the other map at most half a cell away. So a robot that is found clear in an inflated window of the merged map touches no obstacle of the other map there. Without overwriting, and with the layer as only basic layer, the map's own obstacles stay, and those of the other map are seen where the map knew nothing. If the cells of the map are larger, obstacles can be lost; and overwriting removes the map's own obstacles where the other map knows of none. In machine arithmetic, for reachable maps of equal resolution whose grids agree up to an eighth of a cell, every valid cost of the other map at least a cell inside the map is seen at most three quarters of a cell away, and a robot found clear in an inflated window of the merged map touches no obstacle of the other map. Conversely, where a robot that is larger by a few cells fits in both maps, and the costs nearby are low, the answer is \"clear\".", "quantifier": "all pairs of maps, alignments, resolutions, buffer starts, layers, windows, radii, queue orders, positions and points of the robot", "why_tests_cant": "Quantifies over every relative shift and ratio of two grids and every arrangement of obstacles; tests sample aligned grids.", "anchors": ["cost_map_core/src/lib/cost_map.cpp: addDataFrom, atPosition, isValid, getSubmap", "cost_map_core/src/lib/operators/inflation.cpp: Inflate::operator()"]}
{"id": "C121", "title": "Planning with a map that another process saved", "statement": "A program saves a copy of its map, made with setGeometry and addDataFrom, as an image bundle; the map may have been moved. Another process loads the bundle into a new map, inflates it and looks at one cost, or along a straight way. If the centre of the map lies on the diagonal, and the centre and the resolution survive being written and read, there is an answer for every position inside the map; if it is clear, the robot touches no obstacle of the map that was saved; and where the cost is below the threshold by more than one, and a robot with a margin of a cell fits, the answer is clear. The same holds in machine arithmetic. If the moved map itself is saved, or the centre is off the diagonal, the answer can be clear on top of an obstacle.", "quantifier": "all maps, buffer starts, layers, costs, radii, queue orders, earlier contents of the files, positions, ways and points of the robot", "why_tests_cant": "Quantifies over every map and history of moves before saving, and every position and arrangement of obstacles after loading; tests save unmoved maps around the origin and compare a few cells.", "anchors": ["cost_map_ros/src/lib/image_bundles.cpp: toImageBundle, fromImageBundle", "cost_map_core/src/lib/cost_map.cpp: setGeometry, addDataFrom, atPosition", "cost_map_core/src/lib/operators/inflation.cpp: Inflate::operator()"]}
{"id": "C122", "title": "Planning with a ROS costmap", "statement": "A program copies a ROS costmap to a new map with fromCostmap2DROS, inflates the copy and looks at one cost, or along a straight way. For every position inside the ROS costmap, not on its edges, there is an answer; if it is clear, no point of the robot lies in a lethal cell of the ROS costmap or on its border; and inside a cell below the threshold, where a robot with a margin of a cell fits, the answer is clear. In machine arithmetic the same holds a quarter of a cell inside the edges, for a robot larger by half a cell. On the lower and left edges, which belong to the ROS costmap, the program throws.", "quantifier": "all ROS costmaps (sizes, resolutions, origins, costs), layer names, radii, queue orders, positions, ways, lethal cells and points of the robot", "why_tests_cant": "Quantifies over every costmap and origin and over every real position and point of the robot, through a conversion that turns both axes round; tests compare the costs at a few cell centres.", "anchors": ["cost_map_ros/src/lib/converter.cpp: fromCostmap2DROS", "cost_map_core/src/lib/operators/inflation.cpp: Inflate::operator()", "cost_map_core/src/lib/cost_map.cpp: atPosition", "cost_map_demos/src/lib/from_ros_costmaps.cpp"]}
{"id": "C123", "title": "Planning with the maps of a topic", "statement": "A map, moved or not, is published as a message. A subscriber reads it into the map it keeps, whatever that held before, makes a copy with setGeometry and addDataFrom, inflates the copy and looks at one cost or along a straight way. There is an answer for every position inside the map that was published; if it is clear, the robot touches no obstacle of that map; and where its cost is below the threshold, and a robot with a margin of a cell fits, the answer is clear. The same holds in machine arithmetic for all maps and subscribers that calls can produce, after earlier messages too. Without the copy the answer can be clear a cell from an obstacle.", "quantifier": "all maps, buffer starts, layers, costs, maps of the subscriber, radii, queue orders, positions, ways and points of the robot", "why_tests_cant": "Quantifies over every history of moves of the publisher and of messages of the subscriber, and over every real position and arrangement of obstacles; tests send an unmoved map to an empty one and compare a few cells.", "anchors": ["cost_map_ros/src/lib/converter.cpp: toMessage, fromMessage", "cost_map_core/src/lib/cost_map.cpp: setGeometry, addDataFrom, atPosition", "cost_map_core/src/lib/operators/inflation.cpp: Inflate::operator()"]}
{"id": "C124", "title": "Planning with a published occupancy grid", "statement": "A layer of a map is inflated and published as an occupancy grid. Whoever reads the grid finds a value inside every cell of the map; if the value is known and below that of inscribed cells, the robot touches no obstacle of the map; and where the cost was below inscribed, and a robot with a margin of a cell fits, the grid says free. The same holds, with a margin of three cells, in machine arithmetic for every map that calls can produce and every reader that rounds its own computations. It holds for maps whose buffer starts at index zero, and for moved ones if a copy is published; a moved map published directly can say free on an obstacle.", "quantifier": "all maps, layers, costs, radii, queue orders, earlier contents of the message, readers, positions inside cells and points of the robot", "why_tests_cant": "Quantifies over every real position, every arrangement of obstacles and every way of rounding; tests compare a few values of one grid.", "anchors": ["cost_map_ros/src/lib/converter.cpp: toOccupancyGrid", "cost_map_core/src/lib/operators/inflation.cpp: Inflate::operator()", "cost_map_core/src/lib/cost_map.cpp: setGeometry, addDataFrom, setFrameId, setTimestamp"]}
