{"id": "C01", "title": "Location to octant conversion returns the octant that contains the location", "statement": "When a location inside the model's root cube is converted to an octant address at a requested level, the conversion reports success and the returned octant lies inside the root cube, is aligned to the requested level, and contains the location.", "quantifier": "for every location in the closed root cube and every level 0 to 31", "why_tests_cant": "The set of locations is a continuum times 32 levels; cell boundaries (including the outer faces) are exactly where sampled tests do not look.", "anchors": ["libsrc/cencalvm/storage/GeomCenCA.cc: GeomCenCA::lonLatElevToAddr"]}
{"id": "C02", "title": "Conversion failure is reported exactly for locations outside the model", "statement": "Converting a location to an octant address reports failure if and only if the location falls outside the closed root cube in one of the three rotated directions; on failure the address is the all-ones sentinel that lies in no octant of the tree, and the caller's level and type are left as they were.", "quantifier": "for every location for which the map projection succeeds, and every level", "why_tests_cant": "An if-and-only-if over a continuum of locations cannot be sampled.", "anchors": ["libsrc/cencalvm/storage/GeomCenCA.cc: GeomCenCA::lonLatElevToAddr"]}
{"id": "C03", "title": "Octant to centroid to octant is the identity", "statement": "Taking an octant of the tree, computing the geographic location of its centroid, and converting that location back at the same level gives the same octant address.", "quantifier": "for every octant of the tree at every level 0 to 31, and every projection whose inverse undoes it at the centroid", "why_tests_cant": "There are about 8^31 octants.", "anchors": ["libsrc/cencalvm/storage/GeomCenCA.cc: GeomCenCA::lonLatElevToAddr, GeomCenCA::addrToLonLatElev"]}
{"id": "C04", "title": "Octant addresses of one location are nested across levels", "statement": "The octant found for a location at a coarse level is the ancestor, at that level, of the octant found for the same location at any finer level.", "quantifier": "for every location inside the root cube and every pair of levels coarse < fine in 0..31", "why_tests_cant": "Requires agreement of two independent truncations for all reals and all level pairs.", "anchors": ["libsrc/cencalvm/storage/GeomCenCA.cc: GeomCenCA::lonLatElevToAddr", "libsrc/cencalvm/storage/Geometry.cc: Geometry::findAncestor"]}
{"id": "C05", "title": "Ancestor computation follows the octree", "statement": "The computed ancestor of an octant at a coarser level is an octant of the tree aligned to that level, marked interior, whose cube contains the cube of the original; taking ancestors in two steps equals taking them in one; and two octants with the same ancestor and the same child position at the next level are the same octant.", "quantifier": "for every octant of the tree and all pairs of coarser levels", "why_tests_cant": "Bit masking over 2^31 tick values per axis and 32 levels cannot be enumerated.", "anchors": ["libsrc/cencalvm/storage/Geometry.cc: Geometry::findAncestor", "libsrc/cencalvm/average/AvgEngine.cc: AvgEngine::_childOctantBit, AvgEngine::_sameAddr"]}
{"id": "C06", "title": "Level and edge length are inverse, level is monotone and nearest", "statement": "The level computed for the edge length of a level is that level; requesting a coarser resolution never gives a deeper level; and the edge length of the chosen level is within a factor sqrt(2) of the requested resolution.", "quantifier": "for every level 0..31 and every resolution from the finest cell over sqrt(2) to sqrt(2) times the root edge; finer ones get a level that no octant has", "why_tests_cant": "Resolution is a real number; the claim is about rounding of a logarithm at every value.", "anchors": ["libsrc/cencalvm/storage/GeomCenCA.icc: GeomCenCA::edgeLen, GeomCenCA::level"]}
{"id": "C07", "title": "The root frame is a rigid motion of the projected plane, and elevation maps monotonically to the vertical axis", "statement": "Distances between two locations measured in the projected plane equal distances measured along the two horizontal root axes; converting root coordinates to projected coordinates and back is the identity; a higher elevation never maps to a lower vertical tick; and the vertical cell size is the horizontal cell size divided by the vertical exaggeration.", "quantifier": "for all pairs of projected points, all elevations in the domain, all levels", "why_tests_cant": "Real-valued identity over all points.", "anchors": ["libsrc/cencalvm/storage/GeomCenCA.cc: GeomCenCA::GeomCenCA, lonLatElevToAddr, addrToLonLatElev"]}
{"id": "C08", "title": "Status and message always reflect the last report since the last reset", "statement": "After any sequence of calls on an error handler, status and message are those of the most recent error or warning report made after the most recent reset, and OK with empty message if there was none; logging calls never influence them.", "quantifier": "for every finite sequence of error, warning, reset and logging calls", "why_tests_cant": "Histories are unbounded.", "anchors": ["libsrc/cencalvm/storage/ErrorHandler.icc: ErrorHandler::error, warning, resetStatus, status, message", "libsrc/cencalvm/storage/ErrorHandler.cc: logFilename, loggingOn, log"]}
{"id": "C09", "title": "The log file holds exactly the messages logged while logging to it was on", "statement": "After any sequence of calls, the file last named with logFilename contains, in order and without loss or repetition, exactly the messages logged since it was named while logging was on; switching logging off and on loses nothing and messages logged while off do not appear.", "quantifier": "for every finite sequence of logFilename, loggingOn, log and status calls, starting from any file system contents, when opening the named file succeeds", "why_tests_cant": "Histories are unbounded; truncate/append modes interact with order of calls.", "anchors": ["libsrc/cencalvm/storage/ErrorHandler.cc: ErrorHandler::logFilename, loggingOn, log, ErrorHandler::ErrorHandler"]}
{"id": "C10", "title": "MAXRES returns only stored leaf data", "statement": "A MAXRES query returns either the payload of a stored leaf octant that contains the query location (in the detailed database, else in the extended one) or no-data values; it never returns an averaged interior octant.", "quantifier": "for every database contents, every location and every previous history of the query object", "why_tests_cant": "Databases and locations are unbounded.", "anchors": ["libsrc/cencalvm/query/VMQuery.cc: VMQuery::query, VMQuery::_queryMax"]}
{"id": "C11", "title": "FIXEDRES returns data at the requested resolution or a coarser leaf, never a coarser average", "statement": "A FIXEDRES query returns the octant stored at the level of the requested resolution that contains the location; if there is none, the finest stored coarser octant containing it provided that is a leaf; otherwise no data. It never returns an averaged octant coarser than requested nor any octant finer than requested.", "quantifier": "for every database contents, location and requested resolution whose level is in 0..31", "why_tests_cant": "Databases, locations and resolutions are unbounded.", "anchors": ["libsrc/cencalvm/query/VMQuery.cc: VMQuery::_queryFixed"]}
{"id": "C12", "title": "WAVERES stops at the wavelength criterion and averages the two bracketing levels", "statement": "When all ancestors are stored, a WAVERES query walks up from the finest stored octant until the first octant whose edge length is at least the minimum shear wavelength (or that is not solid, or the root), and returns the mean of that octant and its predecessor on the walk, with fault block and zone of the coarser one; if the finest octant already satisfies the criterion its values are returned unchanged. The walk always ends.", "quantifier": "for every ancestor-closed database, location and minimum period", "why_tests_cant": "Walk length and contents depend on the whole database.", "anchors": ["libsrc/cencalvm/query/VMQuery.cc: VMQuery::_queryWave"]}
{"id": "C13", "title": "WAVERES never returns an average coarser than the requested wavelength", "statement": "A WAVERES query that only finds an averaged interior octant at the location returns its values only if that octant's edge is no longer than the requested wavelength; otherwise it returns no data.", "quantifier": "for every database, location and minimum period", "why_tests_cant": "Depends on every stored shear wave speed, including the non-solid ones.", "anchors": ["libsrc/cencalvm/query/VMQuery.cc: VMQuery::_queryWave"]}
{"id": "C14", "title": "The extended model is consulted exactly when the detailed model has no data, and detailed data takes precedence", "statement": "When both models are open, the returned payload is that of the detailed model if the detailed model has data (fault block not zero) at the location, and otherwise exactly what the same query on the extended model alone would return.", "quantifier": "for every pair of databases, query type, resolution and location in the domain", "why_tests_cant": "Pairs of databases and locations are unbounded; the address is reused between the two searches.", "anchors": ["libsrc/cencalvm/query/VMQuery.cc: VMQuery::query"]}
{"id": "C15", "title": "No data is always signalled: values, warning and log line", "statement": "If neither model has data at a location, every requested payload value is the no-data value (-999 for the six real values, 0 for fault block and zone), the status becomes WARNING with a message naming the location, and exactly one line for the location is written to the log.", "quantifier": "for every database contents, location, query type and list of requested values", "why_tests_cant": "Quantifies over databases, locations and value lists.", "anchors": ["libsrc/cencalvm/query/VMQuery.cc: VMQuery::query, VMQuery::_setNoData"]}
{"id": "C16", "title": "A successful query leaves status and log alone", "statement": "If a query finds data and nothing fails, status, message and log are exactly what they were before the query.", "quantifier": "for every database, location, configuration and prior status", "why_tests_cant": "History dependent.", "anchors": ["libsrc/cencalvm/query/VMQuery.cc: VMQuery::query"]}
{"id": "C17", "title": "An error raised before or during a query is not hidden by that query", "statement": "If the status is ERROR before a query, or the projection fails during it, the status is ERROR after the query.", "quantifier": "for every state, database and location", "why_tests_cant": "Depends on the order of reports within the call and on all histories.", "anchors": ["libsrc/cencalvm/query/VMQuery.cc: VMQuery::query", "libsrc/cencalvm/storage/ErrorHandler.icc: ErrorHandler::warning"]}
{"id": "C18", "title": "Requested values come back in the requested order, names are case-insensitive", "statement": "After selecting values by a list of valid names (any letter case, any order, repetitions allowed), each query returns in position i the value named at position i; selecting with a count that is not positive changes nothing; an unknown name sets ERROR.", "quantifier": "for every list of names of any length and every query", "why_tests_cant": "Lists are unbounded, 2^n letter cases.", "anchors": ["libsrc/cencalvm/query/VMQuery.cc: VMQuery::queryVals, VMQuery::query"]}
{"id": "C19", "title": "Every query fills every output value from defined data", "statement": "Each value a query writes is determined by the configuration, the databases and the location; nothing undefined is read or left unwritten.", "quantifier": "for every configuration reachable through the API, every database and location", "why_tests_cant": "Undefined reads usually look fine in a test run.", "anchors": ["libsrc/cencalvm/query/VMQuery.cc: VMQuery::queryVals, VMQuery::query"]}
{"id": "C20", "title": "Squashing changes only locations above the limit and only by shifting elevation", "statement": "With squashing on, a location at or below the limit gives the same payload as with squashing off; a location above it gives the payload of the unsquashed query at elevation plus ground elevation, or of the unsquashed query itself if no ground elevation is known there.", "quantifier": "for every database pair, query type, location and limit", "why_tests_cant": "Continuum of locations and limits.", "anchors": ["libsrc/cencalvm/query/VMQuery.cc: VMQuery::query, VMQuery::_queryElev", "libsrc/cencalvm/query/VMQuery.icc: VMQuery::squash"]}
{"id": "C21", "title": "The elevation value depends only on location and databases", "statement": "The elevation returned by a query is the same for every query type, resolution and squash setting and for every other requested value.", "quantifier": "for every database pair, location and configuration", "why_tests_cant": "Configuration space times databases.", "anchors": ["libsrc/cencalvm/query/VMQuery.cc: VMQuery::query, VMQuery::_queryElev"]}
{"id": "C22", "title": "The elevation value is centroid elevation plus depth of the leaf octant holding the location", "statement": "The elevation returned equals the elevation of the centroid of the stored leaf octant containing the location plus its depth below the free surface (detailed model first, then extended); it is -999 exactly when no leaf octant contains the location.", "quantifier": "for every database pair and location", "why_tests_cant": "Databases and locations unbounded; interior octants of the extended model are the corner case.", "anchors": ["libsrc/cencalvm/query/VMQuery.cc: VMQuery::_queryElev"]}
{"id": "C23", "title": "Queries are repeatable and side-effect free", "statement": "A query does not change configuration or databases, and the values it returns do not depend on which queries or status changes happened before.", "quantifier": "for every history of queries and every configuration with all value names valid and no projection failure", "why_tests_cant": "Histories are unbounded.", "anchors": ["libsrc/cencalvm/query/VMQuery.cc: VMQuery::query"]}
{"id": "C24", "title": "Settings ignore invalid sizes and resolutions and the last valid setting wins", "statement": "Cache sizes and query resolution that are not positive leave the previous setting in place; after any sequence of setting calls the settings are the last valid ones; cache sizes never influence query results.", "quantifier": "for every sequence of setting calls", "why_tests_cant": "Unbounded histories.", "anchors": ["libsrc/cencalvm/query/VMQuery.icc: VMQuery::cacheSize, cacheSizeExt, queryRes, squash, filename, filenameExt"]}
{"id": "C25", "title": "Open and close are idempotent and failures are reported", "statement": "Opening an already open query object changes nothing; closing twice equals closing once; after close and a successful open the object answers queries from the files named at that moment; a database that cannot be opened sets ERROR; every legal sequence of calls including destruction is free of undefined behaviour.", "quantifier": "for every sequence of API calls and every pattern of open/close failures", "why_tests_cant": "Histories times failure patterns.", "anchors": ["libsrc/cencalvm/query/VMQuery.cc: VMQuery::open, close, ~VMQuery, geometry"]}
{"id": "C26", "title": "Averaging keeps every input octant unchanged", "statement": "Every octant of the input database is present in the averaged database with the same address, type and payload.", "quantifier": "for every input database whose octants are non-overlapping", "why_tests_cant": "Unbounded databases.", "anchors": ["libsrc/cencalvm/average/AvgEngine.cc: AvgEngine::fillOctants, _averageOctant"]}
{"id": "C27", "title": "The averaged database holds exactly the input octants and all their ancestors", "statement": "The averaged database contains, each exactly once and in Z-order, the input octants and every octant that properly contains one of them, and nothing else.", "quantifier": "for every non-empty input database with non-overlapping octants below the root", "why_tests_cant": "Unbounded databases; depends on the pending-octant stack over the whole traversal.", "anchors": ["libsrc/cencalvm/average/AvgEngine.cc: AvgEngine::fillOctants, _findParent, _createOctant"]}
{"id": "C28", "title": "Every interior value is the solid-precedence mean of its children", "statement": "Each interior octant of the averaged database holds the arithmetic mean of its solid children (Vs > 0) if it has one, else the mean of its water children (Vp > 0), else no-data; its fault block and zone are -999. The children are its direct children in the averaged database.", "quantifier": "for every input database with non-overlapping octants and every interior octant of the result", "why_tests_cant": "Unbounded databases; a lost or doubly counted child only shows for particular shapes.", "anchors": ["libsrc/cencalvm/average/AvgEngine.cc: AvgEngine::_addToParent, _processOctant, _finishProcessing"]}
{"id": "C29", "title": "Averages stay within the range of the data and solid stays solid", "statement": "Every real value of an interior octant with data lies between the least and the greatest value of its contributing descendants in the input; an interior octant is solid exactly if some input octant below it is solid.", "quantifier": "for every non-overlapping input database and every interior octant", "why_tests_cant": "Unbounded depth of nested means.", "anchors": ["libsrc/cencalvm/average/AvgEngine.cc: AvgEngine::_addToParent, _processOctant"]}
{"id": "C30", "title": "Overlapping input is rejected", "statement": "If an input octant lies inside another input octant, averaging ends with an exception instead of producing a database with doubly counted volume.", "quantifier": "for every input database containing a nested pair of octants below the root", "why_tests_cant": "Unbounded databases; nesting can be separated by arbitrary many octants.", "anchors": ["libsrc/cencalvm/average/AvgEngine.cc: AvgEngine::_addToParent, _createOctant, fillOctants"]}
{"id": "C31", "title": "Octant counts add up", "statement": "At the end of averaging, the number of octants out equals the number in plus the number of interior octants created, the interior count is the number of proper ancestors of the input octants, and each interior octant is counted under at most one kind of incompleteness, those with all eight children under none.", "quantifier": "for every non-overlapping input database", "why_tests_cant": "Unbounded.", "anchors": ["libsrc/cencalvm/average/AvgEngine.cc: AvgEngine::_processOctant, _createOctant, printOctantInfo"]}
{"id": "C32", "title": "Averaging an empty database or failing storage raises an exception", "statement": "Averaging an empty input raises an exception and creates no octant; a failing append or update raises an exception and nothing further is written after it.", "quantifier": "for every input and every point of failure of the storage layer", "why_tests_cant": "Every crash point.", "anchors": ["libsrc/cencalvm/average/AvgEngine.cc: AvgEngine::fillOctants"]}
{"id": "C33", "title": "Averaging does not change MAXRES answers", "statement": "A MAXRES query on the averaged database returns the same values, for every location, as on the database that was averaged.", "quantifier": "for every non-overlapping input database and every location", "why_tests_cant": "Unbounded databases and locations; connects two programs.", "anchors": ["libsrc/cencalvm/average/AvgEngine.cc: AvgEngine::fillOctants", "libsrc/cencalvm/query/VMQuery.cc: VMQuery::_queryMax"]}
{"id": "C34", "title": "On an averaged database FIXEDRES never misses where MAXRES finds data", "statement": "On an averaged database, whenever a MAXRES query finds data at a location, a FIXEDRES query at any resolution there finds the stored octant at the requested level or the leaf itself.", "quantifier": "for every non-overlapping input database, location and level", "why_tests_cant": "Unbounded; relies on ancestor closure produced by another program.", "anchors": ["libsrc/cencalvm/average/AvgEngine.cc: AvgEngine::fillOctants", "libsrc/cencalvm/query/VMQuery.cc: VMQuery::_queryFixed"]}
{"id": "C35", "title": "Packing preserves the database", "statement": "Packing copies every octant with its address and payload, none lost, none added, in Z-order, and copies the metadata, so that every search gives the same answer in the packed database; packing an empty database raises an exception.", "quantifier": "for every database", "why_tests_cant": "Unbounded databases.", "anchors": ["libsrc/cencalvm/create/VMCreator.cc: VMCreator::packDB"]}
{"id": "C36", "title": "Inserted data is found again at every location of its cell", "statement": "After inserting payloads at locations with a resolution, a MAXRES query at any location in the cell of an inserted location returns the inserted payload, and inserting twice in one cell at the same resolution raises an exception.", "quantifier": "for every sequence of insertions at locations inside the domain at one resolution and every query location", "why_tests_cant": "Unbounded sequences, continuum of locations.", "anchors": ["libsrc/cencalvm/create/VMCreator.cc: VMCreator::insert", "libsrc/cencalvm/query/VMQuery.cc: VMQuery::_queryMax"]}
{"id": "C37", "title": "Inserting a location outside the domain is reported", "statement": "Inserting data at a location outside the root cube raises an exception.", "quantifier": "for every location outside the root cube", "why_tests_cant": "Continuum of locations.", "anchors": ["libsrc/cencalvm/create/VMCreator.cc: VMCreator::insert"]}
{"id": "C38", "title": "A grid file is ingested completely or not at all per line count", "statement": "If ingesting a grid file ends without exception then every one of the declared number of points was either inserted or ignored, in file order; a point is ignored exactly when its fault block or zone is the no-data id; and the number of added and ignored points adds up to the declared total.", "quantifier": "for every file contents", "why_tests_cant": "Files are unbounded.", "anchors": ["libsrc/cencalvm/create/GridIngester.cc: GridIngester::_addGrid"]}
{"id": "C39", "title": "Unit conversion keeps no-data markers", "statement": "Lengths, speeds and densities are converted from km-based to m-based units by the factor 1000 exactly when they are not the no-data value; no-data stays no-data; quality factors and ids are stored unconverted.", "quantifier": "for every data line", "why_tests_cant": "Real-valued inputs.", "anchors": ["libsrc/cencalvm/create/GridIngester.cc: GridIngester::_addGrid"]}
{"id": "C40", "title": "A grid whose header is inconsistent is rejected before any data is inserted", "statement": "A grid whose resolution is zero, whose horizontal to vertical resolution ratio differs from the vertical exaggeration beyond the tolerance, or whose total is not the product of the three counts, raises an exception and inserts nothing.", "quantifier": "for every header", "why_tests_cant": "Real-valued and integer inputs, unbounded.", "anchors": ["libsrc/cencalvm/create/GridIngester.cc: GridIngester::_addGrid"]}
{"id": "C41", "title": "C bindings behave as the C++ object and report its status", "statement": "For a valid handle, each C call has the effect of the corresponding C++ call and returns the status of the object's error handler after it; for a null handle, a call has no effect and returns the error code 2 (destroying a null handle returns 0).", "quantifier": "for every sequence of C calls", "why_tests_cant": "Unbounded call sequences.", "anchors": ["libsrc/cencalvm/query/cvmquery.cc: cencalvm_*", "libsrc/cencalvm/query/cvmerror.cc: cencalvm_error_*"]}
{"id": "C42", "title": "Fortran strings are passed up to the first blank and messages never overrun the caller's buffer", "statement": "A file name passed from Fortran reaches the library as its first blank-delimited token; an error message is copied truncated or blank/zero padded to the caller's length and never writes beyond it.", "quantifier": "for every string and every buffer length", "why_tests_cant": "Strings and lengths unbounded.", "anchors": ["libsrc/cencalvm/query/f77vmquery.cc: cencalvm_filename_f", "libsrc/cencalvm/query/f77vmerror.cc: cencalvm_error_message_f"]}
{"id": "C43", "title": "The query application answers every location in order", "statement": "cencalvmquery writes one output line per input location, in input order, and stops early only at the first location whose query ends with ERROR, with a non-zero exit code.", "quantifier": "for every input file", "why_tests_cant": "Files unbounded.", "anchors": ["applications/query/cencalvmquery.cc: main"]}
{"id": "C44", "title": "The isosurface search brackets and converges", "statement": "The bisection for an isosurface stays inside the initial elevation interval, halves the bracket in each step, always ends, and an elevation it reports has shear wave speed at or above the target within the final bracket width of a place that is below it.", "quantifier": "for every database, location, target speed and search interval", "why_tests_cant": "Arbitrary shear wave speed profiles.", "anchors": ["applications/query/cencalvmisosurface.cc: searchVs, queryElev"]}
{"id": "C45", "title": "The spatial database never returns a shear wave speed below the minimum", "statement": "When a minimum shear wave speed is set, a query returning Vs returns 0 < Vs < minimum for no location.", "quantifier": "for every database, location and setting", "why_tests_cant": "Continuum of inputs.", "anchors": ["extensions/libsrc/cencalvmdb/CenCalVMDB.cc: CenCalVMDB::query"]}
{"id": "C46", "title": "Filling voids tries a bounded number of points, each below the last", "statement": "With downward projection on, a query makes at most nine underlying queries, at strictly decreasing elevations, stops at the first that is solid, and returns the values of the last one tried.", "quantifier": "for every database, location and elevation", "why_tests_cant": "Continuum of inputs.", "anchors": ["extensions/libsrc/cencalvmdb/CenCalVMDB.cc: CenCalVMDB::query"]}
{"id": "C47", "title": "Gradient limiting bounds the difference of neighbours", "statement": "After limiting a line of values with a non-negative maximum difference, the shear wave speeds of neighbours differ by at most that maximum.", "quantifier": "for every line of any length and any values and every non-negative maximum difference", "why_tests_cant": "Lines and values unbounded; a two-sweep algorithm.", "anchors": ["extensions/applications/vsgrader/VsGrader.cc: VsGrader::_limitDiff"]}
{"id": "C48", "title": "Gradient limiting is the least possible reduction", "statement": "Limiting never raises a shear wave speed, and every profile that respects the maximum difference and nowhere exceeds the original nowhere exceeds the result; limiting twice equals limiting once.", "quantifier": "for every line and maximum difference", "why_tests_cant": "Quantifies over all competing profiles.", "anchors": ["extensions/applications/vsgrader/VsGrader.cc: VsGrader::_limitDiff"]}
{"id": "C49", "title": "Gradient limiting scales the other properties consistently and flags exactly the changed points", "statement": "Vp, density, Qp and Qs keep their ratio to Vs at every point; depth, fault block and zone are untouched; a point is flagged changed exactly if its shear wave speed changed.", "quantifier": "for every line with positive shear wave speeds and every non-negative maximum difference", "why_tests_cant": "Unbounded lines and real values.", "anchors": ["extensions/applications/vsgrader/VsGrader.cc: VsGrader::_limitDiff"]}
{"id": "C50", "title": "Grading the volume bounds the gradient along all three axes", "statement": "After the vertical, lengthwise and widthwise passes, neighbouring points along each of the three axes respect the maximum gradient times the spacing along that axis; later passes do not destroy what earlier ones established.", "quantifier": "for every three-dimensional grid of any size and values and every non-negative maximum gradient", "why_tests_cant": "Unbounded grids; interaction of three passes.", "anchors": ["extensions/applications/vsgrader/VsGrader.cc: VsGrader::_grade"]}
{"id": "C51", "title": "Extracted values respect the minimum speed and mark non-solid points", "statement": "Every extracted point is either marked no-data or has a shear wave speed at or above the minimum; grading keeps every shear wave speed at or above the least value on the grid.", "quantifier": "for every database and grid", "why_tests_cant": "Unbounded.", "anchors": ["extensions/applications/vsgrader/VsGrader.cc: VsGrader::_extract, _grade"]}
{"id": "C52", "title": "Ingestion produces exactly the points of the listed grids", "statement": "If the ingester ends without exception, the output database holds, in Z-order, exactly one octant for each point with data of each grid processed, with the converted values, and nothing else, together with the schema and the description.", "quantifier": "for every parameter file, set of grid files, geometry and number format", "why_tests_cant": "Unbounded files and numbers of files.", "anchors": ["libsrc/cencalvm/create/GridIngester.cc: GridIngester::run", "libsrc/cencalvm/create/VMCreator.cc: VMCreator::packDB"]}
{"id": "C53", "title": "Every grid named in the parameter file is processed", "statement": "The grids processed by the ingester are the whitespace separated words of the parameter file, in order.", "quantifier": "for every parameter file", "why_tests_cant": "Texts are unbounded.", "anchors": ["libsrc/cencalvm/create/GridIngester.cc: GridIngester::_readParams"]}
{"id": "C54", "title": "Extraction stores exactly one octant per grid point with the answer of the query", "statement": "If extracting a grid ends normally, the new database holds exactly one octant for every point of the grid, in different cells, in Z-order, with what the query object answers at that point; no other file changes. A missing input file is not noticed before the null database is used.", "quantifier": "for every grid, input database, query setting and every pattern of failures of the storage library", "why_tests_cant": "Grids, databases and failure patterns are unbounded.", "anchors": ["extensions/applications/vsgrader/VsGrader.cc: VsGrader::_extract"]}
{"id": "C55", "title": "The graded volume is the greatest one within the bounds", "statement": "Among all volumes that respect the three bounds and nowhere exceed the original, the graded volume is pointwise the greatest; the other properties are reduced in proportion and unreduced points keep their payload; grading again changes nothing.", "quantifier": "for every grid of any size, all values, all competing volumes", "why_tests_cant": "Quantifies over all competing volumes; interaction of three passes.", "anchors": ["extensions/applications/vsgrader/VsGrader.cc: VsGrader::_grade"]}
{"id": "C56", "title": "The spatial database adjusts Vp, density and Vs exactly as documented", "statement": "The last value named Vp is that of the underlying object at the last elevation tried, raised to 1360 + 1.16 minVs when positive and below it; the last value named density is raised to 2000 when strictly between 1000 and 2000; the last value named Vs is raised to minVs when positive, below it, and downward projection is on; otherwise they are unchanged.", "quantifier": "for every history of calls, database, location and setting", "why_tests_cant": "Continuum of inputs and unbounded histories of calls deciding which positions the code believes hold Vs, Vp and density.", "anchors": ["extensions/libsrc/cencalvmdb/CenCalVMDB.cc: CenCalVMDB::query", "extensions/libsrc/cencalvmdb/CenCalVMDB.cc: CenCalVMDB::queryVals"]}
{"id": "C57", "title": "The spatial database reports the outcome of the last underlying query", "statement": "A query returns 1 exactly if the last underlying query left a warning, which is then cleared, and 0 otherwise; exceptions come only from the coordinate conversion or from an error left by the first underlying query; no setting changes.", "quantifier": "for every object state, database and location", "why_tests_cant": "All states of the error handler and all databases.", "anchors": ["extensions/libsrc/cencalvmdb/CenCalVMDB.cc: CenCalVMDB::query"]}
{"id": "C58", "title": "Objects created through the C interface are independent", "statement": "After any history of C calls on any number of objects, interleaved with creations, destructions and calls with null handles, an object that still exists is in the state, and has returned the values, that the C++ calls made through its own handle alone would produce.", "quantifier": "for every history of C calls, every number of objects, every content of the log files", "why_tests_cant": "Unbounded interleavings of calls on unboundedly many objects.", "anchors": ["libsrc/cencalvm/query/cvmquery.cc: cencalvm_*", "libsrc/cencalvm/query/cvmerror.cc: cencalvm_error_*"]}
{"id": "C59", "title": "The command line of the query application is read as documented", "statement": "cencalvmquery accepts a command line exactly when every word is a known option or its argument and input, output and database names are given; each setting is that of the last option naming it, or its default.", "quantifier": "for every command line", "why_tests_cant": "Command lines are unbounded in number, order and repetition of options.", "anchors": ["applications/query/cencalvmquery.cc: parseArgs"]}
{"id": "C60", "title": "Setup failures of the query application are reported", "statement": "If a database cannot be opened, the query type is unknown, the resolution is not usable, the input cannot be read or the output cannot be opened, cencalvmquery writes no output line and exits with code 1; exit code 0 implies that all of these succeeded.", "quantifier": "for every set of options, every file system content and every database", "why_tests_cant": "Combinations of all options and all failures.", "anchors": ["applications/query/cencalvmquery.cc: main", "applications/query/cencalvmquery.cc: initialize"]}
{"id": "C61", "title": "The isosurface application answers every location in order", "statement": "cencalvmisosurface writes one line for each location of the input file, in order; it stops early only with a nonzero exit code, at a location where the target speed is out of range or a query failed.", "quantifier": "for every input file, every database and every set of options", "why_tests_cant": "Input files of any length and arbitrary shear wave speed profiles.", "anchors": ["applications/query/cencalvmisosurface.cc: main"]}
{"id": "C62", "title": "The isosurface application writes the depth of the isosurface below the ground", "statement": "The number written for a location is -999 or the depth below the ground of a place where the shear wave speed reaches the target, within the final bracket width of a place where it does not unless it is the ground itself.", "quantifier": "for every database, location, target speed, lowest elevation and squashing limit", "why_tests_cant": "Arbitrary shear wave speed profiles and ground elevations.", "anchors": ["applications/query/cencalvmisosurface.cc: main, searchVs"]}
{"id": "C63", "title": "The ground elevation is corrected downward to solid material", "statement": "The elevation of the ground used for a location is the first of ten elevations going down in steps of 12.5 m from the stored ground elevation where the shear wave speed is positive, and the stored one if there is none; it does not depend on earlier queries.", "quantifier": "for every database, location and state of the query object", "why_tests_cant": "Arbitrary shear wave speed profiles.", "anchors": ["applications/query/cencalvmisosurface.cc: queryElev"]}
{"id": "C64", "title": "The command line of the isosurface application is read as documented", "statement": "cencalvmisosurface accepts a command line exactly when every word is a known option or its argument and input, output and database names and a target speed are given; each setting is that of the last option naming it, or its default.", "quantifier": "for every command line", "why_tests_cant": "Command lines are unbounded in number, order and repetition of options.", "anchors": ["applications/query/cencalvmisosurface.cc: parseArgs"]}
{"id": "C65", "title": "The command lines of the file applications are read as documented", "statement": "cencalvmavg, cencalvmpack, cencalvmgen and gradecencalvm accept a command line exactly when every word is a documented option or its argument and each required file is named; the last option naming a file counts. A refused command line ends the program with exit code 1 and no file touched.", "quantifier": "for every command line and file system", "why_tests_cant": "Command lines are unbounded in number, order and repetition of options.", "anchors": ["applications/create/cencalvmgen.cc: main, parseArgs", "applications/average/cencalvmavg.cc: main, parseArgs", "applications/create/cencalvmpack.cc: main, parseArgs", "extensions/applications/vsgrader/gradecencalvm.cc: parseArgs"]}
{"id": "C66", "title": "cencalvmavg averages or fails visibly", "statement": "cencalvmavg ends with exit code 0 exactly when the input is a database of the right payload size and schema with at least one octant and none inside another; then the output file holds the average with the schema and the metadata of the input plus a note. In every other case the exit code is nonzero. No other file is changed.", "quantifier": "for every database file, file name and failure of the library", "why_tests_cant": "Arbitrary octrees and failures of the library at arbitrary points.", "anchors": ["applications/average/cencalvmavg.cc: main, parseArgs", "libsrc/cencalvm/average/Averager.cc: average"]}
{"id": "C67", "title": "What is ingested is what is answered", "statement": "If cencalvmgen creates a database from grid files and cencalvmavg averages it, both with exit code 0, then a MAXRES query on the result anywhere in the cell of a point with data of one of the grids answers the values of this point converted to SI units.", "quantifier": "for every parameter file, every set of grid files with points inside the model, every projection and every query location", "why_tests_cant": "The whole chain from text to query over arbitrary grids and octrees; tests compare a few samples.", "anchors": ["applications/create/cencalvmgen.cc: main, parseArgs", "applications/average/cencalvmavg.cc: main, parseArgs", "libsrc/cencalvm/create/GridIngester.cc: run", "libsrc/cencalvm/average/Averager.cc: average", "libsrc/cencalvm/query/VMQuery.cc: query"]}
{"id": "C68", "title": "cencalvminfo describes the database", "statement": "After cencalvmgen with exit code 0, cencalvminfo prints the description and schema given by it, and the number of points with data of all grids as the number of octants. After cencalvmavg it prints the note on averaging and the number of input octants plus the number of their proper ancestors. Its exit code is 0 only if the file exists and everything was printed.", "quantifier": "for every parameter file, grid files and database", "why_tests_cant": "Arbitrary numbers of grids, points and octants.", "anchors": ["applications/query/cencalvminfo.cc: main"]}
{"id": "C69", "title": "cencalvmpack copies or fails visibly", "statement": "cencalvmpack ends with exit code 0 exactly when the input exists and has an octant and nothing failed; then the output holds the same octants in the same order with the same metadata. Otherwise the exit code is 1. No other file is changed.", "quantifier": "for every database file, file name and failure of the library", "why_tests_cant": "Arbitrary octrees and failures at arbitrary points of the loop.", "anchors": ["applications/create/cencalvmpack.cc: main, parseArgs", "libsrc/cencalvm/create/VMCreator.cc: packDB"]}
{"id": "C70", "title": "The root cube lies where the model needs it", "statement": "A location is converted to an octant exactly if it lies at most 409600 m northwest and 1228800 m southeast, 204800 m southwest and 1433600 m northeast of the northwest corner of the detailed model along the axes of azimuth 143.638 and 53.638 degrees, and between 12800 m above and 396800 m below sea level; the octant is the one at the corresponding place of the root cube, with depth exaggerated four times.", "quantifier": "for every map projection, location and level", "why_tests_cant": "An if-and-only-if over a continuum of locations with an irrational rotation.", "anchors": ["libsrc/cencalvm/storage/GeomCenCA.cc: GeomCenCA::GeomCenCA, lonLatElevToAddr"]}
{"id": "C71", "title": "The grader's parameter file is accepted exactly if it follows the grammar and gives every setting", "statement": "Reading the parameter file of gradecencalvm succeeds exactly if the text is the word VsGrader in any case, an opening brace, and a sequence of settings (a known name in any case, anything up to the next equals sign, a value) ending with a closing brace followed by a character, and each of the nine real settings has, after the last assignment, a value other than zero, and there is a positive query resolution unless the query type is maxres; the parameters are then those of the last assignments, the others keep their defaults.", "quantifier": "for every text and every scanner of numbers", "why_tests_cant": "An if-and-only-if over all texts of any length with settings in any order and number.", "anchors": ["extensions/applications/vsgrader/VsGrader.cc: VsGrader::_readParams"]}
{"id": "C72", "title": "Reading a malformed parameter file is always answered with an exception", "statement": "Reading the parameter file of gradecencalvm never has undefined behaviour: every text is accepted or refused with an exception.", "quantifier": "for every text", "why_tests_cant": "A test finds one bad text; the theorem characterises all of them.", "anchors": ["extensions/applications/vsgrader/VsGrader.cc: VsGrader::_readParams"]}
{"id": "C73", "title": "gradecencalvm ends with code 0 exactly if the output obeys the parameter file", "statement": "gradecencalvm run with a parameter file, an input, an output and a temporary file ends with code 0 only if the parameter file is accepted, and then the output holds one octant per point of the grid described, with speeds at or above the minimum that respect the gradient bound; it does end with code 0 if the model answers at every point and nothing fails; it ends with code 1 otherwise; and it touches no file but the output and the temporary one.", "quantifier": "for every set of files, grid, model and failure of the database library", "why_tests_cant": "Quantifies over all parameter files, all models and all faults.", "anchors": ["extensions/applications/vsgrader/gradecencalvm.cc: main, parseArgs", "extensions/applications/vsgrader/VsGrader.cc: VsGrader::run"]}
{"id": "C74", "title": "The order of the grids in the parameter file does not matter", "statement": "If two parameter files name the same grid files in different orders, ingesting one succeeds exactly if ingesting the other does, and both leave the same temporary and packed databases with the same contents.", "quantifier": "for every set of grid files, every two parameter files ending in whitespace whose words are permutations of each other, and a database library that does not fail", "why_tests_cant": "All permutations of all lists of grids; a dependence on order would show only for particular overlaps.", "anchors": ["libsrc/cencalvm/create/GridIngester.cc: GridIngester::run, addGrid", "libsrc/cencalvm/create/VMCreator.cc: insert, packDB"]}
{"id": "C75", "title": "Averaging is local and has one result", "statement": "The averaged database is the only database that holds the input octants and their ancestors with the solid-precedence mean of their children. If two inputs hold the same octants inside a cell, their averages hold the same octants with the same values inside that cell.", "quantifier": "for every pair of non-empty non-overlapping inputs below the root and every cell", "why_tests_cant": "Compares runs on all pairs of databases; leaked state from octants processed earlier would show only for particular shapes.", "anchors": ["libsrc/cencalvm/average/AvgEngine.cc: AvgEngine::fillOctants, _processOctant, _addToParent"]}
{"id": "C76", "title": "A fixed-resolution answer summarises exactly the ingested points in its cell", "statement": "After cencalvmgen and cencalvmavg ended with code 0, a FIXEDRES query at a location whose cell holds ingested points in smaller octants answers with values that are solid exactly if one of those points is, that lie between any bounds of the values of the deciding points (the solid ones, else the water ones), that are no-data if none decides, and with fault block and zone -999.", "quantifier": "for every parameter file and grids inside the model, every location and query resolution", "why_tests_cant": "Spans ingestion, packing, averaging and querying over all inputs.", "anchors": ["libsrc/cencalvm/create/GridIngester.cc: run", "libsrc/cencalvm/average/AvgEngine.cc: fillOctants", "libsrc/cencalvm/query/VMQuery.cc: VMQuery::_queryFixed, query"]}
{"id": "C77", "title": "Over a filled cell the average is the volume-weighted mean", "statement": "If input octants of any sizes, all solid or all water, fill an octant of the averaged database, each real value of that octant is the mean of theirs weighted with their volumes, and the volumes add up to its volume.", "quantifier": "for every non-overlapping input database and every octant filled by it", "why_tests_cant": "Quantifies over all refinements of a cell to any depth; averaging the wrong number of children shows only where sizes are mixed.", "anchors": ["libsrc/cencalvm/average/AvgEngine.cc: AvgEngine::_addToParent, _processOctant"]}
{"id": "C78", "title": "A failed projection does not affect later ones", "statement": "Every call of Projector::project and invProject has the outcome it would have as the first call, also after calls that threw; in particular a query that fails to project its location leaves later queries unharmed.", "quantifier": "for every sequence of calls and every behaviour of the projection library", "why_tests_cant": "Needs a failing call followed by a good one, and depends on whether the library clears its error code.", "anchors": ["libsrc/cencalvm/storage/Projector.cc: Projector::project, invProject", "libsrc/cencalvm/query/VMQuery.cc: VMQuery::query"]}
{"id": "C79", "title": "The projection object inherits the round trip of the library", "statement": "If the inverse transformation of the library undoes the forward one (in radians), invProject undoes project in degrees and the other way round, and converting the centroid of an octant gives the octant back.", "quantifier": "for every location, every octant and every projection library with the round trip", "why_tests_cant": "All locations; a wrong unit on one side would cancel in tests that only compare both directions of the same kind.", "anchors": ["libsrc/cencalvm/storage/Projector.cc: Projector::project, invProject", "libsrc/cencalvm/storage/GeomCenCA.cc: addrToLonLatElev, lonLatElevToAddr"]}
{"id": "C80", "title": "Double precision moves a location by a bounded amount, the same at all levels", "statement": "Computed in double precision in any rounding direction, the conversion of a location to octants behaves at every level like the exact conversion of one point whose root coordinates differ from those of the location by at most 9 M / 2^52 metres, M bounding the distance from the root corner: the octants contain that point, and the location is reported outside exactly if the point is.", "quantifier": "for every location, rounding direction, level and rotation with sine and cosine at most 1 in size", "why_tests_cant": "Rounding errors of all inputs; tests compare a few rounded values only.", "anchors": ["libsrc/cencalvm/storage/GeomCenCA.cc: lonLatElevToAddr"]}
{"id": "C81", "title": "Octants of one location are nested in spite of rounding", "statement": "In double precision the octant computed for a location at a coarse level is the ancestor of the octant computed at any finer level.", "quantifier": "for every location, pair of levels, rounding direction, frame and projection", "why_tests_cant": "A quotient rounded up to an integer at one level only would break the search of the query for a vanishing set of locations.", "anchors": ["libsrc/cencalvm/storage/GeomCenCA.cc: lonLatElevToAddr", "libsrc/cencalvm/storage/GeomCenCA.cc: findAncestor"]}
{"id": "C82", "title": "Sizes and centroid elevations are exact in double precision", "statement": "Octant edge lengths and the elevations of octant centroids are computed without rounding error; horizontally the centroid deviates from the middle of the octant by at most 8 N / 2^52 metres, N bounding the coordinates of the root corner.", "quantifier": "for every octant, rounding direction and frame", "why_tests_cant": "All octants of all levels, where tests compare with a tolerance.", "anchors": ["libsrc/cencalvm/storage/GeomCenCA.cc: addrToLonLatElev", "libsrc/cencalvm/storage/GeomCenCA.icc: edgeLen"]}
{"id": "C83", "title": "Centroids convert back to their octant in double precision", "statement": "In double precision the centroid of an octant converts back to the octant when the projection undoes its inverse up to a tenth of a millimetre, at all levels of the tree.", "quantifier": "for every octant, rounding direction, projection of that accuracy and frame with corner coordinates up to 8000 km", "why_tests_cant": "2^93 octants; the finest are smaller than a millimetre.", "anchors": ["libsrc/cencalvm/storage/GeomCenCA.cc: addrToLonLatElev, lonLatElevToAddr"]}
{"id": "C84", "title": "Inserted data are found at the same location in double precision", "statement": "Data inserted at a location are what the maximum resolution query returns at the same location when both compute in double precision.", "quantifier": "for every location given an octant of the tree, level, rounding direction, projection and frame", "why_tests_cant": "Depends on rounding at locations near octant faces.", "anchors": ["libsrc/cencalvm/create/VMCreator.cc: insert", "libsrc/cencalvm/query/VMQuery.cc: query", "libsrc/cencalvm/storage/GeomCenCA.cc: lonLatElevToAddr"]}
{"id": "C85", "title": "The level of an edge length is computed correctly in double precision", "statement": "With a logarithm accurate to a relative error of 2^-20 the level computed in double precision for a resolution is the nearest level unless the resolution is within one per cent of a level from the boundary between two levels; for edge lengths it is their level.", "quantifier": "for every resolution, rounding direction and logarithm of that accuracy", "why_tests_cant": "Accuracy of the library logarithm varies between platforms.", "anchors": ["libsrc/cencalvm/storage/GeomCenCA.icc: level"]}
{"id": "C86", "title": "In single precision every interior value is the mean of its children up to a bounded relative error", "statement": "With sums and quotients rounded to the 24 binary digits of float in any direction, each interior octant of the averaged database holds the mean of its solid children, else of its water children, up to 10/2^23 times a bound on their absolute values, and is solid or water exactly when the children decide so; without such children it holds no-data exactly.", "quantifier": "for every non-overlapping input database below the root, rounding direction and interior octant", "why_tests_cant": "Tests compare with a tolerance for a few values; this bounds the error for all values, numbers of children and rounding directions.", "anchors": ["libsrc/cencalvm/average/AvgEngine.cc: AvgEngine::_addToParent, _processOctant"]}
{"id": "C87", "title": "Rounding to single precision moves no average by more than 2^-14", "statement": "Averaging in the precision of float makes the same octants as averaging in exact arithmetic, the same ones are solid, and each real value differs by at most 2^-14 times any bound on the absolute values of the input octants contributing to it; hence averages keep within the range of the data up to that amount.", "quantifier": "for every non-overlapping input database below the root, of any depth, and every rounding direction", "why_tests_cant": "Errors accumulate over up to 31 levels of means of means; no test compares with an exact average.", "anchors": ["libsrc/cencalvm/average/AvgEngine.cc: AvgEngine::_addToParent, _processOctant", "libsrc/cencalvm/average/AvgEngine.cc: AvgEngine::fillOctants"]}
{"id": "C88", "title": "A uniform model averages to itself", "statement": "If all octants of the input hold the same values of rock or water, all octants of the averaged database hold them too.", "quantifier": "for every non-overlapping input database whose octants have equal real values", "why_tests_cant": "Unbounded databases of any shape; in single precision it depends on the digits of the value and the number of children.", "anchors": ["libsrc/cencalvm/average/AvgEngine.cc: AvgEngine::_addToParent, _processOctant"]}
{"id": "C89", "title": "In float and double the gradient bounds hold up to a bounded factor", "statement": "With differences of neighbours rounded to float, and reduced speeds and the maximum difference rounded to double (stored in float), in any direction, grading ends normally, keeps the octants, and no speed exceeds that of a neighbour plus the maximum difference by more than a factor of (1+2^-22)^k; k is 4 after limiting a single line, 5 along the width, which is graded last, and 8 times the sum of the numbers of points plus 2 along the other axes. Without the factor the bound is false.", "quantifier": "for every grid, database with speeds that are not negative, gradient and rounding direction", "why_tests_cant": "Tests compare a few speeds with a tolerance; this bounds the effect of all roundings for lines of any length.", "anchors": ["extensions/applications/vsgrader/VsGrader.cc: VsGrader::_limitDiff, _grade"]}
{"id": "C90", "title": "In float and double the ratios and the least speed survive grading", "statement": "With the same roundings, every positive speed stays positive and is raised by at most a factor of (1+2^-22)^12, the ratios of the other properties to the speed change by at most a factor of (1+2^-22)^18 whatever the size of the grid, depth, fault block and zone are kept, and no speed falls below a float that all speeds reached.", "quantifier": "for every grid, database with positive speeds, gradient and rounding direction", "why_tests_cant": "That the error does not grow with the grid follows from a point being reduced at most twice per pass, which no sample shows.", "anchors": ["extensions/applications/vsgrader/VsGrader.cc: VsGrader::_limitDiff, _grade"]}
{"id": "C91", "title": "In float and double the graded volume is the greatest admissible one up to a bounded factor", "statement": "With the same roundings, no volume that respects the bounds and nowhere exceeds the original exceeds the graded one by more than a factor of (1+2^-22)^(4N+1), N the sum of the numbers of points along the axes; grading again changes speeds by at most a factor of (1+2^-22)^(12N+3), but need not leave the other properties alone.", "quantifier": "for every grid, database with speeds that are not negative, competing volume and rounding direction", "why_tests_cant": "Quantifies over all competing volumes.", "anchors": ["extensions/applications/vsgrader/VsGrader.cc: VsGrader::_limitDiff, _grade"]}
{"id": "C92", "title": "The spatial database turns errors, and only errors, into exceptions", "statement": "open, close, queryType and queryVals raise an exception exactly if the call of the query object they stand for leaves the status ERROR (never for a warning), with the message of the error. As the class offers no way to reset the status, each of them keeps raising exceptions after an error, whatever calls are made in between, as long as no query is made; a query where there is no data makes the database forget the error.", "quantifier": "for every object state and sequence of calls", "why_tests_cant": "Unbounded call sequences and all states.", "anchors": ["extensions/libsrc/cencalvmdb/CenCalVMDB.cc: CenCalVMDB::open, close, queryType, queryVals, query"]}
{"id": "C93", "title": "A query of the spatial database stays within the caller's array", "statement": "If the caller's array has one place for each value last asked for, a query reads and writes no place outside it: it is undefined only if the conversion of the coordinates or a query of the underlying object at one of the nine elevations tried is.", "quantifier": "for every history of calls, location and database", "why_tests_cant": "All histories; out of bounds accesses often go unnoticed.", "anchors": ["extensions/libsrc/cencalvmdb/CenCalVMDB.cc: CenCalVMDB::queryVals, query"]}
{"id": "C94", "title": "The C example program answers like cencalvmquery", "statement": "Given the same command line and files, the example program cencalvmcquery (written in C on the C interface) writes the same lines to the output file and returns the same exit code as the application cencalvmquery.", "quantifier": "for every command line, set of files, databases and input text", "why_tests_cant": "Quantifies over all inputs; a program that does not end cannot be observed by a test.", "anchors": ["examples/query/c/cencalvmcquery.c: parseArgs, main", "applications/query/cencalvmquery.cc: main"]}
{"id": "C95", "title": "The Fortran example program answers each location until a query fails", "statement": "The example program cencalvmf77query writes for each location of the input one line with the location and the nine values of the query, in input order, and (as its comments say) bails out at the first location whose query generates an error; if the database cannot be opened or the type of query is unknown it writes nothing and ends with ERROR.", "quantifier": "for every set of constants, database and input", "why_tests_cant": "Quantifies over all inputs and databases; reading beyond a character variable is undefined and often goes unnoticed.", "anchors": ["examples/query/f77/cencalvmf77query.f: program cencalvmf77query", "libsrc/cencalvm/query/f77vmerror.cc: cencalvm_error_message_f, cencalvm_error_logfilename_f"]}
{"id": "C96", "title": "The Python spatial database is set up as its properties say", "statement": "Configuring the Python class CenCalVMDB sets the query type, resolution, database files, cache sizes (of both databases), squashing, minimum shear speed and downward projection of the object to the values of the properties of that name, or to the documented defaults; an unknown query type raises an exception and changes nothing.", "quantifier": "for every combination of properties set and every object state", "why_tests_cant": "All combinations of properties; the tests do not cover the Python class.", "anchors": ["extensions/cencalvm/CenCalVMDB.py: CenCalVMDB.Inventory, CenCalVMDB._configure"]}
{"id": "C97", "title": "The log of cencalvmquery lists exactly the locations without data", "statement": "If a log file is named and can be opened, after cencalvmquery has run it holds, in input order, one line for each line of the output whose fault block says no data, and nothing else; no other file but the output changes. Without a log file no file but the output changes. If the program stops at a location whose query ended with an error, a line for that location may follow.", "quantifier": "for every database, command line, input text and previous contents of the files", "why_tests_cant": "Relates two output files over all inputs, including runs that end early.", "anchors": ["applications/query/cencalvmquery.cc: main", "libsrc/cencalvm/query/VMQuery.cc: VMQuery::query", "libsrc/cencalvm/storage/ErrorHandler.cc: logFilename, log"]}
{"id": "C98", "title": "A WAVERES answer summarises the ingested points of an octant about as long as the shear wavelength", "statement": "After cencalvmgen and cencalvmavg ended with code 0, a WAVERES query at a location in the octant of an ingested solid point answers with solid values that lie between any bounds of the values of the solid points ingested in one octant around that point. That octant is the root or at least as long as the shortest shear wavelength among those points, and it is the octant of the point itself, answered unchanged, or less than twice as long as the longest shear wavelength among them.", "quantifier": "for every parameter file and grids inside the model, every location, period and extended database", "why_tests_cant": "Spans ingestion, packing, averaging and querying over all inputs.", "anchors": ["libsrc/cencalvm/create/GridIngester.cc: run", "libsrc/cencalvm/average/AvgEngine.cc: fillOctants", "libsrc/cencalvm/query/VMQuery.cc: VMQuery::_queryWave"]}
{"id": "C99", "title": "WAVERES queries in float and double follow the wavelength criterion up to rounding", "statement": "With quotients rounded to double and means to float in any direction, and a requested period that is a double, every octant a WAVERES query walks past is shorter than the shear wavelength; the octant it stops at is the root, not solid, or not shorter by a fraction of more than 2^-52; the values answered lie between those of the two octants met last and are their mean up to a fraction 2^-23; an average refused as too coarse is too coarse, and one used is not by a fraction of more than 2^-52.", "quantifier": "for every database with all ancestors and values of type float, every rounding direction, location and period", "why_tests_cant": "Quantifies over all floating-point values and rounding directions.", "anchors": ["libsrc/cencalvm/query/VMQuery.cc: VMQuery::_queryWave"]}
{"id": "C100", "title": "Ingestion in float and double stores every point up to rounding", "statement": "With numbers read and products rounded to float and double in any direction, ingesting a grid file stores one octant for every point with a fault block and a zone, at the cell of its location with the elevation converted up to a relative error of 2^-52, with lengths, speeds and density 1000 times those read up to a relative error of 2^-22 and of the same sign, with -999 kept exactly, and with ids and quality factors as read; and it stores nothing else.", "quantifier": "for every grid file, geometry, creator state and rounding direction", "why_tests_cant": "Quantifies over all texts and all floating-point values.", "anchors": ["libsrc/cencalvm/create/GridIngester.cc: GridIngester::_addGrid"]}
{"id": "C101", "title": "The header check of a grid in double accepts and rejects up to 1e-13", "statement": "Computed in double in any rounding direction, a grid is rejected without insertions if exactly one resolution is zero or a ratio of its header (resolutions to vertical exaggeration, resolution to edge length) is off by more than 10^-6 + 10^-13, and it is ingested if both are within 10^-6 - 10^-13 and the points can be inserted.", "quantifier": "for every grid file, geometry and rounding direction", "why_tests_cant": "The threshold is compared with rounded quotients of arbitrary numbers.", "anchors": ["libsrc/cencalvm/create/GridIngester.cc: GridIngester::_addGrid"]}
{"id": "C102", "title": "FIXEDRES end to end in float and double", "statement": "After cencalvmgen and cencalvmavg ended with code 0, computing in float and double in any rounding direction, a FIXEDRES query at a cell holding points of smaller octants answers with a summary of exactly the points of the grid files in that cell: solid if and only if one of them is, each value between any bounds of the values of the deciding points up to 2^-13 of the larger bound, no-data if none decides, without fault block or zone.", "quantifier": "for every parameter file and grids inside the model, every location, resolution and rounding direction", "why_tests_cant": "Spans four programs and all floating-point inputs.", "anchors": ["libsrc/cencalvm/create/GridIngester.cc: run", "libsrc/cencalvm/average/AvgEngine.cc: fillOctants", "libsrc/cencalvm/query/VMQuery.cc: VMQuery::_queryFixed"]}
{"id": "C103", "title": "WAVERES end to end in float and double", "statement": "After cencalvmgen and cencalvmavg ended with code 0, computing in float and double in any rounding direction, a WAVERES query in the octant of a solid point of the grid files answers with solid values between any bounds of the values of the solid points of the files in one octant around that point, up to 2^-13 of the larger bound. That octant is the root or not shorter than the shortest shear wavelength of those points less 2^-12 of the longest; and it is the octant of the point itself, answered with the values of the point up to 2^-22, or shorter than twice the longest shear wavelength and 2^-12 more.", "quantifier": "for every parameter file and grids inside the model, every location, every period that is a double, and every rounding direction", "why_tests_cant": "Spans four programs and all floating-point inputs.", "anchors": ["libsrc/cencalvm/create/GridIngester.cc: run", "libsrc/cencalvm/average/AvgEngine.cc: fillOctants", "libsrc/cencalvm/query/VMQuery.cc: VMQuery::_queryWave"]}
{"id": "C104", "title": "Only finite locations are given an octant; the others are reported outside", "statement": "With arguments that may be infinite or not a number, and with overflow, the conversion of a location gives an octant only if the projected coordinates and the elevation are finite, namely the octant of the finite computation; every other location is reported as outside the model.", "quantifier": "for all arguments of type double (finite, infinite, not a number), every level, projection and rounding direction", "why_tests_cant": "Special values reach the comparisons through several operations; the tests use ordinary locations only.", "anchors": ["libsrc/cencalvm/storage/GeomCenCA.cc: lonLatElevToAddr"]}
{"id": "C105", "title": "The range of double does not influence the conversion of a location", "statement": "For locations within 2^1000 m of the root corner the conversion with overflow is exactly the conversion with numbers of unbounded size.", "quantifier": "for every finite location in that range, level, rounding direction and rotation", "why_tests_cant": "Quantifies over all values of the type.", "anchors": ["libsrc/cencalvm/storage/GeomCenCA.cc: lonLatElevToAddr"]}
{"id": "C106", "title": "The isosurface search in double brackets the target within 12.51 m", "statement": "With middles, differences and the number of iterations computed in double in any rounding direction, with a logarithm of relative error at most 2^-40, the search between two limits more than 12.6 m apart ends, and reports the upper limit if the target speed is reached there; or an elevation between the limits where it is reached, at most 12.51 m below a place between the limits where it is not; or 1e6 if neither limit reaches the target and the lower is outside the model. It gives up only if the target is reached neither at the limits nor at the rounded middle.", "quantifier": "for all limits of type double up to 3000 km, targets, locations, query objects and rounding directions", "why_tests_cant": "Rounding of middles and of a logarithm near an integer depends on every bit of the limits.", "anchors": ["applications/query/cencalvmisosurface.cc: searchVs"]}
{"id": "C107", "title": "The isosurface program in double writes one line for each location", "statement": "Computing elevations in double in any rounding direction, the program writes for every location followed by something, in order, the location and the rounded difference of the ground and what a search of width 12.51 m may report, or exits with 1 at the first location where the target is out of range; without squashing the number is -999 or within 1e-9 of the depth of a place where the target is reached and within 12.51 m above not.", "quantifier": "for every input text, database, command line with elevations of at most 10^6 m, and rounding direction", "why_tests_cant": "Quantifies over all texts, databases and floating-point values.", "anchors": ["applications/query/cencalvmisosurface.cc: main", "applications/query/cencalvmisosurface.cc: searchVs", "applications/query/cencalvmisosurface.cc: queryElev"]}
{"id": "C108", "title": "The ground found in double is that of exact arithmetic or next to it", "statement": "Computed in double in any rounding direction, the ground is the first of ten doubles, 12.5 m apart but for rounding, from the stored elevation downwards with positive speed, or else the one stored; it is unique, a double, not above the stored one and at most 112.501 m below; and it is exactly that of exact arithmetic if the stored elevation is a multiple of 2^-10.", "quantifier": "for every query object, location, stored elevation of at most 10^6 m and rounding direction", "why_tests_cant": "Quantifies over all stored elevations and databases.", "anchors": ["applications/query/cencalvmisosurface.cc: queryElev"]}
{"id": "C109", "title": "The numbers of points of the grader in double fill the domain", "statement": "With quotients and sums in double in any rounding direction, the numbers of points along the sides of a domain are exact if the sides are whole numbers of steps; in general one more point would lie beyond the end, and the last one lies beyond it by no more than a fraction of 2^-50 of the side and one step. They are defined for all sides shorter than 2^31 - 2 steps.", "quantifier": "for all sides, spacings and rounding directions", "why_tests_cant": "Quotients near an integer are rounded across it for some bit patterns only.", "anchors": ["extensions/applications/vsgrader/VsGrader.cc: _extract", "extensions/applications/vsgrader/VsGrader.cc: _grade"]}
{"id": "C110", "title": "The points of the grader in double are those of exact arithmetic up to rounding", "statement": "Computed in double in any rounding direction, every point of the grid is the image under the projection of a point of the plane within a fraction of 2^-49, and at an elevation within a fraction of 2^-50, of the exact ones, relative to the numbers added; elevations are exact for a corner and a spacing in multiples of a power of two.", "quantifier": "for all grids, points and rounding directions", "why_tests_cant": "Quantifies over all floating-point corners, spacings and indices.", "anchors": ["extensions/applications/vsgrader/VsGrader.cc: _indexToLonLat", "extensions/applications/vsgrader/VsGrader.icc: _indexToElev"]}
{"id": "C111", "title": "What the grader extracts and leaves in single precision", "statement": "An extraction that ends normally stores at every point what the query answered, marked where there is no speed, otherwise every value within a fraction of 2^-23, the speed raised to the minimum; no speed in the temporary file, nor in the output of the whole run, is below the minimum rounded to single precision; in the output neighbours differ by at most the maximum gradient times the spacing up to a factor of (1 + 2^-22)^k, k eight times the sum of the numbers of points plus two.", "quantifier": "for all databases, grids, failures of libetree and rounding directions", "why_tests_cant": "Quantifies over all stored values and minima; whether the minimum is rounded up or down depends on its bits.", "anchors": ["extensions/applications/vsgrader/VsGrader.cc: _extract", "extensions/applications/vsgrader/VsGrader.cc: run"]}
{"id": "C112", "title": "The ground elevation in double precision", "statement": "With the geometry and the sum in double, in any rounding direction, the elevation a query answers is the exact middle of the vertical extent of the ground octant plus its depth, up to a fraction of 2^-52; exactly that if the depth stored is a float that is 0 or between 1/512 m and 2^19 m in size; and -999 if there is no such octant.", "quantifier": "for all database pairs, locations, query types and rounding directions", "why_tests_cant": "Quantifies over all octants of all levels and all float depths; sums lose bits only for some.", "anchors": ["libsrc/cencalvm/query/VMQuery.cc: VMQuery::_queryElev", "libsrc/cencalvm/storage/GeomCenCA.cc: addrToLonLatElev"]}
{"id": "C113", "title": "Squashing in double precision", "statement": "With sums in double in any rounding direction, the payload of a squashed query above the limit is that of the unsquashed query at the elevation plus the ground elevation. If the stored depths are as in C112 and the elevation asked for is a multiple of 2^-32 m of at most 2^19 m in size, ground and elevation are exactly those of exact sums; otherwise each sum is exact up to a fraction of 2^-52.", "quantifier": "for all database pairs, query types, locations, limits and rounding directions", "why_tests_cant": "Quantifies over all stored depths and all elevations.", "anchors": ["libsrc/cencalvm/query/VMQuery.cc: VMQuery::query", "libsrc/cencalvm/query/VMQuery.cc: VMQuery::_queryElev"]}
{"id": "C114", "title": "The spatial database in double precision", "statement": "With arithmetic in double in any rounding direction, the elevations tried to fill a void are the one wanted and then 25, 50, 100, ... below it up to a fraction of 2^-52, at most nine, strictly decreasing for locations up to 2^50 m above sea level; a positive Vp below 1360 + 1.16 minVs is replaced by that up to a fraction of 2^-50, and no positive Vp returned is below it by a larger fraction.", "quantifier": "for all databases, names, locations, non-negative minimum speeds and rounding directions", "why_tests_cant": "Quantifies over all elevations and minimum speeds; 1.16 is not a double.", "anchors": ["extensions/libsrc/cencalvmdb/CenCalVMDB.cc: CenCalVMDB::query"]}
{"id": "C115", "title": "The report of cencalvmavg", "statement": "If cencalvmavg returns 0, standard error is empty and standard output is the report with, under the right labels, the numbers of octants of the input, of the output, of proper ancestors of input octants, and of those of them that lack children at the upper end in x, y, z, two or all three directions, or otherwise; if it returns anything else, the code is 1 and standard output is empty. Writing the report changes neither the code nor the files.", "quantifier": "for all input databases and file names", "why_tests_cant": "Quantifies over all databases; the tests compare the counters, not the text.", "anchors": ["libsrc/cencalvm/average/AvgEngine.cc: AvgEngine::printOctantInfo", "libsrc/cencalvm/average/Averager.cc: Averager::average", "applications/average/cencalvmavg.cc: main"]}
{"id": "C116", "title": "What cencalvmgen and cencalvmpack write", "statement": "If cencalvmgen returns 0, standard output tells, in order, the number of grid files named, the temporary file opened, for each grid file the number of points with a fault block and zone and of those without, the temporary file closed, and the output packed; standard error has one line with longitude, latitude and elevation in m for each point left out, in order; and the numbers added sum to the number of octants in the output. cencalvmpack writes its two lines. With quiet set nothing goes to standard output, and to standard error only if ingestion fails. Writing changes neither codes nor files.", "quantifier": "for all grid files, parameter files and file names", "why_tests_cant": "Quantifies over all files; console output is not tested.", "anchors": ["libsrc/cencalvm/create/GridIngester.cc: GridIngester::run", "libsrc/cencalvm/create/GridIngester.cc: GridIngester::_readParams", "libsrc/cencalvm/create/GridIngester.cc: GridIngester::_addGrid", "libsrc/cencalvm/create/VMCreator.cc: VMCreator::packDB", "applications/create/cencalvmgen.cc: main", "applications/create/cencalvmpack.cc: main"]}
{"id": "C117", "title": "The message on a grid that cannot be read", "statement": "If reading a grid file fails after it has been opened, standard error gets a line for each point read and left out, and then the name of the file, the number of points added and of those left out, and the message of the exception; the points added are those with fault block and zone among the data lines read, they are stored, and data lines remain.", "quantifier": "for all grid files, geometries and states of the creator", "why_tests_cant": "Quantifies over all files and all places where reading can fail.", "anchors": ["libsrc/cencalvm/create/GridIngester.cc: GridIngester::_addGrid"]}
{"id": "C118", "title": "The reason for leaving out a point", "statement": "The line about a point left out says 'No fault block' exactly if the point has no fault block.", "quantifier": "for all grid files", "why_tests_cant": "Quantifies over all files; console output is not tested.", "anchors": ["libsrc/cencalvm/create/GridIngester.cc: GridIngester::_addGrid"]}
{"id": "C119", "title": "The progress reports of gradecencalvm", "statement": "gradecencalvm returns 0 or 1; 0 exactly if all fourteen progress reports are on standard output, in order, and then nothing is on standard error. Otherwise the first few reports are there: without the report on opening the temporary database no file has been touched, without that on packing none but the temporary one, and with that on the first pass the output file exists. Writing changes neither the code nor the files.", "quantifier": "for all parameter files, databases, file names and failures of libetree", "why_tests_cant": "Quantifies over all files and all places where the program can fail; there are no tests of the console.", "anchors": ["extensions/applications/vsgrader/VsGrader.cc: VsGrader::run", "extensions/applications/vsgrader/VsGrader.cc: VsGrader::_extract", "extensions/applications/vsgrader/VsGrader.cc: VsGrader::_grade", "extensions/applications/vsgrader/gradecencalvm.cc: main"]}
{"id": "C120", "title": "A quiet grader", "statement": "A grader told to be quiet writes nothing to the console.", "quantifier": "for all parameter files, databases and file names", "why_tests_cant": "Quantifies over all files; there are no tests of the console.", "anchors": ["extensions/applications/vsgrader/VsGrader.cc: VsGrader::_extract", "extensions/applications/vsgrader/VsGrader.cc: VsGrader::_pack", "extensions/applications/vsgrader/VsGrader.h: VsGrader::quiet", "libsrc/cencalvm/create/VMCreator.cc: VMCreator::openDB"]}
{"id": "C121", "title": "Squashing turns elevations into depths below the ground", "statement": "If in the column through a location every leaf stores as depth the distance of its middle below one ground elevation h, every query of the column answers the elevation h, or -999 where no leaf holds the location. A squashing query above the limit in a leaf of the detailed model answers as the plain query h metres higher if there is rock at the ground (h less the height of that leaf otherwise); so a MAXRES query at elevation -d answers the no-data values or those of a leaf whose stored depth differs from d by at most half the height of the leaf, up to a fraction of 2^-50 of h and d if the sums are computed in double.", "quantifier": "for all databases, columns, ground elevations and depths", "why_tests_cant": "Quantifies over all columns and all depths; the tests look at a few points of one database.", "anchors": ["libsrc/cencalvm/query/VMQuery.cc: VMQuery::query", "libsrc/cencalvm/query/VMQuery.cc: VMQuery::_queryElev"]}
{"id": "C122", "title": "No handle is used after it is closed", "statement": "In every history of calls on a query object, a creator or an averager, with exceptions caught, and its destruction, a handle of a database is given to functions of libetree only after etree_open has returned it and before etree_close has been called with it; so no handle is closed twice.", "quantifier": "for all histories of calls and failures of libetree", "why_tests_cant": "Quantifies over all histories and all places where libetree can fail.", "anchors": ["libsrc/cencalvm/query/VMQuery.cc: VMQuery::open", "libsrc/cencalvm/query/VMQuery.cc: VMQuery::close", "libsrc/cencalvm/query/VMQuery.cc: VMQuery::~VMQuery", "libsrc/cencalvm/create/VMCreator.cc: VMCreator::packDB", "libsrc/cencalvm/create/VMCreator.cc: VMCreator::openDB", "libsrc/cencalvm/average/Averager.cc: Averager::average"]}
{"id": "C123", "title": "Every database opened is closed", "statement": "When a query object, a creator or an averager is destroyed after any history of calls, etree_close has been called with every handle it got from etree_open.", "quantifier": "for all histories of calls and failures of libetree", "why_tests_cant": "Quantifies over all histories and all places where libetree can fail; leaks do not show in results.", "anchors": ["libsrc/cencalvm/query/VMQuery.cc: VMQuery::close", "libsrc/cencalvm/query/VMQuery.cc: VMQuery::~VMQuery", "libsrc/cencalvm/create/VMCreator.cc: VMCreator::packDB", "libsrc/cencalvm/create/VMCreator.cc: VMCreator::~VMCreator", "libsrc/cencalvm/average/Averager.cc: Averager::~Averager"]}
{"id": "C124", "title": "Memory is accessed within blocks that are there", "statement": "In every defined history of calls on a query object and its destruction, in the life of an averaging engine, in every history of calls on an object that ingests grids, and in every pass of the grader, each access to dynamic memory is to an element of a block that has been allocated and not deleted, and each block deleted is such a block, deleted in the form (delete or delete[]) of its allocation; so no block is deleted twice.", "quantifier": "for all histories of calls, numbers of values, texts of parameter files, lengths of passes and exceptions", "why_tests_cant": "Quantifies over all histories and lengths; accesses outside a block often go unnoticed.", "anchors": ["libsrc/cencalvm/query/VMQuery.cc: VMQuery::queryVals", "libsrc/cencalvm/query/VMQuery.cc: VMQuery::~VMQuery", "libsrc/cencalvm/query/VMQuery.cc: VMQuery::geometry", "libsrc/cencalvm/average/AvgEngine.cc: AvgEngine::~AvgEngine", "libsrc/cencalvm/create/GridIngester.cc: GridIngester::geometry", "extensions/applications/vsgrader/VsGrader.cc: VsGrader::_limitDiff"]}
{"id": "C125", "title": "All memory is returned", "statement": "When a query object, an averaging engine or an object that ingests grids is destroyed after any history of calls, and after every pass of the grader, all blocks it allocated have been deleted.", "quantifier": "for all histories of calls, texts of parameter files, lengths of passes and exceptions", "why_tests_cant": "Quantifies over all histories; leaks do not show in results.", "anchors": ["libsrc/cencalvm/query/VMQuery.cc: VMQuery::queryVals", "libsrc/cencalvm/query/VMQuery.cc: VMQuery::~VMQuery", "libsrc/cencalvm/average/AvgEngine.cc: AvgEngine::~AvgEngine", "libsrc/cencalvm/create/GridIngester.cc: GridIngester::run", "extensions/applications/vsgrader/VsGrader.cc: VsGrader::_grade"]}
{"id": "C126", "title": "The output of cencalvmquery reads back", "statement": "The file cencalvmquery writes consists of lines; the words of each line, split at blanks and read as decimal numbers, are the location and the nine values of the query in order, within half a unit of the last digit printed (5e-6 for longitude and latitude, 0.05 for elevation and real values), fault block and zone exactly.", "quantifier": "for all databases, options, inputs and roundings to the nearest integer", "why_tests_cant": "Quantifies over all numbers printed; the columns run together only for particular magnitudes and signs.", "anchors": ["applications/query/cencalvmquery.cc: main", "applications/query/cencalvmquery.cc:314-331"]}
{"id": "C127", "title": "The C program prints the same text as cencalvmquery", "statement": "For the same lines of numbers the format of fprintf in the example program in C gives the same characters as the manipulators of the streams of cencalvmquery; so with the same database, options and input both write the same file.", "quantifier": "for all lists of lines and all roundings; for all environments and options in which both programs end normally", "why_tests_cant": "Quantifies over all numbers, including those that exceed their columns.", "anchors": ["applications/query/cencalvmquery.cc: main", "examples/query/c/cencalvmcquery.c: main", "examples/query/c/cencalvmcquery.c:295-301"]}
{"id": "C128", "title": "The Fortran program keeps its columns", "statement": "Every record the example program in Fortran writes has the same length and each number has its own columns of it: the columns hold the number, as it reads back within half a unit of the last digit, or only asterisks, the latter only if the number has no room in the columns.", "quantifier": "for all databases, inputs and roundings to the nearest integer", "why_tests_cant": "Quantifies over all numbers printed, in particular those too wide for their columns.", "anchors": ["examples/query/f77/cencalvmf77query.f: cencalvmf77query", "examples/query/f77/cencalvmf77query.f:205-207"]}
{"id": "C129", "title": "The output of cencalvmisosurface reads back", "statement": "The file cencalvmisosurface writes consists of lines; the words of each line read as decimal numbers are longitude, latitude and elevation within half a unit of the last digit printed.", "quantifier": "for all lists of lines and all roundings to the nearest integer", "why_tests_cant": "Quantifies over all numbers printed.", "anchors": ["applications/query/cencalvmisosurface.cc: main", "applications/query/cencalvmisosurface.cc:407-414"]}
{"id": "C130", "title": "What cencalvmquery writes to standard error", "statement": "Standard error of cencalvmquery holds, in the order of the output, one warning naming the location for each line without data (with WAVERES perhaps a warning about a missing octant for another line) and nothing else if the exit code is 0; if the exit code is 1 one message follows, it states what went wrong, and it names the file concerned.", "quantifier": "for all databases, options, inputs and environments in which the program ends", "why_tests_cant": "Quantifies over all sequences of locations and all ways to fail.", "anchors": ["applications/query/cencalvmquery.cc: main", "libsrc/cencalvm/query/VMQuery.cc: VMQuery::open", "libsrc/cencalvm/query/VMQuery.cc: VMQuery::query", "libsrc/cencalvm/query/VMQuery.cc: VMQuery::close"]}
{"id": "C131", "title": "Silence of cencalvmquery means success", "statement": "If cencalvmquery writes nothing to standard error then its exit code is 0 and there was data at every location; conversely, unless the type of query is WAVERES, it writes nothing if the exit code is 0 and there was data at every location.", "quantifier": "for all databases, options, inputs and environments in which the program ends", "why_tests_cant": "Absence of output over all runs.", "anchors": ["applications/query/cencalvmquery.cc: main", "libsrc/cencalvm/query/VMQuery.cc: VMQuery::open", "libsrc/cencalvm/query/VMQuery.cc: VMQuery::query", "libsrc/cencalvm/query/VMQuery.cc: VMQuery::close"]}
{"id": "C132", "title": "What the C program writes to standard error", "statement": "Standard error of the example program in C holds what C130 says of cencalvmquery: the warnings in the order of the output and, if the exit code is 1, one message that states what went wrong and names the file concerned.", "quantifier": "for all databases, options, inputs and environments in which the program ends", "why_tests_cant": "Quantifies over all sequences of locations and all ways to fail, through the C interface.", "anchors": ["examples/query/c/cencalvmcquery.c: main", "libsrc/cencalvm/query/cvmerror.cc: cencalvm_error_message", "libsrc/cencalvm/query/VMQuery.cc: VMQuery::open", "libsrc/cencalvm/query/VMQuery.cc: VMQuery::query", "libsrc/cencalvm/query/VMQuery.cc: VMQuery::close"]}
{"id": "C133", "title": "Silence of the C program means success", "statement": "If the example program in C ends and has written nothing to standard error then its exit code is 0 and there was data at every location; conversely, unless the type of query is WAVERES, it writes nothing if the exit code is 0 and there was data at every location.", "quantifier": "for all databases, options, inputs and environments in which the program ends", "why_tests_cant": "Absence of output over all runs.", "anchors": ["examples/query/c/cencalvmcquery.c: main", "libsrc/cencalvm/query/cvmerror.cc: cencalvm_error_message"]}
{"id": "C134", "title": "What cencalvmisosurface writes to standard error", "statement": "Standard error of cencalvmisosurface holds, in the order of the output, for each line nothing or one warning that names its location and an elevation there without data; nothing else if the program returns 0; if it returns 1, one message that names the file concerned or is that of the error in the elevation of the ground; if it leaves a search with exit(1), the target and three elevations with the speeds stored there, all below the target.", "quantifier": "for all databases, options, inputs, arithmetics and environments in which the program ends", "why_tests_cant": "Quantifies over all sequences of locations, all searches and all ways to fail.", "anchors": ["applications/query/cencalvmisosurface.cc: main", "applications/query/cencalvmisosurface.cc: searchVs", "applications/query/cencalvmisosurface.cc: queryElev", "applications/query/cencalvmisosurface.cc: initialize", "libsrc/cencalvm/query/VMQuery.cc: VMQuery::open", "libsrc/cencalvm/query/VMQuery.cc: VMQuery::query", "libsrc/cencalvm/query/VMQuery.cc: VMQuery::close"]}
{"id": "C135", "title": "Silence of cencalvmisosurface means success", "statement": "If cencalvmisosurface writes nothing to standard error then it returns 0; if it returns 0 and has written something, then a query at some elevation at the location of a line ended with a warning.", "quantifier": "for all databases, options, inputs, arithmetics and environments in which the program ends", "why_tests_cant": "Absence of output over all runs.", "anchors": ["applications/query/cencalvmisosurface.cc: main", "libsrc/cencalvm/query/VMQuery.cc: VMQuery::open", "libsrc/cencalvm/query/VMQuery.cc: VMQuery::query", "libsrc/cencalvm/query/VMQuery.cc: VMQuery::close"]}
{"id": "C136", "title": "The log can be read back", "statement": "Cut at the ends of lines, the log of cencalvmquery gives one row for each line of the output without data, in order (after an error perhaps one more, about the location of the error), and nothing behind the last end of a line; cut at commas each row gives four cells: longitude, latitude and elevation in scientific notation with one digit before and six behind the point, each correct to one part in two million, and the words No data.", "quantifier": "for all databases, options, inputs and environments in which the program ends, and all roundings to a nearest integer", "why_tests_cant": "Quantifies over all numbers that can be printed, including those where rounding changes the exponent, and over all sequences of locations.", "anchors": ["applications/query/cencalvmquery.cc: main", "libsrc/cencalvm/query/VMQuery.cc: VMQuery::query", "libsrc/cencalvm/storage/ErrorHandler.cc: ErrorHandler::log"]}
{"id": "C137", "title": "The log tells locations apart", "statement": "Two locations (longitudes within 180 degrees, latitudes within 90, elevations within 100 km) of which the longitudes differ by 0.0002 degrees or the latitudes by 0.0001 or the elevations by 0.11 m have different rows in the log and different warnings.", "quantifier": "for all pairs of locations in these ranges, and all roundings to a nearest integer", "why_tests_cant": "Quantifies over all pairs of locations.", "anchors": ["libsrc/cencalvm/query/VMQuery.cc: VMQuery::query"]}
{"id": "C138", "title": "What the Fortran program writes to standard output", "statement": "With names terminated as C strings, standard output of the example program in Fortran holds, in the order of the output, for each line nothing or one message, padded with blanks: the warning that cencalvmquery writes, or the message of the error its query ended with; then nothing unless the program ends with ERROR, before which the true reason is written.", "quantifier": "for all databases, constants, inputs and environments in which the program ends", "why_tests_cant": "Quantifies over all sequences of locations and all ways to fail, through the Fortran interface.", "anchors": ["examples/query/f77/cencalvmf77query.f: cencalvmf77query", "libsrc/cencalvm/query/f77vmerror.cc: cencalvm_error_message_f", "libsrc/cencalvm/query/VMQuery.cc: VMQuery::query"]}
{"id": "C139", "title": "Silence of the Fortran program means success", "statement": "With names terminated as C strings, if the example program in Fortran ends and has written nothing then it came to its end or was stopped by the run-time system, no query ended with an error, and there was data for every line of the output; conversely, unless the type of query is WAVERES, it writes nothing if this is so.", "quantifier": "for all databases, constants, inputs and environments in which the program ends", "why_tests_cant": "Absence of output over all runs.", "anchors": ["examples/query/f77/cencalvmf77query.f: cencalvmf77query", "libsrc/cencalvm/query/f77vmerror.cc: cencalvm_error_message_f", "libsrc/cencalvm/query/VMQuery.cc: VMQuery::query"]}
{"id": "C140", "title": "The C++ example is cencalvmquery", "statement": "As published, the example program in C++ reads the same settings from every command line as cencalvmquery, and ends with the same exit code, the same lines in the output, also as text, and the same files.", "quantifier": "for all command lines, databases, inputs and environments", "why_tests_cant": "Equality of two programs over all inputs and failures.", "anchors": ["examples/query/cpp/cencalvmcppquery.cc: main", "examples/query/cpp/cencalvmcppquery.cc: parseArgs", "applications/query/cencalvmquery.cc: main"]}
{"id": "C141", "title": "The C++ example for two values", "statement": "Compiled for two values, the example program in C++ succeeds wherever cencalvmquery does; its lines are those of cencalvmquery with fault block and zone alone, and it leaves the same log. Where cencalvmquery fails, its lines are the beginning of those of the example, and where the example fails so does cencalvmquery.", "quantifier": "for all settings, databases, inputs and environments in which cencalvmquery ends", "why_tests_cant": "Relates two programs over all inputs; the code is compiled only with another definition.", "anchors": ["examples/query/cpp/cencalvmcppquery.cc: main", "applications/query/cencalvmquery.cc: main", "libsrc/cencalvm/query/VMQuery.cc: VMQuery::query"]}
{"id": "C142", "title": "The output file of the C++ example for two values", "statement": "Compiled for two values, the example program in C++ writes one line of text for each location it answers; no conversion to int is undefined; and a line whose numbers fit their columns, cut at white space, gives the location to half a unit of its last decimals and the identifiers exactly.", "quantifier": "for all settings, databases with identifiers of 16 bits, inputs and environments in which cencalvmquery succeeds", "why_tests_cant": "Quantifies over all numbers printed.", "anchors": ["examples/query/cpp/cencalvmcppquery.cc: main", "libsrc/cencalvm/query/VMQuery.cc: VMQuery::query"]}
{"id": "C143", "title": "cencalvminfo says why it fails", "statement": "cencalvminfo writes to standard error exactly if its exit code is not 0. The message names a file that cannot be opened, and tells missing metadata from a missing schema.", "quantifier": "for all command lines and databases, provided libetree's message for a failed close is not empty", "why_tests_cant": "An equivalence over all command lines and files.", "anchors": ["applications/query/cencalvminfo.cc: main"]}
{"id": "C144", "title": "The output of cencalvminfo determines what it reports", "statement": "If cencalvminfo succeeds, its last line cut at white space ends with the number of octants; and two databases with the schema of the model for which it writes the same text have the same metadata and the same number of octants.", "quantifier": "for all databases with which cencalvminfo succeeds", "why_tests_cant": "Injectivity over all metadata texts and sizes.", "anchors": ["applications/query/cencalvminfo.cc: main"]}
{"id": "C145", "title": "cencalvminfo handles its database properly", "statement": "cencalvminfo uses the handle of its database only while it is open, and closes it before it ends.", "quantifier": "for all command lines, databases and failures of libetree", "why_tests_cant": "Includes the paths on which libetree fails.", "anchors": ["applications/query/cencalvminfo.cc: main"]}
{"id": "C146", "title": "Standard error of the C++ example", "statement": "As published, the example program in C++ writes to standard error what cencalvmquery writes with the same settings and files, except that after complaints about the type of query and the resolution each writes its own help text.", "quantifier": "for all settings, databases, inputs and environments", "why_tests_cant": "Equality of two programs over all inputs and failures.", "anchors": ["examples/query/cpp/cencalvmcppquery.cc: main", "examples/query/cpp/cencalvmcppquery.cc: usage", "applications/query/cencalvmquery.cc: main"]}
{"id": "C147", "title": "Standard error of the C++ example for two values", "statement": "Compiled for two values, wherever cencalvmquery succeeds, the example program in C++ succeeds and writes the same warnings to standard error in the same order.", "quantifier": "for all settings, databases, inputs and environments in which cencalvmquery succeeds", "why_tests_cant": "Relates two programs over all inputs; the code is compiled only with another definition.", "anchors": ["examples/query/cpp/cencalvmcppquery.cc: main", "applications/query/cencalvmquery.cc: main"]}
{"id": "C148", "title": "cencalvmisosurface uses its arrays properly", "statement": "Every access of cencalvmisosurface to one of its arrays of values is to an element of an array that is allocated, and every deletion is of an allocated array in the form of its allocation.", "quantifier": "for all settings, databases, inputs and environments, however the program ends (if with an exception, up to the location where it is raised)", "why_tests_cant": "Memory errors can be silent, and the quantifier ranges over all runs.", "anchors": ["applications/query/cencalvmisosurface.cc: queryElev", "applications/query/cencalvmisosurface.cc: searchVs", "applications/query/cencalvmisosurface.cc: main"]}
{"id": "C149", "title": "cencalvmisosurface deletes its arrays", "statement": "When cencalvmisosurface has succeeded it has deleted all arrays of values it allocated, so the memory it holds does not grow with the number of locations.", "quantifier": "for all settings, databases, inputs and environments in which it succeeds", "why_tests_cant": "Growth over inputs of every length.", "anchors": ["applications/query/cencalvmisosurface.cc: searchVs", "applications/query/cencalvmisosurface.cc: main"]}
{"id": "C150", "title": "The arrays of cencalvmquery and of the C++ example", "statement": "cencalvmquery and the example program in C++, compiled for all values or for two, access only elements of the array of values they allocated, and hold one such array whatever the number of locations.", "quantifier": "for all settings, databases, inputs and environments, however the program ends", "why_tests_cant": "Memory errors can be silent; one of the two programs is compiled only with another definition.", "anchors": ["examples/query/cpp/cencalvmcppquery.cc: main", "applications/query/cencalvmquery.cc: main", "libsrc/cencalvm/query/VMQuery.cc: VMQuery::query"]}
{"id": "C151", "title": "VsGrader uses its memory properly", "statement": "Every access of a VsGrader to its geometry, to the values of the extraction and to the arrays of the passes is to an element of a block that is allocated, and every deletion is of an allocated block in the form of its allocation; so too when the object is destroyed. Only a run without a geometry is undefined.", "quantifier": "for all histories of calls, numbers of points and places where runs end with exceptions", "why_tests_cant": "Memory errors can be silent, and exceptions at every point of a run cannot be provoked.", "anchors": ["extensions/applications/vsgrader/VsGrader.cc: VsGrader::VsGrader", "extensions/applications/vsgrader/VsGrader.cc: VsGrader::~VsGrader", "extensions/applications/vsgrader/VsGrader.cc: VsGrader::geometry", "extensions/applications/vsgrader/VsGrader.cc: VsGrader::_extract", "extensions/applications/vsgrader/VsGrader.cc: VsGrader::_grade"]}
{"id": "C152", "title": "VsGrader deletes what it allocates", "statement": "When a VsGrader is destroyed everything it allocated has been deleted, however its runs ended.", "quantifier": "for all histories of calls, numbers of points and places where runs end with exceptions", "why_tests_cant": "Leaks on exceptional paths have no effect a test could see.", "anchors": ["extensions/applications/vsgrader/VsGrader.cc: VsGrader::~VsGrader", "extensions/applications/vsgrader/VsGrader.cc: VsGrader::_extract", "extensions/applications/vsgrader/VsGrader.cc: VsGrader::_grade"]}
{"id": "C153", "title": "The array of the C example", "statement": "The example program in C, compiled for all values, accesses only elements of the array of values it allocated, and holds one such array whatever the number of locations, also in runs that never end.", "quantifier": "for all settings, databases, inputs and environments, after any number of rounds of the loop", "why_tests_cant": "Memory errors can be silent; runs that do not end cannot be tested to their end.", "anchors": ["examples/query/c/cencalvmcquery.c: main", "libsrc/cencalvm/query/cvmquery.cc: cencalvm_query"]}
{"id": "C154", "title": "The help text of cencalvmquery", "statement": "cencalvmquery writes its help text to standard error if it refuses a command line or is asked for help, and then nothing else and no output; it does not write it because of a command line that it accepts.", "quantifier": "for all command lines, settings and environments (the messages of getopt left out)", "why_tests_cant": "Quantifies over all command lines.", "anchors": ["applications/query/cencalvmquery.cc: parseArgs", "applications/query/cencalvmquery.cc: usage"]}
{"id": "C155", "title": "The help text of cencalvmisosurface", "statement": "cencalvmisosurface writes its help text once to standard error if it refuses a command line or is asked for help, and then nothing else and no output; it does not write it for a command line that it accepts. The exit code is 0 exactly if it is asked for help before anything unknown.", "quantifier": "for all command lines, settings and environments (the messages of getopt left out)", "why_tests_cant": "Quantifies over all command lines.", "anchors": ["applications/query/cencalvmisosurface.cc: parseArgs", "applications/query/cencalvmisosurface.cc: usage"]}
{"id": "C156", "title": "Help texts of the C++ example", "statement": "For every command line the example program in C++ and cencalvmquery come to the same settings or exit code and write their help texts the same number of times, at least once if the command line is refused.", "quantifier": "for all command lines (the messages of getopt left out)", "why_tests_cant": "Quantifies over all command lines.", "anchors": ["examples/query/cpp/cencalvmcppquery.cc: parseArgs", "applications/query/cencalvmquery.cc: parseArgs"]}
