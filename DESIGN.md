# Formal model of usgs/earthquake-cencalvm

The source was read as text; nothing in /repo was built, run or changed.
Properties are listed in `properties.jsonl` (C01 ...), theorem names per property in
`MANIFEST.json`, attempts to break the theorems in `seeded/LOG.jsonl`.

## 1. Trusted base

* Lean 4.33.0's kernel, and Mathlib as installed.
* Axioms: every property theorem depends on at most `propext`, `Classical.choice` and
  `Quot.sound` (checked with `#print axioms`, see `lean/Verif/Axioms.lean`).  No axiom is added, there is
  no `sorry`, `native_decide` or `bv_decide`.
* The transcription of C++ into the definitions under `lean/Verif/Model`.  Each definition cites
  file and lines in /repo; simplifications are noted at the definition and summarised in section 3.
* The specifications (under `lean/Verif/Spec` and in the statements themselves) saying what is meant.

## 2. Shape of the development

* `Verif/Model/*.lean`  executable transcription of the C++ (total functions; undefined behaviour,
  exceptions and failed asserts are distinct outcomes, never silently totalised).
* `Verif/Spec/*.lean`   small specifications, independent of the model's helper functions.
* `Verif/Lemmas/*.lean` helper lemmas and invariants.
* `Verif/Props/*.lean`  the property theorems, one section per Cnn, each with a concrete `example`
  meeting its hypotheses.
* Number type: the model is generic in an ordered field `K` (`Field K`, `LinearOrder K`,
  `IsStrictOrderedRing K`, and `FloorRing K` where the code truncates), so that it can be executed at
  `K = Rat` and applies at `K = Real`, where `GeomCenCA`'s sine, cosine and logarithm live.
* `throw` is `Outcome.exc`, undefined behaviour (null dereference, failed `assert`, reading an
  uninitialised variable whose value matters) is `Outcome.ub`.

## 3. What is modelled, what is not

Modelled: `storage/{Payload,ErrorHandler,Geometry,GeomCenCA,Projector}`, `query/{VMQuery,cvmquery,cvmerror,
f77vmquery,f77vmerror}`, `average/{AvgEngine,Averager}`,
`create/{VMCreator,GridIngester}`, `applications/query/{cencalvmquery,cencalvmisosurface,cencalvminfo}`,
`applications/{average/cencalvmavg,create/cencalvmgen,create/cencalvmpack}`,
`extensions/{libsrc/cencalvmdb/CenCalVMDB,cencalvm/CenCalVMDB.py}`, `extensions/applications/vsgrader/{VsGrader,gradecencalvm}`,
`examples/query/{c/cencalvmcquery.c,f77/cencalvmf77query.f}`.

External libraries are modelled by explicit specifications and are part of the trusted base:
* etree (`Model/Etree.lean`): a database is a list of octants in Z-order (pre-order of the octree)
  without duplicate addresses; `search` returns the deepest stored ancestor-or-self; `insert` fails on
  a duplicate; `append` fails unless the key is larger than the last; `update` fails if missing; the
  cursor walks in Z-order; initialising a cursor fails on an empty database.
* proj: `Projector` (Model/Geometry) is two parameter functions that may throw, as the geometry sees it; Model/Projector models
  `storage/Projector` on top of the library (`ProjLib`), whose transformations, error texts and treatment of its error code are
  parameters.  Within one query the two agree until a projection fails.
* iostreams: files are lists of characters/lines; formatting of numbers is a parameter except in the output files of the
  query programs and cencalvmisosurface (Model/Print: fixed notation with any rounding to an integer; a zero has no sign;
  other notations stay a parameter; `format` prints a zero before the point).

Simplifications, applying throughout:
* Except in Model/Float (the geometry in double precision, C80 to C85: rounding to 53 digits in any direction, exponent unbounded)
  and in AvgEngine (the sums and quotients of the averages go through `Env.rd`: the identity in the theorems that ask for `Env.Exact`,
  rounding to 24 digits in C86 to C88, anything in the others) and in the query (`VMQuery.rd`, quotients and means of WAVERES, sums of elevations, and the sums and products of the spatial database on top of it; exact in C12, C13, C46_decreasing and C98, binary in C99, C112 to C114, anything in the others), in the isosurface program (`Arith`; exact in C44 and C61 to C63, binary in C106 to C108) and in the ingestion of grids (`NumFmt.rd`, the products with 1000 and the ratios of the header; `NumFmt.real32` reads with type `float`; exact in C38_accepted, C40, C76 and C98, binary in C100 to C103, anything in the others) and in the grading of VsGrader (`Rd`: the identity in the theorems that ask for `Rd.Exact`,
  rounding to 24 and 53 digits in C89 to C91 and C109 to C111, anything in the others; numbers of points, locations, queries and stored values included), `double`/`float` arithmetic is exact field arithmetic (no rounding, no overflow, no NaN, no
  infinities) except where a division by zero decides control flow; there the IEEE outcome is modelled
  explicitly.  Model/Ieee has the conversion of a location with infinite numbers, values that are not a number, and overflow
  (C104, C105); gradual underflow and signed zeros are left out.
* `asserts` are treated as undefined behaviour when violated (with NDEBUG the code runs on into it).
* Messages of exceptions that list several things are abbreviated.  `istream::ignore(128, c)` takes at most 128 characters, as
  in the code; the corner where end of file follows exactly the 128th character is modelled as not reaching end of file.
* Memory exhaustion and I/O errors on write are not modelled.  Console output: of `cencalvmavg`, `cencalvmgen` and `cencalvmpack` in Model/Console, and of `gradecencalvm` in Model/GradeConsole, as two texts; standard error of `cencalvmquery` in Model/QueryConsole, of the example program in C in Model/CExampleConsole (that of the example program in Fortran, on unit 6, in Model/FExampleConsole, without the form of records) and of `cencalvmisosurface` in Model/IsoConsole, each after the command line has been read, with the help texts of the command line in Model/QueryArgs, Model/IsoArgs and Model/CppArgs (the messages of `getopt` and of `std::terminate` are left out); the format of numbers in the log and in warnings is a parameter (`Fmt.sci`) in most theorems and given by Model/Scientific in C136 and C137, while the formats `gen` and `addr` of other messages stay parameters; writing to a stream does not fail.  The handles of databases (Model/Handles): calls in a row of functions other than `etree_open` and `etree_close` appear as one event for each handle; the programs, which end after a failure, are left out.  Dynamic memory (Model/Heap): every allocation succeeds; accesses that a call may make are taken as made; containers of the standard library, the arrays of the programs except those of `cencalvmisosurface` (Model/IsoHeap), of `cencalvmquery` and of the example in C++ (Model/CppHeap) and of the example in C (Model/CExampleHeap), and accesses of the engine between constructor and destructor are left out.
* SWIG interface files, packaging scripts, and automake files are not modelled.
  The example program in C++ (examples/query/cpp) is modelled in Model/CppExample, its standard error in Model/CppConsole (after the command line has been read).

## 4. Properties: what is modelled and how it is proved

| id | model | method |
|----|-------|--------|
| C01-C04 | `Geom.toAddr`, `Geom.toLonLatElev` over `K` | floor arithmetic; C01 is false on the upper faces: negation with witness + `_partial` |
| C05 | `findAncestor`, `childBit` on 32-bit ticks | bit masks = truncated division; `path` abstraction |
| C06 | `GeomCenCA.level`, `edgeLen` over Real | logarithm monotonicity |
| C07 | rotation with cos^2+sin^2=1 | ring identities |
| C70 | the frame and rotation of `GeomCenCA` over the reals | addition theorems, C01, C02 |
| C08, C09 | `ErrorHandler` state machine with a file system | induction over call histories |
| C10-C23 | `VMQuery` functions over any pair of databases and any geometry | case analysis, search specification, induction on the WAVERES walk; C13, C17, C19, C22 are false in general: negations + `_partial` |
| C24, C25 | setter/lifecycle state machine | induction over histories; destructor and `geometry(NULL)` defects as negations |
| C26-C32 | `AvgEngine` state machine on pending array, cursor, counters, output database | invariant over the traversal, on octree paths |
| C33, C34 | composition of AvgEngine and VMQuery | refinement using C26, C27 |
| C35-C37 | `VMCreator` with the files on disk and failures of libetree | list induction on insertions and on the packing loop, C10 for the query afterwards; C37 is false: negation + `_partial` |
| C38-C40 | `GridIngester._addGrid` on character streams (`eofbit`, `failbit`), number syntax a parameter | induction over lines; reading is equivalent to a grammar of the text; C40 false: negations + `_partial` |
| C52, C53 | `GridIngester::run`, `_readParams` | composition of C35, C38, C39; induction over the words of the text; C53 false: `C53_false` + `_partial` |
| C41, C58 | C functions on a table of objects by handle, with shared files | simulation by the C++ state machine; induction over interleaved histories |
| C42 | Fortran functions on character variables, `strncpy`, string streams | list induction; C42 false: negations + `_partial` |
| C43, C59, C60 | cencalvmquery: `getopt` on words, setup, the loop over a character stream, files and databases as parameters | induction over the text and the command line; a query's result does not depend on the log; all false in corners: negations + `_partial` |
| C44, C61 - C64 | cencalvmisosurface: command line, setup, ground elevation, bisection with the number of iterations as `Int.clog` (equal to the expression of the code over the reals, `niters_real`), the loop over a character stream | bracket invariant by induction over iterations, induction over the text; all but C63 false in corners: negations + `_partial` |
| C65, C66, C68, C69 | `Averager::average` and the mains of cencalvmavg, cencalvmpack, cencalvmgen, cencalvminfo on the command line and the disk | induction over the options; composition of C26-C31, C35, C52; C65, C66, C69 false in corners: negations + `_partial` |
| C67 | cencalvmgen, cencalvmavg and `VMQuery` in sequence | composition of C52, C38, C26, C27 and C10 |
| C45, C46, C56, C57 | `CenCalVMDB` as a state machine over `VMQuery`; conversion of coordinates a parameter | index invariant over call histories, loop invariant with the elevations tried as a ghost; C45 false: negations + `_partial` |
| C47-C49 | `VsGrader::_limitDiff` | induction over the two sweeps; greatest minorant with bounded differences |
| C50, C55 | `VsGrader::_grade` on a database | each pass is `_limitDiff` on every line; limiting neighbouring lines keeps their distance |
| C71, C72 | `VsGrader::_readParams` on a character stream | induction over the text against a grammar; C72 false: `C72_false` + `_partial` |
| C73 | `gradecencalvm` main on the command line, the parameter file and the disk | composition of C71, C50, C51, C54; false in corners: negations + `_partial` |
| C74 | `GridIngester::run` twice on permuted parameter files | what `addGrid` adds does not depend on the database; permutation of the additions; sorted lists with the same members are equal |
| C75 | `AvgEngine` on two databases | induction from the finest level up: `AverageOf` determines the octants of a cell from the input in it |
| C76 | `genMain`, `avgMain`, FIXEDRES query | composition of C52, C53, C27–C29, C11 |
| C77 | `AvgEngine` result over a filled octant | induction from the finest level up; the eight cells of an octant partition what lies in it |
| C78 | `ProjLib` (Model/Projector): the calls with the error code as state | case analysis of a call, induction on the sequence; a query of an unprojected place is undefined |
| C79 | `ProjLib`, `GeomCenCA` | computation in the field; C79_octant discharges the hypothesis of C03 |
| C80 | `GeomCenCA.…Fl` (Model/Float): the geometry with rounding after each operation | `fl` commutes with powers of two, so the quotient by the edge length rounds alike at all levels: the rounded conversion is the exact one of a moved point; error bound operation by operation |
| C81 | same | C04 for the moved point |
| C82 | same | all intermediate values have at most 53 binary digits |
| C83 | same | C80 and C82; distances from the middle less than half an edge |
| C84 | same, `VMCreator`, `VMQuery` | the rounded geometry is `Lawful`, C36, C81 |
| C85 | `GeomCenCA.levelFl` | bounds of the logarithm and of each rounding |
| C86 | `AvgEngine` with `Env.rd` rounding to 24 digits | the running sums of at most eight children keep within seven roundings of the exact ones; one more for the quotient |
| C87 | same, twice (rounded and exact) | induction from the finest level up: the error grows by a factor 1 + 10/2^23 per level |
| C88 | same | C28 in exact arithmetic; `C88_false` by evaluation; `C88_partial`: sums of eight values of 21 digits are exact |
| C89 | `VsGrader::_limitDiff`, `_grade` with `Rd` rounding to 24 and 53 digits | one limitation agrees with min(x, y + m) up to a factor; the minimum keeps factors, so they multiply along the sweeps; compared with the exact grading of the same volume; `C89_false` by evaluation |
| C90 | same | a point is reduced at most twice per pass, six times in all; rounding keeps the order and leaves floats alone |
| C91 | same | comparison with the exact grading, C55; `C91_false` by evaluation |
| C92 | `CenCalVMDB::open`, `close`, `queryType`, `queryVals`, calls in any order | case analysis of each call; induction over the calls; `C92_false` by evaluation |
| C93 | `CenCalVMDB::query`, with array accesses out of range undefined | the positions remembered belong to the names set last (invariant over the calls); the loop keeps the number of values; `C93_false` by evaluation |
| C94 | `parseArgs` and `main` of examples/query/c/cencalvmcquery.c as calls of the modelled C interface, `fscanf` on the modelled streams, any number of rounds of the loop | both programs set up the same query object; induction over the locations of the input; `C94_false` by induction over the rounds |
| C95 | examples/query/f77/cencalvmf77query.f as calls of the modelled Fortran interface; constants and the results of the `read` statements are parameters | as C94; induction over the records; `C95_false` and `C95_false_error` for all inputs |
| C96 | `Inventory` and `_configure` of extensions/cencalvm/CenCalVMDB.py, properties by name, on the modelled `CenCalVMDB` | evaluation of the calls for symbolic settings; the query type does not influence the rest |
| C97 | `QueryApp.run` with the log file in the state `Files` | induction over the rounds of the loop; the files are a fold of `ErrorHandler.log` over the texts |
| C98 | `genMain`, `avgMain`, WAVERES query | composition of C52, C53, C27–C29 and the walk of C12; the averaged database holds all ancestors |
| C99 | `queryWave` with `VMQuery.rd` rounding to 24 and 53 digits | the walk of C12 for any criterion; rounding keeps the order and fixes the period |
| C100 | `GridIngester._addGrid` with `NumFmt.rd` rounding to 24 and 53 digits | C39 for any rounding; error of one product |
| C101 | same, the header | the rounded quotients are the exact ones up to a factor; compared with the rounded tolerance |
| C102 | `genMain`, `avgMain`, FIXEDRES query, rounded throughout | C76's composition with C87 in place of C28; ranges widened once for ingestion and once for averaging |
| C103 | `genMain`, `avgMain`, WAVERES query, rounded throughout | C98's composition with C87 and C99 |
| C104 | `GeomCenCA.lonLatElevToAddrNum` (Model/Ieee): finite, infinite and not a number | infinity and not-a-number are absorbing; one of the two rotated coordinates of an infinite place is infinite; false for not-a-number: negations + `_partial` |
| C105 | same | bounds operation by operation: nothing overflows |
| C106 | `IsoApp.searchVs` with `Arith` rounding to 53 digits and an inexact logarithm | bracket invariant with an error at each halving; the sum of errors is at most twice one; C106_log from bounds of log and exp |
| C107 | `IsoApp.run`, the same | C61's induction, generic in the arithmetic |
| C108 | `IsoApp.queryElev`, the same | products with 12.5 are exact; rounding is monotone |
| C109 | `VsGrader::_extract`, `_grade`: numbers of points with `Rd` rounding to 53 digits | rounding is monotone and keeps integers; error of two roundings |
| C110 | `VsGrader::_indexToLonLat`, `_indexToElev`, the same | sum of the errors of each operation |
| C111 | `VsGrader::_extract`, `run`, the same and 24 digits | C54 and the induction of C50_run, generic in the arithmetic, with C89's and C90's factors |
| C112 | `VMQuery._queryElev` with `VMQuery.rd` rounding to 53 digits, over the geometry in double | centroid elevations are multiples of 2^-18, ordinary depths of 2^-32: sums below 2^20 are doubles |
| C113 | `VMQuery::query`, the same | C20 for any rounding; rounded and exact ground coincide |
| C114 | `CenCalVMDB::query`, the same | C46 and C56 for any rounding; error of each operation |
| C115 | `AvgEngine::printOctantInfo` and `main` of `cencalvmavg` with their console | C31 for the counters, erasure of the console to the program of C51 |
| C116 | `GridIngester::run`, `VMCreator::openDB`, `packDB`, `main` of `cencalvmgen` and `cencalvmpack` with their console | induction over the data lines and the files; erasure to the programs of C51 to C53 |
| C117 | `GridIngester::_addGrid` with its console | the same, for loops that end in an exception |
| C118 | the same | false; `C118_false`, `C118_partial` |
| C119 | `VsGrader::run` and `main` of `gradecencalvm` with their console | per stage the list of its reports and a prefix on failure; erasure to the program of C73 |
| C120 | the same, with the flag | false; `C120_false`, `C120_partial` |
| C121 | `VMQuery::query`, `_queryElev` over the central California geometry | C01, C10, C20 and C22 with the extent of the leaf |
| C122, C123 | `VMQuery`, `VMCreator`, `Averager` with the log of their calls of libetree (Model/Handles) | invariants: the pointers are distinct open handles, and all of them; erasure to the other models |
| C124, C125 | `VMQuery`, `AvgEngine` (constructor, destructor), `GridIngester`, passes of `VsGrader::_grade` with the log of `new`, `delete` and accesses (Model/Heap) | invariant: the pointers are distinct blocks that are there, of the right size and form, and all of them; erasure to the model of the other properties |
| C126–C129 | the characters of the output files: streams with flags, precision and width as in the manipulators, an interpreter of the format of `fprintf`, and the edit descriptors of `format` (Model/Print) | induction over digits: the text of a number read back (Spec/Print reads decimal numbers independently of the model) is the rounded number; padding separates columns; the range of the numbers of each line from the queries |
| C130, C131 | `main` of `cencalvmquery` after the command line, with standard error | induction over the rounds with what each query leaves in the error handler; erasure to the program of C43 |
| C132, C133 | `main` of the example program in C with standard error, through `cencalvm_error_message` | the same over the C interface; erasure to the program of C94 |
| C134, C135 | `main` of `cencalvmisosurface` after the command line, with standard error; `initialize`, `queryElev` and `searchVs` with their texts | what the queries at one location leave in the handler, as a transitive relation; induction over the steps to the ground, the rounds of the search and the locations; erasure to the program of C61 |
| C136, C137 | the numbers in the log and in warnings: conversion `e` with six decimals (Model/Scientific) | reading back digits, point and exponent; cutting the log of C97 at ends of lines and commas |
| C138, C139 | the example program in Fortran with what it writes to unit 6, through `cencalvm_error_message_f` | the steps of C95 with the message copied by `strncpy`; induction over the locations; erasure to the program of C95 |
| C140 to C142 | the example program in C++, with and without `ALLVALS`, and the text it writes (Model/CppExample) | function by function against cencalvmquery; simulation of the loops (a query for two values against one for all); columns as for C126 |
| C143 to C145 | `main` of `cencalvminfo` with the texts it writes and the calls of libetree on its handle (Model/InfoConsole) | the five ways in which it ends; words of the last line as for C126; `C145_false_use` and `C145_false_close` are witnesses |
| C146, C147 | the example program in C++ with standard error (Model/CppConsole) | function by function against cencalvmquery of C130; the simulation of C141 with the text; erasure to the program of C140 |
| C148, C149 | the arrays of `cencalvmisosurface`, allocated in `queryElev`, `searchVs` and `main` (Model/IsoHeap) | invariant on the blocks that are there, through all loops, as for C124; erasure to the program of C61 |
| C150 | the array of `cencalvmquery` and of the example program in C++ (Model/CppHeap) | the same; a query is defined only if the number of values chosen is that of the array |
| C151, C152 | a `VsGrader` with its geometry, the array of `_extract` and the arrays of the passes, ended by an exception anywhere (Model/GraderHeap) | the same invariant through histories of calls; what is left is a permutation of what each call leaves; `C152_false` is the witness |
| C153 | the array of the example program in C (Model/CExampleHeap) | the same, for any number of rounds; the program without its array is that of C94 |
| C154 | `parseArgs` of `cencalvmquery` with the help texts it writes (Model/QueryArgs) | induction over the results of `getopt`; count of the unknown ones; `C154_false` is the witness |
| C155 | `parseArgs` of `cencalvmisosurface` with its help text (Model/IsoArgs) | the same |
| C156 | `parseArgs` of the example program in C++ with the help texts it writes (Model/CppArgs) | induction over the results of `getopt` for both programs at once |
| C51, C54, C50_run | `VsGrader::_extract`, `_pack`, `run` with failures of libetree | induction over the points, composed with C50 and the packing loop |

Nothing on the list is considered inexpressible; where the code violates a claim the negation is proved
with a concrete witness and the strongest true part is proved as `_partial`.

## 5. Disagreements between claim and code

Each is proved as a theorem with a concrete witness.

* C01: a location on an upper face of the domain is assigned a cell outside it (`C01_upper_face`, `C01_false`).
* C13: an average of water octants with negative Vs is returned by WAVERES (`C13_false`).
* C16: a stored leaf with fault block 0 is reported as missing data.
* C17: the no-data warning overwrites an earlier ERROR (`C17_false_noData`); after a failing projection the values
  returned come from an uninitialised payload (`C17_false_projection`).
* C19: an unknown value name is skipped but still counted (`C19_false`).
* C20: the one-cell adjustment of the squashed elevation wraps at the bottom of the model (`C20_wraps`).
* C22: averages of the extended model are accepted as ground elevation (`C22_false`), a true elevation of -999 is
  indistinguishable from missing data (`C22_false_sentinel`).
* C25: destruction with a failing close uses a deleted object (`C25_false`); `geometry(NULL)` is stored and
  dereferenced (`C25_false_geometry`); FIXEDRES with the default resolution 0 (`C25_false_resolution`).
* C26, C33: an octant at the root level is read and dropped by averaging (`C26_false`, `C33_false`).
* C32: `etree_advcursor` returns the same value at the end and on failure, so a read error truncates the input and
  averaging reports success (`C32_advance`, `C32_advance_loses`).  `Averager` ignores the results of `etree_close`.
* C35: as in C32 a failing `etree_advcursor` truncates the packed database and packing reports success
  (`C35_advance_loses`).  `VMCreator::closeDB` ignores the result of `etree_close` (not modelled as a failure).
* C37: `VMCreator::insert` ignores the return code of the conversion, so data outside the model is stored at ticks
  (-1, -1, -1) (`C37_false`); the second such insertion at a resolution fails as a duplicate.
* C38: a last data line without a newline after it raises an exception (`PointsText` demands something after each line).
* C40: the exception for zero resolutions is constructed but not thrown, the later computation is undefined
  (`C40_false_zero`); the product of the counts is not compared with the total (`C40_false_total`); a header that cannot
  be read to the end is taken for an empty grid (`C40_unreadable`).
* C53: a last file name without whitespace after it is not processed (`C53_false`).
* C51: the marker 1e10 for points without data is an ordinary speed to the grading and is reduced next to points with
  data (`C51_marker_lost`).  Raising the speed to the minimum does not scale the other properties (`ExtractedFrom`).
* C54: a missing input file is only recorded in the error handler of the query object, which `_extract` does not
  consult; the first query then uses a null database (`C54_missing`).
* C45: without downward projection Vs is not clipped although Vp and density are (`C45_false`); of several values named Vs
  only the last is clipped (`C45_false_twice`).
* C57: while filling voids the status of the underlying queries is not looked at, so an error there is returned as
  success (`C57_false_error`).
* C41: the functions of cvmerror return 1 for a null handle where those of cvmquery return 2, and 1 means WARNING
  (`C41_false_null`); they return 0 whatever the status is (`C41_false_status`).
* C42: file names from Fortran are read as C strings although Fortran does not terminate them and the length is passed
  (`C42_false_read`); the example program examples/query/f77 does just that.  Asking for the message with a null handle
  copies from a null pointer (`C42_false_null`).
- C43: cencalvmquery tests `good()` after reading a location, so a last location that is not followed by a line end is
  dropped, with exit code 0.  A malformed line (a comment) or a failing output file also end the program with exit code 0.
- C59: `nparsed` counts every option as two words (the option and its argument).  An unknown option in the same word as a
  known one (`-xd m`) is accepted; an argument in the same word as its option (`-dm`) is refused although `getopt` reads it.
- C60: `-t fixedres` without `-r` (resolution 0) passes the test `queryRes < 0` and the first query is undefined (level of
  an infinite logarithm).  If closing fails after an error, the exception leaves the destructor: undefined.
- C44: with limits at most 12.5 m apart the search makes no iteration and reports the lower limit unseen.  If the ground is
  below the lowest elevation (`-z`) the logarithm of a negative number is converted to `int`: undefined.
- C61: the result of `initialize` is ignored, so with a database that cannot be opened the program runs on, and the exception
  of the first `queryElev` is not caught: it aborts.  Leaving through `exit(1)` in `searchVs` does not destroy the output
  stream, so lines not yet flushed are lost; the model lists what was passed to the stream.  Only the status after the last
  query of a location is looked at: an error of the ground elevation query is overwritten by a warning of a later one
  (`C61_false_masked`).  The last location without line end is dropped as in C43.
- C62: with squashing the elevations searched are relative to the ground, but the number written is the elevation of the
  ground minus the relative elevation found (`C62_false_squash`); the correction of the ground elevation also queries at its
  double.
- `"" != filenameDBExt` (line 172) compares pointers, so an empty name is passed to `filenameExt`, which changes nothing.
- The real libetree stores a type bit with each key and its cursor visits what its search finds; the model of libetree takes
  both as given (see section 3).
- C65: `usage()` leaves with `exit(1)`, so `-h` ends with code 1 and the `exit(0)` after it is never reached.  The help text
  of cencalvmgen lists `-l`, which its `getopt` string does not have (`C65_false_log`).  Every option is counted as two words,
  as in C59 (`C65_false_attached`, `C65_false_extra`).
- C66: `Averager` ignores the results of `etree_close`, so a failing last flush goes unnoticed (`C66_false_close`); a file
  without schema makes `etree_getschema` return a null pointer, which is given to `strcmp` (`C66_false_schema`).
- C69: `packDB` registers the schema of the model whatever that of the input is; a failing `etree_advcursor` is taken for the
  end (`C69_false`).
- C35, C66, C69: nothing prevents packing or averaging a database into its own file (also temporary and output file of
  cencalvmgen being the same): opening the output truncates the open input.  What libetree does then is not specified; the
  model says undefined (`C35_same`, `C66_false_same`, `C69_false_same`).
- C71: a setting given as 0 counts as not given, so a grid with its upper face at sea level (`swcorner-elev = 0`) or on the
  equator or the prime meridian is refused (`C71_corners`).  A closing brace at the very end of the file (no newline after it) is
  an I/O error (`C71_corners`).  `name=value` without a blank before the equals sign is refused as an unknown setting; whatever
  stands between the name and the equals sign is skipped, also over line ends.  The messages name `domain-len` and `query-res`,
  which are not names of settings.
- C72: the local variables read for `cache-size` and `query-resolution` have no initial value and are used if the stream ends
  before the value (`C72_false`).
- C73: a missing input leads to a null database (`C73_false_missing`), a temporary file named like the input truncates it
  (`C73_false_same`).
- gradecencalvm: the help text describes the parameter file as a "list of grid input files", and `-h` ends with code 1.
- C78: `Projector` tests `proj_errno` after `proj_trans` and never calls `proj_errno_reset`.  Current releases of proj keep the code
  of an earlier failure when a transformation succeeds; then one location that cannot be projected makes every later call throw
  (`C78_false`) and every later query read an uninitialised payload (`C78_false_query`).
- C25: a failing close of the extended database is reported with the name of the detailed one (`C25_close_reports`).
- C80: in double precision C01 fails for locations closer to an octant face than the rounding error, e.g. `2^-60` m below sea level
  (`C80_false`); C80 bounds the deviation.
- C88: in single precision the average of equal values need not be that value: eight octants with Vs = 12288819/8192 (1500.1)
  average to one unit in the last place less (`C88_false`).
- C89, C91: with floating-point numbers C47, C50 and C55 do not hold exactly: a limited difference may exceed the maximum by a
  rounding error (`C89_false`), and such a point is reduced again, its other properties with it, every time the database is graded
  (`C91_false`).
- C92, C93: an error of the spatial database cannot be reset, but a query without data turns it into a warning and clears it
  (`C92_false`). If values were set in between, which raises an exception, that query still uses the positions of the old values
  and accesses the caller's array out of range (`C93_false`).
- C94: the C example tests only `feof`, not the result of `fscanf`. At anything that is not a number it answers the last location
  for ever (`C94_false`); the application stops. Names of 256 or more characters overflow arrays (`C94_false_long`).
- C95: the Fortran example passes blank-padded names, which the interface reads beyond their end (`C95_false`, as `C42_false_read`).
  With terminated names errors are not noticed: the call for the message sets `ok` to 0 before `ok.eq.2` is tested
  (`C95_false_error`).
- C96: in the Python class the query type `fixedres` calls `queryType(MAXRES)` (`C96_false`), and the member for the size of the
  second cache is declared with the name of the first, so that `cache_size_ext` has no effect (`C96_false_cache`).
* C104: a location whose elevation (or projected place) is not a number passes the test for being inside, all comparisons being
  false, and the conversion to ticks is undefined (`C104_false`, `C104_nan_elev`, `C104_nan_place`).
* C109: a point of the grid may lie beyond the end of the domain: for a height that is the largest double below one step the
  quotient is rounded up and there are two points (`C109_over`).
* C111: the minimum speed is stored in single precision, which may be below the minimum (`C111_below`).
* C114: 2^60 m above sea level the elevations tried to fill a void repeat, 25 m being lost in the difference (`C114_far`).
* C118: the test before the message "No fault block" (GridIngester.cc:246) is inverted: the words are written for points that have a fault block but no zone, and not for points without a fault block (`C118_false`, `C118_partial`).
* C120: `VsGrader::_extract` does not pass `_quiet` on to the `VMCreator` that makes the temporary database (VsGrader.cc:287), which therefore reports its progress (`C120_false`, `C120_partial`).  `gradecencalvm` has no option for the flag.
* C122: `VMCreator::packDB` gives a handle to `etree_errno` after a failed `etree_close` of it (VMCreator.cc:167-171, `C122_false`); so do VsGrader.cc:469 and cencalvminfo.cc:76.  What libetree makes of the handle then is not specified here.
* C123: handles are lost when `VMCreator::openDB` is called with a database open (`C123_false_open`), when `packDB` raises an exception (`C123_false_pack`), and when `Averager::average` is called again after an exception (`C123_false_average`).
* C124: the destructor of `VMQuery` deletes the error handler, sets the pointer to null and then calls `close`, which uses it if `etree_close` fails (VMQuery.cc:57-63, `C124_false`; see also C25).
* C125: `GridIngester::run` never deletes the array `pGridFilenames` allocated in `_readParams` (GridIngester.cc:74-129, `C125_false`), and an exception in a pass of `VsGrader::_grade` loses its arrays (`C125_false_pass`).
* C126: a line of the output of cencalvmquery can have fewer than twelve words: no blank is printed between the columns, so
  that a number that fills its column joins the one before it.  With longitude and latitude exchanged in the input (`C126_false`)
  the location prints as `  37.50000-122.25000`; below an extended database with averages, at a location without data, the
  elevation of the ground is that of the root octant and prints as `0-191970.0` (`C126_false_elevation`).
* C129: the same for the lines of cencalvmisosurface (`C129_false`).
* C130: if the extended database cannot be closed the message names the other database, which was closed (`C130_false`;
  VMQuery.cc:114-118 prints `_filename` for both).  If neither database can be opened only the extended one is named, since
  an error replaces the message before it.
* C132: if the output file cannot be opened the example program in C names the input file (`C132_false`; cencalvmcquery.c
  passes `filenameIn` to both messages).
* C134: a database that cannot be opened is reported twice by `cencalvmisosurface`, since `initialize` does not stop the program
  and the status stays; with a location it then ends with an exception that nobody catches (`C134_false`).
* C138: the messages the example program in Fortran writes are filled with terminating characters, not with blanks, since
  `cencalvm_error_message_f` uses `strncpy` (`C138_false`); a message of more than 256 characters is cut.
* C145: `cencalvminfo` ends with its database open if the metadata or the schema is missing (`C145_false_close`;
  cencalvminfo.cc:59-62 and 68-71 return before `etree_close`), and gives the handle to `etree_errno` after `etree_close` has
  failed (`C145_false_use`; cencalvminfo.cc:76-79).
* C149: `searchVs` of `cencalvmisosurface` allocates an array at each location and never deletes it, nor does `main` (`C149_false`;
  cencalvmisosurface.cc:274 and 372), so a run holds one array more than it has answered locations (`C149_partial`).
* C152: an exception in `VsGrader::_extract` loses the array `pVals` (VsGrader.cc:302 and 335, `C152_false`), and one in a pass its
  two arrays (as in C125).
* C154: `parseArgs` of `cencalvmquery` counts two words for every option with an argument, also if both are one word (`-ia`), and
  none for an unknown option, so that `-ia -ob -dm -x -y -z` is accepted after three help texts (`C154_false`; cencalvmquery.cc:112-165).
