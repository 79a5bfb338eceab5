CLAIMS={
"C01":("partial","Proved for locations strictly below the upper faces of the domain (C01_partial, C01_unique_partial). C01_upper_face and C01_false show that the claim as stated fails on the upper faces: the location is reported inside but its cell lies outside the root cube."),
"C02":("proved","Both directions, and the failure of the projection."),
"C03":("proved",""),
"C04":("proved",""),
"C05":("proved","Includes the exact precondition under which the ancestor is computed."),
"C06":("proved","Over the reals. Finer resolutions than the finest cell over sqrt(2) get a level that no octant has (C06_too_fine)."),
"C07":("proved","Relative to a projector with a round-trip law; the PROJ library itself is not modelled."),
"C08":("proved","For all histories of calls."),
"C09":("proved","For all histories of calls."),
"C10":("proved","For any database pair, any location and any history (C10_any covers squashing, C10_location the containment of the location)."),
"C11":("proved",""),
"C12":("proved","Averages as the code defines them, on ancestor-closed databases; termination for all databases."),
"C13":("partial","False as stated for averages of water octants with a negative shear speed (C13_false); C13_partial proves it for the remaining octants."),
"C14":("proved",""),
"C15":("proved","Values (C15_values) and signalling (C15_signal)."),
"C16":("proved",""),
"C17":("partial","False as stated: a no-data warning overwrites an earlier ERROR (C17_false_noData) and a failing projection leaves the payload uninitialised (C17_false_projection). The partial theorems cover the remaining cases."),
"C18":("proved",""),
"C19":("partial","False after an unknown value name was selected (C19_false) and for failing projections (C17_false_projection); C19_partial proves it otherwise."),
"C20":("proved","The sums go through the rounding of the object; C113 with rounding to double. C20_wraps records that the one-cell adjustment wraps around at the bottom of the model."),
"C21":("proved","Objects computing with the same rounding. Up to failing elevation conversions, which end with ERROR."),
"C22":("partial","False as stated: averages of the extended model are accepted (C22_false) and a true ground elevation of -999 is indistinguishable from missing data (C22_false_sentinel). Proved when the extended model holds only leaves; the sum goes through the rounding of the object (C112 with double)."),
"C23":("proved",""),
"C24":("proved","For all histories of all calls."),
"C25":("partial","Everything but destruction with a failing close, which is use after deletion (C25_false), a null geometry (C25_false_geometry) and FIXEDRES without a resolution (C25_false_resolution). C25_partial: every legal history of any length is free of undefined behaviour."),
"C26":("partial","Proved for input octants below the root; C26_false: a database holding only the root octant is dropped without an error."),
"C27":("proved",""),
"C28":("proved","C28_children: the children averaged over are never an empty set. C28 in exact arithmetic, C86 with rounding."),
"C29":("proved","Includes the no-data case. Exact arithmetic; C87_range with rounding."),
"C30":("proved","C30_averaged: an averaged database is itself rejected."),
"C31":("proved","Gives the exact meaning of each counter."),
"C32":("proved","Write failures at every point. Also no undefined behaviour for any database and any failures (C32_no_ub) and read failures (C32_read). C32_advance and C32_advance_loses record that a failing advance of the input cursor silently truncates the input."),
"C33":("partial","Proved for input octants below the root (C33_partial); C33_false: an input octant at the root level is dropped by averaging."),
"C34":("proved","C34_location needs no assumption on cells, for the central California geometry."),
"C35":("proved","With libetree not failing (C35, C35_empty) and for every pattern of failures in which packing ends normally (C35_faults). C35_advance_loses: a failing advance of the cursor is taken for the end; C35_same: packing a database to its own file is not refused and undefined."),
"C36":("proved","C36_location for the central California geometry needs no assumption on cells."),
"C37":("partial","False: the return code of the conversion is ignored, the first location outside the model is stored outside the root cube (C37_false). C37_partial: every later one at the same resolution raises an exception."),
"C38":("proved","Both directions (C38, C38_accepted). A header that cannot be read counts as an empty grid (second case of C38). C38_accepted in exact arithmetic; in float and double C101_accepted."),
"C39":("proved","For any rounding of the conversion; in float and double see C100."),
"C40":("partial","False: both resolutions zero raise no exception (C40_false_zero), the product of the counts is not checked (C40_false_total), an unreadable header is accepted (C40_unreadable). C40_partial covers the checks the code makes, in exact arithmetic; in double C101."),
"C52":("proved","From parameter file to packed database."),
"C53":("partial","False: a last name without whitespace after it is left out (C53_false). C53_partial: with whitespace at the end all names are processed."),
"C47":("proved","Exact arithmetic; C89_line with rounding."),
"C48":("proved","Minorant and idempotence (C48_idempotent)."),
"C49":("proved",""),
"C50":("proved","C50 for grading a database that holds the grid; C50_run for the whole run with any failures of libetree. Exact arithmetic; C89 and C111_run with rounding."),
"C51":("proved","Extraction (C51), grading (C51_grade), whole run (C51_run). C51_marker_lost: grading reduces the no-data marker. Exact arithmetic; C90_floor, C111_floor and C111_run with rounding."),
"C54":("proved","In any arithmetic: locations, numbers of points and stored values are rounded as the grid says. C54_missing records that a missing input file leads to a null dereference."),
"C55":("proved","Greatest volume (C55), ratios (C55_reduced), idempotence (C55_idempotent). Exact arithmetic; C90 and C91 with rounding."),
"C45":("partial","False: Vs is clipped only with downward projection (C45_false), and of several values named Vs only the last (C45_false_twice). C45_partial covers the last value named Vs with projection on, over all call histories."),
"C46":("proved","C46 for the loop, C46_decreasing for the elevations in exact arithmetic (C114_decreasing in double), C46_off when projection is off. Solid means Vs not negative; after nine tries the last answer is returned whatever it is."),
"C56":("proved","The least Vp as computed with the rounding of the object; C114_vp compares it with 1360 + 1.16 minVs."),
"C57":("proved","C57_false_error records that an error left by a later underlying query is returned as 0."),
"C41":("partial","False of the functions on the error handler: null handle gives 1, not 2 (C41_false_null), and they return 0 whatever the status (C41_false_status). Everything else: C41_partial (both directions), C41_ub, C41_null, C41_create, C41_destroy."),
"C42":("partial","False: a character variable without a terminating character is read beyond its end (C42_false_read), a null handle makes the message function copy from a null pointer (C42_false_null). C42_partial for terminated variables, C42_message for all messages and lengths."),
"C58":("proved",""),
"C43":("partial","False: a last location without line end is not answered and the exit code is 0 (C43_false), a malformed line ends the program with exit code 0 (C43_false_malformed), so does a failing output file (C43_false_write). C43_partial is the rest, C43_locations shows that its grammar determines the locations of every text."),
"C59":("partial","False: an unknown option sharing a word with a known one is accepted (C59_false), an argument attached to its option is refused (C59_false_attached). C59_partial for options and arguments in separate words; C59_stray: a word between them that is no known option is refused; C59_help."),
"C60":("partial","Proved for everything but resolution 0 (the default), which is accepted with fixedres and makes the first query undefined (C60_false_resolution)."),
"C44":("partial","False for limits at most 12.5 m apart, where the lower limit is reported without a query (C44_false), and at the upper limit, where no place below the target is looked for (C44_false_top); undefined for limits in the wrong order (C44_false_order). C44_partial is the bracket for all other limits, C44_gives_up, C44_ends and C44_halves the rest. Exact arithmetic; in double C106."),
"C61":("partial","False: a last location without line end is not answered with exit code 0 (C61_false); an error of the ground elevation query is overwritten by a later warning (C61_false_masked). C61_partial is the rest, C61_unopened covers databases that cannot be opened. Exact arithmetic; in double C107."),
"C62":("partial","False with squashing, where the ground elevation is added once too often (C62_false_squash). C62_partial without squashing; its premise LineFor is what C61_partial provides. Exact arithmetic; in double C107_depth."),
"C63":("proved","Exact arithmetic; in double C108."),
"C64":("partial","False: an argument attached to its option is refused (C64_false_attached). C64_partial for options and arguments in separate words, C64_unknown and C64_other for unknown options and -h, C64_stray for words that belong to no option."),
"C65":("partial","False: the option -l of cencalvmgen is documented but refused (C65_false_log), an argument attached to its option is refused (C65_false_attached), and then a stray word is accepted (C65_false_extra). C65_partial for options and arguments in separate words, C65_other for -h and unknown options, C65_stray for words that belong to no option, C65_refused and C65_refused_grade for the effect of refusal."),
"C66":("partial","False: a failing close of the output is ignored (C66_false_close); an input without schema is undefined behaviour (C66_false_schema), as is averaging a file into itself (C66_false_same). C66_partial for all other cases of a reliable library; what the values are in exact arithmetic."),
"C67":("proved","For any rounding of the conversion."),
"C68":("proved",""),
"C69":("partial","False: a read error while advancing is taken for the end of the input (C69_false); packing a file into itself is undefined (C69_false_same). C69_partial for every other failure, C69_code for a reliable library."),
"C70":("proved","Over the reals. The octant is stated for locations not on the upper faces of the root cube, for which C01_upper_face holds."),
"C71":("proved","C71 is the equivalence, C71_unique shows the grammar unambiguous, C71_corners fixes texts at its edges (a value of 0 counts as missing, a brace at the end of the file is refused)."),
"C72":("partial","False of the code: a missing value of cache-size or query-resolution reads an uninitialised variable (C72_false). C72_partial says exactly when the behaviour is undefined."),
"C73":("partial","False of the code if the input file is missing (null database, C73_false_missing) or the temporary file is the input (C73_false_same). C73_partial, C73_runs, C73_files and C73_refused are the rest."),
"C74":("proved","For parameter files ending in whitespace; without it the last grid is dropped (C53_false) and order matters."),
"C75":("proved","C75_unique is the uniqueness, C75 the locality; C75_unique in exact arithmetic, C75 with any rounding."),
"C76":("proved","Composition of C52, C53, C27, C28, C29 and C11. Exact averages; in float and double C102."),
"C77":("proved","C77 gives the weighted sum, C77_volumes the total weight. Exact arithmetic."),
"C78":("partial","Holds with a library that clears its error code when a transformation succeeds, and up to the first failure otherwise (C78_partial). The code tests proj_errno and never resets it, so with a library that keeps the code every later call throws (C78_false) and no later query gives an answer (C78_false_query)."),
"C79":("proved","The transformations of the library are parameters; exact arithmetic. C79 from a location, C79_plane from the plane, C79_octant for C03."),
"C80":("proved","Rounding to 53 binary digits after every operation (fl), unbounded exponent, no contracted operations; projection, sine and cosine are parameters. C80_false: the exact containment of C01 fails near octant faces."),
"C81":("proved","Same rounding model as C80; no assumption on sizes."),
"C82":("proved","C82 and C82_edge; same rounding model."),
"C83":("proved","C83 with explicit error budget; C83_all_levels with numbers."),
"C84":("proved","Geometry rounded, payload values carried exactly (they are copied)."),
"C85":("proved","C85 and C85_edge; the library logarithm is a parameter with a relative error bound."),
"C86":("proved","Rounding to 24 binary digits after every operation (fl), exponent unbounded (no overflow, no subnormal numbers), no excess precision."),
"C87":("proved","C87 compares with exact arithmetic; C87_range is the consequence for ranges. Same rounding model as C86."),
"C88":("partial","C88 in exact arithmetic for all values. False in single precision: C88_false. C88_partial: true in single precision for values with at most 21 binary digits."),
"C89":("proved","Rounding to 24 and 53 binary digits (fl), exponent unbounded. C89_line, C89_width: sharper. C89_false: the factor cannot be dropped."),
"C90":("proved","Same rounding model. C90_floor: the least speed."),
"C91":("proved","Same rounding model. C91_again: grading twice; C91_false: a density that changes the second time."),
"C92":("proved","C92_sticky: errors stay; C92_false: a query without data clears the error."),
"C93":("partial","C93_partial: after the values were set by a call that returned normally. False after a call of queryVals that raised an exception because of an earlier error (C93_false)."),
"C94":("partial","C94_partial: input files of numbers only and output that can be written; C94_arguments: same settings if no name has 256 characters. False otherwise: other input makes the program loop for ever (C94_false), long names overflow an array (C94_false_long)."),
"C95":("partial","C95_partial: if names are terminated as C strings and no query ends with an error; C95_input: input that is not numbers. False as published: names are padded with blanks and read beyond their end (C95_false); errors are not noticed because the status is overwritten before it is tested (C95_false_error)."),
"C96":("partial","C96_partial for the query types maxres and waveres, C96_refused for unknown types. False: fixedres is set as maxres (C96_false), the property cache_size_ext has no effect (C96_false_cache)."),
"C97":("proved","C97 with a log file that can be opened, C97_none without."),
"C98":("proved","Composition of C52, C53, C27 to C29 and the walk of C12. Exact arithmetic; in float and double C103."),
"C99":("proved","Exponents unbounded: no overflow and no subnormal numbers."),
"C100":("proved","Exponents unbounded: no overflow and no subnormal numbers. Reading yields any number (a parameter), so the claim is relative to the numbers read."),
"C101":("proved","C101 rejects, C101_accepted accepts. Between 10^-6 - 10^-13 and 10^-6 + 10^-13 rounding decides."),
"C102":("proved","C76 in float and double. Composition of C100, C52, C53, C27, C29, C87 and C11."),
"C103":("proved","C98 in float and double. Composition of C100, C52, C53, C27, C29, C87 and C99. Numbers read with type float are assumed to be floats."),
"C104":("partial","False for a coordinate that is not a number: the comparisons are all false and the conversion to an unsigned integer is undefined (C104_false; at every place inside the model C104_nan_elev, at every elevation of the model C104_nan_place). C104_octant: only finite locations get an octant. C104_partial: without such coordinates the conversion is defined, and infinite ones are outside. Signed zeros and gradual underflow are left out."),
"C105":("proved","Gradual underflow is left out."),
"C106":("proved","C44 in double. C106_log derives the accuracy of the number of iterations from that of the logarithm, over the reals. Limits closer together and the upper limit as in C44. Exponents unbounded."),
"C107":("proved","C61 and C62 in double. Ground more than 12.7 m above the lowest elevation. A last location without line end and the other disagreements of C61 and C62 remain."),
"C108":("proved","C63 in double."),
"C109":("proved","C109_over: without the fraction it is false, a point may lie beyond the end of the domain. Exponents unbounded; the spacing times the vertical exaggeration (4) is exact."),
"C110":("proved","Sine and cosine of the azimuth are parameters."),
"C111":("proved","C51, C54 and C50_run with rounding throughout (C111_run). C111_below: a speed may lie below the minimum itself, if that is no float."),
"C112":("proved","C112_not_exact: a depth of 2^-60 m is lost. Exponents unbounded; the projection is a parameter."),
"C113":("proved","C113_upTo without the assumptions on depths and elevation."),
"C114":("proved","C114_far: without the bound the elevations repeat. Of several values named Vp only the last is meant."),
"C115":("proved","C115_fails for the other codes, C115_silent for code and files. The number reported as invalid is the remainder: all incomplete ancestors are counted once. C++ streams do not fail."),
"C116":("proved","C116_pack, C116_quiet, C116_silent. Counts up to 2^31; formatting of numbers is a parameter (six digits, scientific)."),
"C117":("proved","The flag quiet is off; with it on C116_quiet."),
"C118":("partial","False of the code (C118_false): the test at GridIngester.cc:246 is inverted. C118_partial: the line says so exactly if the point has a fault block."),
"C119":("proved","C119_silent for code and files. Undefined behaviour (C73) excepted; failures of etree_close at the end are left out."),
"C120":("partial","False of the code (C120_false): the object that makes the temporary database is not told. C120_partial: nothing but its three reports is written."),
"C121":("proved","C121_elevation, C121_squash, C121_lowered, C121 (depths, exact arithmetic) and C121_double (depths, sums in double); an extended model holding only leaves for the elevation."),
"C122":("partial","False for creators (C122_false): after a failed etree_close in packDB the handle is given to etree_errno. C122_query and C122_average in full, C122_partial for creators if etree_close does not fail in packDB; C122_same relates the model to that of the other properties."),
"C123":("partial","True for query objects (C123_query). False for creators and averagers (C123_false_open, C123_false_pack, C123_false_average); C123_partial and C123_average_partial for all other histories."),
"C124":("partial","False if etree_close fails when a query object is destroyed (C124_false: the error handler is used through a null pointer). C124_partial for query objects otherwise; C124_engine, C124_ingest and C124_passes in full; C124_same relates the model to that of the other properties."),
"C125":("partial","True for query objects (C125_query; never more than five blocks, C125_bounded) and the engine (C125_engine). False for the ingestion of grids, whose run never deletes the array of names (C125_false; C125_partial: nothing else is left), and for a pass with an exception (C125_false_pass, C125_passes_partial)."),
"C126":("partial","False if a number fills its column, since nothing but the padding separates two numbers: C126_false (longitude and latitude exchanged) and C126_false_elevation (ground elevation from the root of an extended database). C126_partial: every line of every run reads back, or one of its numbers is outside the range of its column; C126_stored: if the numbers stored in the databases are within the ranges only the location can be outside."),
"C127":("proved","C127 for the text of all lists of lines; C127_program for the programs where C94_partial gives the same lines."),
"C128":("proved",""),
"C129":("partial","False if a number fills its column (C129_false). C129_partial: otherwise every line reads back."),
"C130":("partial","False if the extended database cannot be closed: the message names the other one (C130_false). C130_partial: all else, with the message as it is; C130_same: the program with its console is the program of C43."),
"C131":("proved","C131 and C131_quiet; the messages of exceptions of the geometry are taken not to be empty."),
"C132":("partial","False if the output file cannot be opened: the message names the input file (C132_false). C132_partial: all else, with the message as it is; C132_same: the program with its console is the program of C94."),
"C134":("partial","False: a database that cannot be opened is reported twice, and one that cannot be closed under the name of the other (C134_false). C134_partial: all else, with the messages as they are; C134_same: the program with its console is the program of C61."),
"C135":("proved","C135 and C135_warned; the messages of exceptions of the geometry are taken not to be empty."),
"C133":("proved","C133 and C133_quiet; the messages of exceptions of the geometry are taken not to be empty."),
"C136":("proved","For the format of six decimals in scientific notation set in VMQuery::query (Model/Scientific), over exact numbers."),
"C137":("proved","C137; C137_close: locations 0.00004 degrees apart may have the same row, so some distance is needed."),
"C138":("partial","False as to the form: messages are filled with terminating characters instead of blanks (C138_false). C138_partial: all else, with the fields as they are (256 characters); C138_same: the program with its output is the program of C95."),
"C139":("proved","C139 and C139_quiet."),
"C140":("proved","C140 (settings, run, program) and C140_text."),
"C141":("proved","C141 and C141_failure; C141_converse_false shows that the example can succeed where cencalvmquery fails."),
"C142":("proved","C142."),
"C150":("proved","C150; C150_same relates the program with its array to those of C140 and C43."),
"C148":("proved","C148; C148_same relates the program with its arrays to that of C61."),
"C149":("partial","False in every successful run (C149_false): searchVs never deletes its array. C149_partial counts what is left: one array and one for each location."),
"C143":("proved","C143, C143_reason; C143_same relates the program with text to that of C68."),
"C144":("proved","C144 and C144_count."),
"C145":("partial","C145_partial; C145_false_use and C145_false_close show the two ways in which it fails."),
"C146":("proved","C146; C146_same relates the program with text to that of C140."),
"C147":("proved","C147."),
"C151":("proved","C151, C151_defined and C151_null."),
"C152":("partial","False of a run whose extraction ends with an exception (C152_false). C152_partial lists what is left by which calls; C152_none: nothing, if no run ends so."),
"C153":("proved","C153; C153_same relates the program with its array to that of C94."),
"C154":("partial","C154_partial and C154_count; C154_false: a command line with unknown options can be accepted, because attached arguments are counted as words. C154_same relates the program with text to that of C43."),
"C155":("proved","C155 and C155_code; C155_same relates the program with text to that of C61."),
"C156":("proved","C156; C156_same relates the command line with text to that of C140."),
}
