{
 "claims": [
  {
   "property": "C01",
   "status": "partial",
   "theorems": [
    "CenCalVM.C01_partial",
    "CenCalVM.C01_unique_partial",
    "CenCalVM.C01_upper_face",
    "CenCalVM.C01_false"
   ],
   "note": "Proved for locations strictly below the upper faces of the domain (C01_partial, C01_unique_partial). C01_upper_face and C01_false show that the claim as stated fails on the upper faces: the location is reported inside but its cell lies outside the root cube."
  },
  {
   "property": "C02",
   "status": "proved",
   "theorems": [
    "CenCalVM.C02",
    "CenCalVM.C02_projection_failure"
   ],
   "note": "Both directions, and the failure of the projection."
  },
  {
   "property": "C03",
   "status": "proved",
   "theorems": [
    "CenCalVM.C03",
    "CenCalVM.C03_centroid"
   ],
   "note": ""
  },
  {
   "property": "C04",
   "status": "proved",
   "theorems": [
    "CenCalVM.C04",
    "CenCalVM.C04_contains"
   ],
   "note": ""
  },
  {
   "property": "C05",
   "status": "proved",
   "theorems": [
    "CenCalVM.C05_ancestor",
    "CenCalVM.C05_precondition",
    "CenCalVM.C05_trans",
    "CenCalVM.C05_child",
    "CenCalVM.C05_child_bit"
   ],
   "note": "Includes the exact precondition under which the ancestor is computed."
  },
  {
   "property": "C06",
   "status": "proved",
   "theorems": [
    "CenCalVM.C06_inverse",
    "CenCalVM.C06_monotone",
    "CenCalVM.C06_nearest",
    "CenCalVM.C06_too_fine"
   ],
   "note": "Over the reals. Finer resolutions than the finest cell over sqrt(2) get a level that no octant has (C06_too_fine)."
  },
  {
   "property": "C07",
   "status": "proved",
   "theorems": [
    "CenCalVM.C07_rigid",
    "CenCalVM.C07_round_trip",
    "CenCalVM.C07_frame_rigid",
    "CenCalVM.C07_elevation_monotone",
    "CenCalVM.C07_vertical_cell"
   ],
   "note": "Relative to a projector with a round-trip law; the PROJ library itself is not modelled."
  },
  {
   "property": "C08",
   "status": "proved",
   "theorems": [
    "CenCalVM.C08"
   ],
   "note": "For all histories of calls."
  },
  {
   "property": "C09",
   "status": "proved",
   "theorems": [
    "CenCalVM.C09",
    "CenCalVM.C09_default"
   ],
   "note": "For all histories of calls."
  },
  {
   "property": "C10",
   "status": "proved",
   "theorems": [
    "CenCalVM.C10",
    "CenCalVM.C10_any",
    "CenCalVM.C10_location"
   ],
   "note": "For any database pair, any location and any history (C10_any covers squashing, C10_location the containment of the location)."
  },
  {
   "property": "C11",
   "status": "proved",
   "theorems": [
    "CenCalVM.C11"
   ],
   "note": ""
  },
  {
   "property": "C12",
   "status": "proved",
   "theorems": [
    "CenCalVM.C12",
    "CenCalVM.C12_terminates"
   ],
   "note": "Averages as the code defines them, on ancestor-closed databases; termination for all databases."
  },
  {
   "property": "C13",
   "status": "partial",
   "theorems": [
    "CenCalVM.C13_partial",
    "CenCalVM.C13_false"
   ],
   "note": "False as stated for averages of water octants with a negative shear speed (C13_false); C13_partial proves it for the remaining octants."
  },
  {
   "property": "C14",
   "status": "proved",
   "theorems": [
    "CenCalVM.C14"
   ],
   "note": ""
  },
  {
   "property": "C15",
   "status": "proved",
   "theorems": [
    "CenCalVM.C15_values",
    "CenCalVM.C15_signal"
   ],
   "note": "Values (C15_values) and signalling (C15_signal)."
  },
  {
   "property": "C16",
   "status": "proved",
   "theorems": [
    "CenCalVM.C16",
    "CenCalVM.C16_zero_block"
   ],
   "note": ""
  },
  {
   "property": "C17",
   "status": "partial",
   "theorems": [
    "CenCalVM.C17_partial",
    "CenCalVM.C17_elevation_partial",
    "CenCalVM.C17_false_noData",
    "CenCalVM.C17_false_projection"
   ],
   "note": "False as stated: a no-data warning overwrites an earlier ERROR (C17_false_noData) and a failing projection leaves the payload uninitialised (C17_false_projection). The partial theorems cover the remaining cases."
  },
  {
   "property": "C18",
   "status": "proved",
   "theorems": [
    "CenCalVM.C18",
    "CenCalVM.C18_count",
    "CenCalVM.C18_unknown"
   ],
   "note": ""
  },
  {
   "property": "C19",
   "status": "partial",
   "theorems": [
    "CenCalVM.C19_partial",
    "CenCalVM.C19_geometry",
    "CenCalVM.C19_false"
   ],
   "note": "False after an unknown value name was selected (C19_false) and for failing projections (C17_false_projection); C19_partial proves it otherwise."
  },
  {
   "property": "C20",
   "status": "proved",
   "theorems": [
    "CenCalVM.C20_below",
    "CenCalVM.C20",
    "CenCalVM.C20_one_cell",
    "CenCalVM.C20_wraps"
   ],
   "note": "The sums go through the rounding of the object; C113 with rounding to double. C20_wraps records that the one-cell adjustment wraps around at the bottom of the model."
  },
  {
   "property": "C21",
   "status": "proved",
   "theorems": [
    "CenCalVM.C21"
   ],
   "note": "Objects computing with the same rounding. Up to failing elevation conversions, which end with ERROR."
  },
  {
   "property": "C22",
   "status": "partial",
   "theorems": [
    "CenCalVM.C22_partial",
    "CenCalVM.C22_centroid_partial",
    "CenCalVM.C22_false",
    "CenCalVM.C22_false_sentinel"
   ],
   "note": "False as stated: averages of the extended model are accepted (C22_false) and a true ground elevation of -999 is indistinguishable from missing data (C22_false_sentinel). Proved when the extended model holds only leaves; the sum goes through the rounding of the object (C112 with double)."
  },
  {
   "property": "C23",
   "status": "proved",
   "theorems": [
    "CenCalVM.C23"
   ],
   "note": ""
  },
  {
   "property": "C24",
   "status": "proved",
   "theorems": [
    "CenCalVM.C24",
    "CenCalVM.C24_cache"
   ],
   "note": "For all histories of all calls."
  },
  {
   "property": "C25",
   "status": "partial",
   "theorems": [
    "CenCalVM.C25_open_again",
    "CenCalVM.C25_close_again",
    "CenCalVM.C25_reopen",
    "CenCalVM.C25_open_message",
    "CenCalVM.C25_close_reports",
    "CenCalVM.C25_partial",
    "CenCalVM.C25_false",
    "CenCalVM.C25_false_geometry",
    "CenCalVM.C25_false_resolution"
   ],
   "note": "Everything but destruction with a failing close, which is use after deletion (C25_false), a null geometry (C25_false_geometry) and FIXEDRES without a resolution (C25_false_resolution). C25_partial: every legal history of any length is free of undefined behaviour."
  },
  {
   "property": "C26",
   "status": "partial",
   "theorems": [
    "CenCalVM.C26_partial",
    "CenCalVM.C26_false"
   ],
   "note": "Proved for input octants below the root; C26_false: a database holding only the root octant is dropped without an error."
  },
  {
   "property": "C27",
   "status": "proved",
   "theorems": [
    "CenCalVM.C27"
   ],
   "note": ""
  },
  {
   "property": "C28",
   "status": "proved",
   "theorems": [
    "CenCalVM.C28",
    "CenCalVM.C28_children"
   ],
   "note": "C28_children: the children averaged over are never an empty set. C28 in exact arithmetic, C86 with rounding."
  },
  {
   "property": "C29",
   "status": "proved",
   "theorems": [
    "CenCalVM.C29"
   ],
   "note": "Includes the no-data case. Exact arithmetic; C87_range with rounding."
  },
  {
   "property": "C30",
   "status": "proved",
   "theorems": [
    "CenCalVM.C30",
    "CenCalVM.C30_averaged"
   ],
   "note": "C30_averaged: an averaged database is itself rejected."
  },
  {
   "property": "C31",
   "status": "proved",
   "theorems": [
    "CenCalVM.C31"
   ],
   "note": "Gives the exact meaning of each counter."
  },
  {
   "property": "C32",
   "status": "proved",
   "theorems": [
    "CenCalVM.C32_empty",
    "CenCalVM.C32_write",
    "CenCalVM.C32_ok",
    "CenCalVM.C32_no_ub",
    "CenCalVM.C32_read",
    "CenCalVM.C32_advance",
    "CenCalVM.C32_advance_loses"
   ],
   "note": "Write failures at every point. Also no undefined behaviour for any database and any failures (C32_no_ub) and read failures (C32_read). C32_advance and C32_advance_loses record that a failing advance of the input cursor silently truncates the input."
  },
  {
   "property": "C33",
   "status": "partial",
   "theorems": [
    "CenCalVM.C33_partial",
    "CenCalVM.C33_false"
   ],
   "note": "Proved for input octants below the root (C33_partial); C33_false: an input octant at the root level is dropped by averaging."
  },
  {
   "property": "C34",
   "status": "proved",
   "theorems": [
    "CenCalVM.C34",
    "CenCalVM.C34_location"
   ],
   "note": "C34_location needs no assumption on cells, for the central California geometry."
  },
  {
   "property": "C35",
   "status": "proved",
   "theorems": [
    "CenCalVM.C35",
    "CenCalVM.C35_empty",
    "CenCalVM.C35_same",
    "CenCalVM.C35_faults",
    "CenCalVM.C35_reports",
    "CenCalVM.C35_advance_loses"
   ],
   "note": "With libetree not failing (C35, C35_empty) and for every pattern of failures in which packing ends normally (C35_faults). C35_advance_loses: a failing advance of the cursor is taken for the end; C35_same: packing a database to its own file is not refused and undefined."
  },
  {
   "property": "C36",
   "status": "proved",
   "theorems": [
    "CenCalVM.C36",
    "CenCalVM.C36_twice",
    "CenCalVM.C36_location"
   ],
   "note": "C36_location for the central California geometry needs no assumption on cells."
  },
  {
   "property": "C37",
   "status": "partial",
   "theorems": [
    "CenCalVM.C37_false",
    "CenCalVM.C37_partial"
   ],
   "note": "False: the return code of the conversion is ignored, the first location outside the model is stored outside the root cube (C37_false). C37_partial: every later one at the same resolution raises an exception."
  },
  {
   "property": "C38",
   "status": "proved",
   "theorems": [
    "CenCalVM.C38",
    "CenCalVM.C38_accepted"
   ],
   "note": "Both directions (C38, C38_accepted). A header that cannot be read counts as an empty grid (second case of C38). C38_accepted in exact arithmetic; in float and double C101_accepted."
  },
  {
   "property": "C39",
   "status": "proved",
   "theorems": [
    "CenCalVM.C39"
   ],
   "note": "For any rounding of the conversion; in float and double see C100."
  },
  {
   "property": "C40",
   "status": "partial",
   "theorems": [
    "CenCalVM.C40_partial",
    "CenCalVM.C40_false_zero",
    "CenCalVM.C40_false_total",
    "CenCalVM.C40_unreadable"
   ],
   "note": "False: both resolutions zero raise no exception (C40_false_zero), the product of the counts is not checked (C40_false_total), an unreadable header is accepted (C40_unreadable). C40_partial covers the checks the code makes, in exact arithmetic; in double C101."
  },
  {
   "property": "C41",
   "status": "partial",
   "theorems": [
    "CenCalVM.C41_partial",
    "CenCalVM.C41_ub",
    "CenCalVM.C41_null",
    "CenCalVM.C41_create",
    "CenCalVM.C41_destroy",
    "CenCalVM.C41_false_null",
    "CenCalVM.C41_false_status"
   ],
   "note": "False of the functions on the error handler: null handle gives 1, not 2 (C41_false_null), and they return 0 whatever the status (C41_false_status). Everything else: C41_partial (both directions), C41_ub, C41_null, C41_create, C41_destroy."
  },
  {
   "property": "C42",
   "status": "partial",
   "theorems": [
    "CenCalVM.C42_partial",
    "CenCalVM.C42_false_read",
    "CenCalVM.C42_message",
    "CenCalVM.C42_false_null"
   ],
   "note": "False: a character variable without a terminating character is read beyond its end (C42_false_read), a null handle makes the message function copy from a null pointer (C42_false_null). C42_partial for terminated variables, C42_message for all messages and lengths."
  },
  {
   "property": "C43",
   "status": "partial",
   "theorems": [
    "CenCalVM.QueryApp.C43_partial",
    "CenCalVM.QueryApp.C43_locations",
    "CenCalVM.QueryApp.C43_false",
    "CenCalVM.QueryApp.C43_false_malformed",
    "CenCalVM.QueryApp.C43_false_write"
   ],
   "note": "False: a last location without line end is not answered and the exit code is 0 (C43_false), a malformed line ends the program with exit code 0 (C43_false_malformed), so does a failing output file (C43_false_write). C43_partial is the rest, C43_locations shows that its grammar determines the locations of every text."
  },
  {
   "property": "C44",
   "status": "partial",
   "theorems": [
    "CenCalVM.IsoApp.C44_partial",
    "CenCalVM.IsoApp.C44_gives_up",
    "CenCalVM.IsoApp.C44_ends",
    "CenCalVM.IsoApp.C44_halves",
    "CenCalVM.IsoApp.C44_false",
    "CenCalVM.IsoApp.C44_false_top",
    "CenCalVM.IsoApp.C44_false_order"
   ],
   "note": "False for limits at most 12.5 m apart, where the lower limit is reported without a query (C44_false), and at the upper limit, where no place below the target is looked for (C44_false_top); undefined for limits in the wrong order (C44_false_order). C44_partial is the bracket for all other limits, C44_gives_up, C44_ends and C44_halves the rest. Exact arithmetic; in double C106."
  },
  {
   "property": "C45",
   "status": "partial",
   "theorems": [
    "CenCalVM.C45_partial",
    "CenCalVM.C45_false",
    "CenCalVM.C45_false_twice"
   ],
   "note": "False: Vs is clipped only with downward projection (C45_false), and of several values named Vs only the last (C45_false_twice). C45_partial covers the last value named Vs with projection on, over all call histories."
  },
  {
   "property": "C46",
   "status": "proved",
   "theorems": [
    "CenCalVM.C46",
    "CenCalVM.C46_decreasing",
    "CenCalVM.C46_off"
   ],
   "note": "C46 for the loop, C46_decreasing for the elevations in exact arithmetic (C114_decreasing in double), C46_off when projection is off. Solid means Vs not negative; after nine tries the last answer is returned whatever it is."
  },
  {
   "property": "C47",
   "status": "proved",
   "theorems": [
    "CenCalVM.C47"
   ],
   "note": "Exact arithmetic; C89_line with rounding."
  },
  {
   "property": "C48",
   "status": "proved",
   "theorems": [
    "CenCalVM.C48",
    "CenCalVM.C48_idempotent"
   ],
   "note": "Minorant and idempotence (C48_idempotent)."
  },
  {
   "property": "C49",
   "status": "proved",
   "theorems": [
    "CenCalVM.C49"
   ],
   "note": ""
  },
  {
   "property": "C50",
   "status": "proved",
   "theorems": [
    "CenCalVM.C50",
    "CenCalVM.C50_run",
    "CenCalVM.C50_runs"
   ],
   "note": "C50 for grading a database that holds the grid; C50_run for the whole run with any failures of libetree. Exact arithmetic; C89 and C111_run with rounding."
  },
  {
   "property": "C51",
   "status": "proved",
   "theorems": [
    "CenCalVM.C51",
    "CenCalVM.C51_grade",
    "CenCalVM.C51_run",
    "CenCalVM.C51_marker_lost"
   ],
   "note": "Extraction (C51), grading (C51_grade), whole run (C51_run). C51_marker_lost: grading reduces the no-data marker. Exact arithmetic; C90_floor, C111_floor and C111_run with rounding."
  },
  {
   "property": "C52",
   "status": "proved",
   "theorems": [
    "CenCalVM.C52"
   ],
   "note": "From parameter file to packed database."
  },
  {
   "property": "C53",
   "status": "partial",
   "theorems": [
    "CenCalVM.C53_partial",
    "CenCalVM.C53_false"
   ],
   "note": "False: a last name without whitespace after it is left out (C53_false). C53_partial: with whitespace at the end all names are processed."
  },
  {
   "property": "C54",
   "status": "proved",
   "theorems": [
    "CenCalVM.C54",
    "CenCalVM.C54_points",
    "CenCalVM.C54_missing",
    "CenCalVM.C54_same",
    "CenCalVM.C54_runs"
   ],
   "note": "In any arithmetic: locations, numbers of points and stored values are rounded as the grid says. C54_missing records that a missing input file leads to a null dereference."
  },
  {
   "property": "C55",
   "status": "proved",
   "theorems": [
    "CenCalVM.C55",
    "CenCalVM.C55_reduced",
    "CenCalVM.C55_idempotent"
   ],
   "note": "Greatest volume (C55), ratios (C55_reduced), idempotence (C55_idempotent). Exact arithmetic; C90 and C91 with rounding."
  },
  {
   "property": "C56",
   "status": "proved",
   "theorems": [
    "CenCalVM.C56"
   ],
   "note": "The least Vp as computed with the rounding of the object; C114_vp compares it with 1360 + 1.16 minVs."
  },
  {
   "property": "C57",
   "status": "proved",
   "theorems": [
    "CenCalVM.C57",
    "CenCalVM.C57_exception",
    "CenCalVM.C57_false_error"
   ],
   "note": "C57_false_error records that an error left by a later underlying query is returned as 0."
  },
  {
   "property": "C58",
   "status": "proved",
   "theorems": [
    "CenCalVM.C58"
   ],
   "note": ""
  },
  {
   "property": "C59",
   "status": "partial",
   "theorems": [
    "CenCalVM.QueryApp.C59_partial",
    "CenCalVM.QueryApp.C59_stray",
    "CenCalVM.QueryApp.C59_help",
    "CenCalVM.QueryApp.C59_false",
    "CenCalVM.QueryApp.C59_false_attached"
   ],
   "note": "False: an unknown option sharing a word with a known one is accepted (C59_false), an argument attached to its option is refused (C59_false_attached). C59_partial for options and arguments in separate words; C59_stray: a word between them that is no known option is refused; C59_help."
  },
  {
   "property": "C60",
   "status": "partial",
   "theorems": [
    "CenCalVM.QueryApp.C60",
    "CenCalVM.QueryApp.C60_zero",
    "CenCalVM.QueryApp.C60_false_resolution"
   ],
   "note": "Proved for everything but resolution 0 (the default), which is accepted with fixedres and makes the first query undefined (C60_false_resolution)."
  },
  {
   "property": "C61",
   "status": "partial",
   "theorems": [
    "CenCalVM.IsoApp.C61_partial",
    "CenCalVM.IsoApp.C61_unopened",
    "CenCalVM.IsoApp.C61_false",
    "CenCalVM.IsoApp.C61_false_masked"
   ],
   "note": "False: a last location without line end is not answered with exit code 0 (C61_false); an error of the ground elevation query is overwritten by a later warning (C61_false_masked). C61_partial is the rest, C61_unopened covers databases that cannot be opened. Exact arithmetic; in double C107."
  },
  {
   "property": "C62",
   "status": "partial",
   "theorems": [
    "CenCalVM.IsoApp.C62_partial",
    "CenCalVM.IsoApp.C62_false_squash"
   ],
   "note": "False with squashing, where the ground elevation is added once too often (C62_false_squash). C62_partial without squashing; its premise LineFor is what C61_partial provides. Exact arithmetic; in double C107_depth."
  },
  {
   "property": "C63",
   "status": "proved",
   "theorems": [
    "CenCalVM.IsoApp.C63",
    "CenCalVM.IsoApp.C63_unique",
    "CenCalVM.IsoApp.C63_solid"
   ],
   "note": "Exact arithmetic; in double C108."
  },
  {
   "property": "C64",
   "status": "partial",
   "theorems": [
    "CenCalVM.IsoApp.C64_partial",
    "CenCalVM.IsoApp.C64_unknown",
    "CenCalVM.IsoApp.C64_stray",
    "CenCalVM.IsoApp.C64_other",
    "CenCalVM.IsoApp.C64_false_attached"
   ],
   "note": "False: an argument attached to its option is refused (C64_false_attached). C64_partial for options and arguments in separate words, C64_unknown and C64_other for unknown options and -h, C64_stray for words that belong to no option."
  },
  {
   "property": "C65",
   "status": "partial",
   "theorems": [
    "CenCalVM.FileApps.C65_partial",
    "CenCalVM.FileApps.C65_other",
    "CenCalVM.FileApps.C65_stray",
    "CenCalVM.FileApps.C65_refused",
    "CenCalVM.FileApps.C65_false_log",
    "CenCalVM.FileApps.C65_false_attached",
    "CenCalVM.FileApps.C65_false_extra",
    "CenCalVM.VsGrader.C65_refused_grade"
   ],
   "note": "False: the option -l of cencalvmgen is documented but refused (C65_false_log), an argument attached to its option is refused (C65_false_attached), and then a stray word is accepted (C65_false_extra). C65_partial for options and arguments in separate words, C65_other for -h and unknown options, C65_stray for words that belong to no option, C65_refused and C65_refused_grade for the effect of refusal."
  },
  {
   "property": "C66",
   "status": "partial",
   "theorems": [
    "CenCalVM.FileApps.C66_partial",
    "CenCalVM.FileApps.C66_false_close",
    "CenCalVM.FileApps.C66_false_schema",
    "CenCalVM.FileApps.C66_false_same"
   ],
   "note": "False: a failing close of the output is ignored (C66_false_close); an input without schema is undefined behaviour (C66_false_schema), as is averaging a file into itself (C66_false_same). C66_partial for all other cases of a reliable library; what the values are in exact arithmetic."
  },
  {
   "property": "C67",
   "status": "proved",
   "theorems": [
    "CenCalVM.FileApps.C67"
   ],
   "note": "For any rounding of the conversion."
  },
  {
   "property": "C68",
   "status": "proved",
   "theorems": [
    "CenCalVM.FileApps.C68",
    "CenCalVM.FileApps.C68_averaged",
    "CenCalVM.FileApps.C68_zero"
   ],
   "note": ""
  },
  {
   "property": "C69",
   "status": "partial",
   "theorems": [
    "CenCalVM.FileApps.C69_partial",
    "CenCalVM.FileApps.C69_reports",
    "CenCalVM.FileApps.C69_code",
    "CenCalVM.FileApps.C69_false",
    "CenCalVM.FileApps.C69_false_same"
   ],
   "note": "False: a read error while advancing is taken for the end of the input (C69_false); packing a file into itself is undefined (C69_false_same). C69_partial for every other failure, C69_code for a reliable library."
  },
  {
   "property": "C70",
   "status": "proved",
   "theorems": [
    "CenCalVM.C70"
   ],
   "note": "Over the reals. The octant is stated for locations not on the upper faces of the root cube, for which C01_upper_face holds."
  },
  {
   "property": "C71",
   "status": "proved",
   "theorems": [
    "CenCalVM.VsGrader.C71",
    "CenCalVM.VsGrader.C71_unique",
    "CenCalVM.VsGrader.C71_corners"
   ],
   "note": "C71 is the equivalence, C71_unique shows the grammar unambiguous, C71_corners fixes texts at its edges (a value of 0 counts as missing, a brace at the end of the file is refused)."
  },
  {
   "property": "C72",
   "status": "partial",
   "theorems": [
    "CenCalVM.VsGrader.C72_partial",
    "CenCalVM.VsGrader.C72_false"
   ],
   "note": "False of the code: a missing value of cache-size or query-resolution reads an uninitialised variable (C72_false). C72_partial says exactly when the behaviour is undefined."
  },
  {
   "property": "C73",
   "status": "partial",
   "theorems": [
    "CenCalVM.VsGrader.C73_partial",
    "CenCalVM.VsGrader.C73_runs",
    "CenCalVM.VsGrader.C73_files",
    "CenCalVM.VsGrader.C73_refused",
    "CenCalVM.VsGrader.C73_false_missing",
    "CenCalVM.VsGrader.C73_false_same"
   ],
   "note": "False of the code if the input file is missing (null database, C73_false_missing) or the temporary file is the input (C73_false_same). C73_partial, C73_runs, C73_files and C73_refused are the rest."
  },
  {
   "property": "C74",
   "status": "proved",
   "theorems": [
    "CenCalVM.C74"
   ],
   "note": "For parameter files ending in whitespace; without it the last grid is dropped (C53_false) and order matters."
  },
  {
   "property": "C75",
   "status": "proved",
   "theorems": [
    "CenCalVM.C75_unique",
    "CenCalVM.C75"
   ],
   "note": "C75_unique is the uniqueness, C75 the locality; C75_unique in exact arithmetic, C75 with any rounding."
  },
  {
   "property": "C76",
   "status": "proved",
   "theorems": [
    "CenCalVM.C76"
   ],
   "note": "Composition of C52, C53, C27, C28, C29 and C11. Exact averages; in float and double C102."
  },
  {
   "property": "C77",
   "status": "proved",
   "theorems": [
    "CenCalVM.C77",
    "CenCalVM.C77_volumes"
   ],
   "note": "C77 gives the weighted sum, C77_volumes the total weight. Exact arithmetic."
  },
  {
   "property": "C78",
   "status": "partial",
   "theorems": [
    "CenCalVM.C78_partial",
    "CenCalVM.C78_false",
    "CenCalVM.C78_false_after",
    "CenCalVM.C78_false_query"
   ],
   "note": "Holds with a library that clears its error code when a transformation succeeds, and up to the first failure otherwise (C78_partial). The code tests proj_errno and never resets it, so with a library that keeps the code every later call throws (C78_false) and no later query gives an answer (C78_false_query)."
  },
  {
   "property": "C79",
   "status": "proved",
   "theorems": [
    "CenCalVM.C79",
    "CenCalVM.C79_plane",
    "CenCalVM.C79_octant"
   ],
   "note": "The transformations of the library are parameters; exact arithmetic. C79 from a location, C79_plane from the plane, C79_octant for C03."
  },
  {
   "property": "C80",
   "status": "proved",
   "theorems": [
    "CenCalVM.C80",
    "CenCalVM.C80_false"
   ],
   "note": "Rounding to 53 binary digits after every operation (fl), unbounded exponent, no contracted operations; projection, sine and cosine are parameters. C80_false: the exact containment of C01 fails near octant faces."
  },
  {
   "property": "C81",
   "status": "proved",
   "theorems": [
    "CenCalVM.C81"
   ],
   "note": "Same rounding model as C80; no assumption on sizes."
  },
  {
   "property": "C82",
   "status": "proved",
   "theorems": [
    "CenCalVM.C82",
    "CenCalVM.C82_edge"
   ],
   "note": "C82 and C82_edge; same rounding model."
  },
  {
   "property": "C83",
   "status": "proved",
   "theorems": [
    "CenCalVM.C83",
    "CenCalVM.C83_all_levels"
   ],
   "note": "C83 with explicit error budget; C83_all_levels with numbers."
  },
  {
   "property": "C84",
   "status": "proved",
   "theorems": [
    "CenCalVM.C84"
   ],
   "note": "Geometry rounded, payload values carried exactly (they are copied)."
  },
  {
   "property": "C85",
   "status": "proved",
   "theorems": [
    "CenCalVM.C85",
    "CenCalVM.C85_edge"
   ],
   "note": "C85 and C85_edge; the library logarithm is a parameter with a relative error bound."
  },
  {
   "property": "C86",
   "status": "proved",
   "theorems": [
    "CenCalVM.C86"
   ],
   "note": "Rounding to 24 binary digits after every operation (fl), exponent unbounded (no overflow, no subnormal numbers), no excess precision."
  },
  {
   "property": "C87",
   "status": "proved",
   "theorems": [
    "CenCalVM.C87",
    "CenCalVM.C87_range"
   ],
   "note": "C87 compares with exact arithmetic; C87_range is the consequence for ranges. Same rounding model as C86."
  },
  {
   "property": "C88",
   "status": "partial",
   "theorems": [
    "CenCalVM.C88",
    "CenCalVM.C88_false",
    "CenCalVM.C88_partial"
   ],
   "note": "C88 in exact arithmetic for all values. False in single precision: C88_false. C88_partial: true in single precision for values with at most 21 binary digits."
  },
  {
   "property": "C89",
   "status": "proved",
   "theorems": [
    "CenCalVM.C89_line",
    "CenCalVM.C89",
    "CenCalVM.C89_width",
    "CenCalVM.C89_false"
   ],
   "note": "Rounding to 24 and 53 binary digits (fl), exponent unbounded. C89_line, C89_width: sharper. C89_false: the factor cannot be dropped."
  },
  {
   "property": "C90",
   "status": "proved",
   "theorems": [
    "CenCalVM.C90",
    "CenCalVM.C90_floor"
   ],
   "note": "Same rounding model. C90_floor: the least speed."
  },
  {
   "property": "C91",
   "status": "proved",
   "theorems": [
    "CenCalVM.C91",
    "CenCalVM.C91_again",
    "CenCalVM.C91_false"
   ],
   "note": "Same rounding model. C91_again: grading twice; C91_false: a density that changes the second time."
  },
  {
   "property": "C92",
   "status": "proved",
   "theorems": [
    "CenCalVM.C92",
    "CenCalVM.C92_sticky",
    "CenCalVM.C92_false"
   ],
   "note": "C92_sticky: errors stay; C92_false: a query without data clears the error."
  },
  {
   "property": "C93",
   "status": "partial",
   "theorems": [
    "CenCalVM.C93_partial",
    "CenCalVM.C93_false"
   ],
   "note": "C93_partial: after the values were set by a call that returned normally. False after a call of queryVals that raised an exception because of an earlier error (C93_false)."
  },
  {
   "property": "C94",
   "status": "partial",
   "theorems": [
    "CenCalVM.CExample.C94_partial",
    "CenCalVM.CExample.C94_arguments",
    "CenCalVM.CExample.C94_false_long",
    "CenCalVM.CExample.C94_false"
   ],
   "note": "C94_partial: input files of numbers only and output that can be written; C94_arguments: same settings if no name has 256 characters. False otherwise: other input makes the program loop for ever (C94_false), long names overflow an array (C94_false_long)."
  },
  {
   "property": "C95",
   "status": "partial",
   "theorems": [
    "CenCalVM.FExample.C95_partial",
    "CenCalVM.FExample.C95_input",
    "CenCalVM.FExample.C95_false",
    "CenCalVM.FExample.C95_false_error"
   ],
   "note": "C95_partial: if names are terminated as C strings and no query ends with an error; C95_input: input that is not numbers. False as published: names are padded with blanks and read beyond their end (C95_false); errors are not noticed because the status is overwritten before it is tested (C95_false_error)."
  },
  {
   "property": "C96",
   "status": "partial",
   "theorems": [
    "CenCalVM.PyDB.C96_partial",
    "CenCalVM.PyDB.C96_refused",
    "CenCalVM.PyDB.C96_false",
    "CenCalVM.PyDB.C96_false_cache"
   ],
   "note": "C96_partial for the query types maxres and waveres, C96_refused for unknown types. False: fixedres is set as maxres (C96_false), the property cache_size_ext has no effect (C96_false_cache)."
  },
  {
   "property": "C97",
   "status": "proved",
   "theorems": [
    "CenCalVM.QueryApp.C97",
    "CenCalVM.QueryApp.C97_none"
   ],
   "note": "C97 with a log file that can be opened, C97_none without."
  },
  {
   "property": "C98",
   "status": "proved",
   "theorems": [
    "CenCalVM.C98"
   ],
   "note": "Composition of C52, C53, C27 to C29 and the walk of C12. Exact arithmetic; in float and double C103."
  },
  {
   "property": "C99",
   "status": "proved",
   "theorems": [
    "CenCalVM.C99"
   ],
   "note": "Exponents unbounded: no overflow and no subnormal numbers."
  },
  {
   "property": "C100",
   "status": "proved",
   "theorems": [
    "CenCalVM.C100"
   ],
   "note": "Exponents unbounded: no overflow and no subnormal numbers. Reading yields any number (a parameter), so the claim is relative to the numbers read."
  },
  {
   "property": "C101",
   "status": "proved",
   "theorems": [
    "CenCalVM.C101",
    "CenCalVM.C101_accepted"
   ],
   "note": "C101 rejects, C101_accepted accepts. Between 10^-6 - 10^-13 and 10^-6 + 10^-13 rounding decides."
  },
  {
   "property": "C102",
   "status": "proved",
   "theorems": [
    "CenCalVM.C102"
   ],
   "note": "C76 in float and double. Composition of C100, C52, C53, C27, C29, C87 and C11."
  },
  {
   "property": "C103",
   "status": "proved",
   "theorems": [
    "CenCalVM.C103"
   ],
   "note": "C98 in float and double. Composition of C100, C52, C53, C27, C29, C87 and C99. Numbers read with type float are assumed to be floats."
  },
  {
   "property": "C104",
   "status": "partial",
   "theorems": [
    "CenCalVM.C104_octant",
    "CenCalVM.C104_partial",
    "CenCalVM.C104_nan_elev",
    "CenCalVM.C104_nan_place",
    "CenCalVM.C104_false"
   ],
   "note": "False for a coordinate that is not a number: the comparisons are all false and the conversion to an unsigned integer is undefined (C104_false; at every place inside the model C104_nan_elev, at every elevation of the model C104_nan_place). C104_octant: only finite locations get an octant. C104_partial: without such coordinates the conversion is defined, and infinite ones are outside. Signed zeros and gradual underflow are left out."
  },
  {
   "property": "C105",
   "status": "proved",
   "theorems": [
    "CenCalVM.C105"
   ],
   "note": "Gradual underflow is left out."
  },
  {
   "property": "C106",
   "status": "proved",
   "theorems": [
    "CenCalVM.IsoApp.C106",
    "CenCalVM.IsoApp.C106_gives_up",
    "CenCalVM.IsoApp.C106_ends",
    "CenCalVM.IsoApp.C106_log"
   ],
   "note": "C44 in double. C106_log derives the accuracy of the number of iterations from that of the logarithm, over the reals. Limits closer together and the upper limit as in C44. Exponents unbounded."
  },
  {
   "property": "C107",
   "status": "proved",
   "theorems": [
    "CenCalVM.IsoApp.C107",
    "CenCalVM.IsoApp.C107_depth"
   ],
   "note": "C61 and C62 in double. Ground more than 12.7 m above the lowest elevation. A last location without line end and the other disagreements of C61 and C62 remain."
  },
  {
   "property": "C108",
   "status": "proved",
   "theorems": [
    "CenCalVM.IsoApp.C108",
    "CenCalVM.IsoApp.C108_near",
    "CenCalVM.IsoApp.C108_exact"
   ],
   "note": "C63 in double."
  },
  {
   "property": "C109",
   "status": "proved",
   "theorems": [
    "CenCalVM.C109",
    "CenCalVM.C109_fills",
    "CenCalVM.C109_defined",
    "CenCalVM.C109_over"
   ],
   "note": "C109_over: without the fraction it is false, a point may lie beyond the end of the domain. Exponents unbounded; the spacing times the vertical exaggeration (4) is exact."
  },
  {
   "property": "C110",
   "status": "proved",
   "theorems": [
    "CenCalVM.C110",
    "CenCalVM.C110_exact"
   ],
   "note": "Sine and cosine of the azimuth are parameters."
  },
  {
   "property": "C111",
   "status": "proved",
   "theorems": [
    "CenCalVM.C111",
    "CenCalVM.C111_floor",
    "CenCalVM.C111_run",
    "CenCalVM.C111_below"
   ],
   "note": "C51, C54 and C50_run with rounding throughout (C111_run). C111_below: a speed may lie below the minimum itself, if that is no float."
  },
  {
   "property": "C112",
   "status": "proved",
   "theorems": [
    "CenCalVM.C112",
    "CenCalVM.C112_not_exact"
   ],
   "note": "C112_not_exact: a depth of 2^-60 m is lost. Exponents unbounded; the projection is a parameter."
  },
  {
   "property": "C113",
   "status": "proved",
   "theorems": [
    "CenCalVM.C113",
    "CenCalVM.C113_upTo"
   ],
   "note": "C113_upTo without the assumptions on depths and elevation."
  },
  {
   "property": "C114",
   "status": "proved",
   "theorems": [
    "CenCalVM.CenCalVMDB.C114",
    "CenCalVM.CenCalVMDB.C114_decreasing",
    "CenCalVM.CenCalVMDB.C114_vp",
    "CenCalVM.CenCalVMDB.C114_far"
   ],
   "note": "C114_far: without the bound the elevations repeat. Of several values named Vp only the last is meant."
  },
  {
   "property": "C115",
   "status": "proved",
   "theorems": [
    "CenCalVM.Console.C115_silent",
    "CenCalVM.Console.C115",
    "CenCalVM.Console.C115_fails"
   ],
   "note": "C115_fails for the other codes, C115_silent for code and files. The number reported as invalid is the remainder: all incomplete ancestors are counted once. C++ streams do not fail."
  },
  {
   "property": "C116",
   "status": "proved",
   "theorems": [
    "CenCalVM.Console.C116_silent",
    "CenCalVM.Console.C116_pack",
    "CenCalVM.Console.C116",
    "CenCalVM.Console.C116_quiet"
   ],
   "note": "C116_pack, C116_quiet, C116_silent. Counts up to 2^31; formatting of numbers is a parameter (six digits, scientific)."
  },
  {
   "property": "C117",
   "status": "proved",
   "theorems": [
    "CenCalVM.Console.C117"
   ],
   "note": "The flag quiet is off; with it on C116_quiet."
  },
  {
   "property": "C118",
   "status": "partial",
   "theorems": [
    "CenCalVM.Console.C118_false",
    "CenCalVM.Console.C118_partial"
   ],
   "note": "False of the code (C118_false): the test at GridIngester.cc:246 is inverted. C118_partial: the line says so exactly if the point has a fault block."
  },
  {
   "property": "C119",
   "status": "proved",
   "theorems": [
    "CenCalVM.GradeConsole.C119_silent",
    "CenCalVM.GradeConsole.C119"
   ],
   "note": "C119_silent for code and files. Undefined behaviour (C73) excepted; failures of etree_close at the end are left out."
  },
  {
   "property": "C120",
   "status": "partial",
   "theorems": [
    "CenCalVM.GradeConsole.C120_false",
    "CenCalVM.GradeConsole.C120_partial"
   ],
   "note": "False of the code (C120_false): the object that makes the temporary database is not told. C120_partial: nothing but its three reports is written."
  },
  {
   "property": "C121",
   "status": "proved",
   "theorems": [
    "CenCalVM.C121_elevation",
    "CenCalVM.C121_squash",
    "CenCalVM.C121",
    "CenCalVM.C121_double",
    "CenCalVM.C121_lowered"
   ],
   "note": "C121_elevation, C121_squash, C121_lowered, C121 (depths, exact arithmetic) and C121_double (depths, sums in double); an extended model holding only leaves for the elevation."
  },
  {
   "property": "C122",
   "status": "partial",
   "theorems": [
    "CenCalVM.Handles.C122_same",
    "CenCalVM.Handles.C122_same_create",
    "CenCalVM.Handles.C122_same_average",
    "CenCalVM.Handles.C122_query",
    "CenCalVM.Handles.C122_average",
    "CenCalVM.Handles.C122_partial",
    "CenCalVM.Handles.C122_false"
   ],
   "note": "False for creators (C122_false): after a failed etree_close in packDB the handle is given to etree_errno. C122_query and C122_average in full, C122_partial for creators if etree_close does not fail in packDB; C122_same relates the model to that of the other properties."
  },
  {
   "property": "C123",
   "status": "partial",
   "theorems": [
    "CenCalVM.Handles.C123_query",
    "CenCalVM.Handles.C123_average_partial",
    "CenCalVM.Handles.C123_partial",
    "CenCalVM.Handles.C123_false_open",
    "CenCalVM.Handles.C123_false_pack",
    "CenCalVM.Handles.C123_false_average"
   ],
   "note": "True for query objects (C123_query). False for creators and averagers (C123_false_open, C123_false_pack, C123_false_average); C123_partial and C123_average_partial for all other histories."
  },
  {
   "property": "C124",
   "status": "partial",
   "theorems": [
    "CenCalVM.Mem.C124_same",
    "CenCalVM.Mem.C124_partial",
    "CenCalVM.Mem.C124_engine",
    "CenCalVM.Mem.C124_ingest",
    "CenCalVM.Mem.C124_passes",
    "CenCalVM.Mem.C124_false"
   ],
   "note": "False if etree_close fails when a query object is destroyed (C124_false: the error handler is used through a null pointer). C124_partial for query objects otherwise; C124_engine, C124_ingest and C124_passes in full; C124_same relates the model to that of the other properties."
  },
  {
   "property": "C125",
   "status": "partial",
   "theorems": [
    "CenCalVM.Mem.C125_query",
    "CenCalVM.Mem.C125_bounded",
    "CenCalVM.Mem.C125_engine",
    "CenCalVM.Mem.C125_partial",
    "CenCalVM.Mem.C125_false",
    "CenCalVM.Mem.C125_passes_partial",
    "CenCalVM.Mem.C125_false_pass"
   ],
   "note": "True for query objects (C125_query; never more than five blocks, C125_bounded) and the engine (C125_engine). False for the ingestion of grids, whose run never deletes the array of names (C125_false; C125_partial: nothing else is left), and for a pass with an exception (C125_false_pass, C125_passes_partial)."
  },
  {
   "property": "C126",
   "status": "partial",
   "theorems": [
    "CenCalVM.QueryApp.C126_partial",
    "CenCalVM.QueryApp.C126_stored",
    "CenCalVM.QueryApp.C126_false",
    "CenCalVM.QueryApp.C126_false_elevation"
   ],
   "note": "False if a number fills its column, since nothing but the padding separates two numbers: C126_false (longitude and latitude exchanged) and C126_false_elevation (ground elevation from the root of an extended database). C126_partial: every line of every run reads back, or one of its numbers is outside the range of its column; C126_stored: if the numbers stored in the databases are within the ranges only the location can be outside."
  },
  {
   "property": "C127",
   "status": "proved",
   "theorems": [
    "CenCalVM.QueryApp.C127",
    "CenCalVM.QueryApp.C127_program"
   ],
   "note": "C127 for the text of all lists of lines; C127_program for the programs where C94_partial gives the same lines."
  },
  {
   "property": "C128",
   "status": "proved",
   "theorems": [
    "CenCalVM.FExample.C128"
   ],
   "note": ""
  },
  {
   "property": "C129",
   "status": "partial",
   "theorems": [
    "CenCalVM.IsoApp.C129_partial",
    "CenCalVM.IsoApp.C129_false"
   ],
   "note": "False if a number fills its column (C129_false). C129_partial: otherwise every line reads back."
  },
  {
   "property": "C130",
   "status": "partial",
   "theorems": [
    "CenCalVM.QueryApp.C130_same",
    "CenCalVM.QueryApp.C130_partial",
    "CenCalVM.QueryApp.C130_false"
   ],
   "note": "False if the extended database cannot be closed: the message names the other one (C130_false). C130_partial: all else, with the message as it is; C130_same: the program with its console is the program of C43."
  },
  {
   "property": "C131",
   "status": "proved",
   "theorems": [
    "CenCalVM.QueryApp.C131",
    "CenCalVM.QueryApp.C131_quiet"
   ],
   "note": "C131 and C131_quiet; the messages of exceptions of the geometry are taken not to be empty."
  },
  {
   "property": "C132",
   "status": "partial",
   "theorems": [
    "CenCalVM.CExample.C132_same",
    "CenCalVM.CExample.C132_partial",
    "CenCalVM.CExample.C132_false"
   ],
   "note": "False if the output file cannot be opened: the message names the input file (C132_false). C132_partial: all else, with the message as it is; C132_same: the program with its console is the program of C94."
  },
  {
   "property": "C133",
   "status": "proved",
   "theorems": [
    "CenCalVM.CExample.C133",
    "CenCalVM.CExample.C133_quiet"
   ],
   "note": "C133 and C133_quiet; the messages of exceptions of the geometry are taken not to be empty."
  },
  {
   "property": "C134",
   "status": "partial",
   "theorems": [
    "CenCalVM.IsoApp.C134_same",
    "CenCalVM.IsoApp.C134_partial",
    "CenCalVM.IsoApp.C134_false"
   ],
   "note": "False: a database that cannot be opened is reported twice, and one that cannot be closed under the name of the other (C134_false). C134_partial: all else, with the messages as they are; C134_same: the program with its console is the program of C61."
  },
  {
   "property": "C135",
   "status": "proved",
   "theorems": [
    "CenCalVM.IsoApp.C135",
    "CenCalVM.IsoApp.C135_warned"
   ],
   "note": "C135 and C135_warned; the messages of exceptions of the geometry are taken not to be empty."
  },
  {
   "property": "C136",
   "status": "proved",
   "theorems": [
    "CenCalVM.QueryApp.C136"
   ],
   "note": "For the format of six decimals in scientific notation set in VMQuery::query (Model/Scientific), over exact numbers."
  },
  {
   "property": "C137",
   "status": "proved",
   "theorems": [
    "CenCalVM.QueryApp.C137",
    "CenCalVM.QueryApp.C137_close"
   ],
   "note": "C137; C137_close: locations 0.00004 degrees apart may have the same row, so some distance is needed."
  },
  {
   "property": "C138",
   "status": "partial",
   "theorems": [
    "CenCalVM.FExample.C138_same",
    "CenCalVM.FExample.C138_partial",
    "CenCalVM.FExample.C138_false"
   ],
   "note": "False as to the form: messages are filled with terminating characters instead of blanks (C138_false). C138_partial: all else, with the fields as they are (256 characters); C138_same: the program with its output is the program of C95."
  },
  {
   "property": "C139",
   "status": "proved",
   "theorems": [
    "CenCalVM.FExample.C139",
    "CenCalVM.FExample.C139_quiet"
   ],
   "note": "C139 and C139_quiet."
  },
  {
   "property": "C140",
   "status": "proved",
   "theorems": [
    "CenCalVM.CppExample.C140",
    "CenCalVM.CppExample.C140_text"
   ],
   "note": "C140 (settings, run, program) and C140_text."
  },
  {
   "property": "C141",
   "status": "proved",
   "theorems": [
    "CenCalVM.CppExample.C141",
    "CenCalVM.CppExample.C141_failure",
    "CenCalVM.CppExample.C141_converse_false"
   ],
   "note": "C141 and C141_failure; C141_converse_false shows that the example can succeed where cencalvmquery fails."
  },
  {
   "property": "C142",
   "status": "proved",
   "theorems": [
    "CenCalVM.CppExample.C142"
   ],
   "note": "C142."
  },
  {
   "property": "C143",
   "status": "proved",
   "theorems": [
    "CenCalVM.InfoApp.C143_same",
    "CenCalVM.InfoApp.C143",
    "CenCalVM.InfoApp.C143_reason"
   ],
   "note": "C143, C143_reason; C143_same relates the program with text to that of C68."
  },
  {
   "property": "C144",
   "status": "proved",
   "theorems": [
    "CenCalVM.InfoApp.C144_count",
    "CenCalVM.InfoApp.C144"
   ],
   "note": "C144 and C144_count."
  },
  {
   "property": "C145",
   "status": "partial",
   "theorems": [
    "CenCalVM.InfoApp.C145_partial",
    "CenCalVM.InfoApp.C145_false_use",
    "CenCalVM.InfoApp.C145_false_close"
   ],
   "note": "C145_partial; C145_false_use and C145_false_close show the two ways in which it fails."
  },
  {
   "property": "C146",
   "status": "proved",
   "theorems": [
    "CenCalVM.CppExample.C146_same",
    "CenCalVM.CppExample.C146"
   ],
   "note": "C146; C146_same relates the program with text to that of C140."
  },
  {
   "property": "C147",
   "status": "proved",
   "theorems": [
    "CenCalVM.CppExample.C147"
   ],
   "note": "C147."
  },
  {
   "property": "C148",
   "status": "proved",
   "theorems": [
    "CenCalVM.IsoApp.C148_same",
    "CenCalVM.IsoApp.C148"
   ],
   "note": "C148; C148_same relates the program with its arrays to that of C61."
  },
  {
   "property": "C149",
   "status": "partial",
   "theorems": [
    "CenCalVM.IsoApp.C149_false",
    "CenCalVM.IsoApp.C149_partial"
   ],
   "note": "False in every successful run (C149_false): searchVs never deletes its array. C149_partial counts what is left: one array and one for each location."
  },
  {
   "property": "C150",
   "status": "proved",
   "theorems": [
    "CenCalVM.CppExample.C150_same",
    "CenCalVM.CppExample.C150"
   ],
   "note": "C150; C150_same relates the program with its array to those of C140 and C43."
  },
  {
   "property": "C151",
   "status": "proved",
   "theorems": [
    "CenCalVM.Mem.C151",
    "CenCalVM.Mem.C151_defined",
    "CenCalVM.Mem.C151_null"
   ],
   "note": "C151, C151_defined and C151_null."
  },
  {
   "property": "C152",
   "status": "partial",
   "theorems": [
    "CenCalVM.Mem.C152_partial",
    "CenCalVM.Mem.C152_none",
    "CenCalVM.Mem.C152_false"
   ],
   "note": "False of a run whose extraction ends with an exception (C152_false). C152_partial lists what is left by which calls; C152_none: nothing, if no run ends so."
  },
  {
   "property": "C153",
   "status": "proved",
   "theorems": [
    "CenCalVM.CExample.C153_same",
    "CenCalVM.CExample.C153"
   ],
   "note": "C153; C153_same relates the program with its array to that of C94."
  },
  {
   "property": "C154",
   "status": "partial",
   "theorems": [
    "CenCalVM.QueryApp.C154_same",
    "CenCalVM.QueryApp.C154_partial",
    "CenCalVM.QueryApp.C154_count",
    "CenCalVM.QueryApp.C154_false"
   ],
   "note": "C154_partial and C154_count; C154_false: a command line with unknown options can be accepted, because attached arguments are counted as words. C154_same relates the program with text to that of C43."
  },
  {
   "property": "C155",
   "status": "proved",
   "theorems": [
    "CenCalVM.IsoApp.C155_same",
    "CenCalVM.IsoApp.C155",
    "CenCalVM.IsoApp.C155_code"
   ],
   "note": "C155 and C155_code; C155_same relates the program with text to that of C61."
  },
  {
   "property": "C156",
   "status": "proved",
   "theorems": [
    "CenCalVM.CppExample.C156_same",
    "CenCalVM.CppExample.C156"
   ],
   "note": "C156; C156_same relates the command line with text to that of C140."
  }
 ]
}
