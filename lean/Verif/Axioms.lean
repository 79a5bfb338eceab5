/-
The axioms every property theorem depends on (generated by tools/mkmanifest.py).
-/
import Verif.Props.Average
import Verif.Props.AvgFloat
import Verif.Props.AvgLocal
import Verif.Props.AvgVolume
import Verif.Props.CApi
import Verif.Props.CExample
import Verif.Props.CExampleConsole
import Verif.Props.CExampleHeap
import Verif.Props.CenCalVMDB
import Verif.Props.Column
import Verif.Props.Console
import Verif.Props.CppArgs
import Verif.Props.CppConsole
import Verif.Props.CppExample
import Verif.Props.CppHeap
import Verif.Props.Create
import Verif.Props.CreateOrder
import Verif.Props.EndToEnd
import Verif.Props.ErrorHandler
import Verif.Props.ExampleData
import Verif.Props.FExample
import Verif.Props.FExampleConsole
import Verif.Props.FileApps
import Verif.Props.Float
import Verif.Props.Geometry
import Verif.Props.Grade
import Verif.Props.GradeApp
import Verif.Props.GradeConsole
import Verif.Props.GradeFloat
import Verif.Props.GradeRound
import Verif.Props.GraderHeap
import Verif.Props.GroundFloat
import Verif.Props.Handles
import Verif.Props.Heap
import Verif.Props.Ieee
import Verif.Props.InfoConsole
import Verif.Props.IngestFloat
import Verif.Props.IsoApp
import Verif.Props.IsoArgs
import Verif.Props.IsoConsole
import Verif.Props.IsoFloat
import Verif.Props.IsoHeap
import Verif.Props.Lifecycle
import Verif.Props.Print
import Verif.Props.Projector
import Verif.Props.PyDB
import Verif.Props.Query
import Verif.Props.QueryApp
import Verif.Props.QueryArgs
import Verif.Props.QueryConsole
import Verif.Props.QueryFloat
import Verif.Props.QueryLog
import Verif.Props.QueryValues
import Verif.Props.Scientific
import Verif.Props.SpatialFloat
import Verif.Props.WaveEndToEnd
import Verif.Props.WaveFloat

#print axioms CenCalVM.C01_partial
#print axioms CenCalVM.C01_unique_partial
#print axioms CenCalVM.C01_upper_face
#print axioms CenCalVM.C01_false
#print axioms CenCalVM.C02
#print axioms CenCalVM.C02_projection_failure
#print axioms CenCalVM.C03
#print axioms CenCalVM.C03_centroid
#print axioms CenCalVM.C04
#print axioms CenCalVM.C04_contains
#print axioms CenCalVM.C05_ancestor
#print axioms CenCalVM.C05_precondition
#print axioms CenCalVM.C05_trans
#print axioms CenCalVM.C05_child
#print axioms CenCalVM.C05_child_bit
#print axioms CenCalVM.C06_inverse
#print axioms CenCalVM.C06_monotone
#print axioms CenCalVM.C06_nearest
#print axioms CenCalVM.C06_too_fine
#print axioms CenCalVM.C07_rigid
#print axioms CenCalVM.C07_round_trip
#print axioms CenCalVM.C07_frame_rigid
#print axioms CenCalVM.C07_elevation_monotone
#print axioms CenCalVM.C07_vertical_cell
#print axioms CenCalVM.C08
#print axioms CenCalVM.C09
#print axioms CenCalVM.C09_default
#print axioms CenCalVM.C10
#print axioms CenCalVM.C10_any
#print axioms CenCalVM.C10_location
#print axioms CenCalVM.C11
#print axioms CenCalVM.C12
#print axioms CenCalVM.C12_terminates
#print axioms CenCalVM.C13_partial
#print axioms CenCalVM.C13_false
#print axioms CenCalVM.C14
#print axioms CenCalVM.C15_values
#print axioms CenCalVM.C15_signal
#print axioms CenCalVM.C16
#print axioms CenCalVM.C16_zero_block
#print axioms CenCalVM.C17_partial
#print axioms CenCalVM.C17_elevation_partial
#print axioms CenCalVM.C17_false_noData
#print axioms CenCalVM.C17_false_projection
#print axioms CenCalVM.C18
#print axioms CenCalVM.C18_count
#print axioms CenCalVM.C18_unknown
#print axioms CenCalVM.C19_partial
#print axioms CenCalVM.C19_geometry
#print axioms CenCalVM.C19_false
#print axioms CenCalVM.C20_below
#print axioms CenCalVM.C20
#print axioms CenCalVM.C20_one_cell
#print axioms CenCalVM.C20_wraps
#print axioms CenCalVM.C21
#print axioms CenCalVM.C22_partial
#print axioms CenCalVM.C22_centroid_partial
#print axioms CenCalVM.C22_false
#print axioms CenCalVM.C22_false_sentinel
#print axioms CenCalVM.C23
#print axioms CenCalVM.C24
#print axioms CenCalVM.C24_cache
#print axioms CenCalVM.C25_open_again
#print axioms CenCalVM.C25_close_again
#print axioms CenCalVM.C25_reopen
#print axioms CenCalVM.C25_open_message
#print axioms CenCalVM.C25_close_reports
#print axioms CenCalVM.C25_partial
#print axioms CenCalVM.C25_false
#print axioms CenCalVM.C25_false_geometry
#print axioms CenCalVM.C25_false_resolution
#print axioms CenCalVM.C26_partial
#print axioms CenCalVM.C26_false
#print axioms CenCalVM.C27
#print axioms CenCalVM.C28
#print axioms CenCalVM.C28_children
#print axioms CenCalVM.C29
#print axioms CenCalVM.C30
#print axioms CenCalVM.C30_averaged
#print axioms CenCalVM.C31
#print axioms CenCalVM.C32_empty
#print axioms CenCalVM.C32_write
#print axioms CenCalVM.C32_ok
#print axioms CenCalVM.C32_no_ub
#print axioms CenCalVM.C32_read
#print axioms CenCalVM.C32_advance
#print axioms CenCalVM.C32_advance_loses
#print axioms CenCalVM.C33_partial
#print axioms CenCalVM.C33_false
#print axioms CenCalVM.C34
#print axioms CenCalVM.C34_location
#print axioms CenCalVM.C35
#print axioms CenCalVM.C35_empty
#print axioms CenCalVM.C35_same
#print axioms CenCalVM.C35_faults
#print axioms CenCalVM.C35_reports
#print axioms CenCalVM.C35_advance_loses
#print axioms CenCalVM.C36
#print axioms CenCalVM.C36_twice
#print axioms CenCalVM.C36_location
#print axioms CenCalVM.C37_false
#print axioms CenCalVM.C37_partial
#print axioms CenCalVM.C38
#print axioms CenCalVM.C38_accepted
#print axioms CenCalVM.C39
#print axioms CenCalVM.C40_partial
#print axioms CenCalVM.C40_false_zero
#print axioms CenCalVM.C40_false_total
#print axioms CenCalVM.C40_unreadable
#print axioms CenCalVM.C41_partial
#print axioms CenCalVM.C41_ub
#print axioms CenCalVM.C41_null
#print axioms CenCalVM.C41_create
#print axioms CenCalVM.C41_destroy
#print axioms CenCalVM.C41_false_null
#print axioms CenCalVM.C41_false_status
#print axioms CenCalVM.C42_partial
#print axioms CenCalVM.C42_false_read
#print axioms CenCalVM.C42_message
#print axioms CenCalVM.C42_false_null
#print axioms CenCalVM.QueryApp.C43_partial
#print axioms CenCalVM.QueryApp.C43_locations
#print axioms CenCalVM.QueryApp.C43_false
#print axioms CenCalVM.QueryApp.C43_false_malformed
#print axioms CenCalVM.QueryApp.C43_false_write
#print axioms CenCalVM.IsoApp.C44_partial
#print axioms CenCalVM.IsoApp.C44_gives_up
#print axioms CenCalVM.IsoApp.C44_ends
#print axioms CenCalVM.IsoApp.C44_halves
#print axioms CenCalVM.IsoApp.C44_false
#print axioms CenCalVM.IsoApp.C44_false_top
#print axioms CenCalVM.IsoApp.C44_false_order
#print axioms CenCalVM.C45_partial
#print axioms CenCalVM.C45_false
#print axioms CenCalVM.C45_false_twice
#print axioms CenCalVM.C46
#print axioms CenCalVM.C46_decreasing
#print axioms CenCalVM.C46_off
#print axioms CenCalVM.C47
#print axioms CenCalVM.C48
#print axioms CenCalVM.C48_idempotent
#print axioms CenCalVM.C49
#print axioms CenCalVM.C50
#print axioms CenCalVM.C50_run
#print axioms CenCalVM.C50_runs
#print axioms CenCalVM.C51
#print axioms CenCalVM.C51_grade
#print axioms CenCalVM.C51_run
#print axioms CenCalVM.C51_marker_lost
#print axioms CenCalVM.C52
#print axioms CenCalVM.C53_partial
#print axioms CenCalVM.C53_false
#print axioms CenCalVM.C54
#print axioms CenCalVM.C54_points
#print axioms CenCalVM.C54_missing
#print axioms CenCalVM.C54_same
#print axioms CenCalVM.C54_runs
#print axioms CenCalVM.C55
#print axioms CenCalVM.C55_reduced
#print axioms CenCalVM.C55_idempotent
#print axioms CenCalVM.C56
#print axioms CenCalVM.C57
#print axioms CenCalVM.C57_exception
#print axioms CenCalVM.C57_false_error
#print axioms CenCalVM.C58
#print axioms CenCalVM.QueryApp.C59_partial
#print axioms CenCalVM.QueryApp.C59_stray
#print axioms CenCalVM.QueryApp.C59_help
#print axioms CenCalVM.QueryApp.C59_false
#print axioms CenCalVM.QueryApp.C59_false_attached
#print axioms CenCalVM.QueryApp.C60
#print axioms CenCalVM.QueryApp.C60_zero
#print axioms CenCalVM.QueryApp.C60_false_resolution
#print axioms CenCalVM.IsoApp.C61_partial
#print axioms CenCalVM.IsoApp.C61_unopened
#print axioms CenCalVM.IsoApp.C61_false
#print axioms CenCalVM.IsoApp.C61_false_masked
#print axioms CenCalVM.IsoApp.C62_partial
#print axioms CenCalVM.IsoApp.C62_false_squash
#print axioms CenCalVM.IsoApp.C63
#print axioms CenCalVM.IsoApp.C63_unique
#print axioms CenCalVM.IsoApp.C63_solid
#print axioms CenCalVM.IsoApp.C64_partial
#print axioms CenCalVM.IsoApp.C64_unknown
#print axioms CenCalVM.IsoApp.C64_stray
#print axioms CenCalVM.IsoApp.C64_other
#print axioms CenCalVM.IsoApp.C64_false_attached
#print axioms CenCalVM.FileApps.C65_partial
#print axioms CenCalVM.FileApps.C65_other
#print axioms CenCalVM.FileApps.C65_stray
#print axioms CenCalVM.FileApps.C65_refused
#print axioms CenCalVM.FileApps.C65_false_log
#print axioms CenCalVM.FileApps.C65_false_attached
#print axioms CenCalVM.FileApps.C65_false_extra
#print axioms CenCalVM.VsGrader.C65_refused_grade
#print axioms CenCalVM.FileApps.C66_partial
#print axioms CenCalVM.FileApps.C66_false_close
#print axioms CenCalVM.FileApps.C66_false_schema
#print axioms CenCalVM.FileApps.C66_false_same
#print axioms CenCalVM.FileApps.C67
#print axioms CenCalVM.FileApps.C68
#print axioms CenCalVM.FileApps.C68_averaged
#print axioms CenCalVM.FileApps.C68_zero
#print axioms CenCalVM.FileApps.C69_partial
#print axioms CenCalVM.FileApps.C69_reports
#print axioms CenCalVM.FileApps.C69_code
#print axioms CenCalVM.FileApps.C69_false
#print axioms CenCalVM.FileApps.C69_false_same
#print axioms CenCalVM.C70
#print axioms CenCalVM.VsGrader.C71
#print axioms CenCalVM.VsGrader.C71_unique
#print axioms CenCalVM.VsGrader.C71_corners
#print axioms CenCalVM.VsGrader.C72_partial
#print axioms CenCalVM.VsGrader.C72_false
#print axioms CenCalVM.VsGrader.C73_partial
#print axioms CenCalVM.VsGrader.C73_runs
#print axioms CenCalVM.VsGrader.C73_files
#print axioms CenCalVM.VsGrader.C73_refused
#print axioms CenCalVM.VsGrader.C73_false_missing
#print axioms CenCalVM.VsGrader.C73_false_same
#print axioms CenCalVM.C74
#print axioms CenCalVM.C75_unique
#print axioms CenCalVM.C75
#print axioms CenCalVM.C76
#print axioms CenCalVM.C77
#print axioms CenCalVM.C77_volumes
#print axioms CenCalVM.C78_partial
#print axioms CenCalVM.C78_false
#print axioms CenCalVM.C78_false_after
#print axioms CenCalVM.C78_false_query
#print axioms CenCalVM.C79
#print axioms CenCalVM.C79_plane
#print axioms CenCalVM.C79_octant
#print axioms CenCalVM.C80
#print axioms CenCalVM.C80_false
#print axioms CenCalVM.C81
#print axioms CenCalVM.C82
#print axioms CenCalVM.C82_edge
#print axioms CenCalVM.C83
#print axioms CenCalVM.C83_all_levels
#print axioms CenCalVM.C84
#print axioms CenCalVM.C85
#print axioms CenCalVM.C85_edge
#print axioms CenCalVM.C86
#print axioms CenCalVM.C87
#print axioms CenCalVM.C87_range
#print axioms CenCalVM.C88
#print axioms CenCalVM.C88_false
#print axioms CenCalVM.C88_partial
#print axioms CenCalVM.C89_line
#print axioms CenCalVM.C89
#print axioms CenCalVM.C89_width
#print axioms CenCalVM.C89_false
#print axioms CenCalVM.C90
#print axioms CenCalVM.C90_floor
#print axioms CenCalVM.C91
#print axioms CenCalVM.C91_again
#print axioms CenCalVM.C91_false
#print axioms CenCalVM.C92
#print axioms CenCalVM.C92_sticky
#print axioms CenCalVM.C92_false
#print axioms CenCalVM.C93_partial
#print axioms CenCalVM.C93_false
#print axioms CenCalVM.CExample.C94_partial
#print axioms CenCalVM.CExample.C94_arguments
#print axioms CenCalVM.CExample.C94_false_long
#print axioms CenCalVM.CExample.C94_false
#print axioms CenCalVM.FExample.C95_partial
#print axioms CenCalVM.FExample.C95_input
#print axioms CenCalVM.FExample.C95_false
#print axioms CenCalVM.FExample.C95_false_error
#print axioms CenCalVM.PyDB.C96_partial
#print axioms CenCalVM.PyDB.C96_refused
#print axioms CenCalVM.PyDB.C96_false
#print axioms CenCalVM.PyDB.C96_false_cache
#print axioms CenCalVM.QueryApp.C97
#print axioms CenCalVM.QueryApp.C97_none
#print axioms CenCalVM.C98
#print axioms CenCalVM.C99
#print axioms CenCalVM.C100
#print axioms CenCalVM.C101
#print axioms CenCalVM.C101_accepted
#print axioms CenCalVM.C102
#print axioms CenCalVM.C103
#print axioms CenCalVM.C104_octant
#print axioms CenCalVM.C104_partial
#print axioms CenCalVM.C104_nan_elev
#print axioms CenCalVM.C104_nan_place
#print axioms CenCalVM.C104_false
#print axioms CenCalVM.C105
#print axioms CenCalVM.IsoApp.C106
#print axioms CenCalVM.IsoApp.C106_gives_up
#print axioms CenCalVM.IsoApp.C106_ends
#print axioms CenCalVM.IsoApp.C106_log
#print axioms CenCalVM.IsoApp.C107
#print axioms CenCalVM.IsoApp.C107_depth
#print axioms CenCalVM.IsoApp.C108
#print axioms CenCalVM.IsoApp.C108_near
#print axioms CenCalVM.IsoApp.C108_exact
#print axioms CenCalVM.C109
#print axioms CenCalVM.C109_fills
#print axioms CenCalVM.C109_defined
#print axioms CenCalVM.C109_over
#print axioms CenCalVM.C110
#print axioms CenCalVM.C110_exact
#print axioms CenCalVM.C111
#print axioms CenCalVM.C111_floor
#print axioms CenCalVM.C111_run
#print axioms CenCalVM.C111_below
#print axioms CenCalVM.C112
#print axioms CenCalVM.C112_not_exact
#print axioms CenCalVM.C113
#print axioms CenCalVM.C113_upTo
#print axioms CenCalVM.CenCalVMDB.C114
#print axioms CenCalVM.CenCalVMDB.C114_decreasing
#print axioms CenCalVM.CenCalVMDB.C114_vp
#print axioms CenCalVM.CenCalVMDB.C114_far
#print axioms CenCalVM.Console.C115_silent
#print axioms CenCalVM.Console.C115
#print axioms CenCalVM.Console.C115_fails
#print axioms CenCalVM.Console.C116_silent
#print axioms CenCalVM.Console.C116_pack
#print axioms CenCalVM.Console.C116
#print axioms CenCalVM.Console.C116_quiet
#print axioms CenCalVM.Console.C117
#print axioms CenCalVM.Console.C118_false
#print axioms CenCalVM.Console.C118_partial
#print axioms CenCalVM.GradeConsole.C119_silent
#print axioms CenCalVM.GradeConsole.C119
#print axioms CenCalVM.GradeConsole.C120_false
#print axioms CenCalVM.GradeConsole.C120_partial
#print axioms CenCalVM.C121_elevation
#print axioms CenCalVM.C121_squash
#print axioms CenCalVM.C121
#print axioms CenCalVM.C121_double
#print axioms CenCalVM.C121_lowered
#print axioms CenCalVM.Handles.C122_same
#print axioms CenCalVM.Handles.C122_same_create
#print axioms CenCalVM.Handles.C122_same_average
#print axioms CenCalVM.Handles.C122_query
#print axioms CenCalVM.Handles.C122_average
#print axioms CenCalVM.Handles.C122_partial
#print axioms CenCalVM.Handles.C122_false
#print axioms CenCalVM.Handles.C123_query
#print axioms CenCalVM.Handles.C123_average_partial
#print axioms CenCalVM.Handles.C123_partial
#print axioms CenCalVM.Handles.C123_false_open
#print axioms CenCalVM.Handles.C123_false_pack
#print axioms CenCalVM.Handles.C123_false_average
#print axioms CenCalVM.Mem.C124_same
#print axioms CenCalVM.Mem.C124_partial
#print axioms CenCalVM.Mem.C124_engine
#print axioms CenCalVM.Mem.C124_ingest
#print axioms CenCalVM.Mem.C124_passes
#print axioms CenCalVM.Mem.C124_false
#print axioms CenCalVM.Mem.C125_query
#print axioms CenCalVM.Mem.C125_bounded
#print axioms CenCalVM.Mem.C125_engine
#print axioms CenCalVM.Mem.C125_partial
#print axioms CenCalVM.Mem.C125_false
#print axioms CenCalVM.Mem.C125_passes_partial
#print axioms CenCalVM.Mem.C125_false_pass
#print axioms CenCalVM.QueryApp.C126_partial
#print axioms CenCalVM.QueryApp.C126_stored
#print axioms CenCalVM.QueryApp.C126_false
#print axioms CenCalVM.QueryApp.C126_false_elevation
#print axioms CenCalVM.QueryApp.C127
#print axioms CenCalVM.QueryApp.C127_program
#print axioms CenCalVM.FExample.C128
#print axioms CenCalVM.IsoApp.C129_partial
#print axioms CenCalVM.IsoApp.C129_false
#print axioms CenCalVM.QueryApp.C130_same
#print axioms CenCalVM.QueryApp.C130_partial
#print axioms CenCalVM.QueryApp.C130_false
#print axioms CenCalVM.QueryApp.C131
#print axioms CenCalVM.QueryApp.C131_quiet
#print axioms CenCalVM.CExample.C132_same
#print axioms CenCalVM.CExample.C132_partial
#print axioms CenCalVM.CExample.C132_false
#print axioms CenCalVM.CExample.C133
#print axioms CenCalVM.CExample.C133_quiet
#print axioms CenCalVM.IsoApp.C134_same
#print axioms CenCalVM.IsoApp.C134_partial
#print axioms CenCalVM.IsoApp.C134_false
#print axioms CenCalVM.IsoApp.C135
#print axioms CenCalVM.IsoApp.C135_warned
#print axioms CenCalVM.QueryApp.C136
#print axioms CenCalVM.QueryApp.C137
#print axioms CenCalVM.QueryApp.C137_close
#print axioms CenCalVM.FExample.C138_same
#print axioms CenCalVM.FExample.C138_partial
#print axioms CenCalVM.FExample.C138_false
#print axioms CenCalVM.FExample.C139
#print axioms CenCalVM.FExample.C139_quiet
#print axioms CenCalVM.CppExample.C140
#print axioms CenCalVM.CppExample.C140_text
#print axioms CenCalVM.CppExample.C141
#print axioms CenCalVM.CppExample.C141_failure
#print axioms CenCalVM.CppExample.C141_converse_false
#print axioms CenCalVM.CppExample.C142
#print axioms CenCalVM.InfoApp.C143_same
#print axioms CenCalVM.InfoApp.C143
#print axioms CenCalVM.InfoApp.C143_reason
#print axioms CenCalVM.InfoApp.C144_count
#print axioms CenCalVM.InfoApp.C144
#print axioms CenCalVM.InfoApp.C145_partial
#print axioms CenCalVM.InfoApp.C145_false_use
#print axioms CenCalVM.InfoApp.C145_false_close
#print axioms CenCalVM.CppExample.C146_same
#print axioms CenCalVM.CppExample.C146
#print axioms CenCalVM.CppExample.C147
#print axioms CenCalVM.IsoApp.C148_same
#print axioms CenCalVM.IsoApp.C148
#print axioms CenCalVM.IsoApp.C149_false
#print axioms CenCalVM.IsoApp.C149_partial
#print axioms CenCalVM.CppExample.C150_same
#print axioms CenCalVM.CppExample.C150
#print axioms CenCalVM.Mem.C151
#print axioms CenCalVM.Mem.C151_defined
#print axioms CenCalVM.Mem.C151_null
#print axioms CenCalVM.Mem.C152_partial
#print axioms CenCalVM.Mem.C152_none
#print axioms CenCalVM.Mem.C152_false
#print axioms CenCalVM.CExample.C153_same
#print axioms CenCalVM.CExample.C153
#print axioms CenCalVM.QueryApp.C154_same
#print axioms CenCalVM.QueryApp.C154_partial
#print axioms CenCalVM.QueryApp.C154_count
#print axioms CenCalVM.QueryApp.C154_false
#print axioms CenCalVM.IsoApp.C155_same
#print axioms CenCalVM.IsoApp.C155
#print axioms CenCalVM.IsoApp.C155_code
#print axioms CenCalVM.CppExample.C156_same
#print axioms CenCalVM.CppExample.C156
