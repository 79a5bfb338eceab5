/-
Vocabulary for the properties about the console output of the grader.
-/
import Verif.Model.GradeConsole
import Verif.Spec.Console

namespace CenCalVM
namespace GradeConsole

/-- The progress reports of a grader, in order; with each whether it is written by the object that makes the temporary database. -/
def reports (pf i o t : String) : List (Bool × String) :=
  [(false, s!"Reading parameters from '{pf}'...\n"), (false, "Initializing grader...\n"), (false, s!"Extracting data from '{i}'...\n"),
    (true, s!"Opening new etree database '{t}'.\n"), (true, "Finished preparing database.\n"), (true, s!"Closing database '{t}'.\n"),
    (false, "Done extracting.\n"), (false, s!"Creating packed etree database '{o}' from unpacked etree database '{t}'.\n"),
    (false, "Done packing etree database.\n"), (false, "Starting grading of database.\n"),
    (false, "Grading database in vertical direction.\n"), (false, "Grading database in length direction.\n"),
    (false, "Grading database in width direction.\n"), (false, "Done grading database.\n")]

/-- The texts of reports, one after the other. -/
def allText (l : List (Bool × String)) : String := Console.concat (l.map (·.2))
/-- The texts of the reports of the object that makes the temporary database. -/
def dbText (l : List (Bool × String)) : String := allText (l.filter (·.1))

end GradeConsole
end CenCalVM
