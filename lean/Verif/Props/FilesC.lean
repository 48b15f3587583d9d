import Verif.GrammarFilesC
import Verif.Props.Files
/-!
# C58, continued: `grammars/c.peg`
-/
namespace Gpeg.Re

set_option maxRecDepth 100000

/-- **C58** `grammars/c.peg` -/
theorem C58_c : Reads cFile cGram.grammar ∧ Compiles cGram.grammar ∧ Stops cGram.grammar :=
  file_ok (n := 104) (k := 60) c_text (by decide +kernel) (by decide +kernel)

end Gpeg.Re
