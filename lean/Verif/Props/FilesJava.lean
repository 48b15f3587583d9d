import Verif.GrammarFilesJava
import Verif.Props.FilesC
/-!
# C58, continued: `grammars/java.peg`
-/
namespace Gpeg.Re

set_option maxRecDepth 100000

/-- **C58** `grammars/java.peg` -/
theorem C58_java : Reads javaFile javaGram.grammar ∧ Compiles javaGram.grammar ∧ Stops javaGram.grammar :=
  file_ok (n := 140) (k := 60) java_text (by decide +kernel) (by decide +kernel)

end Gpeg.Re
