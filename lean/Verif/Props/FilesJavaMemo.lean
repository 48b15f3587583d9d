import Verif.GrammarFilesJavaMemo
import Verif.Props.FilesJava
/-!
# C58, continued: `grammars/java_memo.peg`
-/
namespace Gpeg.Re

set_option maxRecDepth 100000

/-- **C58** `grammars/java_memo.peg` -/
theorem C58_java_memo : Reads javaMemoFile javaMemoGram.grammar ∧ Compiles javaMemoGram.grammar ∧ Stops javaMemoGram.grammar :=
  file_ok (n := 140) (k := 60) javaMemo_text (by decide +kernel) (by decide +kernel)

end Gpeg.Re
