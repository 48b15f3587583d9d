import Verif.Props.Braces
import Verif.Props.FilesJavaMemo
/-!
# C61, continued: `grammars/java_memo.peg`
-/
namespace Gpeg
open Gpeg.Re

set_option maxRecDepth 100000

/-- The file is `grammars/java.peg` with `{{ }}` put in. -/
theorem javaMemo_unmemo : javaMemoGram.grammar.unmemo = javaGram.grammar := Pat.sameB_sound (by decide +kernel)

/-- **C61** for `grammars/java_memo.peg`: with any table filled by runs on the same text, the machine stops on every text, and
callers see what they see with `grammars/java.peg` and no table. -/
theorem C61_java_memo {σ : Type} {code code' : Code} {chk : CheckFn σ} {bufsz bufsz' : Nat} {st : σ} {data : List UInt8} {k : Int}
    (hk : ((Top.gram javaMemoGram).pat 0).2 ≤ k) (hc : CompiledAt k javaMemoGram.grammar code) (hc' : Compiled javaGram.grammar code')
    (hchk : CheckOK chk) (hb : 0 < bufsz) (hb' : 0 < bufsz') {T : TreeTable} (hT : Warm chk code data T) :
    (∃ r, RunsTree chk code bufsz data T st r) ∧
    (∀ r, RunsTree chk code bufsz data T st r → ∃ r', RunsTo chk none code' bufsz' data st r' ∧ r.view = r'.view) ∧
    (∀ r', RunsTo chk none code' bufsz' data st r' → ∃ r, RunsTree chk code bufsz data T st r ∧ r.view = r'.view) := by
  obtain ⟨_, hd, hs⟩ := top_plain (.gram javaMemoGram) 0
  obtain ⟨h1, h2⟩ := C61_unmemo (code' := code') (bufsz' := bufsz') (st := st) hc (javaMemo_unmemo ▸ hc') hd hs hchk
    (top_memosOK (.gram javaMemoGram) (m := 0) hk) hb hb' hT
  obtain ⟨ok, cap, src, hr, _⟩ := C58_java.2.2 (st := st) (iv := none) hc' hchk hb' data
  obtain ⟨r, hr', _⟩ := h2 _ hr
  exact ⟨⟨r, hr'⟩, h1, h2⟩

end Gpeg
