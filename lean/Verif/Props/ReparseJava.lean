import Verif.Props.Reparse
import Verif.Props.BracesJava
/-!
# C28, continued: incremental reparsing with `grammars/java_memo.peg`
-/
namespace Gpeg
open Gpeg.Re

set_option maxRecDepth 100000

/-- Braces do not come to the only `.` that is not behind a lookahead: `EOT <- !.`. -/
theorem javaMemo_covered {σ : Type} {chk : CheckFn σ} : ∀ o ∈ (Pat.grammar "CompilationUnit" (Gram.pats javaMemoGram 0).1).memos [], Covered chk o.env o.q :=
  memos_covered_of_test (S := fun n => n != "CompilationUnit" && n != "EOT") (by decide +kernel) (by decide +kernel)

/-- **C28** for `grammars/java_memo.peg` as it stands: a text is parsed with an empty table, edited, and parsed again with the table
(edits as in `C28_reparse_partial`). The machine stops, and callers see what they see with `grammars/java.peg` and no table. -/
theorem C28_java_memo_partial {σ : Type} {code code' : Code} {chk : CheckFn σ} {bufsz bufsz' bufsz₀ : Nat} {st st₀ st₁ : σ}
    {d d₀ : List UInt8} {k : Int} (hk : ((Top.gram javaMemoGram).pat 0).2 ≤ k) (hc : CompiledAt k javaMemoGram.grammar code)
    (hc' : Compiled javaGram.grammar code') (hchk : CheckOK chk) (hb₀ : 0 < bufsz₀) (hb : 0 < bufsz) (hb' : 0 < bufsz')
    {th : Int} {T T' : TreeTable} {ok : Bool} {cap : Option Capture} {src : Input} {errs : List PErr} {edited : Bool}
    (h₀ : RunsTree chk code bufsz₀ d₀ (TreeTable.new th) st₀ (.done ok cap src errs T st₁)) (hed : Edited T d₀ edited T' d) :
    (∃ r, RunsTree chk code bufsz d T' st r) ∧
    (∀ r, RunsTree chk code bufsz d T' st r → ∃ r', RunsTo chk none code' bufsz' d st r' ∧ r.view = r'.view) ∧
    (∀ r', RunsTo chk none code' bufsz' d st r' → ∃ r, RunsTree chk code bufsz d T' st r ∧ r.view = r'.view) := by
  obtain ⟨_, hd, hs⟩ := top_plain (.gram javaMemoGram) 0
  have hm : ((Top.gram javaMemoGram).pat 0).1.MemosOK chk k := top_memosOK (.gram javaMemoGram) (m := 0) hk
  obtain ⟨h1, h2⟩ := C28_reparse_partial (st := st) hc hd hs hchk hm javaMemo_covered hb₀ hb h₀ hed
  have hT : Warm chk code d (TreeTable.new 0) := .new 0
  obtain ⟨h3, h4, h5⟩ := C61_java_memo (st := st) hk hc hc' hchk hb hb' hT
  obtain ⟨h6, h7⟩ := C27_memo_transparent_partial (st := st) hc hd hs hchk hm hb hT
  refine ⟨?_, fun r hr => ?_, fun r' hr => ?_⟩
  · obtain ⟨r, hr⟩ := h3
    obtain ⟨r', hr', _⟩ := h6 r hr
    obtain ⟨r'', hr'', _⟩ := h2 r' hr'
    exact ⟨r'', hr''⟩
  · obtain ⟨r1, hr1, hv1⟩ := h1 r hr
    obtain ⟨r2, hr2, hv2⟩ := h7 r1 hr1
    obtain ⟨r3, hr3, hv3⟩ := h4 r2 hr2
    exact ⟨r3, hr3, by rw [hv1, ← hv2, hv3]⟩
  · obtain ⟨r2, hr2, hv2⟩ := h5 r' hr
    obtain ⟨r1, hr1, hv1⟩ := h6 r2 hr2
    obtain ⟨r3, hr3, hv3⟩ := h2 r1 hr1
    exact ⟨r3, hr3, by rw [hv3, ← hv1, hv2]⟩

end Gpeg
