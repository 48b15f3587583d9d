import Verif.Props.ObjFirst
import Verif.Props.ReparseJava
/-!
# Property C65 for `grammars/java_memo.peg`
-/
namespace Gpeg.Obj
open Gpeg.Re
variable {σ : Type}

set_option maxRecDepth 100000

/-- There is no positive lookahead in `grammars/java_memo.peg`. -/
theorem javaMemo_noAnd : javaMemoGram.grammar.NoAnd := Pat.noAnd_of_test _ (by decide +kernel)

/-- **C65**, with C28, for `grammars/java_memo.peg` as it stands: a text is parsed with an empty table, edited, and parsed again. The
machine with capture objects stops, and callers see what they see with `grammars/java.peg` and no table. -/
theorem C65_java_memo_partial {code code' : Code} {chk : CheckFn σ} {bufsz bufsz' bufsz₀ : Nat} {st st₀ st₁ : σ}
    {d d₀ : List UInt8} {k : Int} (hk : ((Top.gram javaMemoGram).pat 0).2 ≤ k) (hc : CompiledAt k javaMemoGram.grammar code)
    (hc' : Compiled javaGram.grammar code') (hchk : CheckOK chk) (hb₀ : 0 < bufsz₀) (hb : 0 < bufsz) (hb' : 0 < bufsz')
    {th : Int} {T T' : OTab} {ok : Bool} {cap : Option Capture} {src : Input} {errs : List PErr} {edited : Bool}
    (h₀ : RunsObj chk code bufsz₀ d₀ { threshold := th } st₀ (.done ok cap src errs T st₁)) (hed : OEdited T d₀ edited T' d) :
    (∃ r, RunsObj chk code bufsz d T' st r) ∧
    (∀ r, RunsObj chk code bufsz d T' st r → ∃ r', RunsTo chk none code' bufsz' d st r' ∧ r.view = r'.view) ∧
    (∀ r', RunsTo chk none code' bufsz' d st r' → ∃ r, RunsObj chk code bufsz d T' st r ∧ r.view = r'.view) := by
  obtain ⟨C, hC⟩ := noAnd_cert hc javaMemo_noAnd
  obtain ⟨V, V', h1, h2, h3, h4⟩ := C65_first_partial (bufsz := bufsz) (st := st) hC hb₀ h₀ hed
  obtain ⟨⟨r', h5⟩, h6, h7⟩ := C28_java_memo_partial (st := st) hk hc hc' hchk hb₀ hb hb' h1 h2
  refine ⟨?_, fun r hr => ?_, fun r' hr => ?_⟩
  · obtain ⟨r, hr, -⟩ := h4 r' h5
    exact ⟨r, hr⟩
  · obtain ⟨r1, a1, a2⟩ := h3 r hr
    obtain ⟨r2, a3, a4⟩ := h6 r1 a1
    exact ⟨r2, a3, a2.view.trans a4⟩
  · obtain ⟨r1, a1, a2⟩ := h7 r' hr
    obtain ⟨r, a3, a4⟩ := h4 r1 a1
    exact ⟨r, a3, a4.view.trans a2⟩

end Gpeg.Obj
