import Verif.Props.Braces
import Verif.Props.Incremental
/-!
# C28, continued: incremental reparsing with `grammars/json_memo.peg`
-/
namespace Gpeg
open Gpeg.Re Gpeg.Json

/-- Braces do not come to the only `.` that is not behind a lookahead: `doc <- JSON !.`. -/
theorem jsonMemo_covered {σ : Type} {chk : CheckFn σ} : ∀ o ∈ (Pat.grammar "doc" (Gram.pats jsonMemoGram 0).1).memos [], Covered chk o.env o.q :=
  memos_covered_of_test (S := (· != "doc")) (by decide +kernel) (by decide +kernel)

/-- **C28** for `grammars/json_memo.peg` as it stands: a text is parsed with an empty table, edited, and parsed again with the table
(edits as in `C28_reparse_partial`). The machine stops, and accepts exactly what it accepts without a table (`C60_json`). -/
theorem C28_json_memo_partial {σ : Type} {code : Code} {chk : CheckFn σ} {bufsz bufsz₀ : Nat} {st st₀ st₁ : σ} {d d₀ : List UInt8}
    {k : Int} (hk : 1 ≤ k) (hc : CompiledAt k jsonMemoGram.grammar code) (hchk : CheckOK chk) (hb₀ : 0 < bufsz₀) (hb : 0 < bufsz)
    {th : Int} {T T' : TreeTable} {ok : Bool} {cap : Option Capture} {src : Input} {errs : List PErr} {edited : Bool}
    (h₀ : RunsTree chk code bufsz₀ d₀ (TreeTable.new th) st₀ (.done ok cap src errs T st₁)) (hed : Edited T d₀ edited T' d) :
    (∃ r, RunsTree chk code bufsz d T' st r) ∧ ∀ r, RunsTree chk code bufsz d T' st r →
      (Json file .element d ∧ ∃ cs, r.view = some (true, some (d.length, cs), [], st)) ∨
      (¬ Json file .element d ∧ r.view = some (false, none, [], st)) := by
  obtain ⟨_, hd, hs⟩ := top_plain (.gram jsonMemoGram) 0
  obtain ⟨h1, h2⟩ := C28_reparse_partial (st := st) hc hd hs hchk (top_memosOK (.gram jsonMemoGram) (m := 0) hk) jsonMemo_covered
    hb₀ hb h₀ hed
  have hT : Warm chk code d (TreeTable.new 0) := .new 0
  obtain ⟨h3, h4⟩ := C61_json_memo (st := st) hk hc hchk hb hT
  obtain ⟨h5, h6⟩ := C27_memo_transparent_partial (st := st) hc hd hs hchk (top_memosOK (.gram jsonMemoGram) (m := 0) hk) hb hT
  refine ⟨?_, fun r hr => ?_⟩
  · obtain ⟨r, hr⟩ := h3
    obtain ⟨r', hr', _⟩ := h5 r hr
    obtain ⟨r'', hr'', _⟩ := h2 r' hr'
    exact ⟨r'', hr''⟩
  · obtain ⟨r', hr', hv⟩ := h1 r hr
    obtain ⟨r'', hr'', hv'⟩ := h6 r' hr'
    rw [hv, ← hv']
    exact h4 r'' hr''

end Gpeg
