import Verif.GrammarFiles
import Verif.RePlain
import Verif.Props.Term
/-!
# C58: the grammar files

Each file `grammars/*.peg` is a text `re.Compile` accepts; the grammar made of it compiles, and matching with it stops on
every text. The files of C and Java are in `Verif/Props/FilesC.lean`, `Verif/Props/FilesJava.lean`,
`Verif/Props/FilesJavaMemo.lean`.
-/
namespace Gpeg.Re

/-- `re.Compile`, called first in a program (no memoized pattern has been numbered), makes the pattern `p` of the text: with the
code of the grammar of `re` the machine stops with a match of the whole text and no errors, and the captures are turned into `p`. -/
def Reads (text : List UInt8) (p : Pat) : Prop :=
  ∀ {σ : Type} {code : Code} {chk : CheckFn σ} {bufsz : Nat} {st : σ}, Compiled reGrammar code → CheckOK chk → 0 < bufsz →
    (∃ r, RunsTo chk none code bufsz text st r) ∧
    ∀ r, RunsTo chk none code bufsz text st r → ∃ ch src m, r = .done true (some (.dummy 0 text.length ch)) src [] () st ∧
      fromAst false text (Capture.treesL ch) 0 = (some p, m)

/-- The pattern compiles. -/
def Compiles (p : Pat) : Prop := ∃ code, Compiled p code

/-- The compiled pattern stops on every text, without a panic and without errors; the result is that of the parsing
expression grammar. -/
def Stops (p : Pat) : Prop :=
  ∀ {σ : Type} {code : Code} {chk : CheckFn σ} {bufsz : Nat} {iv : Option Interval} {st : σ}, Compiled p code → CheckOK chk →
    0 < bufsz → ∀ data, ∃ ok cap src, RunsTo chk iv code bufsz data st (.done ok cap src [] () st) ∧
      (ok = true ↔ ∃ n cs, Ford data [] p 0 (some (n, cs)))

theorem reads_of {top : Top} {text : List UInt8} (h : TopS top text) : Reads text (top.pat 0).1 := by
  intro σ code chk bufsz st hc hchk hb
  obtain ⟨h1, h2⟩ := C51_compile (chk := chk) (st := st) h hc hchk hb
  refine ⟨h1, fun r hr => ?_⟩
  obtain ⟨ch, src, e, hm⟩ := h2 r hr
  exact ⟨ch, src, _, e, hm 0⟩

theorem stops_of {top : Top} {m : Nat} (hw : (top.pat m).1.WellFormed []) : Stops (top.pat m).1 := by
  intro σ code chk bufsz iv st hc hchk hb data
  obtain ⟨hp, hd, hs⟩ := top_plain top m
  obtain ⟨x, hf⟩ := C55_total hw hp data
  obtain ⟨far, he⟩ := hf.evals (chk := chk) (w := ⟨[], st⟩)
  obtain ⟨r, hr, hx⟩ := (exec_evals (iv := iv) hc hd hs hchk hb).1 _ he
  cases x with
  | none =>
    obtain ⟨src, tbl, rfl⟩ := hx
    refine ⟨_, _, _, hr, ⟨fun h => (by cases h), fun h => ?_⟩⟩
    obtain ⟨n, cs, h⟩ := h
    cases hf.det h
  | some x => obtain ⟨a, b, ch, src, tbl, rfl, _⟩ := hx; exact ⟨_, _, _, hr, fun _ => ⟨_, _, hf⟩, fun _ => rfl⟩

/-- A test for `Compiles`; the number bounds the depth of the pattern. -/
def compilesB (k : Nat) (p : Pat) : Bool := match compileF k p ⟨0, 0, true⟩ with | .ok (raw, _) => fitsTest raw | _ => false

theorem compilesB_sound {k : Nat} {p : Pat} (h : compilesB k p = true) : Compiles p := by
  unfold compilesB at h
  split at h
  · rename_i raw cst' hr
    obtain ⟨L, hL⟩ := fits_of_test h
    exact compiled_of_fits hr hL
  · cases h

/-- The grammar denoted by definitions, in a program that has made no memoized pattern before. -/
def Gram.grammar (g : Gram) : Pat := ((Top.gram g).pat 0).1

theorem file_ok {g : Gram} {text : List UInt8} {n k : Nat} (h : TopS (.gram g) text) (hw : g.grammar.wfB n [] = true)
    (hc : compilesB k g.grammar = true) : Reads text g.grammar ∧ Compiles g.grammar ∧ Stops g.grammar :=
  ⟨reads_of h, compilesB_sound hc, stops_of (Pat.wfB_sound n _ _ hw)⟩

set_option maxRecDepth 100000

/-- **C58** `grammars/arith.peg` -/
theorem C58_arith : Reads arithFile arithGram.grammar ∧ Compiles arithGram.grammar ∧ Stops arithGram.grammar :=
  file_ok (n := 40) (k := 30) arith_text (by decide +kernel) (by decide +kernel)

/-- **C58** `grammars/json.peg` -/
theorem C58_json : Reads jsonFile jsonGram.grammar ∧ Compiles jsonGram.grammar ∧ Stops jsonGram.grammar :=
  file_ok (n := 40) (k := 30) json_text (by decide +kernel) (by decide +kernel)

/-- **C58** `grammars/json_memo.peg` -/
theorem C58_json_memo : Reads jsonMemoFile jsonMemoGram.grammar ∧ Compiles jsonMemoGram.grammar ∧ Stops jsonMemoGram.grammar :=
  file_ok (n := 40) (k := 30) jsonMemo_text (by decide +kernel) (by decide +kernel)

/-- **C58** `grammars/peg.peg` -/
theorem C58_peg : Reads pegFile pegGram.grammar ∧ Compiles pegGram.grammar ∧ Stops pegGram.grammar :=
  file_ok (n := 40) (k := 30) peg_text (by decide +kernel) (by decide +kernel)

/-- **C58** `grammars/lpeg.peg` -/
theorem C58_lpeg : Reads lpegFile lpegGram.grammar ∧ Compiles lpegGram.grammar ∧ Stops lpegGram.grammar :=
  file_ok (n := 40) (k := 30) lpeg_text (by decide +kernel) (by decide +kernel)

/-- **C58** `grammars/re.peg` -/
theorem C58_re : Reads reFile reGram.grammar ∧ Compiles reGram.grammar ∧ Stops reGram.grammar :=
  file_ok (n := 40) (k := 30) re_text (by decide +kernel) (by decide +kernel)

end Gpeg.Re
