import Verif.RePeg
import Verif.LangRun
/-!
# C62: `grammars/re.peg` and `grammars/lpeg.peg` accept no definitions
-/
namespace Gpeg
open Gpeg.Re

/-- A text with definitions begins with spacing and a definition. -/
theorem gram_def {g : Gram} {text : List UInt8} (h : TopS (.gram g) text) : ∃ t s, text = t ++ s ∧ Sp t ∧ Def s := by
  cases h with
  | @gram _ sp t h1 h2 h3 _ =>
    refine ⟨sp, t, rfl, h1, ?_⟩
    cases h2 with
    | nil => exact absurd rfl h3
    | @cons n e g sp1 sp2 t1 u hn hs1 hs2 _ _ _ =>
      obtain ⟨b, l, rfl, hb, hl⟩ := hn
      exact ⟨b, l, sp1, sp2 ++ (t1 ++ u), rfl, hb, hl, hs1⟩

/-- If the start symbol of a grammar does not match a text, the machine fails. -/
theorem run_none {σ : Type} {code : Code} {chk : CheckFn σ} {bufsz : Nat} {st : σ} {g : Gram} {start : String} {ds : Defs}
    (hg : g.grammar = .grammar start ds) (hw : g.grammar.WellFormed []) (hc : Compiled g.grammar code) (hchk : CheckOK chk)
    (hb : 0 < bufsz) {data : List UInt8} (h : Eats [ds] (.nonterm start) data none) :
    (∃ r, RunsTo chk none code bufsz data st r) ∧ ∀ r, RunsTo chk none code bufsz data st r → ∃ src, r = .done false none src [] () st := by
  have he : Eats [] ((Top.gram g).pat 0).1 data none := by
    show Eats [] g.grammar data none
    rw [hg]
    cases h with
    | @nonterm env n b env' s x hl h =>
      simp only [lookupNT] at hl
      split at hl
      · rename_i hb
        cases hl
        exact .grammar hb h
      · cases hl
  obtain ⟨h1, h2⟩ := run_top (top := .gram g) (m := 0) (st := st) hw hc hchk hb data
  refine ⟨h1, fun r hr => ?_⟩
  rcases h2 r hr with ⟨w, v, ch, src, e, he', _⟩ | ⟨_, src, rfl⟩
  · cases he.det he'
  · exact ⟨src, rfl⟩

theorem rePeg_wf : reGram.grammar.WellFormed [] := Pat.wfB_sound 40 _ _ (by decide +kernel)
theorem lpeg_wf : lpegGram.grammar.WellFormed [] := Pat.wfB_sound 40 _ _ (by decide +kernel)

section
variable {σ : Type} {code : Code} {chk : CheckFn σ} {bufsz : Nat} {st : σ}

/-- **C62**. `grammars/re.peg` is the grammar of the arguments of `re.Compile`, and these may be lists of definitions. But the
machine with the compiled grammar of the file fails on every such text. -/
theorem C62_re_false (hc : Compiled reGram.grammar code) (hchk : CheckOK chk) (hb : 0 < bufsz) {g : Gram} {text : List UInt8}
    (h : TopS (.gram g) text) :
    (∃ r, RunsTo chk none code bufsz text st r) ∧ ∀ r, RunsTo chk none code bufsz text st r → ∃ src, r = .done false none src [] () st := by
  obtain ⟨t, s, rfl, ht, hs⟩ := gram_def h
  exact run_none rePeg_defs rePeg_wf hc hchk hb (hs.rePeg ht)

/-- **C62**. The same for `grammars/lpeg.peg`. -/
theorem C62_lpeg_false (hc : Compiled lpegGram.grammar code) (hchk : CheckOK chk) (hb : 0 < bufsz) {g : Gram} {text : List UInt8}
    (h : TopS (.gram g) text) :
    (∃ r, RunsTo chk none code bufsz text st r) ∧ ∀ r, RunsTo chk none code bufsz text st r → ∃ src, r = .done false none src [] () st := by
  obtain ⟨t, s, rfl, ht, hs⟩ := gram_def h
  exact run_none lpeg_defs lpeg_wf hc hchk hb (hs.lpeg ht)

end

/-- The hypotheses can be met: the files themselves are such texts. -/
example : (∃ code, Compiled reGram.grammar code) ∧ (∃ code, Compiled lpegGram.grammar code) ∧
    TopS (.gram reGram) reFile ∧ TopS (.gram lpegGram) lpegFile := ⟨C58_re.2.1, C58_lpeg.2.1, re_text, lpeg_text⟩

/-- An expression followed by a repetition does not fail. -/
theorem seq_star_some {env : Env} {n m : String} {p q : Pat} (h1 : lookupNT n env = some (.seq (.nonterm m) (.star q), env))
    (h2 : lookupNT m env = some (.star p, env)) {s : List UInt8} {x : Option (List UInt8)} (h : Eats env (.nonterm n) s x) :
    ∃ r, x = some r := by
  cases nonterm_inv h1 h with
  | seqOk _ h => exact star_some h
  | seqFail h' =>
    obtain ⟨r, hr⟩ := star_some (nonterm_inv h2 h')
    cases hr

theorem dead_alt {env : Env} {p q : Pat} (hp : ∀ s x, Eats env p s x → ∃ r, x = some r) {s : List UInt8} {x : Option (List UInt8)} :
    Eats env (.alt p q) s x ↔ Eats env p s x := by
  constructor
  · intro h
    cases h with
    | altL h => exact h
    | altR h _ => obtain ⟨r, hr⟩ := hp _ _ h; cases hr
  · intro h
    obtain ⟨r, rfl⟩ := hp _ _ h
    exact .altL h

theorem seq_congr {env : Env} {p p' q : Pat} (h : ∀ s x, Eats env p s x ↔ Eats env p' s x) {s : List UInt8} {x : Option (List UInt8)} :
    Eats env (.seq p q) s x ↔ Eats env (.seq p' q) s x := by
  constructor <;> intro h'
  · cases h' with
    | seqOk h1 h2 => exact .seqOk ((h _ _).1 h1) h2
    | seqFail h1 => exact .seqFail ((h _ _).1 h1)
  · cases h' with
    | seqOk h1 h2 => exact .seqOk ((h _ _).2 h1) h2
    | seqFail h1 => exact .seqFail ((h _ _).2 h1)

theorem seq_congr' {env : Env} {p q q' : Pat} (h : ∀ s x, Eats env q s x ↔ Eats env q' s x) {s : List UInt8} {x : Option (List UInt8)} :
    Eats env (.seq p q) s x ↔ Eats env (.seq p q') s x := by
  constructor <;> intro h'
  · cases h' with
    | seqOk h1 h2 => exact .seqOk h1 ((h _ _).1 h2)
    | seqFail h1 => exact .seqFail h1
  · cases h' with
    | seqOk h1 h2 => exact .seqOk h1 ((h _ _).2 h2)
    | seqFail h1 => exact .seqFail h1

/-- **C62**, the cause in `grammars/re.peg`: on no text at all is the second alternative of `(Expression / Grammar)` tried, and it
may as well be left out. -/
theorem C62_re_dead {s : List UInt8} {x : Option (List UInt8)} : Eats rePegEnv (.nonterm "Pattern") s x ↔
    Eats rePegEnv (.seq (.seq (.nonterm "Spacing_") (.nonterm "Expression")) (.nonterm "EndOfFile_")) s x := by
  refine Iff.trans ⟨nonterm_inv rePeg_Pattern, .nonterm rePeg_Pattern⟩ (seq_congr fun s x => seq_congr' fun s x => ?_)
  exact dead_alt fun s x => seq_star_some rePeg_Expression rePeg_Sequence

/-- **C62**, the cause in `grammars/lpeg.peg`, for `(alternative / grammar)`. -/
theorem C62_lpeg_dead {s : List UInt8} {x : Option (List UInt8)} : Eats lpegEnv (.nonterm "exp") s x ↔
    Eats lpegEnv (.seq (.nonterm "S") (.nonterm "alternative")) s x := by
  refine Iff.trans ⟨nonterm_inv lpeg_exp, .nonterm lpeg_exp⟩ (seq_congr' fun s x => ?_)
  exact dead_alt fun s x => seq_star_some lpeg_alternative lpeg_seq

end Gpeg
