import Verif.Braces
import Verif.Props.Json
/-!
# C61: memoization changes no result

Patterns, grammars of the `re` syntax and the file `grammars/json_memo.peg`: with and without memoized nodes.
-/
namespace Gpeg
open Gpeg.Re Gpeg.Json

section
variable {σ : Type} {code code' : Code} {chk : CheckFn σ} {bufsz bufsz' : Nat} {st : σ} {data : List UInt8}

/-- **C61**. A pattern with memoized nodes, run with a table that earlier runs on the same text have filled, and the pattern without
its memoized nodes, run without a table: one stops iff the other does, and callers see the same. -/
theorem C61_unmemo {p : Pat} {k : Int} (hc : CompiledAt k p code) (hc' : Compiled p.unmemo code') (hd : p.Dots1) (hs : p.Scoped)
    (hchk : CheckOK chk) (hm : p.MemosOK chk k) (hb : 0 < bufsz) (hb' : 0 < bufsz') {T : TreeTable} (hT : Warm chk code data T) :
    (∀ r, RunsTree chk code bufsz data T st r → ∃ r', RunsTo chk none code' bufsz' data st r' ∧ r.view = r'.view) ∧
    (∀ r', RunsTo chk none code' bufsz' data st r' → ∃ r, RunsTree chk code bufsz data T st r ∧ r.view = r'.view) := by
  have hc2 : Compiled p code := by
    obtain ⟨n, cst, prog, cst', _, h1, h2⟩ := hc
    exact ⟨n, cst, prog, cst', h1, h2⟩
  obtain ⟨h1, h2⟩ := C27_memo_transparent_partial (st := st) hc hd hs hchk hm hb hT
  obtain ⟨h3, h4⟩ := exec_evals (iv := none) (data := data) (st := st) hc2 hd hs hchk hb
  obtain ⟨h5, h6⟩ := exec_evals (iv := none) (data := data) (st := st) hc' (Pat.dots1_unmemo hd) ((Pat.scoped_unmemo p).symm ▸ hs) hchk hb'
  refine ⟨fun r hr => ?_, fun r' hr => ?_⟩
  · obtain ⟨r1, hr1, hv⟩ := h1 r hr
    obtain ⟨e, he, hx⟩ := h4 r1 hr1
    obtain ⟨r', hr', hx'⟩ := h5 e ((evals_unmemo rfl).2 he)
    exact ⟨r', hr', hv.trans (hx.view_eq hx')⟩
  · obtain ⟨e, he, hx⟩ := h6 r' hr
    obtain ⟨r1, hr1, hx'⟩ := h3 e ((evals_unmemo rfl).1 he)
    obtain ⟨r, hr', hv⟩ := h2 r1 hr1
    exact ⟨r, hr', hv.trans (hx'.view_eq hx)⟩

/-- **C61**. For everything that can be written in the `re` syntax: `{{ e }}` may be replaced by `( e )`. The pattern is compiled
after all its memoized nodes got their numbers (`hk`). -/
theorem C61_braces {top : Top} {m m' : Nat} {k : Int} (hk : ((top.pat m).2 : Int) ≤ k) (hc : CompiledAt k (top.pat m).1 code)
    (hc' : Compiled (top.bare.pat m').1 code') (hchk : CheckOK chk) (hb : 0 < bufsz) (hb' : 0 < bufsz') {T : TreeTable}
    (hT : Warm chk code data T) :
    (∀ r, RunsTree chk code bufsz data T st r → ∃ r', RunsTo chk none code' bufsz' data st r' ∧ r.view = r'.view) ∧
    (∀ r', RunsTo chk none code' bufsz' data st r' → ∃ r, RunsTree chk code bufsz data T st r ∧ r.view = r'.view) := by
  rw [top_bare top m m'] at hc'
  obtain ⟨_, hd, hs⟩ := top_plain top m
  exact C61_unmemo hc hc' hd hs hchk (top_memosOK top hk) hb hb' hT

end

/-- `a <- {{ b c / {{ c }} }}* ...` -/
example : let top : Top := .gram [([97], .one (.cons .none (.memo (.alt (.cons .none (.ident [98]) .none (.cons .none (.lit [99]) .none .nil))
      (.one (.cons .none (.memo (.one (.cons .none (.lit [99]) .opt .nil))) .none .nil)))) .star .nil)),
      ([98], .one (.cons .none .dot .none .nil))]
    ((top.pat 5).2 : Int) ≤ 7 ∧ (∃ code, CompiledAt 7 (top.pat 5).1 code) ∧ ∃ code, Compiled (top.bare.pat 0).1 code :=
  ⟨by decide, ⟨_, 20, ⟨0, 7, true⟩, _, _, rfl, rfl, rfl⟩, ⟨_, 20, ⟨0, 7, true⟩, _, _, rfl, rfl⟩⟩

/-! ## `grammars/json_memo.peg` -/

theorem compiledAt_of_fits {p : Pat} {k : Nat} {cst cst' : CState} {raw : Program} {L : List CSet}
    (h : compileF k p cst = .ok (raw, cst')) (hf : Fits L raw) : ∃ code, CompiledAt cst.memo p code := by
  obtain ⟨code, hc⟩ := encode_total (optimize_fits hf)
  exact ⟨code, k, cst, _, cst', rfl, by show (compileF k p >>= _) cst = _; simp only [bind, StateT.bind, h]; rfl, hc⟩

/-- The file is `grammars/json.peg` with `{{ }}` put in. -/
theorem jsonMemo_unmemo : jsonMemoGram.grammar.unmemo = jsonGram.grammar := Pat.sameB_sound (by decide +kernel)

/-- **C61** for `grammars/json_memo.peg`: the machine with any table filled by runs on the same text stops on every text, and
accepts what `grammars/json.peg` accepts (`C60_json`). -/
theorem C61_json_memo {σ : Type} {code : Code} {chk : CheckFn σ} {bufsz : Nat} {st : σ} {data : List UInt8} {k : Int} (hk : 1 ≤ k)
    (hc : CompiledAt k jsonMemoGram.grammar code) (hchk : CheckOK chk) (hb : 0 < bufsz) {T : TreeTable} (hT : Warm chk code data T) :
    (∃ r, RunsTree chk code bufsz data T st r) ∧ ∀ r, RunsTree chk code bufsz data T st r →
      (Json file .element data ∧ ∃ cs, r.view = some (true, some (data.length, cs), [], st)) ∨
      (¬ Json file .element data ∧ r.view = some (false, none, [], st)) := by
  obtain ⟨code', hc'⟩ := C58_json.2.1
  obtain ⟨_, hd, hs⟩ := top_plain (.gram jsonMemoGram) 0
  obtain ⟨h1, h2⟩ := C61_unmemo (code' := code') (bufsz' := bufsz) (st := st) hc (jsonMemo_unmemo ▸ hc') hd hs hchk
    (top_memosOK (.gram jsonMemoGram) (m := 0) hk) hb hb hT
  obtain ⟨h3, h4⟩ := C60_json (st := st) hc' hchk hb data
  refine ⟨?_, fun r hr => ?_⟩
  · obtain ⟨r', hr'⟩ := h3
    obtain ⟨r, hr, _⟩ := h2 r' hr'
    exact ⟨r, hr⟩
  · obtain ⟨r', hr', hv⟩ := h1 r hr
    rcases h4 r' hr' with ⟨hj, ch, src, hpos, rfl⟩ | ⟨hj, src, rfl⟩
    · exact .inl ⟨hj, _, hv.trans (by rw [XRes.view, hpos])⟩
    · exact .inr ⟨hj, hv⟩

/-- The hypotheses can be met: the file has one memoized node. -/
example : ((Top.gram jsonMemoGram).pat 0).2 = 1 ∧ ∃ code, CompiledAt 1 jsonMemoGram.grammar code := by
  refine ⟨by decide +kernel, ?_⟩
  have h : (match compileF 30 jsonMemoGram.grammar ⟨0, 1, true⟩ with | .ok (raw, _) => fitsTest raw | _ => false) = true := by
    decide +kernel
  split at h
  · rename_i raw cst' hr
    obtain ⟨L, hL⟩ := fits_of_test h
    exact compiledAt_of_fits hr hL
  · cases h

end Gpeg
