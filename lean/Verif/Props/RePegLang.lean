import Verif.RePegSyn
import Verif.Props.RePeg
/-!
# C62, continued: what `grammars/re.peg` accepts
-/
namespace Gpeg
open Gpeg.Re Gpeg.RePeg

section
variable {σ : Type} {code : Code} {chk : CheckFn σ} {bufsz : Nat} {st : σ}

/-- **C62**, what `grammars/re.peg` accepts. On every text the machine with the compiled grammar stops. If the text is spacing and an
expression (`ReText`) it matches all of it, otherwise it does not match. Missing: texts with a `#` behind `[^` and no line end behind that, where
the `#` is not a comment but belongs to the class. -/
theorem C62_re_partial (hc : Compiled reGram.grammar code) (hchk : CheckOK chk) (hb : 0 < bufsz) {text : List UInt8} (hl : Lines text) :
    (∃ r, RunsTo chk none code bufsz text st r) ∧ ∀ r, RunsTo chk none code bufsz text st r →
      (ReText text ∧ ∃ ch src, src.pos = text.length ∧ r = .done true (some (.dummy 0 text.length ch)) src [] () st) ∨
      (¬ ReText text ∧ ∃ src, r = .done false none src [] () st) := by
  obtain ⟨h1, h2⟩ := run_top (top := .gram reGram) (m := 0) (st := st) rePeg_wf hc hchk hb text
  refine ⟨h1, fun r hr => ?_⟩
  have eats : ∀ {x}, Eats [] ((Top.gram reGram).pat 0).1 text x →
      Eats rePegEnv (.seq (.seq (.nonterm "Spacing_") (.nonterm "Expression")) (.nonterm "EndOfFile_")) text x := fun h => by
    rw [rePeg_defs] at h
    exact C62_re_dead.1 (grammar_eats h)
  rcases h2 r hr with ⟨w, v, ch, src, e, he, hpos, rfl⟩ | ⟨he, src, rfl⟩
  · obtain ⟨rfl, ht⟩ := (re_iff hl).1 (eats he)
    rw [List.append_nil] at e
    subst e
    exact .inl ⟨ht, ch, src, hpos, rfl⟩
  · refine .inr ⟨fun ht => ?_, src, rfl⟩
    cases (eats he).det ((re_iff hl).2 ⟨rfl, ht⟩)

/-- **C62**, more that `re.Compile` reads and `grammars/re.peg` refuses: spacing behind `/`, behind `(` and behind `)`. And a memoized name
in the notation of the file, `{+a+}`: the first `+` is taken for a suffix. -/
theorem C62_spacing_false (hc : Compiled reGram.grammar code) (hchk : CheckOK chk) (hb : 0 < bufsz) {text : List UInt8}
    (h : text ∈ [bytes "a/ b", bytes "( a)", bytes "(a) b", bytes "{+a+}"]) :
    (∃ r, RunsTo chk none code bufsz text st r) ∧ ∀ r, RunsTo chk none code bufsz text st r → ∃ src, r = .done false none src [] () st := by
  have key : refuses 60 ((Top.gram reGram).pat 0).1 text = true := by
    simp only [List.mem_cons, List.not_mem_nil, or_false] at h
    rcases h with rfl | rfl | rfl | rfl <;> decide +kernel
  have he := refuses_sound (top := .gram reGram) (m := 0) key
  rw [rePeg_defs] at he
  exact run_none rePeg_defs rePeg_wf hc hchk hb (grammar_eats he)

end

/-- No memoized expression whose last item has no suffix is a text of the syntax: what `{+…+}` encloses is empty, or ends with an empty
alternative or with a suffix. -/
theorem C62_memo_closed {t : List UInt8} (h : Syn (.seq true) t) :
    t = [] ∨ ∃ a b c, t = a ++ (b ++ c) ∧ Syn .prim b ∧ ∃ x sp, x ∈ [63, 42, 43] ∧ Sp sp ∧ c = x :: sp := by
  generalize hk : Cat.seq true = k at h
  induction h with
  | empty => exact .inl rfl
  | @item cl a b c t ha hb hc ht hap hcl _ iht =>
    cases hk
    refine .inr ?_
    rcases iht rfl with rfl | ⟨a', b', c', rfl, h1, h2⟩
    · refine ⟨a, b, c, by simp, hb, ?_⟩
      rcases hc with rfl | ⟨x, sp, hx, hsp, rfl⟩
      · exact absurd rfl (hcl rfl rfl)
      · exact ⟨x, sp, hx, hsp, rfl⟩
    · exact ⟨a ++ (b ++ (c ++ a')), b', c', by simp, h1, h2⟩
  | _ => cases hk

/-- The hypotheses can be met: `!(a/'b')* {+c?+}` is a text of the syntax. -/
example : (∃ code, Compiled reGram.grammar code) ∧ Lines (bytes "!(a/'b')* {+c?+}") ∧ ReText (bytes "!(a/'b')* {+c?+}") := by
  have e : bytes "!(a/'b')* {+c?+}" = [33, 40, 97, 47, 39, 98, 39, 41, 42, 32, 123, 43, 99, 63, 43, 125] := by decide +kernel
  rw [e]
  have sq : ∀ {cl p}, Syn .prim p → (cl = true → False) → Syn (.seq cl) p := fun {cl p} hp h => by
    have := Syn.item (cl := cl) (a := []) (c := []) (.inl rfl) hp (.inl rfl) .empty (fun _ _ _ h => by cases h) (fun h' => (h h').elim)
    simpa using this
  have nm : ∀ {b : UInt8}, isStart b = true → Syn .prim [b] := fun {b} hb =>
    .ident (n := [b]) (sp := []) ⟨b, [], rfl, hb, fun _ h => by cases h⟩ .nil
  refine ⟨C58_re.2.1, ?_, [], _, rfl, .nil, ?_⟩
  · intro u sp v h _
    have := congrArg (fun l => l.contains 91) h
    simp at this
  · have p1 : Syn .prim [40, 97, 47, 39, 98, 39, 41] := by
      have l1 : Syn .prim [39, 98, 39] := .lit (t := [98, 39]) (sp := []) (.inl rfl) (.cons (t := [98]) (.raw (by decide)) (by decide) .nil) .nil
      exact .paren (t := [97, 47, 39, 98, 39]) (.alt (t := [97]) (sq (nm rfl) (by simp)) (.one (sq l1 (by simp))))
    have c1 : Syn (.seq true) [99, 63] :=
      .item (a := []) (b := [99]) (c := [63]) (t := []) (.inl rfl) (nm rfl) (.inr ⟨63, [], by simp, .nil, rfl⟩) .empty
        (fun _ _ _ h => by cases h) (fun _ _ => by simp)
    have p2 : Syn .prim [123, 43, 99, 63, 43, 125] := .memo (t := [99, 63]) (.one c1)
    refine .one (.item (a := [33]) (b := [40, 97, 47, 39, 98, 39, 41]) (c := [42, 32]) (t := [123, 43, 99, 63, 43, 125])
      (.inr ⟨33, [], by simp, .nil, rfl⟩) p1 (.inr ⟨42, [32], by simp, .blank rfl .nil, rfl⟩) (sq p2 (by simp)) ?_ (by simp))
    intro x y hx hy
    cases hy
    exact .inr (by decide)

end Gpeg
