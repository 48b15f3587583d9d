import Verif.Arith
import Verif.LangRun
/-!
# C59: `grammars/arith.peg` matches arithmetic expressions

From the bytes of the file to the texts matched: `re.Compile` reads the file (`C58_arith`), and the machine running the compiled
grammar matches the longest arithmetic expression at the beginning of the text. The expressions are those of the context-free
grammar `Arith`, which does not mention parsing expressions.
-/
namespace Gpeg
open Gpeg.Re Gpeg.ArithPeg

/-- The longest beginning of `data` in the language has `n` bytes. -/
def Longest (L : List UInt8 → Prop) (data : List UInt8) (n : Nat) : Prop :=
  (∃ w r, data = w ++ r ∧ L w ∧ w.length = n) ∧ ∀ w r, data = w ++ r → L w → w.length ≤ n

theorem arith_wf : arithGram.grammar.WellFormed [] := Pat.wfB_sound 40 _ _ (by decide +kernel)

/-- **C59**. On every text the machine with the compiled grammar of `grammars/arith.peg` stops; it matches the longest
arithmetic expression the text begins with, and does not match if the text begins with none. -/
theorem C59_arith {σ : Type} {code : Code} {chk : CheckFn σ} {bufsz : Nat} {st : σ} (hc : Compiled arithGram.grammar code)
    (hchk : CheckOK chk) (hb : 0 < bufsz) (data : List UInt8) :
    (∃ r, RunsTo chk none code bufsz data st r) ∧ ∀ r, RunsTo chk none code bufsz data st r →
      (∃ n ch src, Longest (Arith .expr) data n ∧ src.pos = n ∧ r = .done true (some (.dummy 0 n ch)) src [] () st) ∨
      ((∀ w v, data = w ++ v → ¬ Arith .expr w) ∧ ∃ src, r = .done false none src [] () st) := by
  obtain ⟨h1, h2⟩ := run_top (top := .gram arithGram) (m := 0) (st := st) arith_wf hc hchk hb data
  refine ⟨h1, fun r hr => ?_⟩
  have eats : ∀ {x}, Eats [] ((Top.gram arithGram).pat 0).1 data x → Eats arithEnv (.nonterm "Expr") data x := fun h => by
    rw [arith_defs] at h
    exact grammar_eats h
  rcases h2 r hr with ⟨w, v, ch, src, e, he, hpos, rfl⟩ | ⟨he, src, rfl⟩
  · refine .inl ⟨w.length, ch, src, ?_, hpos, rfl⟩
    obtain ⟨w', e', hw⟩ := sound data.length .expr data _ (Nat.le_refl _) (eats he)
    have := List.append_cancel_right (e.symm.trans e')
    subst this
    refine ⟨⟨w, v, e, hw, rfl⟩, fun w' r' e2 hw' => ?_⟩
    obtain ⟨r'', h3, h4⟩ := atLeast hw' r'
    rw [← e2] at h3
    have := h3.eats.det (eats he)
    simp only [Option.some.injEq] at this
    subst this
    have h5 := congrArg List.length e
    have h6 := congrArg List.length e2
    rw [List.length_append] at h5 h6
    omega
  · refine .inr ⟨fun w v e hw => ?_, src, rfl⟩
    obtain ⟨r'', h3, h4⟩ := atLeast hw v
    rw [← e] at h3
    cases h3.eats.det (eats he)

/-- The hypothesis can be met, and the language has members: `(1+23)*4`. -/
example : (∃ code, Compiled arithGram.grammar code) ∧ Arith .expr (bytes "(1+23)*4") := by
  refine ⟨C58_arith.2.1, ?_⟩
  rw [show bytes "(1+23)*4" = [40, 49, 43, 50, 51, 41, 42, 52] by decide +kernel]
  have h1 : Arith .expr [49, 43, 50, 51] :=
    .add (w := [49]) (v := [50, 51]) (.single (.num (.digit rfl))) (.inl rfl) (.one (.single (.num (.digits rfl (.digit rfl)))))
  exact .one (.mul (w := [40, 49, 43, 50, 51, 41]) (v := [52]) (.paren h1) (.inl rfl) (.single (.num (.digit rfl))))

/-- `1+` begins with an expression but is none. -/
example : Longest (Arith .expr) (bytes "1+") 1 := by
  have e : bytes "1+" = [49, 43] := by decide +kernel
  obtain ⟨r', h1, h2⟩ := atLeast (c := .expr) (w := [49]) (.one (.single (.num (.digit rfl)))) [43]
  refine ⟨⟨[49], [43], e, .one (.single (.num (.digit rfl))), rfl⟩, fun w r he hw => ?_⟩
  rw [e] at he
  have hl := congrArg List.length he
  rw [List.length_append] at hl
  by_cases hn : w.length ≤ 1
  · exact hn
  · exfalso
    have hr : r = [] := List.length_eq_zero_iff.1 (by simp at hl; omega)
    subst hr
    rw [List.append_nil] at he
    subst he
    have h3 := (exact hw [] notIn_nil).eats
    rw [List.append_nil] at h3
    have h4 := (exact (c := .factor) (w := [49]) (.single (.num (.digit rfl))) [43] (notIn_cons (by decide))).eats
    have h5 : Eats arithEnv (.nonterm "Factor") [] none :=
      .nonterm arith_factor (.seqFail (.nonterm arith_term (.altR (number_fails notIn_nil) (.seqFail (.seqFail (.litF (by simp)))))))
    have h6 : Eats arithEnv (.nonterm "Expr") [49, 43] (some [43]) :=
      .nonterm arith_expr (.seqOk h4 (.starEnd (.seqOk (.clsOk (by rw [add_has]; rfl)) h5)))
    cases h3.det h6

end Gpeg
