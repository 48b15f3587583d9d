import Verif.ReConv
import Verif.Props.Term
/-!
# C56: `re.Compile` makes patterns of the texts of the syntax only

The converse of C51. Two kinds of texts are set aside, because the parser takes them although the syntax of `ReSpec.lean` has no
reading for them: octal escapes of 200 and above (`LowOctal`, see `C46_octal_false`), and a class `[^#…]` whose `#` does not begin a
comment because no line end follows (`Lines`).
-/
namespace Gpeg.Re

/-- **C56** for the parsing expression. The grammar of `re` accepts whole texts only, and either the text is in the syntax, or
the pattern made of the captures is nil or has a nil part. -/
theorem C56_parse {text : List UInt8} (hl : Lines text) (ho : LowOctal text) {j : Nat} {cs : List CTree}
    (h : Ford text [] reGrammar 0 (some (j, cs))) :
    j = text.length ∧ (InSyntax text ∨ ∀ capg m, (fromAst capg text cs m).1 = none) := by
  obtain ⟨rfl, c, rfl, hc⟩ := pattern_inv hl ho h
  exact ⟨rfl, hc.symm⟩

/-- A text of the syntax is accepted, and the pattern has no nil part. -/
theorem inSyntax_ok {text : List UInt8} (capg : Bool) (h : InSyntax text) :
    ∃ c, Ford text [] reGrammar 0 (some (text.length, [c])) ∧ ∀ m, (compileRe capg text c m).1 ≠ none := by
  obtain ⟨sp, t, rfl, hs, ⟨e, he⟩ | ⟨g, hg, hgs⟩⟩ := h
  · have hd : (sp ++ t).drop (0 + sp.length) = t := by simp
    have ht : Tok (t ++ []) := expr_tok he tok_nil
    rw [List.append_nil] at ht
    have h1 := spacing (d := sp ++ t) (i := 0) hs ht.sp (by simp)
    obtain ⟨c, h2, h3⟩ := expr_ok (capg := capg) (sp ++ t) e t [] (0 + sp.length) he (by rw [hd]; simp) stop_nil (by simp)
      (by intro x y _ hy; simp at hy)
    have h0 : Ford (sp ++ t) E (.nonterm "Grammar") (0 + sp.length) none :=
      nt rfl (.capFail (.plusFail (expr_not_def he hd)))
    have h4 := eof_ok (d := sp ++ t) (i := 0 + sp.length + t.length) (by simp)
    have h5 : Ford (sp ++ t) [] reGrammar 0 _ :=
      .grammar rfl (.capOk (cc (.cons h1 (.cons (oo (.next h0 (.here h2))) (.cons h4 .nil)))))
    have e : 0 + sp.length + t.length = (sp ++ t).length := by simp
    refine ⟨_, e ▸ h5, fun m => ?_⟩
    simp only [List.append_nil, List.nil_append]
    rw [cr_pattern, h3]; simp
  · cases g with
    | nil => exact absurd rfl hg
    | cons x g =>
      obtain ⟨n, e⟩ := x
      obtain ⟨c, h1, h2⟩ := gram_text_ok capg hs hgs
      exact ⟨c, h1, fun m => by rw [h2]; simp⟩

variable {σ : Type} {code : Code} {chk : CheckFn σ} {bufsz : Nat} {st : σ}

/-- **C56** for the machine: `Compile` and `CompileCap` finish on every text, and they return a pattern without nil parts if and
only if the text is in the syntax. -/
theorem C56_compile {text : List UInt8} (hl : Lines text) (ho : LowOctal text) (hc : Compiled reGrammar code)
    (hchk : CheckOK chk) (hb : 0 < bufsz) (capg : Bool) (m : Nat) :
    (∃ r, RunsTo chk none code bufsz text st r) ∧
    ∀ r, RunsTo chk none code bufsz text st r →
      ((∃ n ch src st', r = .done true (some (.dummy 0 n ch)) src [] () st' ∧ (fromAst capg text (Capture.treesL ch) m).1 ≠ none) ↔
        InSyntax text) := by
  obtain ⟨ok, cap, src, st', hr⟩ := C55_re_stops (chk := chk) (st := st) hc hchk hb text
  refine ⟨⟨_, hr⟩, fun r hr' => ⟨fun ⟨n, ch, src, st', e, hn⟩ => ?_, fun h => ?_⟩⟩
  · subst e
    obtain ⟨hp, hd, hs⟩ := reGrammar_ok
    obtain ⟨⟨res, far, w⟩, he, hx⟩ := (exec_evals (iv := none) (data := text) (st := st) hc hd hs hchk hb).2 _ hr'
    obtain ⟨x, hx1, hx2, hf⟩ := evals_pure hp (fun _ h => by cases h) he
    simp only at hx1 hx2
    subst hx1 hx2
    cases x with
    | none => obtain ⟨_, _, h⟩ := hx; cases h
    | some x =>
      obtain ⟨j, cs⟩ := x
      obtain ⟨a, b, ch', s, t, e, _, htr, _⟩ := hx
      cases e
      rw [pruneL_none] at htr
      rw [htr] at hn
      exact (C56_parse hl ho hf).2.resolve_right fun h => hn (h capg m)
  · obtain ⟨c, hf, hm⟩ := inSyntax_ok capg h
    obtain ⟨ch, src, e, ht⟩ := (run_of_ford (chk := chk) (st := st) hf hc hchk hb).2 r hr'
    exact ⟨_, ch, src, st, e, by rw [ht]; exact hm m⟩

/-! Tests for the hypotheses. -/

/-- A test for `LowOctal`. -/
def lowOctalB : List UInt8 → Bool
  | [] => true
  | x :: l => (match x :: l with
    | 92 :: 50 :: b :: c :: _ => !(isOct b && isOct c)
    | _ => true) && lowOctalB l

/-- A test for `Lines`: no `#` anywhere after `[^`. -/
def linesB : List UInt8 → Bool
  | [] => true
  | x :: l => (match x :: l with
    | 91 :: 94 :: r => !r.contains 35
    | _ => true) && linesB l

theorem lowOctalB_sound : ∀ {d : List UInt8}, lowOctalB d = true → LowOctal d
  | [], _, u, v, b, c, e => by cases u <;> cases e
  | x :: l, h, u, v, b, c, e => by
    rw [lowOctalB, Bool.and_eq_true] at h
    cases u with
    | nil =>
      cases e
      have := h.1
      simp only [Bool.not_eq_true', Bool.and_eq_false_iff] at this
      exact this
    | cons y u => cases e; exact lowOctalB_sound h.2 u v b c rfl

theorem linesB_sound : ∀ {d : List UInt8}, linesB d = true → Lines d
  | [], _, u, sp, v, e, _ => by cases u <;> cases e
  | x :: l, h, u, sp, v, e, hs => by
    rw [linesB, Bool.and_eq_true] at h
    cases u with
    | nil => cases e; have := h.1; simp at this
    | cons y u => cases e; exact linesB_sound h.2 u sp v rfl hs

/-- The example of C51 meets the hypotheses. -/
example : Lines exText ∧ LowOctal exText ∧ InSyntax exText := by
  refine ⟨linesB_sound (by decide +kernel), lowOctalB_sound (by decide +kernel), ?_⟩
  have h := exTopS
  generalize exText = t at h
  cases h with
  | gram hs hg hne => exact ⟨_, _, rfl, hs, .inr ⟨_, hne, hg⟩⟩

/-- `{ . }` and `[]` are accepted by the parser but are not in the syntax. -/
theorem C56_not_syntax : ¬InSyntax [123, 32, 46, 32, 125] ∧ ¬InSyntax [91, 93] := by
  have key : ∀ {text : List UInt8}, NilPattern text → ¬InSyntax text := fun ⟨c, h1, h2⟩ h => by
    obtain ⟨c', h1', h2'⟩ := inSyntax_ok false h
    have e := h1.det h1'
    simp only [Option.some.injEq, Prod.mk.injEq, List.cons.injEq, and_true, true_and] at e
    subst e
    exact h2' 0 h2
  exact ⟨key C51_brace_nil, key C51_empty_class_nil⟩

/-- A test for rejected texts. -/
def rejectTest (text : List UInt8) : Bool :=
  match eval 80 (⟨text, fun _ s _ _ _ _ _ => (none, s), false⟩ : Ctx Unit) [] reGrammar 0 ⟨[], ()⟩ with
  | some (.fail, _, _) => true
  | _ => false

theorem not_syntax_of {text : List UInt8} (h : rejectTest text = true) : ¬InSyntax text := fun hs => by
  obtain ⟨c, h1, _⟩ := inSyntax_ok false hs
  unfold rejectTest at h
  split at h
  · rename_i far w he
    obtain ⟨x, hx, _, hf⟩ := evals_pure reGrammar_ok.1 (fun _ h => by cases h) ⟨_, he⟩
    cases x with
    | none => cases h1.det hf
    | some x => cases hx
  · cases h

/-- `(.` is not in the syntax: the parser rejects it. -/
example : ¬InSyntax [40, 46] := not_syntax_of (by decide +kernel)

end Gpeg.Re
