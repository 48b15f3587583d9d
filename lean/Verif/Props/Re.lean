import Verif.ReMain
import Verif.Props.Compile
import Verif.EncTotal
/-!
# `re.Compile`: properties C46 and C51
-/
namespace Gpeg.Re

/-! ## C46: characters -/

/-- **C46** (missing: octal escapes of 200 and above, for which the statement is false, see
`C46_octal_false`). The parser takes an escape sequence or plain byte as one character, and `parseChar` of
its text is the byte denoted. -/
theorem C46_char_partial {d : List UInt8} {i : Nat} {b : UInt8} {t rest : List UInt8} (hc : CharS b t rest)
    (h : d.drop i = t ++ rest) :
    ∃ c, Ford d [defs] (.nonterm "Char") i (some (i + t.length, [c])) ∧ textOf d c = t ∧ parseChar t = b := by
  obtain ⟨c, h1⟩ := char_tree hc h
  exact ⟨c, h1.1, h1.2, parseChar_spec hc⟩

/-- **C46** is false of the code for octal escapes of 200 and above: all of them denote 127. -/
theorem C46_octal_false {b c : UInt8} (hb : isOct b = true) (hc : isOct c = true) : parseChar [92, 50, b, c] = 127 := by
  have h2 := octLe hb
  have h3 := octLe hc
  rw [parseChar_oct (by decide), parseOctal8]
  have hall : [50, b, c].all (fun c => 48 ≤ c && c ≤ 55) = true := by
    simp only [List.all_cons, List.all_nil, Bool.and_true, Bool.and_eq_true]
    simp only [isOct, Bool.and_eq_true] at hb hc
    exact ⟨by decide, hb, hc⟩
  simp only [hall, if_true, List.foldl]
  rw [Nat.min_eq_left]
  · rfl
  · have : (50 : UInt8).toNat = 50 := rfl
    omega

/-- Everything the parser takes as a character is one of the texts of `CharS` or an octal escape of 200 and
above. -/
theorem C46_char_complete {d : List UInt8} {i j : Nat} {cs : List CTree}
    (h : Ford d [defs] (.nonterm "Char") i (some (j, cs))) :
    ∃ t rest, d.drop i = t ++ rest ∧ j = i + t.length ∧
      ((∃ b, CharS b t rest) ∨ ∃ b c, t = [92, 50, b, c] ∧ isOct b = true ∧ isOct c = true) := by
  exact char_inv h

example : CharS 65 [92, 49, 48, 49] [] := .oct3 (a := 49) (b := 48) (c := 49) rfl (by decide) rfl rfl
example : CharS 7 [92, 55] [56] := .oct1 (a := 55) rfl (by intro x hx; simp at hx; subst hx; rfl)

/-! ## C51: the parser and the patterns built -/

/-- The grammar of `re` meets the hypotheses of the theorems about compiled patterns. -/
theorem reGrammar_ok : reGrammar.Pure ∧ reGrammar.Dots1 ∧ reGrammar.Scoped := by
  have hl : ∀ l ∈ reGrammar.leaves, l = .dot 1 := by
    have e : reGrammar.leaves = [.dot 1, .dot 1, .dot 1] := rfl
    rw [e]; simp
  refine ⟨⟨fun h => ?_, fun h => ?_⟩, fun m hm => ?_, ?_⟩
  · cases hl _ h
  · cases hl _ h
  · cases hl _ hm; rfl
  · refine ⟨?_, ?_⟩ <;> repeat' (first | trivial | constructor)

/-- **C51** for the parsing expression: a text writing an expression or grammar is accepted as a whole by the
grammar of `re`, and the pattern made of the captures is the one denoted. -/
theorem C51_parse {top : Top} {text : List UInt8} (h : TopS top text) :
    ∃ c, Ford text [] reGrammar 0 (some (text.length, [c])) ∧
      ∀ m, fromAst false text [c] m = (some (top.pat m).1, (top.pat m).2) := top_ok h

variable {σ : Type} {code : Code} {chk : CheckFn σ} {bufsz : Nat} {st : σ}

/-- A parse of the whole text by the grammar of `re`, and what the machine returns. -/
theorem run_of_ford {text : List UInt8} {c : CTree} (hf : Ford text [] reGrammar 0 (some (text.length, [c])))
    (hc : Compiled reGrammar code) (hchk : CheckOK chk) (hb : 0 < bufsz) :
    (∃ r, RunsTo chk none code bufsz text st r) ∧
    ∀ r, RunsTo chk none code bufsz text st r → ∃ ch src, r = .done true (some (.dummy 0 text.length ch)) src [] () st ∧
      Capture.treesL ch = [c] := by
  obtain ⟨hp, hd, hs⟩ := reGrammar_ok
  refine ⟨(C16_terminates_iff_ford hp hc hd hs hchk hb).2 ⟨_, hf⟩, fun r hr => ?_⟩
  obtain ⟨h1, h2⟩ := exec_evals (iv := none) (data := text) (st := st) hc hd hs hchk hb
  obtain ⟨⟨res, far, w⟩, he, hx⟩ := h2 _ hr
  obtain ⟨x, hx1, hx2, hf'⟩ := evals_pure hp (fun _ h => by cases h) he
  simp only at hx1 hx2
  subst hx1 hx2
  have := hf.det hf'
  subst this
  obtain ⟨a, b, ch, s, t, rfl, hpos, htr, hab⟩ := hx
  obtain ⟨rfl, rfl⟩ := hab rfl
  rw [pruneL_none] at htr
  exact ⟨ch, s, rfl, htr⟩

/-- **C51** for the machine. On a text writing an expression or grammar the compiled grammar of `re` stops
with a match and without errors, and the pattern made of the captures is the one denoted; in particular two
readings of a text denote the same pattern. -/
theorem C51_compile {top : Top} {text : List UInt8} (h : TopS top text) (hc : Compiled reGrammar code) (hchk : CheckOK chk)
    (hb : 0 < bufsz) :
    (∃ r, RunsTo chk none code bufsz text st r) ∧
    ∀ r, RunsTo chk none code bufsz text st r → ∃ ch src, r = .done true (some (.dummy 0 text.length ch)) src [] () st ∧
      ∀ m, fromAst false text (Capture.treesL ch) m = (some (top.pat m).1, (top.pat m).2) := by
  obtain ⟨c, hf, hm⟩ := C51_parse h
  obtain ⟨h1, h2⟩ := run_of_ford (chk := chk) (st := st) hf hc hchk hb
  refine ⟨h1, fun r hr => ?_⟩
  obtain ⟨ch, src, e, ht⟩ := h2 r hr
  exact ⟨ch, src, e, fun m => by rw [ht]; exact hm m⟩

/-- What a capturing grammar is made of: the definitions `ds` with captures around them, numbered from 0 without gaps. -/
def Captured (ds ds' : Defs) : Prop := ∃ num : String → Int,
  (∀ k ∈ ds.names, 0 ≤ num k ∧ num k < ds.names.length) ∧ (∀ k ∈ ds.names, ∀ k' ∈ ds.names, num k = num k' → k = k') ∧
  ds'.names = ds.names ∧ ∀ k, ds'.find k = (ds.find k).map fun p => .cap p (num k)

/-- **C51**, names defined more than once, and `CompileCap`. On the text of a grammar the compiled grammar of `re` stops with a
match; the grammar made of the captures starts with the first name defined and maps every name to its last definition. `CompileCap`
makes the same grammar with differently numbered captures around the definitions. -/
theorem C51_grammar {n : List UInt8} {e : Expr} {g : Gram} {sp t : List UInt8} (hs : Sp sp) (hg : GramS ((n, e) :: g) t)
    (hc : Compiled reGrammar code) (hchk : CheckOK chk) (hb : 0 < bufsz) :
    (∃ r, RunsTo chk none code bufsz (sp ++ t) st r) ∧
    ∀ r, RunsTo chk none code bufsz (sp ++ t) st r → ∃ ch src, r = .done true (some (.dummy 0 (sp ++ t).length ch)) src [] () st ∧
      ∀ m, ∃ ds m', ds.names.Nodup ∧ (∀ k, ds.find k = lastDef k (Gram.pats ((n, e) :: g) m).1) ∧
        fromAst false (sp ++ t) (Capture.treesL ch) m = (some (.grammar (nameOf n) ds), m') ∧
        ∃ ds', Captured ds ds' ∧ fromAst true (sp ++ t) (Capture.treesL ch) m = (some (.grammar (nameOf n) ds'), m') := by
  obtain ⟨c, hf, hm⟩ := gram_text_ok false hs hg
  obtain ⟨c', hf', hm'⟩ := gram_text_ok true hs hg
  have hcc := hf.det hf'
  simp only [Option.some.injEq, Prod.mk.injEq, List.cons.injEq, and_true, true_and] at hcc
  subst hcc
  obtain ⟨h1, h2⟩ := run_of_ford (chk := chk) (st := st) hf hc hchk hb
  refine ⟨h1, fun r hr => ?_⟩
  obtain ⟨ch, src, he, ht⟩ := h2 r hr
  refine ⟨ch, src, he, fun m => ⟨collect ((n, e) :: g) m, (Gram.pats ((n, e) :: g) m).2, collect_nodup _ m,
    collect_find _ m, ?_, capDefs (collect ((n, e) :: g) m) 0, ?_, ?_⟩⟩
  · rw [ht]; exact hm m
  · obtain ⟨num, a, b, c⟩ := capDefs_spec _ 0 (collect_nodup _ m)
    exact ⟨num, fun k hk => by have := a k hk; omega, b, names_capDefs _ _, c⟩
  · rw [ht]; exact hm' m

/-- `a <- 'x'`, `a <- .`: the second definition counts. -/
example : ∃ t, GramS [([97], .one (.cons .none (.lit [120]) .none .nil)), ([97], .one (.cons .none .dot .none .nil))] t ∧
    t = [97, 60, 45, 39, 120, 39, 97, 60, 45, 46] ∧
    lastDef "a" (Gram.pats [([97], .one (.cons .none (.lit [120]) .none .nil)), ([97], .one (.cons .none .dot .none .nil))] 0).1 =
      some (orPat [concatPat [.dot 1]]) := by
  have no : ∀ s : List UInt8, Apart s [] := by intro s x y _ hy; simp at hy
  have b1 : SeqS (.cons .none (.lit [120]) .none .nil) _ :=
    .cons .none (.lit (q := 39) (t := [120, 39]) (.inl rfl) (.cons (t := [120]) (.raw (by decide)) (by simp) .nil) .nil)
      .none .nil (no _)
  have b2 : SeqS (.cons .none .dot .none .nil) _ := .cons .none (.dot .nil) .none .nil (no _)
  refine ⟨_, .cons ⟨97, [], rfl, rfl, by simp⟩ .nil .nil (.one b1) (.cons ⟨97, [], rfl, rfl, by simp⟩ .nil .nil (.one b2) .nil
    (no _)) (by intro x y hx; simp at hx; subst hx; exact fun _ => .inl rfl), rfl, rfl⟩

/-- The grammar compiles (the hypothesis of `C51_compile` can be met). -/
theorem C51_grammar_compiles : ∃ code, Compiled reGrammar code := by
  have h : (match compileF 20 reGrammar ⟨0, 0, true⟩ with | .ok (raw, _) => fitsTest raw | _ => false) = true := by
    decide +kernel
  split at h
  · rename_i raw cst' hr
    obtain ⟨L, hL⟩ := fits_of_test h
    exact compiled_of_fits hr hL
  · cases h

/-- A text denotes at most one pattern. -/
theorem C51_unambiguous {top top' : Top} {text : List UInt8} (h : TopS top text) (h' : TopS top' text) (m : Nat) :
    top.pat m = top'.pat m := by
  obtain ⟨c, hf, hm⟩ := C51_parse h
  obtain ⟨c', hf', hm'⟩ := C51_parse h'
  have := hf.det hf'
  simp only [Option.some.injEq, Prod.mk.injEq, List.cons.injEq, and_true, true_and] at this
  subst this
  have e := (hm m).symm.trans (hm' m)
  simp only [Prod.mk.injEq, Option.some.injEq] at e
  exact Prod.ext e.1 e.2

/-! An example: ` a <- !'x' b+ / {{ . }}  # c` followed by a line end and `b <- [^a-f\n]`. -/

/-- The tree of the example. -/
def exTop : Top := .gram [
  ([97], .alt (.cons .not (.lit [120]) .none (.cons .none (.ident [98]) .plus .nil))
    (.one (.cons .none (.memo (.one (.cons .none .dot .none .nil))) .none .nil))),
  ([98], .one (.cons .none (.cls true [.range 97 102, .one 10]) .none .nil))]

/-- The text of the example. -/
def exText : List UInt8 := [32, 97, 32, 60, 45, 32, 33, 39, 120, 39, 32, 98, 43, 32, 47, 32, 123, 123, 32, 46, 32, 125, 125, 32, 32, 35, 32, 99, 10, 98, 32, 60, 45, 32, 91, 94, 97, 45, 102, 92, 110, 93]

theorem exTopS : TopS exTop exText := by
  have sp : Sp [32] := .blank rfl .nil
  have no : ∀ s : List UInt8, Apart s [] := by intro s x y _ hy; simp at hy
  have b2 : SeqS (.cons .none (.ident [98]) .plus .nil) _ :=
    .cons .none (.ident (sp := []) ⟨98, [], rfl, rfl, by simp⟩ .nil) (.plus sp) .nil (no _)
  have b1 : SeqS (.cons .not (.lit [120]) .none (.cons .none (.ident [98]) .plus .nil)) _ :=
    .cons (.not .nil) (.lit (q := 39) (t := [120, 39]) (.inl rfl) (.cons (t := [120]) (.raw (by decide)) (by simp) .nil) sp)
      .none b2 (by intro x y hx; simp at hx; subst hx; exact fun _ => .inl rfl)
  have b4 : SeqS (.cons .none .dot .none .nil) _ := .cons .none (.dot sp) .none .nil (no _)
  have b3 : SeqS (.cons .none (.memo (.one (.cons .none .dot .none .nil))) .none .nil) _ :=
    .cons .none (.memo sp (.one b4) (.blank (b := 32) rfl (.blank (b := 32) rfl (.comment (c := [32, 99]) (b := 10) (by simp) (.inl rfl) .nil))))
      .none .nil (no _)
  have b5 : SeqS (.cons .none (.cls true [.range 97 102, .one 10]) .none .nil) _ :=
    .cons .none (.cls (.yes .nil) (.range (t := [97]) (u := [102])
      (rest := [92, 110, 93]) (.raw (by decide)) (by simp) (.raw (by decide)) (.one (t := [92, 110]) (.esc .n) (by simp) (by simp)
      .nil)) (.inl rfl) (by intro _ x hx; simp at hx; subst hx; decide) (by simp) .nil) .none .nil (no _)
  exact .gram sp (.cons ⟨97, [], rfl, rfl, by simp⟩ sp sp (.alt b1 sp (.one b3))
    (.cons ⟨98, [], rfl, rfl, by simp⟩ sp sp (.one b5) .nil (no _))
    (by intro x y hx; simp at hx; subst hx; exact fun _ => .inl rfl)) (by simp) (by decide +kernel)

example : ∃ c, Ford exText [] reGrammar 0 (some (exText.length, [c])) ∧
    (fromAst false exText [c] 0).1 = some (.grammar "a" (.cons "a" (orPat [concatPat [.not (.lit [120]), .plus (.nonterm "b")],
      concatPat [.memo (orPat [concatPat [.dot 1]]) 0]]) (.cons "b" (orPat [concatPat [.cls
        ((CSet.range 97 102).add (CSet.new [10])).complement]]) .nil))) := by
  obtain ⟨c, h1, h2⟩ := C51_parse exTopS
  refine ⟨c, h1, ?_⟩
  rw [h2]
  have hset : (setOf fun x => [Item.range 97 102, .one 10].any (·.mem x) != true) =
      ((CSet.range 97 102).add (CSet.new [10])).complement := by
    apply CSet.ext_has
    intro x
    rw [has_setOf, CSet.has_complement, CSet.has_add, CSet.has_range, CSet.has_new]
    simp [Item.mem, Bool.beq_eq_decide_eq]
  rw [← hset]
  rfl

/-! ## Texts with a nil pattern

The grammar of `re` has expressions in single braces and empty classes; `compile` has no case for the first
and leaves the second alone, so `re.Compile` returns a nil pattern, or a pattern with a nil part, and no error. -/

/-- `re.Compile` accepts the text and returns a pattern that is nil or has a nil part. -/
def NilPattern (text : List UInt8) : Prop :=
  ∃ c, Ford text [] reGrammar 0 (some (text.length, [c])) ∧ (fromAst false text [c] 0).1 = none

/-- A test for it. -/
def nilTest (text : List UInt8) : Bool :=
  match eval 80 (⟨text, fun _ s _ _ _ _ _ => (none, s), false⟩ : Ctx Unit) [] reGrammar 0 ⟨[], ()⟩ with
  | some (.ok j [c], _, _) => j == text.length && (fromAst false text [c] 0).1.isNone
  | _ => false

theorem nilPattern_of {text : List UInt8} (h : nilTest text = true) : NilPattern text := by
  unfold nilTest at h
  split at h
  · rename_i j c far w he
    simp only [Bool.and_eq_true, beq_iff_eq, Option.isNone_iff_eq_none] at h
    obtain ⟨x, h1, _, h3⟩ := evals_pure reGrammar_ok.1 (fun _ h => by cases h) ⟨_, he⟩
    refine ⟨c, ?_, h.2⟩
    rw [← h.1]
    cases x with
    | none => cases h1
    | some x => obtain ⟨j', cs⟩ := x; cases h1; exact h3
  · cases h

/-- `{ . }` -/
theorem C51_brace_nil : NilPattern [123, 32, 46, 32, 125] := nilPattern_of (by decide +kernel)

/-- `[]` -/
theorem C51_empty_class_nil : NilPattern [91, 93] := nilPattern_of (by decide +kernel)

end Gpeg.Re
