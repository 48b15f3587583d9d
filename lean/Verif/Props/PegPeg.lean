import Verif.PegRe
import Verif.Props.Re
import Verif.Props.Files
import Verif.LangRun
/-!
# C78, C79: `grammars/peg.peg` and the syntax of `re`

C78: what the machine with the compiled grammar of `grammars/peg.peg` accepts. C79: how the language of that file and the language
`re.Compile` reads are related.
-/
namespace Gpeg
open Gpeg.Re Gpeg.PegPeg

theorem peg_wf : ((Top.gram pegGram).pat 0).1.WellFormed [] := Pat.wfB_sound 40 _ _ (by decide +kernel)

section
variable {σ : Type} {code : Code} {chk : CheckFn σ} {bufsz : Nat} {st : σ}

/-- **C78**. On every text the machine with the compiled grammar of `grammars/peg.peg` stops. If the text is one of the syntax it
matches all of it, otherwise it does not match. -/
theorem C78_peg (hc : Compiled pegGram.grammar code) (hchk : CheckOK chk) (hb : 0 < bufsz) (text : List UInt8) :
    (∃ r, RunsTo chk none code bufsz text st r) ∧ ∀ r, RunsTo chk none code bufsz text st r →
      (PegText text ∧ ∃ ch src, src.pos = text.length ∧ r = .done true (some (.dummy 0 text.length ch)) src [] () st) ∨
      (¬ PegText text ∧ ∃ src, r = .done false none src [] () st) := by
  obtain ⟨h1, h2⟩ := run_top (top := .gram pegGram) (m := 0) (st := st) peg_wf hc hchk hb text
  refine ⟨h1, fun r hr => ?_⟩
  have eats : ∀ {x}, Eats [] ((Top.gram pegGram).pat 0).1 text x → Eats pegEnv (.nonterm "Grammar") text x := fun h => by
    rw [peg_defs] at h
    exact grammar_eats h
  rcases h2 r hr with ⟨w, v, ch, src, e, he, hpos, rfl⟩ | ⟨he, src, rfl⟩
  · obtain ⟨rfl, ht⟩ := peg_iff.1 (eats he)
    rw [List.append_nil] at e
    subst e
    exact .inl ⟨ht, ch, src, hpos, rfl⟩
  · refine .inr ⟨fun ht => ?_, src, rfl⟩
    cases (eats he).det (peg_iff.2 ⟨rfl, ht⟩)

/-- **C79**. A text of the syntax of `grammars/peg.peg` without octal escapes of 200 and above and without `[]` and `[^` is a
grammar of the `re` syntax: its parse by `re.Compile` stops, matches all of the text and is read as the grammar of its definitions.
Missing: with `[^` the two syntaxes mean different classes, and `re` has no pattern for `[]` (`C51_empty_class_nil`) and a wrong one
for the octal escapes (`C46_octal_false`). -/
theorem C79_peg_re_partial {text : List UInt8} (h : PegText text) (hp : Plain text) (hc : Compiled reGrammar code) (hchk : CheckOK chk)
    (hb : 0 < bufsz) :
    ∃ n e g sp t, text = sp ++ t ∧ Sp sp ∧ GramS ((n, e) :: g) t ∧ (∃ r, RunsTo chk none code bufsz text st r) ∧
      ∀ r, RunsTo chk none code bufsz text st r → ∃ ch src, r = .done true (some (.dummy 0 text.length ch)) src [] () st ∧
        ∀ m, ∃ ds m', ds.names.Nodup ∧ (∀ k, ds.find k = lastDef k (Gram.pats ((n, e) :: g) m).1) ∧
          fromAst false text (Capture.treesL ch) m = (some (.grammar (nameOf n) ds), m') := by
  obtain ⟨sp, t, rfl, hs, ht⟩ := h
  obtain ⟨n, e, g, hg⟩ := syn_re ht (hp.part (a := sp) (c := []) (by simp))
  obtain ⟨h1, h2⟩ := C51_grammar (chk := chk) (st := st) hs hg hc hchk hb
  refine ⟨n, e, g, sp, t, rfl, hs, hg, h1, fun r hr => ?_⟩
  obtain ⟨ch, src, e1, h3⟩ := h2 r hr
  refine ⟨ch, src, e1, fun m => ?_⟩
  obtain ⟨ds, m', k1, k2, k3, _⟩ := h3 m
  exact ⟨ds, m', k1, k2, k3⟩

/-- **C79**, the other direction. A grammar of the `re` syntax that uses none of its additions — memoization, complements of classes,
the escape `\-` — is accepted by `grammars/peg.peg`. -/
theorem C79_re_peg {g : Gram} {text : List UInt8} (h : TopS (.gram g) text) (hq : ∀ d ∈ g, simpleE d.2 = true) (hd : NoDash text)
    (hc : Compiled pegGram.grammar code) (hchk : CheckOK chk) (hb : 0 < bufsz) :
    (∃ r, RunsTo chk none code bufsz text st r) ∧
    ∀ r, RunsTo chk none code bufsz text st r → ∃ ch src, r = .done true (some (.dummy 0 text.length ch)) src [] () st := by
  have ht : PegText text := by
    cases h with
    | @gram _ sp t hs hg hne _ => exact ⟨sp, t, rfl, hs, gram_peg hg hq (hd.part (a := sp) (c := []) (by simp)) hne⟩
  obtain ⟨h1, h2⟩ := C78_peg (st := st) hc hchk hb text
  refine ⟨h1, fun r hr => ?_⟩
  rcases h2 r hr with ⟨_, ch, src, _, e⟩ | ⟨hn, _⟩
  · exact ⟨ch, src, e⟩
  · exact absurd ht hn

end

/-- `\-` does not occur. -/
def noDashB : List UInt8 → Bool
  | a :: b :: l => !(a == 92 && b == 45) && noDashB (b :: l)
  | _ => true

theorem noDashB_sound {l : List UInt8} (h : noDashB l = true) : NoDash l := by
  intro u v e
  induction u generalizing l with
  | nil => subst e; cases h
  | cons x u ih =>
    cases l with
    | nil => cases e
    | cons a l =>
      injection e with _ e
      refine ih ?_ e
      cases l with
      | nil => rfl
      | cons b l => exact (Bool.and_eq_true_iff.1 h).2

theorem pegText_of {g : Gram} {text : List UInt8} (h : TopS (.gram g) text) (hq : ∀ d ∈ g, simpleE d.2 = true)
    (hd : noDashB text = true) : PegText text := by
  have hd := noDashB_sound hd
  cases h with
  | @gram _ sp t hs hg hne _ => exact ⟨sp, t, rfl, hs, gram_peg hg hq (hd.part (a := sp) (c := []) (by simp)) hne⟩

/-- The file accepts itself, and the hypotheses of `C78_peg` and `C79_re_peg` can be met. -/
theorem C79_self : (∃ code, Compiled pegGram.grammar code) ∧ TopS (.gram pegGram) pegFile ∧ (∀ d ∈ pegGram, simpleE d.2 = true) ∧
    NoDash pegFile ∧ PegText pegFile :=
  have hq : ∀ d ∈ pegGram, simpleE d.2 = true := by decide +kernel
  have hd : noDashB pegFile = true := by rw [peg_eq]; decide +kernel
  ⟨C58_peg.2.1, peg_text, hq, noDashB_sound hd, pegText_of peg_text hq hd⟩

/-- A test for `Plain`: no `[]`, no `[^`, no `\2`. -/
def plainB : List UInt8 → Bool
  | a :: b :: l => !(a == 91 && (b == 93 || b == 94)) && !(a == 92 && b == 50) && plainB (b :: l)
  | _ => true

theorem plainB_sound {l : List UInt8} (h : plainB l = true) : Plain l := by
  have key : ∀ {u : List UInt8} {x y : UInt8} {v l : List UInt8}, plainB l = true → l = u ++ x :: y :: v →
      (!(x == 91 && (y == 93 || y == 94)) && !(x == 92 && y == 50)) = true := by
    intro u
    induction u with
    | nil => intro x y v l h e; subst e; exact (Bool.and_eq_true_iff.1 h).1
    | cons a u ih =>
      intro x y v l h e
      cases l with
      | nil => cases e
      | cons b l =>
        injection e with _ e
        refine ih ?_ e
        cases l with
        | nil => rfl
        | cons c l => exact (Bool.and_eq_true_iff.1 h).2
  refine ⟨fun u v b c e => ?_, fun u v x e => ?_⟩
  · have := key h e
    simp at this
  · have := key h e
    simpa using this

/-- The hypotheses of `C79_peg_re_partial` can be met, for example by the file itself. -/
example : (∃ code, Compiled reGrammar code) ∧ PegText pegFile ∧ Plain pegFile :=
  ⟨C51_grammar_compiles, C79_self.2.2.2.2, plainB_sound (by rw [peg_eq]; decide +kernel)⟩

theorem refuses_peg {n : Nat} {s : List UInt8} (h : refuses n ((Top.gram pegGram).pat 0).1 s = true) : ¬ PegText s := fun ht => by
  have he := refuses_sound (top := .gram pegGram) (m := 0) h
  rw [peg_defs] at he
  cases (grammar_eats he).det (peg_iff.2 ⟨rfl, ht⟩)

/-- Texts outside the syntax: an addition of `re`, no definition, an unclosed literal, an octal escape without digits. -/
example : ¬ PegText (bytes "a<-{{b}}") ∧ ¬ PegText (bytes "a/b") ∧ ¬ PegText (bytes "a<-'b") ∧ ¬ PegText (bytes "a<-'\\8'") := by
  exact ⟨refuses_peg (n := 60) (by decide +kernel), refuses_peg (n := 60) (by decide +kernel), refuses_peg (n := 60) (by decide +kernel), refuses_peg (n := 60) (by decide +kernel)⟩

/-- What `Plain` leaves out: the syntax has `[]`, `[^a]` and `'\200'`. -/
example : PegText (bytes "a<-[]") ∧ PegText (bytes "a<-[^a]") ∧ PegText (bytes "a<-'\\200'") := by
  have h : ∀ {t}, Syn .prim t → PegText (97 :: 60 :: 45 :: t) := fun {t} ht => by
    have : Syn .expr t := by
      have := Syn.item (.inl rfl) ht (.inl rfl) .empty (fun _ _ _ h => by cases h)
      simp only [List.nil_append, List.append_nil] at this
      exact .one this
    exact ⟨[], _, rfl, .nil, .dfn (n := [97]) (sp := []) (sp' := []) ⟨97, [], rfl, rfl, fun _ h => by cases h⟩ .nil .nil this⟩
  refine ⟨?_, ?_, ?_⟩
  · rw [show bytes "a<-[]" = 97 :: 60 :: 45 :: [91, 93] by decide +kernel]
    exact h (.cls (t := [93]) .nil .nil)
  · rw [show bytes "a<-[^a]" = 97 :: 60 :: 45 :: [91, 94, 97, 93] by decide +kernel]
    exact h (.cls (t := [94, 97, 93]) (.one (t := [94]) (.raw (by decide)) (by decide) (by decide)
      (.one (t := [97]) (.raw (by decide)) (by decide) (by decide) .nil)) .nil)
  · rw [show bytes "a<-'\\200'" = 97 :: 60 :: 45 :: [39, 92, 50, 48, 48, 39] by decide +kernel]
    exact h (.lit (t := [92, 50, 48, 48, 39]) (.inl rfl) (.cons (t := [92, 50, 48, 48]) (.oct3 rfl (by decide) rfl rfl) (by decide) .nil) .nil)

/-- Of the other files of the directory, `re.peg` is a text of that syntax. -/
theorem C79_files : PegText reFile := pegText_of re_text (by decide +kernel) (by rw [re_eq]; decide +kernel)

/-- **C79**, a finding. Without the hypothesis on `\-` the second direction of C79 is wrong, and the files of the directory show it:
`arith.peg` and `json.peg` are grammars of the `re` syntax that use no other addition, and `peg.peg` refuses them. -/
theorem C79_files_false : (TopS (.gram arithGram) arithFile ∧ (∀ d ∈ arithGram, simpleE d.2 = true) ∧ ¬ PegText arithFile) ∧
    TopS (.gram jsonGram) jsonFile ∧ (∀ d ∈ jsonGram, simpleE d.2 = true) ∧ ¬ PegText jsonFile :=
  ⟨⟨arith_text, by decide +kernel, refuses_peg (n := 300) (by rw [arith_eq]; decide +kernel)⟩,
    json_text, by decide +kernel, refuses_peg (n := 300) (by rw [json_eq]; decide +kernel)⟩

end Gpeg
