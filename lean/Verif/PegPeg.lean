import Verif.RePeg
import Verif.ReConv
/-!
# `grammars/peg.peg` and the syntax of parsing expression grammars

The syntax (`Syn`, `PegText`) is described without parsing expressions; `peg_iff` says that `grammars/peg.peg` matches its texts.
-/
namespace Gpeg.PegPeg
open Gpeg.Re (Sp IsName Apart isStart isCont isOct NoOct NoSp blank cset has_cset Item Def bytes nameOf pegGram Top Gram)

/-! ## The syntax -/

/-- `Chr t rest`: the text `t` is a character of a literal or a class if `rest` follows. An escape takes all the octal digits it
can. -/
inductive Chr : List UInt8 → List UInt8 → Prop
  | raw {b rest} : b ≠ 92 → Chr [b] rest
  | esc {c rest} : c ∈ [110, 114, 116, 39, 34, 91, 93, 92] → Chr [92, c] rest
  | oct3 {a b c rest} : isOct a = true → a ≤ 50 → isOct b = true → isOct c = true → Chr [92, a, b, c] rest
  | oct2 {a b rest} : isOct a = true → isOct b = true → 50 < a ∨ NoOct rest → Chr [92, a, b] rest
  | oct1 {a rest} : isOct a = true → NoOct rest → Chr [92, a] rest

/-- The characters of a literal, and its closing quote. -/
inductive Lit (q : UInt8) : List UInt8 → Prop
  | nil : Lit q [q]
  | cons {t rest} : Chr t rest → t.head? ≠ some q → Lit q rest → Lit q (t ++ rest)

/-- The elements of a class, and its closing bracket. A single character is not followed by `-`. -/
inductive Items : List UInt8 → Prop
  | nil : Items [93]
  | one {t rest} : Chr t rest → t.head? ≠ some 93 → rest.head? ≠ some 45 → Items rest → Items (t ++ rest)
  | range {t u rest} : Chr t (45 :: (u ++ rest)) → t.head? ≠ some 93 → Chr u rest → Items rest → Items (t ++ 45 :: (u ++ rest))

/-- Nothing, or one of the operators and spacing. -/
def Op (ops t : List UInt8) : Prop := t = [] ∨ ∃ b sp, b ∈ ops ∧ Sp sp ∧ t = b :: sp

/-- The syntactic categories. -/
inductive Cat | prim | seq | expr | defs

/-- Texts of the categories. Every token may be followed by spacing. -/
inductive Syn : Cat → List UInt8 → Prop
  | ident {n sp} : IsName n → Sp sp → Syn .prim (n ++ sp)
  | paren {sp t sp'} : Sp sp → Syn .expr t → Sp sp' → Syn .prim (40 :: (sp ++ (t ++ 41 :: sp')))
  | lit {q t sp} : q = 39 ∨ q = 34 → Lit q t → Sp sp → Syn .prim (q :: (t ++ sp))
  | cls {t sp} : Items t → Sp sp → Syn .prim (91 :: (t ++ sp))
  | dot {sp} : Sp sp → Syn .prim (46 :: sp)
  | empty : Syn .seq []
  | item {a b c t} : Op [38, 33] a → Syn .prim b → Op [63, 42, 43] c → Syn .seq t → Apart (b ++ c) t → Syn .seq (a ++ (b ++ (c ++ t)))
  | one {t} : Syn .seq t → Syn .expr t
  | alt {t sp u} : Syn .seq t → Sp sp → Syn .expr u → Syn .expr (t ++ 47 :: (sp ++ u))
  | dfn {n sp sp' t} : IsName n → Sp sp → Sp sp' → Syn .expr t → Syn .defs (n ++ (sp ++ 60 :: 45 :: (sp' ++ t)))
  | dfns {n sp sp' t u} : IsName n → Sp sp → Sp sp' → Syn .expr t → Syn .defs u → Apart t u →
      Syn .defs (n ++ (sp ++ 60 :: 45 :: (sp' ++ (t ++ u))))

/-- A text of the syntax: spacing and definitions. -/
def PegText (text : List UInt8) : Prop := ∃ sp t, text = sp ++ t ∧ Sp sp ∧ Syn .defs t

/-! ## The file -/

/-- The class of escaped characters. -/
abbrev escCls : CSet := cset [.one 110, .one 114, .one 116, .one 39, .one 34, .one 91, .one 93, .one 92]
/-- Octal digits. -/
abbrev octCls : CSet := cset [.range 48 55]
/-- A quoted text. -/
abbrev quoted (q : UInt8) : Pat := .seq (.seq (.seq (.cls (cset [.one q])) (.star (.seq (.not (.cls (cset [.one q]))) (.nonterm "Char"))))
  (.cls (cset [.one q]))) (.nonterm "Spacing_")
abbrev bGrammar : Pat := .seq (.seq (.nonterm "Spacing_") (.plus (.nonterm "Definition"))) (.nonterm "EndOfFile_")
abbrev bDefinition : Pat := .seq (.seq (.nonterm "Identifier") (.nonterm "LEFTARROW_")) (.nonterm "Expression")
abbrev bExpression : Pat := .seq (.nonterm "Sequence") (.star (.seq (.nonterm "SLASH_") (.nonterm "Sequence")))
abbrev bPrefix : Pat := .seq (.opt (.alt (.nonterm "AND") (.nonterm "NOT"))) (.nonterm "Suffix")
abbrev bSuffix : Pat := .seq (.nonterm "Primary") (.opt (.alt (.nonterm "QUESTION") (.alt (.nonterm "STAR") (.nonterm "PLUS"))))
abbrev bPrimary : Pat := .alt (.seq (.nonterm "Identifier") (.not (.nonterm "LEFTARROW_"))) (.alt (.seq (.seq (.nonterm "OPEN_")
  (.nonterm "Expression")) (.nonterm "CLOSE_")) (.alt (.nonterm "Literal") (.alt (.nonterm "Class") (.nonterm "DOT"))))
abbrev bIdentifier : Pat := .seq (.seq (.nonterm "IdentStart") (.star (.nonterm "IdentCont"))) (.nonterm "Spacing_")
abbrev bClass : Pat := .seq (.seq (.seq (.lit [91]) (.star (.seq (.not (.lit [93])) (.nonterm "Range")))) (.lit [93])) (.nonterm "Spacing_")
abbrev bRange : Pat := .alt (.seq (.seq (.nonterm "Char") (.lit [45])) (.nonterm "Char")) (.nonterm "Char")
abbrev bChar3 : Pat := .seq (.seq (.seq (.lit [92]) (.cls (cset [.range 48 50]))) (.cls octCls)) (.cls octCls)
abbrev bChar : Pat := .alt (.seq (.lit [92]) (.cls escCls)) (.alt bChar3 (.alt (.seq (.seq (.lit [92]) (.cls octCls)) (.opt (.cls octCls)))
  (.seq (.not (.lit [92])) (.dot 1))))
/-- A token. -/
abbrev token (w : List UInt8) : Pat := .seq (.lit w) (.nonterm "Spacing_")

/-- The definitions of `grammars/peg.peg` as patterns. -/
def pegDefs : Defs :=
  .cons "Grammar" bGrammar
  (.cons "Definition" bDefinition
  (.cons "Expression" bExpression
  (.cons "Sequence" (.star (.nonterm "Prefix"))
  (.cons "Prefix" bPrefix
  (.cons "Suffix" bSuffix
  (.cons "Primary" bPrimary
  (.cons "Identifier" bIdentifier
  (.cons "IdentStart" (.cls (cset [.range 97 122, .range 65 90, .one 95]))
  (.cons "IdentCont" (.alt (.nonterm "IdentStart") (.cls (cset [.range 48 57])))
  (.cons "Literal" (.alt (quoted 39) (quoted 34))
  (.cons "Class" bClass
  (.cons "Range" bRange
  (.cons "Char" bChar
  (.cons "LEFTARROW_" (token [60, 45])
  (.cons "SLASH_" (token [47])
  (.cons "AND" (token [38])
  (.cons "NOT" (token [33])
  (.cons "QUESTION" (token [63])
  (.cons "STAR" (token [42])
  (.cons "PLUS" (token [43])
  (.cons "OPEN_" (token [40])
  (.cons "CLOSE_" (token [41])
  (.cons "DOT" (token [46])
  (.cons "Spacing_" (Re.spacingPat "Space_" "Comment_")
  (.cons "Comment_" (Re.commentPat "EndOfLine_")
  (.cons "Space_" (Re.spacePat "EndOfLine_")
  (.cons "EndOfLine_" Re.eolPat
  (.cons "EndOfFile_" (.not (.dot 1))
  .nil))))))))))))))))))))))))))))

theorem peg_defs : ((Top.gram pegGram).pat 0).1 = .grammar "Grammar" pegDefs := by
  have h0 : nameOf (bytes "Grammar") = "Grammar" := by decide +kernel
  have h1 : nameOf (bytes "Definition") = "Definition" := by decide +kernel
  have h2 : nameOf (bytes "Expression") = "Expression" := by decide +kernel
  have h3 : nameOf (bytes "Sequence") = "Sequence" := by decide +kernel
  have h4 : nameOf (bytes "Prefix") = "Prefix" := by decide +kernel
  have h5 : nameOf (bytes "Suffix") = "Suffix" := by decide +kernel
  have h6 : nameOf (bytes "Primary") = "Primary" := by decide +kernel
  have h7 : nameOf (bytes "Identifier") = "Identifier" := by decide +kernel
  have h8 : nameOf (bytes "IdentStart") = "IdentStart" := by decide +kernel
  have h9 : nameOf (bytes "IdentCont") = "IdentCont" := by decide +kernel
  have h10 : nameOf (bytes "Literal") = "Literal" := by decide +kernel
  have h11 : nameOf (bytes "Class") = "Class" := by decide +kernel
  have h12 : nameOf (bytes "Range") = "Range" := by decide +kernel
  have h13 : nameOf (bytes "Char") = "Char" := by decide +kernel
  have h14 : nameOf (bytes "LEFTARROW_") = "LEFTARROW_" := by decide +kernel
  have h15 : nameOf (bytes "SLASH_") = "SLASH_" := by decide +kernel
  have h16 : nameOf (bytes "AND") = "AND" := by decide +kernel
  have h17 : nameOf (bytes "NOT") = "NOT" := by decide +kernel
  have h18 : nameOf (bytes "QUESTION") = "QUESTION" := by decide +kernel
  have h19 : nameOf (bytes "STAR") = "STAR" := by decide +kernel
  have h20 : nameOf (bytes "PLUS") = "PLUS" := by decide +kernel
  have h21 : nameOf (bytes "OPEN_") = "OPEN_" := by decide +kernel
  have h22 : nameOf (bytes "CLOSE_") = "CLOSE_" := by decide +kernel
  have h23 : nameOf (bytes "DOT") = "DOT" := by decide +kernel
  have h24 : nameOf (bytes "Spacing_") = "Spacing_" := by decide +kernel
  have h25 : nameOf (bytes "Comment_") = "Comment_" := by decide +kernel
  have h26 : nameOf (bytes "Space_") = "Space_" := by decide +kernel
  have h27 : nameOf (bytes "EndOfLine_") = "EndOfLine_" := by decide +kernel
  have h28 : nameOf (bytes "EndOfFile_") = "EndOfFile_" := by decide +kernel
  simp only [pegGram, Re.Top.pat, Re.Gram.pats, Re.Expr.pat, Re.Expr.alts, Re.Seqn.pats, Re.Prim.pat, Re.Pre.apply, Re.Suf.apply, concatPat, orPat,
    List.foldl, List.reverse_cons, List.reverse_nil, List.nil_append, List.cons_append, h0, h1, h2, h3, h4, h5, h6, h7, h8, h9, h10, h11, h12, h13,
    h14, h15, h16, h17, h18, h19, h20, h21, h22, h23, h24, h25, h26, h27, h28]
  rfl

abbrev pegEnv : Env := [pegDefs]

theorem l_Grammar : lookupNT "Grammar" pegEnv = some (bGrammar, pegEnv) := rfl
theorem l_Definition : lookupNT "Definition" pegEnv = some (bDefinition, pegEnv) := rfl
theorem l_Expression : lookupNT "Expression" pegEnv = some (bExpression, pegEnv) := rfl
theorem l_Sequence : lookupNT "Sequence" pegEnv = some (.star (.nonterm "Prefix"), pegEnv) := rfl
theorem l_Prefix : lookupNT "Prefix" pegEnv = some (bPrefix, pegEnv) := rfl
theorem l_Suffix : lookupNT "Suffix" pegEnv = some (bSuffix, pegEnv) := rfl
theorem l_Primary : lookupNT "Primary" pegEnv = some (bPrimary, pegEnv) := rfl
theorem l_Identifier : lookupNT "Identifier" pegEnv = some (bIdentifier, pegEnv) := rfl
theorem l_IdentStart : lookupNT "IdentStart" pegEnv = some (.cls (cset [.range 97 122, .range 65 90, .one 95]), pegEnv) := rfl
theorem l_IdentCont : lookupNT "IdentCont" pegEnv = some (.alt (.nonterm "IdentStart") (.cls (cset [.range 48 57])), pegEnv) := rfl
theorem l_Literal : lookupNT "Literal" pegEnv = some (.alt (quoted 39) (quoted 34), pegEnv) := rfl
theorem l_Class : lookupNT "Class" pegEnv = some (bClass, pegEnv) := rfl
theorem l_Range : lookupNT "Range" pegEnv = some (bRange, pegEnv) := rfl
theorem l_Char : lookupNT "Char" pegEnv = some (bChar, pegEnv) := rfl
theorem l_Spacing : lookupNT "Spacing_" pegEnv = some (Re.spacingPat "Space_" "Comment_", pegEnv) := rfl
theorem l_Comment : lookupNT "Comment_" pegEnv = some (Re.commentPat "EndOfLine_", pegEnv) := rfl
theorem l_Space : lookupNT "Space_" pegEnv = some (Re.spacePat "EndOfLine_", pegEnv) := rfl
theorem l_EndOfLine : lookupNT "EndOfLine_" pegEnv = some (Re.eolPat, pegEnv) := rfl
theorem l_EndOfFile : lookupNT "EndOfFile_" pegEnv = some (.not (.dot 1), pegEnv) := rfl
theorem l_Arrow : lookupNT "LEFTARROW_" pegEnv = some (token [60, 45], pegEnv) := rfl

/-- Induction on a repetition. -/
theorem star_ind {env : Env} {p : Pat} {P : List UInt8 → List UInt8 → Prop} (h0 : ∀ s, Eats env p s none → P s s)
    (h1 : ∀ s s' r, Eats env p s (some s') → Eats env (.star p) s' (some r) → P s' r → P s r) {s r : List UInt8}
    (h : Eats env (.star p) s (some r)) : P s r := by
  have key : ∀ {q : Pat} {s : List UInt8} {x : Option (List UInt8)}, Eats env q s x → q = .star p → ∀ r, x = some r → P s r := by
    clear h
    intro q s x h
    induction h with
    | starEnd h => rintro ⟨⟩ r ⟨⟩; exact h0 _ h
    | starStep h g _ ih => rintro ⟨⟩ r rfl; exact h1 _ _ _ h g (ih h0 h1 rfl r rfl)
    | _ => intro e; cases e
  exact key h rfl r rfl

/-! ## Spacing -/

theorem sp_eats {t r : List UInt8} (ht : Sp t) (hr : NoSp r) : Eats pegEnv (.nonterm "Spacing_") (t ++ r) (some r) :=
  Re.spacing_eats l_Spacing l_Comment l_Space l_EndOfLine hr ht

/-- A line end. -/
def Eol (t : List UInt8) : Prop := t = [13, 10] ∨ t = [10] ∨ t = [13]

theorem eol_inv {s r : List UInt8} (h : Eats pegEnv (.nonterm "EndOfLine_") s (some r)) : ∃ t, s = t ++ r ∧ Eol t := by
  rcases alt_inv (nonterm_inv l_EndOfLine h) with h | ⟨_, h⟩
  · exact ⟨_, lit_inv h, .inl rfl⟩
  · rcases alt_inv h with h | ⟨_, h⟩
    · exact ⟨_, lit_inv h, .inr (.inl rfl)⟩
    · exact ⟨_, lit_inv h, .inr (.inr rfl)⟩

theorem eol_some {b : UInt8} {l : List UInt8} (hb : b = 10 ∨ b = 13) : ∃ r, Eats pegEnv (.nonterm "EndOfLine_") (b :: l) (some r) := by
  rcases hb with rfl | rfl
  · exact ⟨l, .nonterm l_EndOfLine (.altR (.litF (by simp)) (.altL (.litOk (w := [10]))))⟩
  · by_cases h : l.head? = some 10
    · cases l with
      | nil => cases h
      | cons a l => cases h; exact ⟨l, .nonterm l_EndOfLine (.altL (.litOk (w := [13, 10])))⟩
    · refine ⟨l, .nonterm l_EndOfLine (.altR (.litFail ?_) (.altR (.litF (by simp)) (.litOk (w := [13]))))⟩
      rintro ⟨t, ht⟩
      simp only [List.cons_append, List.nil_append, List.cons.injEq, true_and] at ht
      exact h (by rw [← ht]; rfl)

theorem sp_eol {t l : List UInt8} (ht : Eol t) (hl : Sp l) : Sp (t ++ l) := Re.sp_eol ht hl

theorem sp_inv {s r : List UInt8} (h : Eats pegEnv (.nonterm "Spacing_") s (some r)) : ∃ sp, s = sp ++ r ∧ Sp sp := by
  refine star_ind (P := fun s r => ∃ sp, s = sp ++ r ∧ Sp sp) (fun s _ => ⟨[], rfl, .nil⟩) (fun s s' r h _ ih => ?_) (nonterm_inv l_Spacing h)
  obtain ⟨sp, rfl, hsp⟩ := ih
  rcases alt_inv h with h | ⟨_, h⟩
  · rcases alt_inv (nonterm_inv l_Space h) with h | ⟨_, h⟩
    · exact ⟨32 :: sp, lit_inv (w := [32]) h, .blank (by decide) hsp⟩
    · rcases alt_inv h with h | ⟨_, h⟩
      · exact ⟨9 :: sp, lit_inv (w := [9]) h, .blank (by decide) hsp⟩
      · obtain ⟨t, rfl, ht⟩ := eol_inv h
        exact ⟨t ++ sp, by simp, sp_eol ht hsp⟩
  · obtain ⟨s2, hh, h2⟩ := seq_inv (nonterm_inv l_Comment h)
    obtain ⟨s1, h0, h1⟩ := seq_inv hh
    obtain rfl := lit_inv h0
    obtain ⟨t, rfl, ht⟩ := eol_inv h2
    obtain ⟨c, rfl, hc⟩ := star_ind (P := fun s r => ∃ c, s = c ++ r ∧ ∀ x ∈ c, x ≠ 10 ∧ x ≠ 13) (fun s _ => ⟨[], rfl, by simp⟩)
      (p := .seq (.not (.nonterm "EndOfLine_")) (.dot 1)) (fun s s' r h _ ih => by
        obtain ⟨c, rfl, hc⟩ := ih
        cases h with
        | seqOk h1 h2 =>
          cases h1 with
          | notOk h1 =>
            cases h2 with
            | @dotOk _ b _ =>
              refine ⟨b :: c, rfl, fun x hx => ?_⟩
              rcases List.mem_cons.1 hx with rfl | hx
              · refine ⟨fun e => ?_, fun e => ?_⟩
                · obtain ⟨_, h'⟩ := eol_some (l := c ++ r) (.inl e); cases h1.det h'
                · obtain ⟨_, h'⟩ := eol_some (l := c ++ r) (.inr e); cases h1.det h'
              · exact hc x hx) h1
    exact ⟨35 :: (c ++ (t ++ sp)), by simp, Re.sp_comment hc ht hsp⟩

/-! ## Tokens -/

theorem tok_eats {n : String} {w sp r : List UInt8} (hl : lookupNT n pegEnv = some (token w, pegEnv)) (hs : Sp sp) (hr : NoSp r) :
    Eats pegEnv (.nonterm n) (w ++ (sp ++ r)) (some r) := .nonterm hl (.seqOk .litOk (sp_eats hs hr))

theorem tok_none {n : String} {b : UInt8} {w s : List UInt8} (hl : lookupNT n pegEnv = some (token (b :: w), pegEnv)) (h : s.head? ≠ some b) :
    Eats pegEnv (.nonterm n) s none := .nonterm hl (.seqFail (.litF h))

theorem tok_inv {n : String} {w s r : List UInt8} (hl : lookupNT n pegEnv = some (token w, pegEnv)) (h : Eats pegEnv (.nonterm n) s (some r)) :
    ∃ sp, s = w ++ (sp ++ r) ∧ Sp sp := by
  obtain ⟨s', h1, h2⟩ := seq_inv (nonterm_inv hl h)
  obtain rfl := lit_inv h1
  obtain ⟨sp, rfl, hs⟩ := sp_inv h2
  exact ⟨sp, rfl, hs⟩

/-! ## Identifiers -/

theorem has_cont (x : UInt8) : isCont x = (isStart x || (cset [.range 48 57]).has x) := by
  rw [has_cset]; simp [Item.mem, isCont]

theorem cont_eats {x : UInt8} {l : List UInt8} (hx : isCont x = true) : Eats pegEnv (.nonterm "IdentCont") (x :: l) (some l) := by
  rw [has_cont] at hx
  refine .nonterm l_IdentCont ?_
  by_cases h : isStart x = true
  · exact .altL (.nonterm l_IdentStart (.clsOk (by rw [Re.has_identStart]; exact h)))
  · refine .altR (.nonterm l_IdentStart (.clsFail fun y hy => ?_)) (.clsOk ?_)
    · cases hy; rw [Re.has_identStart]; simpa using h
    · rw [Bool.or_eq_true] at hx; exact hx.resolve_left h

theorem cont_none {s : List UInt8} (h : NotIn isCont s) : Eats pegEnv (.nonterm "IdentCont") s none := by
  refine .nonterm l_IdentCont (.altR (.nonterm l_IdentStart (.clsFail fun x hx => ?_)) (.clsFail fun x hx => ?_))
  · have := h x hx
    rw [has_cont, Bool.or_eq_false_iff] at this
    rw [Re.has_identStart]
    exact this.1
  · have := h x hx
    rw [has_cont, Bool.or_eq_false_iff] at this
    exact this.2

theorem name_eats {n sp r : List UInt8} (hn : IsName n) (hs : Sp sp) (hr : NoSp r) (ha : Apart (n ++ sp) r) :
    Eats pegEnv (.nonterm "Identifier") (n ++ (sp ++ r)) (some r) := by
  have hstop : NotIn isCont (sp ++ r) := Re.ident_after hn hs ha
  obtain ⟨b, l, rfl, hb, hl⟩ := hn
  refine .nonterm l_Identifier (.seqOk (s' := sp ++ r) (.seqOk (s' := l ++ (sp ++ r))
    (.nonterm l_IdentStart (.clsOk (by rw [Re.has_identStart]; exact hb))) ?_) (sp_eats hs hr))
  clear ha hb hs
  generalize sp ++ r = v at *
  induction l with
  | nil => exact .starEnd (cont_none hstop)
  | cons x l ih => exact .starStep (cont_eats (hl x (by simp))) (ih fun y hy => hl y (by simp [hy]))

theorem name_none {s : List UInt8} (h : NotIn isStart s) : Eats pegEnv (.nonterm "Identifier") s none :=
  .nonterm l_Identifier (.seqFail (.seqFail (.nonterm l_IdentStart (.clsFail fun x hx => by rw [Re.has_identStart]; exact h x hx))))

theorem name_inv {s r : List UInt8} (h : Eats pegEnv (.nonterm "Identifier") s (some r)) :
    ∃ n sp, s = n ++ (sp ++ r) ∧ IsName n ∧ Sp sp ∧ Apart (n ++ sp) r := by
  obtain ⟨s2, hh, h2⟩ := seq_inv (nonterm_inv l_Identifier h)
  obtain ⟨s1, h0, h1⟩ := seq_inv hh
  obtain ⟨b, rfl, hb⟩ := cls_inv (nonterm_inv l_IdentStart h0)
  rw [Re.has_identStart] at hb
  obtain ⟨sp, rfl, hsp⟩ := sp_inv h2
  obtain ⟨l, e, hl, hstop⟩ := star_ind (P := fun s r => ∃ l, s = l ++ r ∧ (∀ x ∈ l, isCont x = true) ∧ NotIn isCont r)
    (fun s h => ⟨[], rfl, by simp, fun x hx => by
      cases s with
      | nil => cases hx
      | cons y s =>
        cases hx
        cases hc : isCont x with
        | false => rfl
        | true => cases h.det (cont_eats hc)⟩)
    (fun s s' r h _ ih => by
      obtain ⟨l, rfl, hl, hr⟩ := ih
      have : ∃ x, s = x :: (l ++ r) ∧ isCont x = true := by
        rcases alt_inv (nonterm_inv l_IdentCont h) with h | ⟨_, h⟩
        · obtain ⟨x, rfl, hx⟩ := cls_inv (nonterm_inv l_IdentStart h)
          rw [Re.has_identStart] at hx
          exact ⟨x, rfl, by rw [has_cont, hx]; rfl⟩
        · obtain ⟨x, rfl, hx⟩ := cls_inv h
          exact ⟨x, rfl, by rw [has_cont, hx, Bool.or_true]⟩
      obtain ⟨x, rfl, hx⟩ := this
      refine ⟨x :: l, rfl, fun y hy => ?_, hr⟩
      rcases List.mem_cons.1 hy with rfl | hy
      · exact hx
      · exact hl y hy) h1
  subst e
  refine ⟨b :: l, sp, rfl, ⟨b, l, rfl, hb, hl⟩, hsp, ?_⟩
  cases sp with
  | nil => exact Re.apart_head hstop
  | cons a sp => exact fun x y hx _ => .inl (Re.sp_last hsp (by rwa [Re.last_append (by simp)] at hx))

/-! ## Characters -/

theorem has_oct (x : UInt8) : octCls.has x = isOct x := by rw [has_cset]; simp [Item.mem, isOct]
theorem has_esc (x : UInt8) : escCls.has x = true ↔ x ∈ [110, 114, 116, 39, 34, 91, 93, 92] := by
  rw [has_cset]; simp [Item.mem]
theorem has_oct2 (x : UInt8) : (cset [.range 48 50]).has x = (isOct x && decide (x ≤ 50)) := by
  rw [has_cset]
  have : ∀ x : UInt8, ([Item.range 48 50].any fun y => y.mem x) = (isOct x && decide (x ≤ 50)) := forall_byte (by decide +kernel)
  exact this x
theorem oct_not_esc {x : UInt8} (h : isOct x = true) : escCls.has x = false := by
  rw [has_cset]
  have : ∀ x : UInt8, isOct x = true → ([Item.one 110, .one 114, .one 116, .one 39, .one 34, .one 91, .one 93, .one 92].any fun y => y.mem x) = false :=
    forall_byte (by decide +kernel)
  exact this x h

theorem oct_none {s : List UInt8} (h : NoOct s) : Eats pegEnv (.cls octCls) s none := .clsFail fun x hx => by rw [has_oct]; exact h x hx
theorem oct_eats {x : UInt8} {s : List UInt8} (h : isOct x = true) : Eats pegEnv (.cls octCls) (x :: s) (some s) := .clsOk (by rw [has_oct]; exact h)
theorem oct2_eats {x : UInt8} {s : List UInt8} (h : isOct x = true) (h' : x ≤ 50) : Eats pegEnv (.cls (cset [.range 48 50])) (x :: s) (some s) :=
  .clsOk (by rw [has_oct2, h]; simpa using h')
theorem oct2_none {x : UInt8} {s : List UInt8} (h' : ¬ x ≤ 50) : Eats pegEnv (.cls (cset [.range 48 50])) (x :: s) none :=
  .clsFail fun y hy => by cases hy; rw [has_oct2]; simp [h']

theorem chr_eats {t rest : List UInt8} (h : Chr t rest) : Eats pegEnv (.nonterm "Char") (t ++ rest) (some rest) := by
  have l1 : ∀ {w : List UInt8}, Eats pegEnv (.lit [92]) (92 :: w) (some w) := .litOk (w := [92])
  have e1 : ∀ {x : UInt8} {w : List UInt8}, isOct x = true → Eats pegEnv (.seq (.lit [92]) (.cls escCls)) (92 :: x :: w) none := fun hx =>
    .seqOk l1 (.clsFail fun y hy => by cases hy; exact oct_not_esc hx)
  refine .nonterm l_Char ?_
  cases h with
  | @raw b _ hb =>
    have n1 : Eats pegEnv (.lit [92]) (b :: rest) none := .litF (by simpa using hb)
    exact .altR (.seqFail n1) (.altR (.seqFail (.seqFail (.seqFail n1))) (.altR (.seqFail (.seqFail n1)) (.seqOk (.notOk n1) .dotOk)))
  | @esc c _ hc => exact .altL (.seqOk l1 (.clsOk ((has_esc c).2 hc)))
  | @oct3 a b c _ ha ha' hb hc => exact .altR (e1 ha) (.altL (.seqOk (.seqOk (.seqOk l1 (oct2_eats ha ha')) (oct_eats hb)) (oct_eats hc)))
  | @oct2 a b _ ha hb hr =>
    refine .altR (e1 ha) (.altR ?_ (.altL (.seqOk (.seqOk l1 (oct_eats ha)) (.optSome (oct_eats hb)))))
    by_cases h : a ≤ 50
    · have hr := hr.resolve_left (by rw [UInt8.not_lt]; exact h)
      exact .seqOk (.seqOk (.seqOk l1 (oct2_eats ha h)) (oct_eats hb)) (oct_none hr)
    · exact .seqFail (.seqFail (.seqOk l1 (oct2_none h)))
  | @oct1 a _ ha hr =>
    refine .altR (e1 ha) (.altR ?_ (.altL (.seqOk (.seqOk l1 (oct_eats ha)) (.optNone (oct_none hr)))))
    by_cases h : a ≤ 50
    · exact .seqFail (.seqOk (.seqOk l1 (oct2_eats ha h)) (oct_none hr))
    · exact .seqFail (.seqFail (.seqOk l1 (oct2_none h)))

theorem chr_inv {s r : List UInt8} (h : Eats pegEnv (.nonterm "Char") s (some r)) : ∃ t, s = t ++ r ∧ Chr t r := by
  rcases alt_inv (nonterm_inv l_Char h) with h | ⟨_, h⟩
  · obtain ⟨s1, h0, h1⟩ := seq_inv h
    obtain rfl := lit_inv h0
    obtain ⟨c, rfl, hc⟩ := cls_inv h1
    exact ⟨[92, c], rfl, .esc ((has_esc c).1 hc)⟩
  rcases alt_inv h with h | ⟨hno, h⟩
  · obtain ⟨s3, h3, h4⟩ := seq_inv h
    obtain ⟨s2, hh, h2⟩ := seq_inv h3
    obtain ⟨s1, h0, h1⟩ := seq_inv hh
    obtain rfl := lit_inv h0
    obtain ⟨a, rfl, ha⟩ := cls_inv h1
    obtain ⟨b, rfl, hb⟩ := cls_inv h2
    obtain ⟨c, rfl, hc⟩ := cls_inv h4
    rw [has_oct] at hb hc
    rw [has_oct2, Bool.and_eq_true, decide_eq_true_eq] at ha
    exact ⟨[92, a, b, c], rfl, .oct3 ha.1 ha.2 hb hc⟩
  rcases alt_inv h with h | ⟨_, h⟩
  · obtain ⟨s2, hh, h2⟩ := seq_inv h
    obtain ⟨s1, h0, h1⟩ := seq_inv hh
    obtain rfl := lit_inv h0
    obtain ⟨a, rfl, ha⟩ := cls_inv h1
    rw [has_oct] at ha
    cases h2 with
    | optSome h2 =>
      obtain ⟨b, rfl, hb⟩ := cls_inv h2
      rw [has_oct] at hb
      refine ⟨[92, a, b], rfl, .oct2 ha hb ?_⟩
      by_cases h50 : a ≤ 50
      · refine .inr fun x hx => ?_
        cases r with
        | nil => cases hx
        | cons y r =>
          cases hx
          cases hc : isOct x with
          | false => rfl
          | true => cases hno.det (.seqOk (.seqOk (.seqOk (.litOk (w := [92])) (oct2_eats ha h50)) (oct_eats hb)) (oct_eats hc))
      · exact .inl (by rwa [UInt8.not_le] at h50)
    | optNone h2 =>
      refine ⟨[92, a], rfl, .oct1 ha ?_⟩
      cases h2 with
      | clsFail h2 => exact fun x hx => by rw [← has_oct]; exact h2 x hx
  · cases h with
    | seqOk h1 h2 =>
      cases h1 with
      | notOk h1 =>
        cases h2 with
        | @dotOk _ b _ =>
          refine ⟨[b], rfl, .raw ?_⟩
          rintro rfl
          cases h1.det (.litOk (w := [92]) (s := r))

theorem chr_none {s : List UInt8} (h : Eats pegEnv (.nonterm "Char") s none) : s = [] ∨ s.head? = some 92 := by
  cases s with
  | nil => exact .inl rfl
  | cons b l =>
    by_cases hb : b = 92
    · exact .inr (by rw [hb]; rfl)
    · cases h.det (chr_eats (.raw (rest := l) hb))

theorem chr_ne {t rest : List UInt8} (h : Chr t rest) : t ≠ [] := by cases h <;> simp

/-- Only the first byte behind a character matters. -/
theorem chr_congr {t rest rest' : List UInt8} (h : Chr t rest) (hr : rest'.head? = rest.head?) : Chr t rest' := by
  have no : NoOct rest → NoOct rest' := fun h x hx => h x (by rw [← hr]; exact hx)
  cases h with
  | raw h => exact .raw h
  | esc h => exact .esc h
  | oct3 h1 h2 h3 h4 => exact .oct3 h1 h2 h3 h4
  | oct2 h1 h2 h3 => exact .oct2 h1 h2 (h3.imp id no)
  | oct1 h1 h2 => exact .oct1 h1 (no h2)

theorem head_app {a b : List UInt8} (h : a ≠ []) : (a ++ b).head? = a.head? := by
  cases a with
  | nil => exact absurd rfl h
  | cons x a => rfl

/-! ## Literals -/

theorem has_one (q x : UInt8) : (cset [.one q]).has x = (x == q) := by rw [has_cset]; simp [Item.mem]

theorem one_none {q : UInt8} {s : List UInt8} (h : s.head? ≠ some q) : Eats pegEnv (.cls (cset [.one q])) s none :=
  .clsFail fun x hx => by
    rw [has_one]
    exact beq_eq_false_iff_ne.2 fun e => h (by rw [← e]; exact hx)

theorem one_eats {q : UInt8} {s : List UInt8} : Eats pegEnv (.cls (cset [.one q])) (q :: s) (some s) := .clsOk (by rw [has_one]; simp)

theorem lit_ne {q : UInt8} {t : List UInt8} (h : Lit q t) : t ≠ [] := by
  cases h with
  | nil => simp
  | cons h _ _ => simp [chr_ne h]

theorem lit_eats {q : UInt8} {t r : List UInt8} (h : Lit q t) :
    Eats pegEnv (.star (.seq (.not (.cls (cset [.one q]))) (.nonterm "Char"))) (t ++ r) (some (q :: r)) := by
  induction h with
  | nil => exact .starEnd (.seqFail (.notFail one_eats))
  | @cons t rest hc hq hl ih =>
    rw [List.append_assoc]
    refine .starStep (s' := rest ++ r) (.seqOk (.notOk (one_none ?_)) (chr_eats (chr_congr hc (head_app (lit_ne hl))))) ih
    rwa [head_app (chr_ne hc)]

theorem lits_inv {q : UInt8} {s r' : List UInt8} (h : Eats pegEnv (.star (.seq (.not (.cls (cset [.one q]))) (.nonterm "Char"))) s (some r')) :
    ∀ r, r' = q :: r → ∃ t, s = t ++ r ∧ Lit q t := by
  refine star_ind (P := fun s r' => ∀ r, r' = q :: r → ∃ t, s = t ++ r ∧ Lit q t) (fun s _ r e => ⟨[q], e, .nil⟩) (fun s s' r' h _ ih r e => ?_) h
  obtain ⟨t, rfl, ht⟩ := ih r e
  cases h with
  | seqOk h1 h2 =>
    cases h1 with
    | notOk h1 =>
      obtain ⟨u, rfl, hu⟩ := chr_inv h2
      refine ⟨u ++ t, by simp, .cons (chr_congr hu (head_app (lit_ne ht)).symm) (fun hq => ?_) ht⟩
      cases u with
      | nil => cases hq
      | cons x u => cases hq; cases h1.det one_eats

theorem literal_eats {q : UInt8} {t sp r : List UInt8} (hq : q = 39 ∨ q = 34) (ht : Lit q t) (hs : Sp sp) (hr : NoSp r) :
    Eats pegEnv (.nonterm "Literal") (q :: (t ++ (sp ++ r))) (some r) := by
  have h : Eats pegEnv (quoted q) (q :: (t ++ (sp ++ r))) (some r) :=
    .seqOk (s' := sp ++ r) (.seqOk (.seqOk one_eats (lit_eats ht)) one_eats) (sp_eats hs hr)
  refine .nonterm l_Literal ?_
  rcases hq with rfl | rfl
  · exact .altL h
  · exact .altR (.seqFail (.seqFail (.seqFail (one_none (by simp))))) h

theorem literal_none {s : List UInt8} (h1 : s.head? ≠ some 39) (h2 : s.head? ≠ some 34) : Eats pegEnv (.nonterm "Literal") s none :=
  .nonterm l_Literal (.altR (.seqFail (.seqFail (.seqFail (one_none h1)))) (.seqFail (.seqFail (.seqFail (one_none h2)))))

theorem one_inv {q : UInt8} {s r : List UInt8} (h : Eats pegEnv (.cls (cset [.one q])) s (some r)) : s = q :: r := by
  obtain ⟨b, rfl, hb⟩ := cls_inv h
  rw [has_one, beq_iff_eq] at hb
  rw [hb]

theorem quoted_inv {q : UInt8} {s r : List UInt8} (h : Eats pegEnv (quoted q) s (some r)) :
    ∃ t sp, s = q :: (t ++ (sp ++ r)) ∧ Lit q t ∧ Sp sp := by
  obtain ⟨s3, h3, h4⟩ := seq_inv h
  obtain ⟨s2, hh, h2⟩ := seq_inv h3
  obtain ⟨s1, h0, h1⟩ := seq_inv hh
  obtain rfl := one_inv h0
  obtain rfl := one_inv h2
  obtain ⟨sp, rfl, hs⟩ := sp_inv h4
  obtain ⟨t, rfl, ht⟩ := lits_inv h1 _ rfl
  exact ⟨t, sp, rfl, ht, hs⟩

theorem literal_inv {s r : List UInt8} (h : Eats pegEnv (.nonterm "Literal") s (some r)) :
    ∃ q t sp, s = q :: (t ++ (sp ++ r)) ∧ (q = 39 ∨ q = 34) ∧ Lit q t ∧ Sp sp := by
  rcases alt_inv (nonterm_inv l_Literal h) with h | ⟨_, h⟩
  · obtain ⟨t, sp, e, ht, hs⟩ := quoted_inv h; exact ⟨_, t, sp, e, .inl rfl, ht, hs⟩
  · obtain ⟨t, sp, e, ht, hs⟩ := quoted_inv h; exact ⟨_, t, sp, e, .inr rfl, ht, hs⟩

/-! ## Classes -/

theorem items_ne {t : List UInt8} (h : Items t) : t ≠ [] := by
  cases h with
  | nil => simp
  | one h => simp [chr_ne h]
  | range h => simp

theorem items_eats {t r : List UInt8} (h : Items t) :
    Eats pegEnv (.star (.seq (.not (.lit [93])) (.nonterm "Range"))) (t ++ r) (some (93 :: r)) := by
  induction h with
  | nil => exact .starEnd (.seqFail (.notFail (.litOk (w := [93]))))
  | @one t rest hc hq h45 hl ih =>
    rw [List.append_assoc]
    have hc' := chr_eats (chr_congr (rest' := rest ++ r) hc (head_app (items_ne hl)))
    refine .starStep (s' := rest ++ r) (.seqOk (.notOk (.litF ?_)) (.nonterm l_Range (.altR ?_ hc'))) ih
    · rwa [head_app (chr_ne hc)]
    · exact .seqFail (.seqOk hc' (.litF (by rwa [head_app (items_ne hl)])))
  | @range t u rest hc hq hu hl ih =>
    have e : t ++ 45 :: (u ++ rest) ++ r = t ++ (45 :: (u ++ (rest ++ r))) := by simp
    rw [e]
    have hc' := chr_eats (chr_congr (rest' := 45 :: (u ++ (rest ++ r))) hc rfl)
    have hu' := chr_eats (chr_congr (rest' := rest ++ r) hu (head_app (items_ne hl)))
    refine .starStep (s' := rest ++ r) (.seqOk (.notOk (.litF ?_)) (.nonterm l_Range (.altL (.seqOk (.seqOk hc' (.litOk (w := [45]))) hu')))) ih
    rwa [head_app (chr_ne hc)]

theorem head_ne_of_lit {b : UInt8} {s : List UInt8} (h : Eats pegEnv (.lit [b]) s none) : s.head? ≠ some b := by
  intro hb
  cases s with
  | nil => cases hb
  | cons x s => cases hb; cases h.det (.litOk (w := [b]) (s := s))

theorem items_inv {s r' : List UInt8} (h : Eats pegEnv (.star (.seq (.not (.lit [93])) (.nonterm "Range"))) s (some r')) :
    ∀ r, r' = 93 :: r → ∃ t, s = t ++ r ∧ Items t := by
  refine star_ind (P := fun s r' => ∀ r, r' = 93 :: r → ∃ t, s = t ++ r ∧ Items t) (fun s _ r e => ⟨[93], e, .nil⟩) (fun s s' r' h _ ih r e => ?_) h
  obtain ⟨t, rfl, ht⟩ := ih r e
  cases h with
  | seqOk h1 h2 =>
    cases h1 with
    | notOk h1 =>
      have h1 := head_ne_of_lit h1
      rcases alt_inv (nonterm_inv l_Range h2) with h | ⟨hno, h⟩
      · obtain ⟨s2, h3, h4⟩ := seq_inv h
        obtain ⟨s1, h5, h6⟩ := seq_inv h3
        obtain rfl := lit_inv h6
        obtain ⟨u, rfl, hu⟩ := chr_inv h4
        obtain ⟨v, rfl, hv⟩ := chr_inv h5
        refine ⟨v ++ 45 :: (u ++ t), by simp, .range (chr_congr hv rfl) ?_ (chr_congr hu (head_app (items_ne ht)).symm) ht⟩
        rwa [head_app (chr_ne hv)] at h1
      · obtain ⟨v, rfl, hv⟩ := chr_inv h
        rw [head_app (chr_ne hv)] at h1
        refine ⟨v ++ t, by simp, .one (chr_congr hv (head_app (items_ne ht)).symm) h1 (fun h45 => ?_) ht⟩
        cases t with
        | nil => cases h45
        | cons x t =>
          cases h45
          -- then the rest is a range: the character behind `-` exists
          have key : ∀ l, Eats pegEnv (.nonterm "Char") (l ++ r) none → Items (45 :: l) → False := by
            intro l hn hi
            generalize hw : (45 :: l : List UInt8) = w at hi
            cases hi with
            | nil => cases hw
            | @one t' rest hc h93 h45 hl =>
              cases hc with
              | raw =>
                cases hw
                have := items_ne hl
                cases hl with
                | nil => cases hn.det (chr_eats (.raw (rest := r) (b := 93) (by decide)))
                | @one t2 rest2 hc2 _ _ hl2 =>
                  have hn : Eats pegEnv (.nonterm "Char") (t2 ++ rest2 ++ r) none := hn
                  rw [List.append_assoc] at hn
                  cases hn.det (chr_eats (chr_congr (rest' := rest2 ++ r) hc2 (head_app (items_ne hl2))))
                | @range t2 u2 rest2 hc2 _ _ hl2 =>
                  have e : t2 ++ 45 :: (u2 ++ rest2) ++ r = t2 ++ (45 :: (u2 ++ (rest2 ++ r))) := by simp
                  have hn : Eats pegEnv (.nonterm "Char") (t2 ++ 45 :: (u2 ++ rest2) ++ r) none := hn
                  rw [e] at hn
                  cases hn.det (chr_eats (chr_congr (rest' := 45 :: (u2 ++ (rest2 ++ r))) hc2 rfl))
              | esc | oct3 | oct2 | oct1 => cases hw
            | @range t' u rest hc h93 hu hl =>
              cases hc with
              | raw =>
                cases hw
                have hn : Eats pegEnv (.nonterm "Char") ([45] ++ (u ++ rest ++ r)) none := hn
                cases hn.det (chr_eats (.raw (by decide)))
              | esc | oct3 | oct2 | oct1 => cases hw
          refine key t ?_ ht
          have hv' : Eats pegEnv (.nonterm "Char") (v ++ (45 :: t ++ r)) (some (45 :: t ++ r)) := h
          cases hno with
          | seqFail h' =>
            cases h' with
            | seqFail h' => cases h'.det hv'
            | seqOk h1 h2 => cases h1.det hv'; cases h2.det (.litOk (w := [45]))
          | seqOk h' h2 =>
            cases h' with
            | seqOk h1 h3 => cases h1.det hv'; obtain rfl := (Option.some.inj (h3.det (.litOk (w := [45]) (s := t ++ r)))); exact h2

theorem class_eats {t sp r : List UInt8} (ht : Items t) (hs : Sp sp) (hr : NoSp r) :
    Eats pegEnv (.nonterm "Class") (91 :: (t ++ (sp ++ r))) (some r) :=
  .nonterm l_Class (.seqOk (s' := sp ++ r) (.seqOk (.seqOk (.litOk (w := [91])) (items_eats ht)) (.litOk (w := [93]))) (sp_eats hs hr))

theorem class_none {s : List UInt8} (h : s.head? ≠ some 91) : Eats pegEnv (.nonterm "Class") s none :=
  .nonterm l_Class (.seqFail (.seqFail (.seqFail (.litF h))))

theorem class_inv {s r : List UInt8} (h : Eats pegEnv (.nonterm "Class") s (some r)) :
    ∃ t sp, s = 91 :: (t ++ (sp ++ r)) ∧ Items t ∧ Sp sp := by
  obtain ⟨s3, h3, h4⟩ := seq_inv (nonterm_inv l_Class h)
  obtain ⟨s2, hh, h2⟩ := seq_inv h3
  obtain ⟨s1, h0, h1⟩ := seq_inv hh
  obtain rfl := lit_inv h0
  obtain rfl := lit_inv h2
  obtain ⟨sp, rfl, hs⟩ := sp_inv h4
  obtain ⟨t, rfl, ht⟩ := items_inv h1 _ rfl
  exact ⟨t, sp, rfl, ht, hs⟩

end Gpeg.PegPeg
