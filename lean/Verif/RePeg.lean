import Verif.GrammarFiles
import Verif.Spacing
/-!
# `grammars/re.peg` and `grammars/lpeg.peg` on texts with definitions

Both try an expression before a grammar. An expression may be empty, so the grammar is never tried.
-/
namespace Gpeg.Re

/-! ## `grammars/re.peg` -/

/-- The definitions of `grammars/re.peg` as patterns. -/
def rePegDefs : Defs :=
  .cons "Pattern" (.seq (.seq (.nonterm "Spacing_") (.alt (.nonterm "Expression") (.nonterm "Grammar"))) (.nonterm "EndOfFile_"))
  (.cons "Grammar" (.plus (.nonterm "Definition"))
  (.cons "Definition" (.seq (.seq (.nonterm "Identifier") (.lit [60, 45])) (.nonterm "Expression"))
  (.cons "Expression" (.seq (.nonterm "Sequence") (.star (.seq (.lit [47]) (.nonterm "Sequence"))))
  (.cons "Sequence" (.star (.nonterm "Prefix"))
  (.cons "Prefix" (.seq (.opt (.alt (.nonterm "AND") (.nonterm "NOT"))) (.nonterm "Suffix"))
  (.cons "Suffix" (.seq (.nonterm "Primary") (.opt (.alt (.nonterm "QUESTION") (.alt (.nonterm "STAR") (.nonterm "PLUS")))))
  (.cons "Primary" (.alt (.seq (.nonterm "Identifier") (.not (.lit [60, 45]))) (.alt (.seq (.seq (.lit [40]) (.nonterm "Expression")) (.lit [41]))
    (.alt (.nonterm "Literal") (.alt (.nonterm "Class") (.alt (.seq (.seq (.lit [123]) (.nonterm "Expression")) (.lit [125])) (.alt (.seq (.seq (.lit
    [123, 43]) (.nonterm "Expression")) (.lit [43, 125])) (.nonterm "DOT")))))))
  (.cons "Identifier" (.seq (.seq (.nonterm "IdentStart") (.star (.nonterm "IdentCont"))) (.nonterm "Spacing_"))
  (.cons "IdentStart" (.cls (cset [.range 97 122, .range 65 90, .one 95]))
  (.cons "IdentCont" (.alt (.nonterm "IdentStart") (.cls (cset [.range 48 57])))
  (.cons "Literal" (.alt (.seq (.seq (.seq (.cls (cset [.one 39])) (.star (.seq (.not (.cls (cset [.one 39]))) (.nonterm "Char")))) (.cls (cset [.one
    39]))) (.nonterm "Spacing_")) (.seq (.seq (.seq (.cls (cset [.one 34])) (.star (.seq (.not (.cls (cset [.one 34]))) (.nonterm "Char")))) (.cls
    (cset [.one 34]))) (.nonterm "Spacing_")))
  (.cons "Class" (.seq (.seq (.seq (.seq (.lit [91]) (.opt (.nonterm "CARAT"))) (.star (.seq (.not (.lit [93])) (.nonterm "Range")))) (.lit [93]))
    (.nonterm "Spacing_"))
  (.cons "Range" (.alt (.seq (.seq (.nonterm "Char") (.lit [45])) (.nonterm "Char")) (.nonterm "Char"))
  (.cons "Char" (.alt (.seq (.lit [92]) (.cls (cset [.one 110, .one 114, .one 116, .one 39, .one 34, .one 91, .one 93, .one 92]))) (.alt (.seq (.seq
    (.seq (.lit [92]) (.cls (cset [.range 48 50]))) (.cls (cset [.range 48 55]))) (.cls (cset [.range 48 55]))) (.alt (.seq (.seq (.lit [92]) (.cls
    (cset [.range 48 55]))) (.opt (.cls (cset [.range 48 55])))) (.seq (.not (.lit [92])) (.dot 1)))))
  (.cons "AND" (.seq (.lit [38]) (.nonterm "Spacing_"))
  (.cons "NOT" (.seq (.lit [33]) (.nonterm "Spacing_"))
  (.cons "QUESTION" (.seq (.lit [63]) (.nonterm "Spacing_"))
  (.cons "STAR" (.seq (.lit [42]) (.nonterm "Spacing_"))
  (.cons "PLUS" (.seq (.lit [43]) (.nonterm "Spacing_"))
  (.cons "DOT" (.seq (.lit [46]) (.nonterm "Spacing_"))
  (.cons "CARAT" (.seq (.lit [94]) (.nonterm "Spacing_"))
  (.cons "Spacing_" (.star (.alt (.nonterm "Space_") (.nonterm "Comment_")))
  (.cons "Comment_" (.seq (.seq (.lit [35]) (.star (.seq (.not (.nonterm "EndOfLine_")) (.dot 1)))) (.nonterm "EndOfLine_"))
  (.cons "Space_" (.alt (.lit [32]) (.alt (.lit [9]) (.nonterm "EndOfLine_")))
  (.cons "EndOfLine_" (.alt (.lit [13, 10]) (.alt (.lit [10]) (.lit [13])))
  (.cons "EndOfFile_" (.not (.dot 1))
  .nil))))))))))))))))))))))))))

theorem rePeg_defs : ((Top.gram reGram).pat 0).1 = .grammar "Pattern" rePegDefs := by
  have h0 : nameOf (bytes "Pattern") = "Pattern" := by decide +kernel
  have h1 : nameOf (bytes "Grammar") = "Grammar" := by decide +kernel
  have h2 : nameOf (bytes "Definition") = "Definition" := by decide +kernel
  have h3 : nameOf (bytes "Expression") = "Expression" := by decide +kernel
  have h4 : nameOf (bytes "Sequence") = "Sequence" := by decide +kernel
  have h5 : nameOf (bytes "Prefix") = "Prefix" := by decide +kernel
  have h6 : nameOf (bytes "Suffix") = "Suffix" := by decide +kernel
  have h7 : nameOf (bytes "Primary") = "Primary" := by decide +kernel
  have h8 : nameOf (bytes "Identifier") = "Identifier" := by decide +kernel
  have h9 : nameOf (bytes "IdentStart") = "IdentStart" := by decide +kernel
  have h10 : nameOf (bytes "IdentCont") = "IdentCont" := by decide +kernel
  have h11 : nameOf (bytes "Literal") = "Literal" := by decide +kernel
  have h12 : nameOf (bytes "Class") = "Class" := by decide +kernel
  have h13 : nameOf (bytes "Range") = "Range" := by decide +kernel
  have h14 : nameOf (bytes "Char") = "Char" := by decide +kernel
  have h15 : nameOf (bytes "AND") = "AND" := by decide +kernel
  have h16 : nameOf (bytes "NOT") = "NOT" := by decide +kernel
  have h17 : nameOf (bytes "QUESTION") = "QUESTION" := by decide +kernel
  have h18 : nameOf (bytes "STAR") = "STAR" := by decide +kernel
  have h19 : nameOf (bytes "PLUS") = "PLUS" := by decide +kernel
  have h20 : nameOf (bytes "DOT") = "DOT" := by decide +kernel
  have h21 : nameOf (bytes "CARAT") = "CARAT" := by decide +kernel
  have h22 : nameOf (bytes "Spacing_") = "Spacing_" := by decide +kernel
  have h23 : nameOf (bytes "Comment_") = "Comment_" := by decide +kernel
  have h24 : nameOf (bytes "Space_") = "Space_" := by decide +kernel
  have h25 : nameOf (bytes "EndOfLine_") = "EndOfLine_" := by decide +kernel
  have h26 : nameOf (bytes "EndOfFile_") = "EndOfFile_" := by decide +kernel
  simp only [reGram, Top.pat, Gram.pats, Expr.pat, Expr.alts, Seqn.pats, Prim.pat, Pre.apply, Suf.apply, concatPat, orPat, List.foldl,
    List.reverse_cons, List.reverse_nil, List.nil_append, List.cons_append, h0, h1, h2, h3, h4, h5, h6, h7, h8, h9, h10, h11, h12, h13, h14, h15, h16,
    h17, h18, h19, h20, h21, h22, h23, h24, h25, h26]
  rfl

abbrev rePegEnv : Env := [rePegDefs]

theorem rePeg_Pattern : lookupNT "Pattern" rePegEnv = some (.seq (.seq (.nonterm "Spacing_") (.alt (.nonterm "Expression") (.nonterm "Grammar"))) (.nonterm
    "EndOfFile_"), rePegEnv) := rfl
theorem rePeg_Grammar : lookupNT "Grammar" rePegEnv = some (.plus (.nonterm "Definition"), rePegEnv) := rfl
theorem rePeg_Definition : lookupNT "Definition" rePegEnv = some (.seq (.seq (.nonterm "Identifier") (.lit [60, 45])) (.nonterm "Expression"), rePegEnv) := rfl
theorem rePeg_Expression : lookupNT "Expression" rePegEnv = some (.seq (.nonterm "Sequence") (.star (.seq (.lit [47]) (.nonterm "Sequence"))), rePegEnv) := rfl
theorem rePeg_Sequence : lookupNT "Sequence" rePegEnv = some (.star (.nonterm "Prefix"), rePegEnv) := rfl
theorem rePeg_Prefix : lookupNT "Prefix" rePegEnv = some (.seq (.opt (.alt (.nonterm "AND") (.nonterm "NOT"))) (.nonterm "Suffix"), rePegEnv) := rfl
theorem rePeg_Suffix : lookupNT "Suffix" rePegEnv = some (.seq (.nonterm "Primary") (.opt (.alt (.nonterm "QUESTION") (.alt (.nonterm "STAR") (.nonterm
    "PLUS")))), rePegEnv) := rfl
theorem rePeg_Primary : lookupNT "Primary" rePegEnv = some (.alt (.seq (.nonterm "Identifier") (.not (.lit [60, 45]))) (.alt (.seq (.seq (.lit [40])
    (.nonterm "Expression")) (.lit [41])) (.alt (.nonterm "Literal") (.alt (.nonterm "Class") (.alt (.seq (.seq (.lit [123]) (.nonterm "Expression"))
    (.lit [125])) (.alt (.seq (.seq (.lit [123, 43]) (.nonterm "Expression")) (.lit [43, 125])) (.nonterm "DOT")))))), rePegEnv) := rfl
theorem rePeg_Identifier : lookupNT "Identifier" rePegEnv = some (.seq (.seq (.nonterm "IdentStart") (.star (.nonterm "IdentCont"))) (.nonterm "Spacing_"),
    rePegEnv) := rfl
theorem rePeg_IdentStart : lookupNT "IdentStart" rePegEnv = some (.cls (cset [.range 97 122, .range 65 90, .one 95]), rePegEnv) := rfl
theorem rePeg_IdentCont : lookupNT "IdentCont" rePegEnv = some (.alt (.nonterm "IdentStart") (.cls (cset [.range 48 57])), rePegEnv) := rfl
theorem rePeg_Literal : lookupNT "Literal" rePegEnv = some (.alt (.seq (.seq (.seq (.cls (cset [.one 39])) (.star (.seq (.not (.cls (cset [.one 39])))
    (.nonterm "Char")))) (.cls (cset [.one 39]))) (.nonterm "Spacing_")) (.seq (.seq (.seq (.cls (cset [.one 34])) (.star (.seq (.not (.cls (cset
    [.one 34]))) (.nonterm "Char")))) (.cls (cset [.one 34]))) (.nonterm "Spacing_")), rePegEnv) := rfl
theorem rePeg_Class : lookupNT "Class" rePegEnv = some (.seq (.seq (.seq (.seq (.lit [91]) (.opt (.nonterm "CARAT"))) (.star (.seq (.not (.lit [93]))
    (.nonterm "Range")))) (.lit [93])) (.nonterm "Spacing_"), rePegEnv) := rfl
theorem rePeg_Range : lookupNT "Range" rePegEnv = some (.alt (.seq (.seq (.nonterm "Char") (.lit [45])) (.nonterm "Char")) (.nonterm "Char"), rePegEnv) := rfl
theorem rePeg_Char : lookupNT "Char" rePegEnv = some (.alt (.seq (.lit [92]) (.cls (cset [.one 110, .one 114, .one 116, .one 39, .one 34, .one 91, .one 93,
    .one 92]))) (.alt (.seq (.seq (.seq (.lit [92]) (.cls (cset [.range 48 50]))) (.cls (cset [.range 48 55]))) (.cls (cset [.range 48 55]))) (.alt
    (.seq (.seq (.lit [92]) (.cls (cset [.range 48 55]))) (.opt (.cls (cset [.range 48 55])))) (.seq (.not (.lit [92])) (.dot 1)))), rePegEnv) := rfl
theorem rePeg_AND : lookupNT "AND" rePegEnv = some (.seq (.lit [38]) (.nonterm "Spacing_"), rePegEnv) := rfl
theorem rePeg_NOT : lookupNT "NOT" rePegEnv = some (.seq (.lit [33]) (.nonterm "Spacing_"), rePegEnv) := rfl
theorem rePeg_QUESTION : lookupNT "QUESTION" rePegEnv = some (.seq (.lit [63]) (.nonterm "Spacing_"), rePegEnv) := rfl
theorem rePeg_STAR : lookupNT "STAR" rePegEnv = some (.seq (.lit [42]) (.nonterm "Spacing_"), rePegEnv) := rfl
theorem rePeg_PLUS : lookupNT "PLUS" rePegEnv = some (.seq (.lit [43]) (.nonterm "Spacing_"), rePegEnv) := rfl
theorem rePeg_DOT : lookupNT "DOT" rePegEnv = some (.seq (.lit [46]) (.nonterm "Spacing_"), rePegEnv) := rfl
theorem rePeg_CARAT : lookupNT "CARAT" rePegEnv = some (.seq (.lit [94]) (.nonterm "Spacing_"), rePegEnv) := rfl
theorem rePeg_Spacing_ : lookupNT "Spacing_" rePegEnv = some (.star (.alt (.nonterm "Space_") (.nonterm "Comment_")), rePegEnv) := rfl
theorem rePeg_Comment_ : lookupNT "Comment_" rePegEnv = some (.seq (.seq (.lit [35]) (.star (.seq (.not (.nonterm "EndOfLine_")) (.dot 1)))) (.nonterm
    "EndOfLine_"), rePegEnv) := rfl
theorem rePeg_Space_ : lookupNT "Space_" rePegEnv = some (.alt (.lit [32]) (.alt (.lit [9]) (.nonterm "EndOfLine_")), rePegEnv) := rfl
theorem rePeg_EndOfLine_ : lookupNT "EndOfLine_" rePegEnv = some (.alt (.lit [13, 10]) (.alt (.lit [10]) (.lit [13])), rePegEnv) := rfl
theorem rePeg_EndOfFile_ : lookupNT "EndOfFile_" rePegEnv = some (.not (.dot 1), rePegEnv) := rfl


/-- What follows is a name, spacing, `<-`. -/
structure Def (s : List UInt8) : Prop where
  ex : ∃ b n sp r, s = b :: (n ++ (sp ++ 60 :: 45 :: r)) ∧ isStart b = true ∧ (∀ x ∈ n, isCont x = true) ∧ Sp sp

theorem Def.head {s : List UInt8} (h : Def s) : ∃ b l, s = b :: l ∧ isStart b = true := by
  obtain ⟨b, n, sp, r, rfl, hb, _⟩ := h.ex
  exact ⟨b, _, rfl, hb⟩

theorem Def.not_head {s : List UInt8} (h : Def s) {c : UInt8} (hc : isStart c = false) : s.head? ≠ some c := by
  obtain ⟨b, l, rfl, hb⟩ := h.head
  rintro ⟨⟩
  rw [hb] at hc
  cases hc

theorem isStart_noSp {b : UInt8} (h : isStart b = true) : blank b = false ∧ b ≠ 35 := by
  have : ∀ b : UInt8, isStart b = true → blank b = false ∧ b ≠ 35 := forall_byte (by decide +kernel)
  exact this b h

theorem blank_cont {b : UInt8} (h : blank b = true) : isCont b = false := by
  have : ∀ b : UInt8, blank b = true → isCont b = false := forall_byte (by decide +kernel)
  exact this b h

theorem has_identStart (x : UInt8) : (cset [.range 97 122, .range 65 90, .one 95]).has x = isStart x := by
  rw [has_cset]; simp [Item.mem, isStart, Bool.or_assoc]

theorem rePeg_sp {t r : List UInt8} (ht : Sp t) (hr : NoSp r) : Eats rePegEnv (.nonterm "Spacing_") (t ++ r) (some r) :=
  spacing_eats rePeg_Spacing_ rePeg_Comment_ rePeg_Space_ rePeg_EndOfLine_ hr ht

theorem rePeg_ident {b : UInt8} {n sp r : List UInt8} (hb : isStart b = true) (hn : ∀ x ∈ n, isCont x = true) (hsp : Sp sp) :
    Eats rePegEnv (.nonterm "Identifier") (b :: (n ++ (sp ++ 60 :: 45 :: r))) (some (60 :: 45 :: r)) := by
  have hstop : NotIn isCont (sp ++ 60 :: 45 :: r) := by
    cases hsp with
    | nil => exact notIn_cons (by decide)
    | @blank x l hx hl =>
      exact notIn_cons (blank_cont hx)
    | comment => exact notIn_cons (by decide)
  refine .nonterm rePeg_Identifier (.seqOk (s' := sp ++ 60 :: 45 :: r)
    (.seqOk (.nonterm rePeg_IdentStart (.clsOk (by rw [has_identStart]; exact hb))) ?_) (rePeg_sp hsp (noSp_cons (by decide))))
  generalize sp ++ 60 :: 45 :: r = v at *
  induction n with
  | nil =>
    refine .starEnd (.nonterm rePeg_IdentCont (.altR (.nonterm rePeg_IdentStart (.clsFail fun x hx => ?_)) (.clsFail fun x hx => ?_)))
    · rw [has_identStart]
      have := hstop x hx
      simp only [isCont, Bool.or_eq_false_iff] at this
      exact this.1
    · rw [has_cset]
      have := hstop x hx
      simp only [isCont, Bool.or_eq_false_iff] at this
      simp only [List.any_cons, List.any_nil, Bool.or_false, Item.mem]
      exact this.2
  | cons x n ih =>
    refine .starStep (s' := n ++ v) (.nonterm rePeg_IdentCont ?_) (ih fun y hy => hn y (by simp [hy]))
    have hx := hn x (by simp)
    by_cases h : isStart x = true
    · exact .altL (.nonterm rePeg_IdentStart (.clsOk (by rw [has_identStart]; exact h)))
    · refine .altR (.nonterm rePeg_IdentStart (.clsFail fun y hy => ?_)) (.clsOk ?_)
      · cases hy; rw [has_identStart]; simpa using h
      · rw [has_cset]
        simp only [isCont, Bool.or_eq_true] at hx
        simp only [List.any_cons, List.any_nil, Bool.or_false, Item.mem]
        exact hx.resolve_left h

theorem Def.rePeg_prefix {s : List UInt8} (h : Def s) : Eats rePegEnv (.nonterm "Prefix") s none := by
  have no : ∀ {c : UInt8} {w : List UInt8}, isStart c = false → Eats rePegEnv (.lit (c :: w)) s none := fun hc => .litF (h.not_head hc)
  have noc : ∀ {c : UInt8}, isStart c = false → Eats rePegEnv (.cls (cset [.one c])) s none := fun {c} hc => by
    refine .clsFail fun x hx => ?_
    rw [has_cset]
    have : x ≠ c := by rintro rfl; exact h.not_head hc hx
    simp only [List.any_cons, List.any_nil, Bool.or_false, Item.mem]
    exact beq_eq_false_iff_ne.2 this
  refine .nonterm rePeg_Prefix (.seqOk (s' := s) (.optNone (.altR (.nonterm rePeg_AND (.seqFail (no (by decide))))
    (.nonterm rePeg_NOT (.seqFail (no (by decide)))))) (.nonterm rePeg_Suffix (.seqFail (.nonterm rePeg_Primary (.altR ?_
    (.altR (.seqFail (.seqFail (no (by decide)))) (.altR (.nonterm rePeg_Literal (.altR (.seqFail (.seqFail (.seqFail (noc (by decide)))))
    (.seqFail (.seqFail (.seqFail (noc (by decide))))))) (.altR (.nonterm rePeg_Class (.seqFail (.seqFail (.seqFail (.seqFail (no (by decide)))))))
    (.altR (.seqFail (.seqFail (no (by decide)))) (.altR (.seqFail (.seqFail (no (by decide))))
    (.nonterm rePeg_DOT (.seqFail (no (by decide))))))))))))))
  obtain ⟨b, n, sp, r, rfl, hb, hn, hsp⟩ := h.ex
  exact .seqOk (rePeg_ident hb hn hsp) (.notFail (.litOk (w := [60, 45])))

/-- `grammars/re.peg` does not match a text with definitions. -/
theorem Def.rePeg {s : List UInt8} (h : Def s) {t : List UInt8} (ht : Sp t) : Eats rePegEnv (.nonterm "Pattern") (t ++ s) none := by
  obtain ⟨b, l, e, hb⟩ := h.head
  have hn : NoSp s := by rw [e]; exact noSp_cons (isStart_noSp hb)
  refine .nonterm rePeg_Pattern (.seqOk (s' := s) (.seqOk (rePeg_sp ht hn) (.altL (.nonterm rePeg_Expression (.seqOk (s' := s)
    (.nonterm rePeg_Sequence (.starEnd h.rePeg_prefix)) (.starEnd (.seqFail (.litF (h.not_head (by decide))))))))) (.nonterm rePeg_EndOfFile_ ?_))
  rw [e]
  exact .notFail .dotOk

/-! ## `grammars/lpeg.peg` -/

/-- The definitions of `grammars/lpeg.peg` as patterns. -/
def lpegDefs : Defs :=
  .cons "pattern" (.seq (.nonterm "exp") (.not (.dot 1)))
  (.cons "exp" (.seq (.nonterm "S") (.alt (.nonterm "alternative") (.nonterm "grammar")))
  (.cons "alternative" (.seq (.nonterm "seq") (.star (.seq (.seq (.lit [47]) (.nonterm "S")) (.nonterm "seq"))))
  (.cons "seq" (.star (.nonterm "prefix"))
  (.cons "prefix" (.alt (.seq (.seq (.lit [38]) (.nonterm "S")) (.nonterm "prefix")) (.alt (.seq (.seq (.lit [33]) (.nonterm "S")) (.nonterm
    "prefix")) (.nonterm "suffix")))
  (.cons "suffix" (.seq (.seq (.nonterm "primary") (.nonterm "S")) (.star (.seq (.alt (.cls (cset [.one 43, .one 42, .one 63])) (.alt (.seq (.seq
    (.lit [94]) (.opt (.cls (cset [.one 43, .one 45])))) (.nonterm "num")) (.alt (.seq (.seq (.lit [45, 62]) (.nonterm "S")) (.alt (.nonterm "string")
    (.alt (.lit [123, 125]) (.nonterm "name")))) (.seq (.seq (.lit [61, 62]) (.nonterm "S")) (.nonterm "name"))))) (.nonterm "S"))))
  (.cons "primary" (.alt (.seq (.seq (.lit [40]) (.nonterm "exp")) (.lit [41])) (.alt (.nonterm "string") (.alt (.nonterm "class") (.alt (.nonterm
    "defined") (.alt (.seq (.seq (.seq (.lit [123, 58]) (.opt (.seq (.nonterm "name") (.lit [58])))) (.nonterm "exp")) (.lit [58, 125])) (.alt (.seq
    (.lit [61]) (.nonterm "name")) (.alt (.seq (.seq (.lit [123, 42]) (.nonterm "exp")) (.lit [42, 125])) (.alt (.seq (.seq (.lit [123, 126])
    (.nonterm "exp")) (.lit [126, 125])) (.alt (.seq (.seq (.lit [123, 124]) (.nonterm "exp")) (.lit [124, 125])) (.alt (.seq (.seq (.lit [123, 43])
    (.nonterm "exp")) (.lit [43, 125])) (.alt (.seq (.seq (.lit [123]) (.nonterm "exp")) (.lit [125])) (.alt (.lit [46]) (.seq (.seq (.nonterm "name")
    (.nonterm "S")) (.not (.nonterm "arrow")))))))))))))))
  (.cons "grammar" (.plus (.nonterm "definition"))
  (.cons "definition" (.seq (.seq (.seq (.nonterm "name") (.nonterm "S")) (.nonterm "arrow")) (.nonterm "exp"))
  (.cons "class" (.seq (.seq (.seq (.seq (.lit [91]) (.opt (.lit [94]))) (.nonterm "item")) (.star (.seq (.not (.lit [93])) (.nonterm "item")))) (.lit
    [93]))
  (.cons "item" (.alt (.nonterm "defined") (.alt (.nonterm "range") (.dot 1)))
  (.cons "range" (.seq (.seq (.dot 1) (.lit [45])) (.seq (.not (.lit [93])) (.dot 1)))
  (.cons "S" (.star (.alt (.nonterm "space") (.nonterm "comment")))
  (.cons "name" (.seq (.cls (cset [.range 65 90, .range 97 122])) (.star (.cls (cset [.range 65 90, .range 97 122, .range 48 57, .one 95]))))
  (.cons "arrow" (.lit [60, 45])
  (.cons "num" (.plus (.cls (cset [.range 48 57])))
  (.cons "string" (.alt (.seq (.seq (.lit [34]) (.star (.seq (.not (.lit [34])) (.dot 1)))) (.lit [34])) (.seq (.seq (.lit [39]) (.star (.seq (.not
    (.lit [39])) (.dot 1)))) (.lit [39])))
  (.cons "defined" (.seq (.lit [37]) (.nonterm "name"))
  (.cons "comment" (.seq (.seq (.lit [35]) (.star (.seq (.not (.nonterm "eol")) (.dot 1)))) (.nonterm "eol"))
  (.cons "space" (.alt (.lit [32]) (.alt (.lit [9]) (.nonterm "eol")))
  (.cons "eol" (.alt (.lit [13, 10]) (.alt (.lit [10]) (.lit [13])))
  .nil))))))))))))))))))))

theorem lpeg_defs : ((Top.gram lpegGram).pat 0).1 = .grammar "pattern" lpegDefs := by
  have h0 : nameOf (bytes "pattern") = "pattern" := by decide +kernel
  have h1 : nameOf (bytes "exp") = "exp" := by decide +kernel
  have h2 : nameOf (bytes "alternative") = "alternative" := by decide +kernel
  have h3 : nameOf (bytes "seq") = "seq" := by decide +kernel
  have h4 : nameOf (bytes "prefix") = "prefix" := by decide +kernel
  have h5 : nameOf (bytes "suffix") = "suffix" := by decide +kernel
  have h6 : nameOf (bytes "primary") = "primary" := by decide +kernel
  have h7 : nameOf (bytes "grammar") = "grammar" := by decide +kernel
  have h8 : nameOf (bytes "definition") = "definition" := by decide +kernel
  have h9 : nameOf (bytes "class") = "class" := by decide +kernel
  have h10 : nameOf (bytes "item") = "item" := by decide +kernel
  have h11 : nameOf (bytes "range") = "range" := by decide +kernel
  have h12 : nameOf (bytes "S") = "S" := by decide +kernel
  have h13 : nameOf (bytes "name") = "name" := by decide +kernel
  have h14 : nameOf (bytes "arrow") = "arrow" := by decide +kernel
  have h15 : nameOf (bytes "num") = "num" := by decide +kernel
  have h16 : nameOf (bytes "string") = "string" := by decide +kernel
  have h17 : nameOf (bytes "defined") = "defined" := by decide +kernel
  have h18 : nameOf (bytes "comment") = "comment" := by decide +kernel
  have h19 : nameOf (bytes "space") = "space" := by decide +kernel
  have h20 : nameOf (bytes "eol") = "eol" := by decide +kernel
  simp only [lpegGram, Top.pat, Gram.pats, Expr.pat, Expr.alts, Seqn.pats, Prim.pat, Pre.apply, Suf.apply, concatPat, orPat, List.foldl,
    List.reverse_cons, List.reverse_nil, List.nil_append, List.cons_append, h0, h1, h2, h3, h4, h5, h6, h7, h8, h9, h10, h11, h12, h13, h14, h15, h16,
    h17, h18, h19, h20]
  rfl

abbrev lpegEnv : Env := [lpegDefs]

theorem lpeg_pattern : lookupNT "pattern" lpegEnv = some (.seq (.nonterm "exp") (.not (.dot 1)), lpegEnv) := rfl
theorem lpeg_exp : lookupNT "exp" lpegEnv = some (.seq (.nonterm "S") (.alt (.nonterm "alternative") (.nonterm "grammar")), lpegEnv) := rfl
theorem lpeg_alternative : lookupNT "alternative" lpegEnv = some (.seq (.nonterm "seq") (.star (.seq (.seq (.lit [47]) (.nonterm "S")) (.nonterm
    "seq"))), lpegEnv) := rfl
theorem lpeg_seq : lookupNT "seq" lpegEnv = some (.star (.nonterm "prefix"), lpegEnv) := rfl
theorem lpeg_prefix : lookupNT "prefix" lpegEnv = some (.alt (.seq (.seq (.lit [38]) (.nonterm "S")) (.nonterm "prefix")) (.alt (.seq (.seq (.lit
    [33]) (.nonterm "S")) (.nonterm "prefix")) (.nonterm "suffix")), lpegEnv) := rfl
theorem lpeg_suffix : lookupNT "suffix" lpegEnv = some (.seq (.seq (.nonterm "primary") (.nonterm "S")) (.star (.seq (.alt (.cls (cset [.one 43, .one
    42, .one 63])) (.alt (.seq (.seq (.lit [94]) (.opt (.cls (cset [.one 43, .one 45])))) (.nonterm "num")) (.alt (.seq (.seq (.lit [45, 62])
    (.nonterm "S")) (.alt (.nonterm "string") (.alt (.lit [123, 125]) (.nonterm "name")))) (.seq (.seq (.lit [61, 62]) (.nonterm "S")) (.nonterm
    "name"))))) (.nonterm "S"))), lpegEnv) := rfl
theorem lpeg_primary : lookupNT "primary" lpegEnv = some (.alt (.seq (.seq (.lit [40]) (.nonterm "exp")) (.lit [41])) (.alt (.nonterm "string") (.alt
    (.nonterm "class") (.alt (.nonterm "defined") (.alt (.seq (.seq (.seq (.lit [123, 58]) (.opt (.seq (.nonterm "name") (.lit [58])))) (.nonterm
    "exp")) (.lit [58, 125])) (.alt (.seq (.lit [61]) (.nonterm "name")) (.alt (.seq (.seq (.lit [123, 42]) (.nonterm "exp")) (.lit [42, 125])) (.alt
    (.seq (.seq (.lit [123, 126]) (.nonterm "exp")) (.lit [126, 125])) (.alt (.seq (.seq (.lit [123, 124]) (.nonterm "exp")) (.lit [124, 125])) (.alt
    (.seq (.seq (.lit [123, 43]) (.nonterm "exp")) (.lit [43, 125])) (.alt (.seq (.seq (.lit [123]) (.nonterm "exp")) (.lit [125])) (.alt (.lit [46])
    (.seq (.seq (.nonterm "name") (.nonterm "S")) (.not (.nonterm "arrow")))))))))))))), lpegEnv) := rfl
theorem lpeg_grammar : lookupNT "grammar" lpegEnv = some (.plus (.nonterm "definition"), lpegEnv) := rfl
theorem lpeg_definition : lookupNT "definition" lpegEnv = some (.seq (.seq (.seq (.nonterm "name") (.nonterm "S")) (.nonterm "arrow")) (.nonterm
    "exp"), lpegEnv) := rfl
theorem lpeg_class : lookupNT "class" lpegEnv = some (.seq (.seq (.seq (.seq (.lit [91]) (.opt (.lit [94]))) (.nonterm "item")) (.star (.seq (.not
    (.lit [93])) (.nonterm "item")))) (.lit [93]), lpegEnv) := rfl
theorem lpeg_item : lookupNT "item" lpegEnv = some (.alt (.nonterm "defined") (.alt (.nonterm "range") (.dot 1)), lpegEnv) := rfl
theorem lpeg_range : lookupNT "range" lpegEnv = some (.seq (.seq (.dot 1) (.lit [45])) (.seq (.not (.lit [93])) (.dot 1)), lpegEnv) := rfl
theorem lpeg_S : lookupNT "S" lpegEnv = some (.star (.alt (.nonterm "space") (.nonterm "comment")), lpegEnv) := rfl
theorem lpeg_name : lookupNT "name" lpegEnv = some (.seq (.cls (cset [.range 65 90, .range 97 122])) (.star (.cls (cset [.range 65 90, .range 97 122,
    .range 48 57, .one 95]))), lpegEnv) := rfl
theorem lpeg_arrow : lookupNT "arrow" lpegEnv = some (.lit [60, 45], lpegEnv) := rfl
theorem lpeg_num : lookupNT "num" lpegEnv = some (.plus (.cls (cset [.range 48 57])), lpegEnv) := rfl
theorem lpeg_string : lookupNT "string" lpegEnv = some (.alt (.seq (.seq (.lit [34]) (.star (.seq (.not (.lit [34])) (.dot 1)))) (.lit [34])) (.seq
    (.seq (.lit [39]) (.star (.seq (.not (.lit [39])) (.dot 1)))) (.lit [39])), lpegEnv) := rfl
theorem lpeg_defined : lookupNT "defined" lpegEnv = some (.seq (.lit [37]) (.nonterm "name"), lpegEnv) := rfl
theorem lpeg_comment : lookupNT "comment" lpegEnv = some (.seq (.seq (.lit [35]) (.star (.seq (.not (.nonterm "eol")) (.dot 1)))) (.nonterm "eol"),
    lpegEnv) := rfl
theorem lpeg_space : lookupNT "space" lpegEnv = some (.alt (.lit [32]) (.alt (.lit [9]) (.nonterm "eol")), lpegEnv) := rfl
theorem lpeg_eol : lookupNT "eol" lpegEnv = some (.alt (.lit [13, 10]) (.alt (.lit [10]) (.lit [13])), lpegEnv) := rfl


theorem lpeg_sp {t r : List UInt8} (ht : Sp t) (hr : NoSp r) : Eats lpegEnv (.nonterm "S") (t ++ r) (some r) :=
  spacing_eats lpeg_S lpeg_comment lpeg_space lpeg_eol hr ht

theorem has_name (x : UInt8) : (cset [.range 65 90, .range 97 122, .range 48 57, .one 95]).has x = isCont x := by
  rw [has_cset]
  revert x
  exact forall_byte (by decide +kernel)

theorem Def.lpeg_name {s : List UInt8} (h : Def s) :
    Eats lpegEnv (.seq (.seq (.nonterm "name") (.nonterm "S")) (.not (.nonterm "arrow"))) s none := by
  obtain ⟨b, n, sp, r, rfl, hb, hn, hsp⟩ := h.ex
  by_cases hl : (cset [.range 65 90, .range 97 122]).has b = true
  · refine .seqOk (s' := 60 :: 45 :: r) (.seqOk (s' := sp ++ 60 :: 45 :: r) (.nonterm Re.lpeg_name (.seqOk (.clsOk hl)
      (star_cls (fun x hx => by rw [has_name]; exact hn x hx) ?_))) (lpeg_sp hsp (noSp_cons (by decide))))
      (.notFail (.nonterm lpeg_arrow (.litOk (w := [60, 45]))))
    have : NotIn isCont (sp ++ 60 :: 45 :: r) := by
      cases hsp with
      | nil => exact notIn_cons (by decide)
      | @blank x l hx hl =>
        exact notIn_cons (blank_cont hx)
      | comment => exact notIn_cons (by decide)
    exact fun x hx => by rw [has_name]; exact this x hx
  · exact .seqFail (.seqFail (.nonterm Re.lpeg_name (.seqFail (.clsFail fun x hx => by cases hx; simpa using hl))))

theorem Def.lpeg_prefix {s : List UInt8} (h : Def s) : Eats lpegEnv (.nonterm "prefix") s none := by
  have no : ∀ {c : UInt8} {w : List UInt8}, isStart c = false → Eats lpegEnv (.lit (c :: w)) s none := fun hc => .litF (h.not_head hc)
  have f1 : ∀ {c : UInt8} {w : List UInt8} {p : Pat}, isStart c = false → Eats lpegEnv (.seq (.lit (c :: w)) p) s none := fun hc => .seqFail (no hc)
  have f2 : ∀ {c : UInt8} {w : List UInt8} {p q : Pat}, isStart c = false → Eats lpegEnv (.seq (.seq (.lit (c :: w)) p) q) s none :=
    fun hc => .seqFail (f1 hc)
  refine .nonterm Re.lpeg_prefix (.altR (f2 (by decide)) (.altR (f2 (by decide)) (.nonterm lpeg_suffix (.seqFail (.seqFail (.nonterm lpeg_primary
    (.altR (f2 (by decide)) (.altR (.nonterm lpeg_string (.altR (f2 (by decide)) (f2 (by decide)))) (.altR
    (.nonterm lpeg_class (.seqFail (.seqFail (f2 (by decide))))) (.altR (.nonterm lpeg_defined (f1 (by decide))) (.altR (.seqFail (f2 (by decide)))
    (.altR (f1 (by decide)) (.altR (f2 (by decide)) (.altR (f2 (by decide)) (.altR (f2 (by decide)) (.altR (f2 (by decide)) (.altR (f2 (by decide))
    (.altR (no (by decide)) h.lpeg_name))))))))))))))))))

/-- `grammars/lpeg.peg` does not match a text with definitions. -/
theorem Def.lpeg {s : List UInt8} (h : Def s) {t : List UInt8} (ht : Sp t) : Eats lpegEnv (.nonterm "pattern") (t ++ s) none := by
  obtain ⟨b, l, e, hb⟩ := h.head
  have hn : NoSp s := by rw [e]; exact noSp_cons (isStart_noSp hb)
  refine .nonterm lpeg_pattern (.seqOk (s' := s) (.nonterm lpeg_exp (.seqOk (lpeg_sp ht hn) (.altL (.nonterm lpeg_alternative (.seqOk (s' := s)
    (.nonterm lpeg_seq (.starEnd h.lpeg_prefix)) (.starEnd (.seqFail (.seqFail (.litF (h.not_head (by decide))))))))))) ?_)
  rw [e]
  exact .notFail .dotOk

end Gpeg.Re
