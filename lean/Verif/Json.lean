import Verif.Lang
import Verif.GrammarFiles
import Verif.JsonSpec
/-!
# The language of `grammars/json.peg`
-/
namespace Gpeg.JsonPeg
open Gpeg.Re Gpeg.Json

/-! ## The grammar -/

/-- The definitions of `grammars/json.peg` as patterns. -/
def jsonDefs : Defs :=
  .cons "doc" (.seq (.nonterm "JSON") (.not (.dot 1)))
  (.cons "JSON" (.seq (.seq (.nonterm "S_") (.alt (.nonterm "Number") (.alt (.nonterm "Object") (.alt (.nonterm "Array") (.alt (.nonterm "String")
    (.alt (.nonterm "True") (.alt (.nonterm "False") (.nonterm "Null")))))))) (.nonterm "S_"))
  (.cons "Object" (.seq (.seq (.lit [123]) (.alt (.seq (.seq (.seq (.nonterm "String") (.lit [58])) (.nonterm "JSON")) (.star (.seq (.seq (.seq (.lit
    [44]) (.nonterm "String")) (.lit [58])) (.nonterm "JSON")))) (.nonterm "S_"))) (.lit [125]))
  (.cons "Array" (.seq (.seq (.lit [91]) (.alt (.seq (.nonterm "JSON") (.star (.seq (.lit [44]) (.nonterm "JSON")))) (.nonterm "S_"))) (.lit [93]))
  (.cons "StringBody" (.seq (.opt (.nonterm "Escape")) (.star (.seq (.plus (.seq (.not (.cls (cset [.one 34, .one 92, .range 0 31]))) (.dot 1)))
    (.star (.nonterm "Escape")))))
  (.cons "String" (.seq (.seq (.seq (.seq (.nonterm "S_") (.lit [34])) (.nonterm "StringBody")) (.lit [34])) (.nonterm "S_"))
  (.cons "Escape" (.seq (.lit [92]) (.alt (.cls (cset [.one 34, .one 123, .one 124, .one 92, .one 98, .one 102, .one 110, .one 114, .one 116]))
    (.nonterm "UnicodeEscape")))
  (.cons "UnicodeEscape" (.seq (.seq (.seq (.seq (.lit [117]) (.cls (cset [.range 48 57, .range 65 70, .range 97 102]))) (.cls (cset [.range 48 57,
    .range 65 70, .range 97 102]))) (.cls (cset [.range 48 57, .range 65 70, .range 97 102]))) (.cls (cset [.range 48 57, .range 65 70, .range 97
    102])))
  (.cons "Number" (.seq (.seq (.seq (.opt (.nonterm "Minus")) (.nonterm "IntPart")) (.opt (.nonterm "FractPart"))) (.opt (.nonterm "ExpPart")))
  (.cons "Minus" (.lit [45])
  (.cons "IntPart" (.alt (.lit [48]) (.seq (.cls (cset [.range 49 57])) (.star (.cls (cset [.range 48 57])))))
  (.cons "FractPart" (.seq (.lit [46]) (.plus (.cls (cset [.range 48 57]))))
  (.cons "ExpPart" (.seq (.seq (.cls (cset [.one 101, .one 69])) (.opt (.cls (cset [.one 43, .one 45])))) (.plus (.cls (cset [.range 48 57]))))
  (.cons "True" (.lit [116, 114, 117, 101])
  (.cons "False" (.lit [102, 97, 108, 115, 101])
  (.cons "Null" (.lit [110, 117, 108, 108])
  (.cons "S_" (.star (.cls (cset [.range 9 13, .one 32])))
  .nil))))))))))))))))

theorem json_defs : ((Top.gram jsonGram).pat 0).1 = .grammar "doc" jsonDefs := by
  have h0 : nameOf (bytes "doc") = "doc" := by decide +kernel
  have h1 : nameOf (bytes "JSON") = "JSON" := by decide +kernel
  have h2 : nameOf (bytes "Object") = "Object" := by decide +kernel
  have h3 : nameOf (bytes "Array") = "Array" := by decide +kernel
  have h4 : nameOf (bytes "StringBody") = "StringBody" := by decide +kernel
  have h5 : nameOf (bytes "String") = "String" := by decide +kernel
  have h6 : nameOf (bytes "Escape") = "Escape" := by decide +kernel
  have h7 : nameOf (bytes "UnicodeEscape") = "UnicodeEscape" := by decide +kernel
  have h8 : nameOf (bytes "Number") = "Number" := by decide +kernel
  have h9 : nameOf (bytes "Minus") = "Minus" := by decide +kernel
  have h10 : nameOf (bytes "IntPart") = "IntPart" := by decide +kernel
  have h11 : nameOf (bytes "FractPart") = "FractPart" := by decide +kernel
  have h12 : nameOf (bytes "ExpPart") = "ExpPart" := by decide +kernel
  have h13 : nameOf (bytes "True") = "True" := by decide +kernel
  have h14 : nameOf (bytes "False") = "False" := by decide +kernel
  have h15 : nameOf (bytes "Null") = "Null" := by decide +kernel
  have h16 : nameOf (bytes "S_") = "S_" := by decide +kernel
  simp only [jsonGram, Top.pat, Gram.pats, Expr.pat, Expr.alts, Seqn.pats, Prim.pat, Pre.apply, Suf.apply, concatPat, orPat, List.foldl,
    List.reverse_cons, List.reverse_nil, List.nil_append, List.cons_append, h0, h1, h2, h3, h4, h5, h6, h7, h8, h9, h10, h11, h12, h13, h14, h15, h16]
  rfl

abbrev jsonEnv : Env := [jsonDefs]

theorem json_doc : lookupNT "doc" jsonEnv = some (.seq (.nonterm "JSON") (.not (.dot 1)), jsonEnv) := rfl
theorem json_JSON : lookupNT "JSON" jsonEnv = some (.seq (.seq (.nonterm "S_") (.alt (.nonterm "Number") (.alt (.nonterm "Object") (.alt (.nonterm
    "Array") (.alt (.nonterm "String") (.alt (.nonterm "True") (.alt (.nonterm "False") (.nonterm "Null")))))))) (.nonterm "S_"), jsonEnv) := rfl
theorem json_Object : lookupNT "Object" jsonEnv = some (.seq (.seq (.lit [123]) (.alt (.seq (.seq (.seq (.nonterm "String") (.lit [58])) (.nonterm
    "JSON")) (.star (.seq (.seq (.seq (.lit [44]) (.nonterm "String")) (.lit [58])) (.nonterm "JSON")))) (.nonterm "S_"))) (.lit [125]), jsonEnv) :=
    rfl
theorem json_Array : lookupNT "Array" jsonEnv = some (.seq (.seq (.lit [91]) (.alt (.seq (.nonterm "JSON") (.star (.seq (.lit [44]) (.nonterm
    "JSON")))) (.nonterm "S_"))) (.lit [93]), jsonEnv) := rfl
theorem json_StringBody : lookupNT "StringBody" jsonEnv = some (.seq (.opt (.nonterm "Escape")) (.star (.seq (.plus (.seq (.not (.cls (cset [.one 34,
    .one 92, .range 0 31]))) (.dot 1))) (.star (.nonterm "Escape")))), jsonEnv) := rfl
theorem json_String : lookupNT "String" jsonEnv = some (.seq (.seq (.seq (.seq (.nonterm "S_") (.lit [34])) (.nonterm "StringBody")) (.lit [34]))
    (.nonterm "S_"), jsonEnv) := rfl
theorem json_Escape : lookupNT "Escape" jsonEnv = some (.seq (.lit [92]) (.alt (.cls (cset [.one 34, .one 123, .one 124, .one 92, .one 98, .one 102,
    .one 110, .one 114, .one 116])) (.nonterm "UnicodeEscape")), jsonEnv) := rfl
theorem json_UnicodeEscape : lookupNT "UnicodeEscape" jsonEnv = some (.seq (.seq (.seq (.seq (.lit [117]) (.cls (cset [.range 48 57, .range 65 70,
    .range 97 102]))) (.cls (cset [.range 48 57, .range 65 70, .range 97 102]))) (.cls (cset [.range 48 57, .range 65 70, .range 97 102]))) (.cls
    (cset [.range 48 57, .range 65 70, .range 97 102])), jsonEnv) := rfl
theorem json_Number : lookupNT "Number" jsonEnv = some (.seq (.seq (.seq (.opt (.nonterm "Minus")) (.nonterm "IntPart")) (.opt (.nonterm
    "FractPart"))) (.opt (.nonterm "ExpPart")), jsonEnv) := rfl
theorem json_Minus : lookupNT "Minus" jsonEnv = some (.lit [45], jsonEnv) := rfl
theorem json_IntPart : lookupNT "IntPart" jsonEnv = some (.alt (.lit [48]) (.seq (.cls (cset [.range 49 57])) (.star (.cls (cset [.range 48 57])))),
    jsonEnv) := rfl
theorem json_FractPart : lookupNT "FractPart" jsonEnv = some (.seq (.lit [46]) (.plus (.cls (cset [.range 48 57]))), jsonEnv) := rfl
theorem json_ExpPart : lookupNT "ExpPart" jsonEnv = some (.seq (.seq (.cls (cset [.one 101, .one 69])) (.opt (.cls (cset [.one 43, .one 45])))) (.plus
    (.cls (cset [.range 48 57]))), jsonEnv) := rfl
theorem json_True : lookupNT "True" jsonEnv = some (.lit [116, 114, 117, 101], jsonEnv) := rfl
theorem json_False : lookupNT "False" jsonEnv = some (.lit [102, 97, 108, 115, 101], jsonEnv) := rfl
theorem json_Null : lookupNT "Null" jsonEnv = some (.lit [110, 117, 108, 108], jsonEnv) := rfl
theorem json_S_ : lookupNT "S_" jsonEnv = some (.star (.cls (cset [.range 9 13, .one 32])), jsonEnv) := rfl


theorem has_digit (x : UInt8) : (cset [.range 48 57]).has x = digit x := by
  rw [has_cset]; simp [Item.mem, digit]
theorem has_hex (x : UInt8) : (cset [.range 48 57, .range 65 70, .range 97 102]).has x = hex x := by
  rw [has_cset]; simp [Item.mem, hex, Bool.or_assoc]
theorem has_ws (x : UInt8) : (cset [.range 9 13, .one 32]).has x = file.ws x := by
  rw [has_cset]
  simp only [Item.mem, file, List.any_cons, List.any_nil, Bool.or_false]
  revert x
  refine forall_byte ?_
  decide +kernel
theorem has_esc (x : UInt8) : (cset [.one 34, .one 123, .one 124, .one 92, .one 98, .one 102, .one 110, .one 114, .one 116]).has x = file.esc x := by
  rw [has_cset]
  simp only [Item.mem, file, List.any_cons, List.any_nil, Bool.or_false]
  revert x
  refine forall_byte ?_
  decide +kernel
theorem has_plain (x : UInt8) : (cset [.one 34, .one 92, .range 0 31]).has x = !plain x := by
  rw [has_cset]
  simp only [Item.mem, plain, List.any_cons, List.any_nil, Bool.or_false]
  revert x
  refine forall_byte ?_
  decide +kernel

/-! ## Blanks -/

/-- The blanks are taken. -/
theorem ws_ok {sp r : List UInt8} (h : Ws file sp) (hr : NotIn file.ws r) : Eats jsonEnv (.nonterm "S_") (sp ++ r) (some r) :=
  .nonterm json_S_ (star_cls (fun b hb => by rw [has_ws]; exact h b hb) fun b hb => by rw [has_ws]; exact hr b hb)

theorem ws_inv {s r : List UInt8} (h : Eats jsonEnv (.nonterm "S_") s (some r)) : ∃ sp, s = sp ++ r ∧ Ws file sp ∧ NotIn file.ws r := by
  have h := nonterm_inv json_S_ h
  obtain ⟨w, e, hw⟩ := star_cls_inv h
  refine ⟨w, e, fun b hb => ?_, fun b hb => ?_⟩
  · rw [← has_ws]; exact hw b hb
  · rw [← has_ws]; exact star_cls_stop h rfl r rfl b hb

/-! ## Numbers -/

theorem digits_ok {w r : List UInt8} (h : Digits w) (hr : NotIn digit r) : Eats jsonEnv (.plus (.cls (cset [.range 48 57]))) (w ++ r) (some r) := by
  obtain ⟨h0, h1⟩ := h
  cases w with
  | nil => exact (h0 rfl).elim
  | cons b w =>
    refine .plusOk (.clsOk (by rw [has_digit]; exact h1 b (by simp))) (star_cls (fun x hx => ?_) fun x hx => ?_)
    · rw [has_digit]; exact h1 x (by simp [hx])
    · rw [has_digit]; exact hr x hx

theorem digits_inv {s r : List UInt8} (h : Eats jsonEnv (.plus (.cls (cset [.range 48 57]))) s (some r)) : ∃ w, s = w ++ r ∧ Digits w := by
  obtain ⟨s', h1, h2⟩ := plus_inv h
  obtain ⟨b, rfl, hb⟩ := cls_inv h1
  obtain ⟨w, rfl, hw⟩ := star_cls_inv h2
  refine ⟨b :: w, rfl, by simp, fun x hx => ?_⟩
  rw [← has_digit]
  rcases List.mem_cons.1 hx with rfl | hx
  · exact hb
  · exact hw x hx

theorem digits_head {w : List UInt8} (h : Digits w) : ∃ b t, w = b :: t ∧ digit b = true := by
  obtain ⟨h0, h1⟩ := h
  cases w with
  | nil => exact (h0 rfl).elim
  | cons b w => exact ⟨b, w, rfl, h1 b (by simp)⟩

/-- Bytes that may continue a number. -/
def numCont (b : UInt8) : Bool := digit b || b == 46 || b == 101 || b == 69

theorem numCont_digit {r : List UInt8} (h : NotIn numCont r) : NotIn digit r := fun b hb => by
  have := h b hb
  simp only [numCont, Bool.or_eq_false_iff] at this
  exact this.1.1.1

theorem exp_ok {e r : List UInt8} (h : Exp e) (hr : NotIn numCont r) : Eats jsonEnv (.opt (.nonterm "ExpPart")) (e ++ r) (some r) := by
  have hd := numCont_digit hr
  have he : ∀ e, e = 101 ∨ e = 69 → (cset [.one 101, .one 69]).has e = true := by
    rintro e (rfl | rfl) <;> rw [has_cset] <;> rfl
  cases h with
  | no =>
    refine .optNone (.nonterm json_ExpPart (.seqFail (.seqFail (.clsFail fun b hb => ?_))))
    have := hr b hb
    simp only [numCont, Bool.or_eq_false_iff] at this
    rw [has_cset]
    simp [Item.mem, this.1.2, this.2]
  | @plain e w h1 h2 =>
    obtain ⟨b, t, rfl, hb⟩ := digits_head h2
    refine .optSome (.nonterm json_ExpPart (.seqOk (.seqOk (.clsOk (he _ h1)) (.optNone (.clsFail fun x hx => ?_))) (digits_ok h2 hd)))
    cases hx
    rw [has_cset]
    revert hb
    simp only [Item.mem, digit, List.any_cons, List.any_nil, Bool.or_false]
    exact forall_byte (P := fun b => (48 ≤ b && b ≤ 57) = true → (b == 43 || b == 45) = false) (by decide +kernel) b
  | @signed e s w h1 h2 h3 =>
    refine .optSome (.nonterm json_ExpPart (.seqOk (.seqOk (.clsOk (he _ h1)) (.optSome (.clsOk ?_))) (digits_ok h3 hd)))
    rw [has_cset]
    rcases h2 with rfl | rfl <;> rfl

theorem exp_inv {s r : List UInt8} (h : Eats jsonEnv (.opt (.nonterm "ExpPart")) s (some r)) : ∃ e, s = e ++ r ∧ Exp e := by
  rcases opt_inv h with h | rfl
  · obtain ⟨s2, h12, h3⟩ := seq_inv (nonterm_inv json_ExpPart h)
    obtain ⟨s1, h1, h2⟩ := seq_inv h12
    obtain ⟨b, rfl, hb⟩ := cls_inv h1
    obtain ⟨w, rfl, hw⟩ := digits_inv h3
    have hb : b = 101 ∨ b = 69 := by rw [has_cset] at hb; simpa [Item.mem] using hb
    rcases opt_inv h2 with h2 | rfl
    · obtain ⟨c, rfl, hc⟩ := cls_inv h2
      have hc : c = 43 ∨ c = 45 := by rw [has_cset] at hc; simpa [Item.mem] using hc
      exact ⟨_, rfl, .signed hb hc hw⟩
    · exact ⟨_, rfl, .plain hb hw⟩
  · exact ⟨[], rfl, .no⟩

theorem exp_head {e r : List UInt8} (h : Exp e) (hr : NotIn numCont r) : NotIn digit (e ++ r) ∧ (e ++ r).head? ≠ some 46 := by
  cases h with
  | no =>
    refine ⟨numCont_digit hr, fun h => ?_⟩
    have := hr _ h
    simp [numCont] at this
  | plain h1 h2 | signed h1 h2 h3 =>
    refine ⟨notIn_cons (by rcases h1 with rfl | rfl <;> rfl), ?_⟩
    rcases h1 with rfl | rfl <;> simp

theorem frac_ok {f r : List UInt8} (h : Frac f) (hr : NotIn digit r) (h46 : r.head? ≠ some 46) :
    Eats jsonEnv (.opt (.nonterm "FractPart")) (f ++ r) (some r) := by
  cases h with
  | no => exact .optNone (.nonterm json_FractPart (.seqFail (.litF h46)))
  | @yes w h => exact .optSome (.nonterm json_FractPart (.seqOk (.litOk (w := [46])) (digits_ok h hr)))

theorem frac_inv {s r : List UInt8} (h : Eats jsonEnv (.opt (.nonterm "FractPart")) s (some r)) : ∃ f, s = f ++ r ∧ Frac f := by
  rcases opt_inv h with h | rfl
  · obtain ⟨s1, h1, h2⟩ := seq_inv (nonterm_inv json_FractPart h)
    have := lit_inv h1
    subst this
    obtain ⟨w, rfl, hw⟩ := digits_inv h2
    exact ⟨46 :: w, rfl, .yes hw⟩
  · exact ⟨[], rfl, .no⟩

theorem frac_head {f r : List UInt8} (h : Frac f) (hr : NotIn digit r) : NotIn digit (f ++ r) := by
  cases h with
  | no => exact hr
  | yes _ => exact notIn_cons rfl

theorem int_ok {i r : List UInt8} (h : Json.Int i) (hr : NotIn digit r) : Eats jsonEnv (.nonterm "IntPart") (i ++ r) (some r) := by
  cases h with
  | zero => exact .nonterm json_IntPart (.altL (.litOk (w := [48])))
  | @pos b w h1 h2 h3 =>
    refine .nonterm json_IntPart (.altR (.litF ?_) (.seqOk (.clsOk ?_) (star_cls (fun x hx => ?_) fun x hx => ?_)))
    · rintro h
      cases h
      exact absurd h1 (by decide)
    · rw [has_cset]; simp [Item.mem, h1, h2]
    · rw [has_digit]; exact h3 x hx
    · rw [has_digit]; exact hr x hx

theorem int_inv {s r : List UInt8} (h : Eats jsonEnv (.nonterm "IntPart") s (some r)) : ∃ i, s = i ++ r ∧ Json.Int i := by
  rcases alt_inv (nonterm_inv json_IntPart h) with h | ⟨_, h⟩
  · exact ⟨[48], lit_inv h, .zero⟩
  · obtain ⟨s1, h1, h2⟩ := seq_inv h
    obtain ⟨b, rfl, hb⟩ := cls_inv h1
    obtain ⟨w, rfl, hw⟩ := star_cls_inv h2
    rw [has_cset] at hb
    simp only [Item.mem, List.any_cons, List.any_nil, Bool.or_false, Bool.and_eq_true, decide_eq_true_eq] at hb
    exact ⟨b :: w, rfl, .pos hb.1 hb.2 fun x hx => by rw [← has_digit]; exact hw x hx⟩

theorem int_head {i : List UInt8} (h : Json.Int i) : ∃ b t, i = b :: t ∧ digit b = true := by
  cases h with
  | zero => exact ⟨48, [], rfl, rfl⟩
  | @pos b w h1 h2 _ =>
    refine ⟨b, w, rfl, ?_⟩
    have h1 := UInt8.le_iff_toNat_le.1 h1
    have h2 := UInt8.le_iff_toNat_le.1 h2
    simp only [digit, Bool.and_eq_true, decide_eq_true_eq, UInt8.le_iff_toNat_le]
    exact ⟨Nat.le_trans (by decide) h1, h2⟩

theorem number_ok {w r : List UInt8} (h : Number w) (hr : NotIn numCont r) : Eats jsonEnv (.nonterm "Number") (w ++ r) (some r) := by
  obtain ⟨hs, hi, hf, he⟩ := h
  rename_i s i f e
  obtain ⟨h1, h2⟩ := exp_head he hr
  have e1 : s ++ (i ++ (f ++ e)) ++ r = s ++ (i ++ (f ++ (e ++ r))) := by simp
  rw [e1]
  refine .nonterm json_Number (.seqOk (.seqOk (.seqOk ?_ (int_ok hi (frac_head hf h1))) (frac_ok hf h1 h2)) (exp_ok he hr))
  cases hs with
  | no =>
    refine .optNone (.nonterm json_Minus (.litF ?_))
    obtain ⟨b, t, rfl, hb⟩ := int_head hi
    intro h
    cases h
    cases hb
  | minus => exact .optSome (.nonterm json_Minus (.litOk (w := [45])))

theorem number_inv {s r : List UInt8} (h : Eats jsonEnv (.nonterm "Number") s (some r)) : ∃ w, s = w ++ r ∧ Number w := by
  obtain ⟨s3, h123, h4⟩ := seq_inv (nonterm_inv json_Number h)
  obtain ⟨s2, h12, h3⟩ := seq_inv h123
  obtain ⟨s1, h1, h2⟩ := seq_inv h12
  obtain ⟨e, rfl, he⟩ := exp_inv h4
  obtain ⟨f, rfl, hf⟩ := frac_inv h3
  obtain ⟨i, rfl, hi⟩ := int_inv h2
  rcases opt_inv h1 with h1 | rfl
  · have := lit_inv (nonterm_inv json_Minus h1)
    subst this
    exact ⟨[45] ++ (i ++ (f ++ e)), by simp, .mk .minus hi hf he⟩
  · exact ⟨[] ++ (i ++ (f ++ e)), by simp, .mk .no hi hf he⟩

theorem number_head {w : List UInt8} (h : Number w) : ∃ b t, w = b :: t ∧ (b == 45 || digit b) = true := by
  obtain ⟨hs, hi, hf, he⟩ := h
  cases hs with
  | no =>
    obtain ⟨b, t, rfl, hb⟩ := int_head hi
    exact ⟨b, _, rfl, by simp [hb]⟩
  | minus => exact ⟨45, _, rfl, rfl⟩

/-- A text that does not begin with a minus sign or a digit is no number. -/
theorem number_fails {s : List UInt8} (h : NotIn (fun b => b == 45 || digit b) s) : Eats jsonEnv (.nonterm "Number") s none := by
  have h45 : s.head? ≠ some 45 := fun e => by have := h _ e; simp at this
  have h48 : s.head? ≠ some 48 := fun e => by have := h _ e; simp [digit] at this
  refine .nonterm json_Number (.seqFail (.seqFail (.seqOk (.optNone (.nonterm json_Minus (.litF h45)))
    (.nonterm json_IntPart (.altR (.litF h48) (.seqFail (.clsFail fun b hb => ?_)))))))
  have := h b hb
  rw [has_cset]
  revert this
  simp only [Item.mem, digit, List.any_cons, List.any_nil, Bool.or_false]
  exact forall_byte (P := fun b => (b == 45 || (48 ≤ b && b ≤ 57)) = false → (49 ≤ b && b ≤ 57) = false) (by decide +kernel) b

/-! ## Strings -/

/-- `!["\\\00-\37] .` -/
abbrev chP : Pat := .seq (.not (.cls (cset [.one 34, .one 92, .range 0 31]))) (.dot 1)
/-- `(!["\\\00-\37] .)+ Escape*` -/
abbrev runP : Pat := .seq (.plus chP) (.star (.nonterm "Escape"))

theorem ch_ok {b : UInt8} {r : List UInt8} (h : plain b = true) : Eats jsonEnv chP (b :: r) (some r) := by
  refine .seqOk (.notOk (.clsFail fun x hx => ?_)) .dotOk
  cases hx
  rw [has_plain, h]; rfl

theorem ch_fails {s : List UInt8} (h : NotIn plain s) : Eats jsonEnv chP s none := by
  cases s with
  | nil => exact .seqOk (.notOk (.clsFail fun x hx => by cases hx)) .dotFail
  | cons b s => exact .seqFail (.notFail (.clsOk (by rw [has_plain, h b rfl]; rfl)))

theorem ch_inv {s r : List UInt8} (h : Eats jsonEnv chP s (some r)) : ∃ b, s = b :: r ∧ plain b = true := by
  obtain ⟨s1, h1, h2⟩ := seq_inv h
  cases h1 with
  | notOk h1 =>
    cases h2 with
    | @dotOk env b s =>
      refine ⟨b, rfl, ?_⟩
      cases h1 with
      | clsFail h1 =>
        have := h1 b rfl
        rw [has_plain] at this
        simpa using this

/-- Texts of escapes. -/
inductive Esc : List UInt8 → Prop
  | one {b} : file.esc b = true → Esc [92, b]
  | uni {a b c d} : hex a = true → hex b = true → hex c = true → hex d = true → Esc [92, 117, a, b, c, d]

theorem Esc.items {t : List UInt8} (h : Esc t) {fs : List Bool} {w : List UInt8} (hw : Items file fs w) : Items file (true :: fs) (t ++ w) := by
  cases h with
  | one h => exact .esc h hw
  | uni h1 h2 h3 h4 => exact .uni h1 h2 h3 h4 hw

theorem esc_ok {t r : List UInt8} (h : Esc t) : Eats jsonEnv (.nonterm "Escape") (t ++ r) (some r) := by
  cases h with
  | one h => exact .nonterm json_Escape (.seqOk (.litOk (w := [92])) (.altL (.clsOk (by rw [has_esc]; exact h))))
  | uni h1 h2 h3 h4 =>
    refine .nonterm json_Escape (.seqOk (.litOk (w := [92])) (.altR (.clsFail fun b hb => ?_) (.nonterm json_UnicodeEscape
      (.seqOk (.seqOk (.seqOk (.seqOk (.litOk (w := [117])) (.clsOk ?_)) (.clsOk ?_)) (.clsOk ?_)) (.clsOk ?_)))))
    · cases hb; rw [has_esc]; rfl
    all_goals (rw [has_hex]; assumption)

theorem esc_fails {s : List UInt8} (h : s.head? ≠ some 92) : Eats jsonEnv (.nonterm "Escape") s none :=
  .nonterm json_Escape (.seqFail (.litF h))

theorem esc_inv {s r : List UInt8} (h : Eats jsonEnv (.nonterm "Escape") s (some r)) : ∃ t, s = t ++ r ∧ Esc t := by
  obtain ⟨s1, h1, h2⟩ := seq_inv (nonterm_inv json_Escape h)
  have := lit_inv h1
  subst this
  rcases alt_inv h2 with h2 | ⟨_, h2⟩
  · obtain ⟨b, rfl, hb⟩ := cls_inv h2
    rw [has_esc] at hb
    exact ⟨[92, b], rfl, .one hb⟩
  · obtain ⟨s5, h5, hd⟩ := seq_inv (nonterm_inv json_UnicodeEscape h2)
    obtain ⟨s4, h4, hc⟩ := seq_inv h5
    obtain ⟨s3, h3, hb⟩ := seq_inv h4
    obtain ⟨s2, h2, ha⟩ := seq_inv h3
    have := lit_inv h2
    subst this
    obtain ⟨a, rfl, ha'⟩ := cls_inv ha
    obtain ⟨b, rfl, hb'⟩ := cls_inv hb
    obtain ⟨c, rfl, hc'⟩ := cls_inv hc
    obtain ⟨d, rfl, hd'⟩ := cls_inv hd
    rw [has_hex] at ha' hb' hc' hd'
    exact ⟨[92, 117, a, b, c, d], rfl, .uni ha' hb' hc' hd'⟩

theorem plain_ne {b : UInt8} (h : plain b = true) : b ≠ 92 := by
  rintro rfl
  cases h

theorem items_ok {fs : List Bool} {w : List UInt8} (h : Items file fs w) (r : List UInt8) :
    (fs.head? ≠ some true → Eats jsonEnv (.star runP) (w ++ 34 :: r) (some (34 :: r))) ∧
    (∃ u v, Eats jsonEnv (.star chP) (w ++ 34 :: r) (some u) ∧ Eats jsonEnv (.star (.nonterm "Escape")) u (some v) ∧
      Eats jsonEnv (.star runP) v (some (34 :: r))) ∧
    (∃ v, Eats jsonEnv (.star (.nonterm "Escape")) (w ++ 34 :: r) (some v) ∧ Eats jsonEnv (.star runP) v (some (34 :: r))) := by
  have escape : ∀ {t w : List UInt8}, Esc t → (∃ v, Eats jsonEnv (.star (.nonterm "Escape")) (w ++ 34 :: r) (some v) ∧
      Eats jsonEnv (.star runP) v (some (34 :: r))) → NotIn plain (t ++ w ++ 34 :: r) →
      (∃ u v, Eats jsonEnv (.star chP) (t ++ w ++ 34 :: r) (some u) ∧ Eats jsonEnv (.star (.nonterm "Escape")) u (some v) ∧
        Eats jsonEnv (.star runP) v (some (34 :: r))) ∧
      (∃ v, Eats jsonEnv (.star (.nonterm "Escape")) (t ++ w ++ 34 :: r) (some v) ∧ Eats jsonEnv (.star runP) v (some (34 :: r))) := by
    intro t w ht ⟨v, h1, h2⟩ hn
    have h3 : Eats jsonEnv (.star (.nonterm "Escape")) (t ++ w ++ 34 :: r) (some v) := by
      rw [List.append_assoc]
      exact .starStep (esc_ok ht) h1
    exact ⟨⟨_, v, .starEnd (ch_fails hn), h3, h2⟩, v, h3, h2⟩
  induction h with
  | nil =>
    have h1 : Eats jsonEnv chP (34 :: r) none := ch_fails (notIn_cons rfl)
    have h2 : Eats jsonEnv (.star (.nonterm "Escape")) (34 :: r) (some (34 :: r)) := .starEnd (esc_fails (by simp))
    have h3 : Eats jsonEnv (.star runP) (34 :: r) (some (34 :: r)) := .starEnd (.seqFail (.plusFail h1))
    exact ⟨fun _ => h3, ⟨_, _, .starEnd h1, h2, h3⟩, _, h2, h3⟩
  | @char b fs w hb _ ih =>
    obtain ⟨_, ⟨u, v, h1, h2, h3⟩, _⟩ := ih
    have h4 : Eats jsonEnv (.star runP) (b :: w ++ 34 :: r) (some (34 :: r)) := .starStep (.seqOk (.plusOk (ch_ok hb) h1) h2) h3
    exact ⟨fun _ => h4, ⟨u, v, .starStep (ch_ok hb) h1, h2, h3⟩, _, .starEnd (esc_fails (by simpa using plain_ne hb)), h4⟩
  | @esc b fs w hb _ ih =>
    exact ⟨fun h => (h rfl).elim, escape (t := [92, b]) (.one hb) ih.2.2 (notIn_cons rfl)⟩
  | @uni a b c d fs w h1 h2 h3 h4 _ ih =>
    exact ⟨fun h => (h rfl).elim, escape (t := [92, 117, a, b, c, d]) (.uni h1 h2 h3 h4) ih.2.2 (notIn_cons rfl)⟩

theorem items_esc {fs : List Bool} {w : List UInt8} (h : Items file (true :: fs) w) : ∃ t u, w = t ++ u ∧ Esc t ∧ Items file fs u := by
  cases h with
  | @esc b _ w h1 h2 => exact ⟨[92, b], w, rfl, .one h1, h2⟩
  | @uni a b c d _ w h1 h2 h3 h4 h5 => exact ⟨[92, 117, a, b, c, d], w, rfl, .uni h1 h2 h3 h4, h5⟩

theorem body_ok {fs : List Bool} {w : List UInt8} (h : Items file fs w) (hb : file.body fs = true) (r : List UInt8) :
    Eats jsonEnv (.nonterm "StringBody") (w ++ 34 :: r) (some (34 :: r)) := by
  match fs with
  | [] =>
    have := (items_ok h r).1 (by simp)
    cases h
    exact .nonterm json_StringBody (.seqOk (.optNone (esc_fails (by simp))) this)
  | false :: fs =>
    have := (items_ok h r).1 (by simp)
    cases h with
    | char h1 h2 => exact .nonterm json_StringBody (.seqOk (.optNone (esc_fails (by simpa using plain_ne h1))) this)
  | true :: fs =>
    obtain ⟨t, u, rfl, ht, hu⟩ := items_esc h
    have := (items_ok hu r).1 (by
      intro e
      match fs with
      | true :: fs => cases hb)
    rw [List.append_assoc]
    exact .nonterm json_StringBody (.seqOk (.optSome (esc_ok ht)) this)

theorem items_append {V : Variant} {fs gs : List Bool} {w v : List UInt8} (h : Items V fs w) (h' : Items V gs v) : Items V (fs ++ gs) (w ++ v) := by
  induction h with
  | nil => exact h'
  | char h1 _ ih => exact .char h1 ih
  | esc h1 _ ih => exact .esc h1 ih
  | uni h1 h2 h3 h4 _ ih => exact .uni h1 h2 h3 h4 ih

theorem body_inv {s r : List UInt8} (h : Eats jsonEnv (.nonterm "StringBody") s (some r)) :
    ∃ fs w, s = w ++ r ∧ Items file fs w ∧ file.body fs = true := by
  obtain ⟨s1, h1, h2⟩ := seq_inv (nonterm_inv json_StringBody h)
  obtain ⟨w, rfl, hw⟩ := star_sound (L := fun w => ∃ fs, Items file (false :: fs) w) h2 (by
    intro s' r' hsuf h'
    clear hsuf
    obtain ⟨s2, h3, h4⟩ := seq_inv h'
    obtain ⟨s3, h5, h6⟩ := plus_inv h3
    obtain ⟨b, rfl, hb⟩ := ch_inv h5
    obtain ⟨u, rfl, hu⟩ := star_sound (L := fun w => ∃ b, w = [b] ∧ plain b = true) h6 fun s' r' _ h' => by
      obtain ⟨b, rfl, hb⟩ := ch_inv h'
      exact ⟨[b], rfl, b, rfl, hb⟩
    obtain ⟨v, rfl, hv⟩ := star_sound (L := Esc) h4 fun s' r' _ h' => esc_inv h'
    have iv : ∃ fs, Items file fs v := by
      clear h h1 h2 h' h3 h4 h5 h6
      induction hv with
      | nil => exact ⟨_, .nil⟩
      | cons h1 _ ih => obtain ⟨fs, hf⟩ := ih; exact ⟨_, h1.items hf⟩
    have iu : ∃ fs, Items file fs u := by
      clear h h1 h2 h' h3 h4 h5 h6
      induction hu with
      | nil => exact ⟨_, .nil⟩
      | cons h1 _ ih => obtain ⟨fs, hf⟩ := ih; obtain ⟨b, rfl, hb⟩ := h1; exact ⟨_, .char hb hf⟩
    obtain ⟨fs, hf⟩ := iu
    obtain ⟨gs, hg⟩ := iv
    exact ⟨b :: (u ++ v), by simp, _, .char hb (items_append hf hg)⟩)
  have iw : ∃ fs, Items file fs w ∧ fs.head? ≠ some true := by
    clear h h1 h2
    induction hw with
    | nil => exact ⟨_, .nil, by simp⟩
    | cons h1 _ ih =>
      obtain ⟨fs, hf, _⟩ := ih
      obtain ⟨gs, hg⟩ := h1
      exact ⟨_, items_append hg hf, by simp⟩
  obtain ⟨fs, hf, hh⟩ := iw
  have hbody : ∀ fs : List Bool, fs.head? ≠ some true → file.body fs = true ∧ file.body (true :: fs) = true := by
    intro fs h
    match fs with
    | [] => exact ⟨rfl, rfl⟩
    | false :: fs => exact ⟨rfl, rfl⟩
    | true :: fs => exact (h rfl).elim
  rcases opt_inv h1 with h1 | rfl
  · obtain ⟨t, rfl, ht⟩ := esc_inv h1
    exact ⟨_, t ++ w, by simp, ht.items hf, (hbody fs hh).2⟩
  · exact ⟨_, w, rfl, hf, (hbody fs hh).1⟩

theorem str_head {k : List UInt8} (h : Str file k) (r : List UInt8) : ∃ t, k ++ r = 34 :: t := by
  cases h; exact ⟨_, rfl⟩

/-- A string with blanks around it. -/
theorem string_ok {sp k sp' r : List UInt8} (h1 : Ws file sp) (h2 : Str file k) (h3 : Ws file sp') (hr : NotIn file.ws r) :
    Eats jsonEnv (.nonterm "String") (sp ++ (k ++ (sp' ++ r))) (some r) := by
  obtain ⟨hi, hb⟩ := h2
  rename_i fs w
  have e : sp ++ (34 :: (w ++ [34]) ++ (sp' ++ r)) = sp ++ ([34] ++ (w ++ 34 :: (sp' ++ r))) := by simp
  rw [e]
  exact .nonterm json_String (.seqOk (.seqOk (.seqOk (.seqOk (ws_ok h1 (notIn_cons rfl)) .litOk) (body_ok hi hb _)) (.litOk (w := [34])))
    (ws_ok h3 hr))

theorem string_inv {s r : List UInt8} (h : Eats jsonEnv (.nonterm "String") s (some r)) :
    ∃ sp k sp', s = sp ++ (k ++ (sp' ++ r)) ∧ Ws file sp ∧ Str file k ∧ Ws file sp' := by
  obtain ⟨s4, h4, h5⟩ := seq_inv (nonterm_inv json_String h)
  obtain ⟨s3, h3, hq⟩ := seq_inv h4
  obtain ⟨s2, h2, hb⟩ := seq_inv h3
  obtain ⟨s1, h1, hp⟩ := seq_inv h2
  obtain ⟨sp', rfl, hs', _⟩ := ws_inv h5
  have := lit_inv hq
  subst this
  obtain ⟨fs, w, rfl, hi, hbo⟩ := body_inv hb
  have := lit_inv hp
  subst this
  obtain ⟨sp, rfl, hs, _⟩ := ws_inv h1
  exact ⟨sp, _, sp', by simp, hs, .mk hi hbo, hs'⟩

theorem string_fails {sp r : List UInt8} (h : Ws file sp) (hr : NotIn file.ws r) (h34 : r.head? ≠ some 34) :
    Eats jsonEnv (.nonterm "String") (sp ++ r) none :=
  .nonterm json_String (.seqFail (.seqFail (.seqFail (.seqOk (ws_ok h hr) (.litF h34)))))

/-! ## Values -/

/-- `Number / Object / Array / String / True / False / Null` -/
abbrev valP : Pat := .alt (.nonterm "Number") (.alt (.nonterm "Object") (.alt (.nonterm "Array") (.alt (.nonterm "String")
  (.alt (.nonterm "True") (.alt (.nonterm "False") (.nonterm "Null"))))))
/-- `',' JSON` -/
abbrev elemP : Pat := .seq (.lit [44]) (.nonterm "JSON")
/-- `',' String ':' JSON` -/
abbrev membP : Pat := .seq (.seq (.seq (.lit [44]) (.nonterm "String")) (.lit [58])) (.nonterm "JSON")

/-- Bytes which may continue a value with the blanks after it. -/
def cont (b : UInt8) : Bool := file.ws b || numCont b

theorem cont_ws {r : List UInt8} (h : NotIn cont r) : NotIn file.ws r := fun b hb => by
  have := h b hb
  simp only [cont, Bool.or_eq_false_iff] at this
  exact this.1

theorem cont_num {sp r : List UInt8} (hs : Ws file sp) (h : NotIn cont r) : NotIn numCont (sp ++ r) := by
  intro b hb
  cases sp with
  | nil =>
    have := h b hb
    simp only [cont, Bool.or_eq_false_iff] at this
    exact this.2
  | cons x sp =>
    cases hb
    have := hs b (by simp)
    revert this
    simp only [file, numCont, digit]
    exact forall_byte (P := fun b => (b == 32 || b == 9 || b == 10 || b == 13 || b == 11 || b == 12) = true →
      ((48 ≤ b && b ≤ 57) || b == 46 || b == 101 || b == 69) = false) (by decide +kernel) b

theorem object_fails {s : List UInt8} (h : s.head? ≠ some 123) : Eats jsonEnv (.nonterm "Object") s none :=
  .nonterm json_Object (.seqFail (.seqFail (.litF h)))
theorem array_fails {s : List UInt8} (h : s.head? ≠ some 91) : Eats jsonEnv (.nonterm "Array") s none :=
  .nonterm json_Array (.seqFail (.seqFail (.litF h)))

/-- No value begins with a closing bracket. -/
theorem value_fails {b : UInt8} {r : List UInt8} (h : b = 93 ∨ b = 125) : Eats jsonEnv valP (b :: r) none := by
  rcases h with rfl | rfl <;>
  exact .altR (number_fails (notIn_cons rfl)) (.altR (object_fails (by simp)) (.altR (array_fails (by simp))
    (.altR (string_fails (sp := []) (by intro _ h; cases h) (notIn_cons rfl) (by simp)) (.altR (.nonterm json_True (.litF (by simp)))
      (.altR (.nonterm json_False (.litF (by simp))) (.nonterm json_Null (.litF (by simp))))))))

/-- What is claimed of the categories: they are matched as a whole if what follows cannot continue them. -/
def Claim : Cat → List UInt8 → Prop
  | .value, w => (∃ b t, w = b :: t ∧ file.ws b = false) ∧ ∀ sp r, Ws file sp → NotIn cont r →
      ∃ r', Eats jsonEnv valP (w ++ (sp ++ r)) (some r') ∧ Eats jsonEnv (.nonterm "S_") r' (some r)
  | .element, w => ∀ r, NotIn cont r → Eats jsonEnv (.nonterm "JSON") (w ++ r) (some r)
  | .elements, w => ∀ r, ∃ r', Eats jsonEnv (.nonterm "JSON") (w ++ 93 :: r) (some r') ∧ Eats jsonEnv (.star elemP) r' (some (93 :: r))
  | .members, w => ∀ r, ∃ s1 s2 r', Eats jsonEnv (.nonterm "String") (w ++ 125 :: r) (some s1) ∧ Eats jsonEnv (.lit [58]) s1 (some s2) ∧
      Eats jsonEnv (.nonterm "JSON") s2 (some r') ∧ Eats jsonEnv (.star membP) r' (some (125 :: r))

theorem complete {c : Cat} {w : List UInt8} (h : Json file c w) : Claim c w := by
  have lits : ∀ {w : List UInt8}, Eats jsonEnv (.nonterm "Number") w none → w.head? ≠ some 123 → w.head? ≠ some 91 →
      NotIn file.ws w → w.head? ≠ some 34 → ∀ {r'}, Eats jsonEnv (.alt (.nonterm "True") (.alt (.nonterm "False") (.nonterm "Null"))) w (some r') →
      Eats jsonEnv valP w (some r') := fun h1 h2 h3 h4 h5 _ h6 =>
    .altR h1 (.altR (object_fails h2) (.altR (array_fails h3) (.altR (string_fails (sp := []) (by intro _ h; cases h) h4 h5) h6)))
  have nil : Ws file [] := by intro _ h; cases h
  induction h with
  | number h1 =>
    refine ⟨?_, fun sp r hs hr => ⟨sp ++ r, .altL (number_ok h1 (cont_num hs hr)), ws_ok hs (cont_ws hr)⟩⟩
    obtain ⟨b, t, rfl, hb⟩ := number_head h1
    refine ⟨b, t, rfl, ?_⟩
    revert hb
    simp only [file, digit]
    exact forall_byte (P := fun b => (b == 45 || (48 ≤ b && b ≤ 57)) = true →
      (b == 32 || b == 9 || b == 10 || b == 13 || b == 11 || b == 12) = false) (by decide +kernel) b
  | string h1 =>
    refine ⟨?_, fun sp r hs hr => ⟨r, ?_, ws_ok nil (cont_ws hr)⟩⟩
    · cases h1; exact ⟨_, _, rfl, rfl⟩
    · have h2 := string_ok nil h1 hs (cont_ws hr)
      obtain ⟨t, ht⟩ := str_head h1 (sp ++ r)
      rw [List.nil_append] at h2
      rw [ht] at h2 ⊢
      exact .altR (number_fails (notIn_cons rfl)) (.altR (object_fails (by simp)) (.altR (array_fails (by simp)) (.altL h2)))
  | true =>
    exact ⟨⟨_, _, rfl, rfl⟩, fun sp r hs hr => ⟨sp ++ r, lits (number_fails (notIn_cons rfl)) (by simp) (by simp) (notIn_cons rfl) (by simp)
      (.altL (.nonterm json_True .litOk)), ws_ok hs (cont_ws hr)⟩⟩
  | false =>
    exact ⟨⟨_, _, rfl, rfl⟩, fun sp r hs hr => ⟨sp ++ r, lits (number_fails (notIn_cons rfl)) (by simp) (by simp) (notIn_cons rfl) (by simp)
      (.altR (.nonterm json_True (.litF (by simp))) (.altL (.nonterm json_False .litOk))), ws_ok hs (cont_ws hr)⟩⟩
  | null =>
    exact ⟨⟨_, _, rfl, rfl⟩, fun sp r hs hr => ⟨sp ++ r, lits (number_fails (notIn_cons rfl)) (by simp) (by simp) (notIn_cons rfl) (by simp)
      (.altR (.nonterm json_True (.litF (by simp))) (.altR (.nonterm json_False (.litF (by simp))) (.nonterm json_Null .litOk))), ws_ok hs (cont_ws hr)⟩⟩
  | @obj0 sp0 h1 =>
    refine ⟨⟨_, _, rfl, rfl⟩, fun sp r hs hr => ⟨sp ++ r, ?_, ws_ok hs (cont_ws hr)⟩⟩
    have e : 123 :: (sp0 ++ [125]) ++ (sp ++ r) = [123] ++ (sp0 ++ 125 :: (sp ++ r)) := by simp
    rw [e]
    exact .altR (number_fails (notIn_cons rfl)) (.altL (.nonterm json_Object (.seqOk (.seqOk .litOk
      (.altR (.seqFail (.seqFail (.seqFail (string_fails h1 (notIn_cons rfl) (by simp))))) (ws_ok h1 (notIn_cons rfl)))) (.litOk (w := [125])))))
  | @obj w _ ih =>
    refine ⟨⟨_, _, rfl, rfl⟩, fun sp r hs hr => ⟨sp ++ r, ?_, ws_ok hs (cont_ws hr)⟩⟩
    obtain ⟨s1, s2, r', h1, h2, h3, h4⟩ := ih (sp ++ r)
    have e : 123 :: (w ++ [125]) ++ (sp ++ r) = [123] ++ (w ++ 125 :: (sp ++ r)) := by simp
    rw [e]
    exact .altR (number_fails (notIn_cons rfl)) (.altL (.nonterm json_Object (.seqOk (.seqOk .litOk
      (.altL (.seqOk (.seqOk (.seqOk h1 h2) h3) h4))) (.litOk (w := [125])))))
  | @arr0 sp0 h1 =>
    refine ⟨⟨_, _, rfl, rfl⟩, fun sp r hs hr => ⟨sp ++ r, ?_, ws_ok hs (cont_ws hr)⟩⟩
    have e : 91 :: (sp0 ++ [93]) ++ (sp ++ r) = [91] ++ (sp0 ++ 93 :: (sp ++ r)) := by simp
    rw [e]
    exact .altR (number_fails (notIn_cons rfl)) (.altR (object_fails (by simp)) (.altL (.nonterm json_Array (.seqOk (.seqOk .litOk
      (.altR (.seqFail (.nonterm json_JSON (.seqFail (.seqOk (ws_ok h1 (notIn_cons rfl)) (value_fails (.inl rfl)))))) (ws_ok h1 (notIn_cons rfl))))
        (.litOk (w := [93]))))))
  | @arr w _ ih =>
    refine ⟨⟨_, _, rfl, rfl⟩, fun sp r hs hr => ⟨sp ++ r, ?_, ws_ok hs (cont_ws hr)⟩⟩
    obtain ⟨r', h1, h2⟩ := ih (sp ++ r)
    have e : 91 :: (w ++ [93]) ++ (sp ++ r) = [91] ++ (w ++ 93 :: (sp ++ r)) := by simp
    rw [e]
    exact .altR (number_fails (notIn_cons rfl)) (.altR (object_fails (by simp)) (.altL (.nonterm json_Array (.seqOk (.seqOk .litOk
      (.altL (.seqOk h1 h2))) (.litOk (w := [93]))))))
  | @element sp w sp' h1 _ h3 ih =>
    intro r hr
    obtain ⟨⟨b, t, rfl, hb⟩, ih⟩ := ih
    obtain ⟨r', h4, h5⟩ := ih sp' r h3 hr
    have e : sp ++ (b :: t ++ sp') ++ r = sp ++ (b :: t ++ (sp' ++ r)) := by simp
    rw [e]
    exact .nonterm json_JSON (.seqOk (.seqOk (ws_ok h1 (notIn_cons hb)) h4) h5)
  | oneElement _ ih => exact fun r => ⟨_, ih _ (notIn_cons rfl), .starEnd (.seqFail (.litF (by simp)))⟩
  | @moreElements w v _ _ ih1 ih2 =>
    intro r
    obtain ⟨r', h1, h2⟩ := ih2 r
    refine ⟨44 :: (v ++ 93 :: r), ?_, .starStep (.seqOk (.litOk (w := [44])) h1) h2⟩
    rw [List.append_assoc]
    exact ih1 _ (notIn_cons rfl)
  | @oneMember sp k sp' w h1 h2 h3 _ ih =>
    intro r
    refine ⟨58 :: (w ++ 125 :: r), w ++ 125 :: r, 125 :: r, ?_, .litOk (w := [58]), ih _ (notIn_cons rfl), .starEnd (.seqFail (.seqFail (.seqFail (.litF (by simp)))))⟩
    have e : sp ++ (k ++ (sp' ++ 58 :: w)) ++ 125 :: r = sp ++ (k ++ (sp' ++ 58 :: (w ++ 125 :: r))) := by simp
    rw [e]
    exact string_ok h1 h2 h3 (notIn_cons rfl)
  | @moreMembers sp k sp' w v h1 h2 h3 _ _ ih1 ih2 =>
    intro r
    obtain ⟨s1, s2, r', h4, h5, h6, h7⟩ := ih2 r
    refine ⟨58 :: (w ++ 44 :: (v ++ 125 :: r)), w ++ 44 :: (v ++ 125 :: r), 44 :: (v ++ 125 :: r), ?_, .litOk (w := [58]), ih1 _ (notIn_cons rfl),
      .starStep (.seqOk (.seqOk (.seqOk (.litOk (w := [44])) h4) h5) h6) h7⟩
    have e : sp ++ (k ++ (sp' ++ 58 :: (w ++ 44 :: v))) ++ 125 :: r = sp ++ (k ++ (sp' ++ 58 :: (w ++ 44 :: (v ++ 125 :: r)))) := by simp
    rw [e]
    exact string_ok h1 h2 h3 (notIn_cons rfl)

theorem many_elements {w v : List UInt8} (hw : Json file .element w) (h : Many (fun u => ∃ t, u = 44 :: t ∧ Json file .element t) v) :
    Json file .elements (w ++ v) := by
  induction h generalizing w with
  | nil => rw [List.append_nil]; exact .oneElement hw
  | cons h1 _ ih =>
    obtain ⟨t, rfl, ht⟩ := h1
    exact .moreElements hw (ih ht)

/-- A member of an object. -/
def Member (u : List UInt8) : Prop :=
  ∃ sp k sp' w, u = sp ++ (k ++ (sp' ++ 58 :: w)) ∧ Ws file sp ∧ Str file k ∧ Ws file sp' ∧ Json file .element w

theorem many_members {w v : List UInt8} (hw : Member w) (h : Many (fun u => ∃ t, u = 44 :: t ∧ Member t) v) : Json file .members (w ++ v) := by
  induction h generalizing w with
  | nil =>
    obtain ⟨sp, k, sp', w, rfl, h1, h2, h3, h4⟩ := hw
    rw [List.append_nil]
    exact .oneMember h1 h2 h3 h4
  | cons h1 _ ih =>
    obtain ⟨t, rfl, ht⟩ := h1
    obtain ⟨sp, k, sp', w, rfl, h1, h2, h3, h4⟩ := hw
    have := Json.moreMembers h1 h2 h3 h4 (ih ht)
    simpa using this

/-- What is matched is a text of the language. -/
theorem sound (n : Nat) : ∀ s r : List UInt8, s.length ≤ n → Eats jsonEnv (.nonterm "JSON") s (some r) → ∃ w, s = w ++ r ∧ Json file .element w := by
  induction n with
  | zero =>
    intro s r hn h
    obtain ⟨s2, h12, h3⟩ := seq_inv (nonterm_inv json_JSON h)
    obtain ⟨s1, h1, h2⟩ := seq_inv h12
    obtain ⟨sp, rfl, _⟩ := ws_inv h1
    have e : s1 = [] := List.length_eq_zero_iff.1 (by simp at hn; simp [hn])
    subst e
    have : Eats jsonEnv valP [] none := .altR (number_fails notIn_nil) (.altR (object_fails (by simp)) (.altR (array_fails (by simp))
      (.altR (string_fails (sp := []) (by intro _ h; cases h) notIn_nil (by simp)) (.altR (.nonterm json_True (.litF (by simp)))
      (.altR (.nonterm json_False (.litF (by simp))) (.nonterm json_Null (.litF (by simp))))))))
    cases this.det h2
  | succ n ih =>
    intro s r hn h
    obtain ⟨s2, h12, h3⟩ := seq_inv (nonterm_inv json_JSON h)
    obtain ⟨s1, h1, h2⟩ := seq_inv h12
    obtain ⟨sp, rfl, hs, _⟩ := ws_inv h1
    obtain ⟨sp', rfl, hs', _⟩ := ws_inv h3
    clear h1 h3 h12 h
    suffices hv : ∃ a v b, s1 = a ++ (v ++ (b ++ (sp' ++ r))) ∧ Ws file a ∧ Json file .value v ∧ Ws file b by
      obtain ⟨a, v, b, rfl, ha, hv, hb⟩ := hv
      refine ⟨(sp ++ a) ++ (v ++ (b ++ sp')), by simp, .element ?_ hv ?_⟩
      · intro x hx; rcases List.mem_append.1 hx with hx | hx
        · exact hs x hx
        · exact ha x hx
      · intro x hx; rcases List.mem_append.1 hx with hx | hx
        · exact hb x hx
        · exact hs' x hx
    have nil : Ws file [] := by intro _ h; cases h
    have lit : ∀ {v : List UInt8}, s1 = v ++ (sp' ++ r) → Json file .value v → ∃ a v b, s1 = a ++ (v ++ (b ++ (sp' ++ r))) ∧ Ws file a ∧
        Json file .value v ∧ Ws file b := fun e hv => ⟨[], _, [], e, nil, hv, nil⟩
    generalize sp' ++ r = q at *
    rcases alt_inv h2 with h | ⟨_, h⟩
    · obtain ⟨w, e, hw⟩ := number_inv h
      exact lit e (.number hw)
    rcases alt_inv h with h | ⟨_, h⟩
    · obtain ⟨s3, h12, h3⟩ := seq_inv (nonterm_inv json_Object h)
      obtain ⟨s2, h1, h2⟩ := seq_inv h12
      have := lit_inv h1
      subst this
      have := lit_inv h3
      subst this
      rcases alt_inv h2 with h4 | ⟨_, h4⟩
      · obtain ⟨t3, h5, h8⟩ := seq_inv h4
        obtain ⟨t2, h56, h7⟩ := seq_inv h5
        obtain ⟨t1, h5, h6⟩ := seq_inv h56
        obtain ⟨a, k, b, rfl, ha, hk, hb⟩ := string_inv h5
        have := lit_inv h6
        subst this
        obtain ⟨w, rfl, hw⟩ := ih _ _ (by simp at hn ⊢; omega) h7
        obtain ⟨v, e, hv⟩ := star_sound (L := fun u => ∃ t, u = 44 :: t ∧ Member t) h8 (by
          rintro s' r' ⟨u, rfl⟩ h'
          obtain ⟨u3, g5, g8⟩ := seq_inv h'
          obtain ⟨u2, g56, g7⟩ := seq_inv g5
          obtain ⟨u1, g5, g6⟩ := seq_inv g56
          have := lit_inv g5
          subst this
          obtain ⟨a, k, b, rfl, ha, hk, hb⟩ := string_inv g6
          have := lit_inv g7
          subst this
          obtain ⟨w, rfl, hw⟩ := ih _ _ (by simp at hn ⊢; omega) g8
          exact ⟨44 :: (a ++ (k ++ (b ++ 58 :: w))), by simp, _, rfl, a, k, b, w, rfl, ha, hk, hb, hw⟩)
        subst e
        exact lit (v := 123 :: ((a ++ (k ++ (b ++ 58 :: w))) ++ v ++ [125])) (by simp) (.obj (many_members ⟨a, k, b, w, rfl, ha, hk, hb, hw⟩ hv))
      · obtain ⟨a, rfl, ha, _⟩ := ws_inv h4
        exact lit (v := 123 :: (a ++ [125])) (by simp) (.obj0 ha)
    rcases alt_inv h with h | ⟨_, h⟩
    · obtain ⟨s3, h12, h3⟩ := seq_inv (nonterm_inv json_Array h)
      obtain ⟨s2, h1, h2⟩ := seq_inv h12
      have := lit_inv h1
      subst this
      have := lit_inv h3
      subst this
      rcases alt_inv h2 with h4 | ⟨_, h4⟩
      · obtain ⟨t3, h5, h8⟩ := seq_inv h4
        obtain ⟨w, rfl, hw⟩ := ih _ _ (by simp at hn ⊢; omega) h5
        obtain ⟨v, e, hv⟩ := star_sound (L := fun u => ∃ t, u = 44 :: t ∧ Json file .element t) h8 (by
          rintro s' r' ⟨u, rfl⟩ h'
          obtain ⟨u1, h5, h6⟩ := seq_inv h'
          have := lit_inv h5
          subst this
          obtain ⟨w, rfl, hw⟩ := ih _ _ (by simp at hn ⊢; omega) h6
          exact ⟨44 :: w, by simp, _, rfl, hw⟩)
        subst e
        exact lit (v := 91 :: (w ++ v ++ [93])) (by simp) (.arr (many_elements hw hv))
      · obtain ⟨a, rfl, ha, _⟩ := ws_inv h4
        exact lit (v := 91 :: (a ++ [93])) (by simp) (.arr0 ha)
    rcases alt_inv h with h | ⟨_, h⟩
    · obtain ⟨a, k, b, e, ha, hk, hb⟩ := string_inv h
      exact ⟨a, k, b, e, ha, .string hk, hb⟩
    rcases alt_inv h with h | ⟨_, h⟩
    · exact lit (lit_inv (nonterm_inv json_True h)) .true
    rcases alt_inv h with h | ⟨_, h⟩
    · exact lit (lit_inv (nonterm_inv json_False h)) .false
    · exact lit (lit_inv (nonterm_inv json_Null h)) .null

/-- The grammar matches a text exactly if it is of the language, and then all of it. -/
theorem doc_iff {s : List UInt8} {x : Option (List UInt8)} (h : Eats jsonEnv (.nonterm "doc") s x) :
    (Json file .element s ∧ x = some []) ∨ (¬ Json file .element s ∧ x = none) := by
  have ok : Json file .element s → Eats jsonEnv (.nonterm "doc") s (some []) := fun hj => by
    have h1 := complete hj [] notIn_nil
    rw [List.append_nil] at h1
    exact .nonterm json_doc (.seqOk h1 (.notOk .dotFail))
  cases x with
  | none => exact .inr ⟨fun hj => (by cases h.det (ok hj)), rfl⟩
  | some r =>
    obtain ⟨s1, h1, h2⟩ := seq_inv (nonterm_inv json_doc h)
    cases h2 with
    | notOk h3 =>
      cases h3
      obtain ⟨w, e, hw⟩ := sound _ _ _ (Nat.le_refl _) h1
      rw [List.append_nil] at e
      subst e
      exact .inl ⟨hw, rfl⟩

end Gpeg.JsonPeg
