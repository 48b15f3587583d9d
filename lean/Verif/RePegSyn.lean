import Verif.PegPegSyn
/-!
# The language of `grammars/re.peg`

The syntax (`Syn`, `ReText`) is described without parsing expressions; `re_iff` says that `grammars/re.peg` matches its texts.
Definitions that the file shares with `grammars/peg.peg` are handled by `transfer`.
-/
namespace Gpeg.RePeg
open Gpeg.Re (Sp IsName Apart CaratS isStart isCont NoSp NoSp' blank apart_nil apart_head apart_sp apart_tail rePegDefs rePegEnv)
open Gpeg.PegPeg (Lit Items Op Chr pegDefs pegEnv star_ind apart_one apart_pre lit_last items_last name_head hd_facts items_ne)

/-! ## The syntax -/

/-- The syntactic categories. The flag says that a `+` may follow: a sequence is empty, or its last item has a suffix. -/
inductive Cat | prim | seq (cl : Bool) | expr (cl : Bool)

/-- Texts of the categories. Names, literals, classes, dots and operators may be followed by spacing; brackets and slashes not. -/
inductive Syn : Cat → List UInt8 → Prop
  | ident {n sp} : IsName n → Sp sp → Syn .prim (n ++ sp)
  | paren {t} : Syn (.expr false) t → Syn .prim (40 :: (t ++ [41]))
  | lit {q t sp} : q = 39 ∨ q = 34 → Lit q t → Sp sp → Syn .prim (q :: (t ++ sp))
  | cls {neg u t sp} : CaratS neg u → Items t → (neg = true → ∀ x, t.head? = some x → blank x = false ∧ x ≠ 35) →
      (neg = false → t.head? ≠ some 94) → Sp sp → Syn .prim (91 :: (u ++ (t ++ sp)))
  | brace {t} : Syn (.expr false) t → Syn .prim (123 :: (t ++ [125]))
  | memo {t} : Syn (.expr true) t → Syn .prim (123 :: 43 :: (t ++ [43, 125]))
  | dot {sp} : Sp sp → Syn .prim (46 :: sp)
  | empty {cl} : Syn (.seq cl) []
  | item {cl a b c t} : Op [38, 33] a → Syn .prim b → Op [63, 42, 43] c → Syn (.seq cl) t → Apart (b ++ c) t →
      (cl = true → t = [] → c ≠ []) → Syn (.seq cl) (a ++ (b ++ (c ++ t)))
  | one {cl t} : Syn (.seq cl) t → Syn (.expr cl) t
  | alt {cl t u} : Syn (.seq false) t → Syn (.expr cl) u → Syn (.expr cl) (t ++ 47 :: u)

/-- A text of the syntax: spacing and an expression. -/
def ReText (text : List UInt8) : Prop := ∃ sp t, text = sp ++ t ∧ Sp sp ∧ Syn (.expr false) t

/-! ## Grammars with the same definitions -/

/-- All non-terminals are in the list. -/
def refs (N : List String) : Pat → Bool
  | .nonterm n => N.contains n
  | .seq l r | .alt l r => refs N l && refs N r
  | .star p | .plus p | .opt p | .not p | .and p | .cap p _ | .memo p _ => refs N p
  | .lit _ | .cls _ | .dot _ | .empty => true
  | _ => false

/-- Two grammars that agree on some non-terminals agree on patterns that use only those. -/
theorem transfer {d1 d2 : Defs} {N : List String}
    (hN : ∀ n ∈ N, ∃ b, d1.find n = some b ∧ d2.find n = some b ∧ refs N b = true) {p : Pat} {s : List UInt8} {x : Option (List UInt8)}
    (h : Eats [d1] p s x) (hp : refs N p = true) : Eats [d2] p s x := by
  generalize he : ([d1] : Env) = env at h
  induction h with
  | empty => exact .empty
  | litOk => exact .litOk
  | litFail h => exact .litFail h
  | clsOk h => exact .clsOk h
  | clsFail h => exact .clsFail h
  | dotOk => exact .dotOk
  | dotFail => exact .dotFail
  | seqOk _ _ ih1 ih2 =>
    have hp := Bool.and_eq_true_iff.1 hp
    exact .seqOk (ih1 hp.1 he) (ih2 hp.2 he)
  | seqFail _ ih => exact .seqFail (ih (Bool.and_eq_true_iff.1 hp).1 he)
  | altL _ ih => exact .altL (ih (Bool.and_eq_true_iff.1 hp).1 he)
  | altR _ _ ih1 ih2 =>
    have hp := Bool.and_eq_true_iff.1 hp
    exact .altR (ih1 hp.1 he) (ih2 hp.2 he)
  | starEnd _ ih => exact .starEnd (ih hp he)
  | starStep _ _ ih1 ih2 => exact .starStep (ih1 hp he) (ih2 hp he)
  | plusFail _ ih => exact .plusFail (ih hp he)
  | plusOk _ _ ih1 ih2 => exact .plusOk (ih1 hp he) (ih2 hp he)
  | optSome _ ih => exact .optSome (ih hp he)
  | optNone _ ih => exact .optNone (ih hp he)
  | notOk _ ih => exact .notOk (ih hp he)
  | notFail _ ih => exact .notFail (ih hp he)
  | andOk _ ih => exact .andOk (ih hp he)
  | andFail _ ih => exact .andFail (ih hp he)
  | cap _ ih => exact .cap (ih hp he)
  | memo _ ih => exact .memo (ih hp he)
  | grammar => cases hp
  | @nonterm env n b env' s x hl _ ih =>
    subst he
    obtain ⟨b', h1, h2, h3⟩ := hN n (List.contains_iff_mem.1 hp)
    have hl' : lookupNT n [d1] = some (b', [d1]) := by simp only [lookupNT, h1]
    rw [hl'] at hl
    cases hl
    exact .nonterm (env' := [d2]) (by simp only [lookupNT, h2]) (ih h3 rfl)

/-- The definitions the two files share. -/
def shared : List String := ["Identifier", "IdentStart", "IdentCont", "Literal", "Range", "Char", "AND", "NOT", "QUESTION", "STAR", "PLUS", "DOT",
  "Spacing_", "Comment_", "Space_", "EndOfLine_", "EndOfFile_"]

theorem shared_ok : ∀ n ∈ shared, ∃ b, pegDefs.find n = some b ∧ rePegDefs.find n = some b ∧ refs shared b = true := by
  intro n hn
  simp only [shared, List.mem_cons, List.not_mem_nil, or_false] at hn
  rcases hn with rfl | rfl | rfl | rfl | rfl | rfl | rfl | rfl | rfl | rfl | rfl | rfl | rfl | rfl | rfl | rfl | rfl <;>
    exact ⟨_, rfl, rfl, by decide +kernel⟩

theorem to_re {p : Pat} {s : List UInt8} {x : Option (List UInt8)} (hp : refs shared p = true) (h : Eats pegEnv p s x) :
    Eats rePegEnv p s x := transfer shared_ok h hp

theorem of_re {p : Pat} {s : List UInt8} {x : Option (List UInt8)} (hp : refs shared p = true) (h : Eats rePegEnv p s x) :
    Eats pegEnv p s x :=
  transfer (fun n hn => by obtain ⟨b, h1, h2, h3⟩ := shared_ok n hn; exact ⟨b, h2, h1, h3⟩) h hp

/-! ## Spacing as far as it goes -/

theorem star_end {env : Env} {p : Pat} {s r : List UInt8} (h : Eats env (.star p) s (some r)) : Eats env p r none :=
  star_ind (P := fun _ r => Eats env p r none) (fun _ h => h) (fun _ _ _ _ _ ih => ih) h

theorem comment_run {c : List UInt8} {b : UInt8} {l : List UInt8} (hc : ∀ x ∈ c, x ≠ 10 ∧ x ≠ 13) (hb : b = 10 ∨ b = 13) :
    Eats pegEnv (.star (.seq (.not (.nonterm "EndOfLine_")) (.dot 1))) (c ++ b :: l) (some (b :: l)) := by
  induction c with
  | nil => obtain ⟨r, h⟩ := PegPeg.eol_some (l := l) hb; exact .starEnd (.seqFail (.notFail h))
  | cons x c ih =>
    refine .starStep (.seqOk (.notOk (Re.eol_none PegPeg.l_EndOfLine ?_)) .dotOk) (ih fun y hy => hc y (by simp [hy]))
    rintro y ⟨⟩
    exact hc x (by simp)

theorem sp_max {s r : List UInt8} (h : Eats pegEnv (.nonterm "Spacing_") s (some r)) : NoSp' r := by
  have he := star_end (nonterm_inv PegPeg.l_Spacing h)
  rintro y l rfl
  cases he with
  | altR h1 h2 =>
    constructor
    · cases hb : blank y with
      | false => rfl
      | true =>
        exfalso
        have : ∃ r, Eats pegEnv (.nonterm "Space_") (y :: l) (some r) := by
          have : ∀ y : UInt8, blank y = true → y = 32 ∨ y = 9 ∨ y = 10 ∨ y = 13 := forall_byte (by decide +kernel)
          rcases this y hb with rfl | rfl | hy
          · exact ⟨l, .nonterm PegPeg.l_Space (.altL (.litOk (w := [32])))⟩
          · exact ⟨l, .nonterm PegPeg.l_Space (.altR (.litF (by simp)) (.altL (.litOk (w := [9]))))⟩
          · obtain ⟨r, hr⟩ := PegPeg.eol_some (l := l) hy
            refine ⟨r, .nonterm PegPeg.l_Space (.altR (.litF ?_) (.altR (.litF ?_) hr))⟩ <;> rcases hy with rfl | rfl <;> simp
        obtain ⟨r, hr⟩ := this
        cases h1.det hr
    · rintro rfl hx
      obtain ⟨c, b, l', rfl, hc, hb⟩ := Re.first_eol l hx
      obtain ⟨r, hr⟩ := PegPeg.eol_some (l := l') hb
      cases h2.det (.nonterm PegPeg.l_Comment (.seqOk (.seqOk (.litOk (w := [35])) (comment_run hc hb)) hr))

/-! ## Tokens -/

theorem tok_eats {n : String} {w sp r : List UInt8} (hl : lookupNT n rePegEnv = some (.seq (.lit w) (.nonterm "Spacing_"), rePegEnv)) (hs : Sp sp)
    (hr : NoSp r) : Eats rePegEnv (.nonterm n) (w ++ (sp ++ r)) (some r) := .nonterm hl (.seqOk .litOk (to_re rfl (PegPeg.sp_eats hs hr)))

theorem tok_none {n : String} {b : UInt8} {w s : List UInt8} (hl : lookupNT n rePegEnv = some (.seq (.lit (b :: w)) (.nonterm "Spacing_"), rePegEnv))
    (h : s.head? ≠ some b) : Eats rePegEnv (.nonterm n) s none := .nonterm hl (.seqFail (.litF h))

theorem tok_inv {n : String} {w s r : List UInt8} (hl : lookupNT n rePegEnv = some (.seq (.lit w) (.nonterm "Spacing_"), rePegEnv))
    (h : Eats rePegEnv (.nonterm n) s (some r)) : ∃ sp, s = w ++ (sp ++ r) ∧ Sp sp ∧ NoSp' r := by
  obtain ⟨s', h1, h2⟩ := seq_inv (nonterm_inv hl h)
  obtain rfl := lit_inv h1
  have h2 := of_re rfl h2
  obtain ⟨sp, rfl, hsp⟩ := PegPeg.sp_inv h2
  exact ⟨sp, rfl, hsp, sp_max h2⟩

theorem name_none {s : List UInt8} (h : NotIn isStart s) : Eats rePegEnv (.nonterm "Identifier") s none := to_re rfl (PegPeg.name_none h)

theorem literal_none {s : List UInt8} (h1 : s.head? ≠ some 39) (h2 : s.head? ≠ some 34) : Eats rePegEnv (.nonterm "Literal") s none :=
  to_re rfl (PegPeg.literal_none h1 h2)

/-! ## Classes -/

theorem class_eats {neg : Bool} {u t sp r : List UInt8} (hu : CaratS neg u) (ht : Items t)
    (h1 : neg = true → ∀ x, t.head? = some x → blank x = false ∧ x ≠ 35) (h2 : neg = false → t.head? ≠ some 94) (hs : Sp sp) (hr : NoSp r) :
    Eats rePegEnv (.nonterm "Class") (91 :: (u ++ (t ++ (sp ++ r)))) (some r) := by
  have hc : Eats rePegEnv (.opt (.nonterm "CARAT")) (u ++ (t ++ (sp ++ r))) (some (t ++ (sp ++ r))) := by
    cases hu with
    | no => exact .optNone (tok_none (b := 94) (w := []) rfl (by show (t ++ (sp ++ r)).head? ≠ _; rw [PegPeg.head_app (items_ne ht)]; exact h2 rfl))
    | yes hsp =>
      refine .optSome (tok_eats (w := [94]) rfl hsp ?_)
      intro x hx
      rw [PegPeg.head_app (items_ne ht)] at hx
      exact h1 rfl x hx
  exact .nonterm Re.rePeg_Class (.seqOk (s' := sp ++ r) (.seqOk (.seqOk (.seqOk (.litOk (w := [91])) hc) (to_re rfl (PegPeg.items_eats ht)))
    (.litOk (w := [93]))) (to_re rfl (PegPeg.sp_eats hs hr)))

theorem class_none {s : List UInt8} (h : s.head? ≠ some 91) : Eats rePegEnv (.nonterm "Class") s none :=
  .nonterm Re.rePeg_Class (.seqFail (.seqFail (.seqFail (.seqFail (.litF h)))))

/-- In a text where a `#` behind `[^` has a line end behind it. -/
theorem class_inv {s r : List UInt8} (hl : Re.Lines s) (h : Eats rePegEnv (.nonterm "Class") s (some r)) :
    ∃ neg u t sp, s = 91 :: (u ++ (t ++ (sp ++ r))) ∧ CaratS neg u ∧ Items t ∧ (neg = true → ∀ x, t.head? = some x → blank x = false ∧ x ≠ 35) ∧
      (neg = false → t.head? ≠ some 94) ∧ Sp sp := by
  obtain ⟨s4, h3, h4⟩ := seq_inv (nonterm_inv Re.rePeg_Class h)
  obtain ⟨s3, hh, h2⟩ := seq_inv h3
  obtain ⟨s2, hg, h1⟩ := seq_inv hh
  obtain ⟨s1, h0, hc⟩ := seq_inv hg
  obtain rfl := lit_inv h0
  obtain rfl := lit_inv h2
  obtain ⟨sp, rfl, hs⟩ := PegPeg.sp_inv (of_re rfl h4)
  obtain ⟨t, rfl, ht⟩ := PegPeg.items_inv (of_re rfl h1) _ rfl
  cases hc with
  | optSome hc =>
    obtain ⟨sp', rfl, hsp', hmax⟩ := tok_inv (w := [94]) rfl hc
    refine ⟨true, 94 :: sp', t, sp, by simp, .yes hsp', ht, fun _ x hx => ?_, (by intro h; cases h), hs⟩
    cases t with
    | nil => cases hx
    | cons y t =>
      cases hx
      obtain ⟨k1, k2⟩ := hmax x (t ++ (sp ++ r)) rfl
      refine ⟨k1, ?_⟩
      rintro rfl
      exact k2 rfl (hl [] sp' (t ++ (sp ++ r)) (by simp) hsp')
  | optNone hc =>
    refine ⟨false, [], t, sp, rfl, .no, ht, (by intro h; cases h), fun _ h94 => ?_, hs⟩
    cases t with
    | nil => cases h94
    | cons y t =>
      cases h94
      cases nonterm_inv (b := .seq (.lit [94]) (.nonterm "Spacing_")) rfl hc with
      | seqFail h => cases h.det (.litOk (w := [94]) (s := t ++ (sp ++ r)))
      | seqOk h h' =>
        cases h.det (.litOk (w := [94]) (s := t ++ (sp ++ r)))
        obtain ⟨r, hr⟩ := star_some (nonterm_inv PegPeg.l_Spacing (of_re rfl h'))
        cases hr

/-! ## Operators -/

abbrev preP : Pat := .opt (.alt (.nonterm "AND") (.nonterm "NOT"))
abbrev sufP : Pat := .opt (.alt (.nonterm "QUESTION") (.alt (.nonterm "STAR") (.nonterm "PLUS")))

theorem suf_eats {a s : List UInt8} (ha : Op [63, 42, 43] a) (hs : NoSp s)
    (h : a = [] → s.head? ≠ some 63 ∧ s.head? ≠ some 42 ∧ s.head? ≠ some 43) : Eats pegEnv sufP (a ++ s) (some s) := by
  rcases ha with rfl | ⟨b, sp, hb, hsp, rfl⟩
  · obtain ⟨h1, h2, h3⟩ := h rfl
    exact PegPeg.suf_eats (.inl rfl) hs h1 h2 h3
  · simp only [List.mem_cons, List.not_mem_nil, or_false] at hb
    rcases hb with rfl | rfl | rfl
    · exact .optSome (.altL (PegPeg.tok_eats (w := [63]) rfl hsp hs))
    · exact .optSome (.altR (PegPeg.tok_none (b := 63) (w := []) rfl (by simp)) (.altL (PegPeg.tok_eats (w := [42]) rfl hsp hs)))
    · exact .optSome (.altR (PegPeg.tok_none (b := 63) (w := []) rfl (by simp)) (.altR (PegPeg.tok_none (b := 42) (w := []) rfl (by simp))
        (PegPeg.tok_eats (w := [43]) rfl hsp hs)))

/-- No suffix: no `+` follows. -/
theorem suf_none {r : List UInt8} (h : Eats pegEnv sufP r (some r)) : r.head? ≠ some 43 := by
  intro e
  cases r with
  | nil => cases e
  | cons x r =>
    cases e
    have hq := PegPeg.tok_none (n := "QUESTION") (b := 63) (w := []) (s := 43 :: r) rfl (by simp)
    have hst := PegPeg.tok_none (n := "STAR") (b := 42) (w := []) (s := 43 :: r) rfl (by simp)
    rcases opt_inv h with h' | h'
    · rcases alt_inv h' with h' | ⟨_, h'⟩
      · cases h'.det hq
      rcases alt_inv h' with h' | ⟨_, h'⟩
      · cases h'.det hst
      · obtain ⟨sp, e, _⟩ := PegPeg.tok_inv (w := [43]) rfl h'
        have := congrArg List.length e
        simp only [List.length_append, List.length_cons, List.length_nil] at this
        omega
    · cases h with
      | optSome h =>
        cases h with
        | altL h => cases h.det hq
        | altR _ h =>
          cases h with
          | altL h => cases h.det hst
          | altR _ h =>
            obtain ⟨sp, e, _⟩ := PegPeg.tok_inv (w := [43]) rfl h
            have := congrArg List.length e
            simp only [List.length_append, List.length_cons, List.length_nil] at this
            omega
      | optNone h =>
        cases h with
        | altR _ h =>
          cases h with
          | altR _ h =>
            cases nonterm_inv (b := PegPeg.token [43]) rfl h with
            | seqFail h => cases h.det (.litOk (w := [43]) (s := r))
            | seqOk h h' =>
              cases h.det (.litOk (w := [43]) (s := r))
              obtain ⟨r, hr⟩ := star_some (nonterm_inv PegPeg.l_Spacing h')
              cases hr

/-! ## First bytes -/

/-- Bytes that begin a primary. -/
def hd (b : UInt8) : Bool := isStart b || [40, 39, 34, 91, 46, 123].contains b
/-- Bytes that begin an item of a sequence. -/
def hdSeq (b : UInt8) : Bool := hd b || [38, 33].contains b

theorem hd_facts' {b : UInt8} (h : hd b = true) : hdSeq b = true ∧ b ≠ 38 ∧ b ≠ 33 := by
  have : ∀ b : UInt8, hd b = true → hdSeq b = true ∧ b ≠ 38 ∧ b ≠ 33 := forall_byte (by decide +kernel)
  exact this b h

theorem hdSeq_facts {b : UInt8} (h : hdSeq b = true) :
    (blank b = false ∧ b ≠ 35) ∧ b ≠ 63 ∧ b ≠ 42 ∧ b ≠ 43 ∧ b ≠ 60 ∧ b ≠ 47 := by
  have : ∀ b : UInt8, hdSeq b = true → (blank b = false ∧ b ≠ 35) ∧ b ≠ 63 ∧ b ≠ 42 ∧ b ≠ 43 ∧ b ≠ 60 ∧ b ≠ 47 := forall_byte (by decide +kernel)
  exact this b h

theorem prim_head {t : List UInt8} (h : Syn .prim t) : ∃ b l, t = b :: l ∧ hd b = true := by
  cases h with
  | ident hn _ => obtain ⟨b, l, rfl, hb, _⟩ := hn; exact ⟨b, _, rfl, by simp [hd, hb]⟩
  | paren => exact ⟨40, _, rfl, by decide⟩
  | lit hq => rcases hq with rfl | rfl <;> exact ⟨_, _, rfl, by decide⟩
  | cls => exact ⟨91, _, rfl, by decide⟩
  | brace => exact ⟨123, _, rfl, by decide⟩
  | memo => exact ⟨123, _, rfl, by decide⟩
  | dot => exact ⟨46, _, rfl, by decide⟩

theorem seq_head {cl : Bool} {t : List UInt8} (h : Syn (.seq cl) t) : t = [] ∨ ∃ b l, t = b :: l ∧ hdSeq b = true := by
  cases h with
  | empty => exact .inl rfl
  | @item _ a b c t ha hb =>
    refine .inr ?_
    rcases ha with rfl | ⟨x, sp, hx, _, rfl⟩
    · obtain ⟨y, l, rfl, hy⟩ := prim_head hb
      exact ⟨y, _, rfl, (hd_facts' hy).1⟩
    · exact ⟨x, _, rfl, by simp only [hdSeq, Bool.or_eq_true, List.contains_iff_mem]; exact .inr hx⟩

theorem expr_head {cl : Bool} {t : List UInt8} (h : Syn (.expr cl) t) : t = [] ∨ ∃ b l, t = b :: l ∧ (hdSeq b = true ∨ b = 47) := by
  cases h with
  | one h => exact (seq_head h).imp id fun ⟨b, l, e, hb⟩ => ⟨b, l, e, .inl hb⟩
  | @alt _ t u h =>
    refine .inr ?_
    rcases seq_head h with rfl | ⟨b, l, rfl, hb⟩
    · exact ⟨47, _, rfl, .inr rfl⟩
    · exact ⟨b, _, rfl, .inl hb⟩

theorem noSp_hd {b : UInt8} {l : List UInt8} (h : hdSeq b = true ∨ b = 47) : NoSp (b :: l) := by
  rcases h with h | rfl
  · exact Re.noSp_cons (hdSeq_facts h).1
  · exact Re.noSp_cons (by decide)

theorem expr_noSp {cl : Bool} {t r : List UInt8} (h : Syn (.expr cl) t) (hr : NoSp r) : NoSp (t ++ r) := by
  rcases expr_head h with rfl | ⟨b, l, rfl, hb⟩
  · exact hr
  · exact noSp_hd hb

/-! ## What stops a sequence -/

structure Stop (cl : Bool) (r : List UInt8) : Prop where
  sp : NoSp r
  q : r.head? ≠ some 63
  s : r.head? ≠ some 42
  p : cl = false → r.head? ≠ some 43
  a : r.head? ≠ some 60
  pre : Eats rePegEnv (.nonterm "Prefix") r none

theorem prefix_none {r : List UInt8} (h : ∀ b, r.head? = some b → hdSeq b = false) : Eats rePegEnv (.nonterm "Prefix") r none := by
  have ne : ∀ {c : UInt8}, hdSeq c = true → r.head? ≠ some c := fun hc e => by rw [h _ e] at hc; cases hc
  have hi : NotIn isStart r := by
    intro b hb
    have := h b hb
    simp only [hdSeq, hd, Bool.or_eq_false_iff] at this
    exact this.1.1
  exact .nonterm Re.rePeg_Prefix (.seqOk (s' := r) (.optNone (.altR (tok_none rfl (ne (by decide))) (tok_none rfl (ne (by decide)))))
    (.nonterm Re.rePeg_Suffix (.seqFail (.nonterm Re.rePeg_Primary (.altR (.seqFail (name_none hi)) (.altR (.seqFail (.seqFail (.litF (ne (by decide)))))
    (.altR (literal_none (ne (by decide)) (ne (by decide))) (.altR (class_none (ne (by decide))) (.altR (.seqFail (.seqFail (.litF (ne (by decide)))))
    (.altR (.seqFail (.seqFail (.litF (ne (by decide))))) (tok_none rfl (ne (by decide)))))))))))))

theorem stop_head {cl : Bool} {b : UInt8} {l : List UInt8} (h : b = 47 ∨ b = 41 ∨ b = 125 ∨ (b = 43 ∧ cl = true)) : Stop cl (b :: l) := by
  have hb : ∀ x, (b :: l).head? = some x → hdSeq x = false := by
    rintro x ⟨⟩
    rcases h with rfl | rfl | rfl | ⟨rfl, _⟩ <;> decide
  refine ⟨Re.noSp_cons ?_, ?_, ?_, ?_, ?_, prefix_none hb⟩
  · rcases h with rfl | rfl | rfl | ⟨rfl, _⟩ <;> decide
  · rcases h with rfl | rfl | rfl | ⟨rfl, _⟩ <;> simp
  · rcases h with rfl | rfl | rfl | ⟨rfl, _⟩ <;> simp
  · rcases h with rfl | rfl | rfl | ⟨rfl, rfl⟩ <;> simp
  · rcases h with rfl | rfl | rfl | ⟨rfl, _⟩ <;> simp

theorem stop_nil {cl : Bool} : Stop cl [] :=
  ⟨fun _ h => (by cases h), by simp, by simp, by simp, by simp, prefix_none (fun _ h => by cases h)⟩

/-! ## Texts of the syntax are matched -/

/-- What may follow a text of a category. -/
def Fol : Cat → List UInt8 → List UInt8 → Prop
  | .prim, w, r => NoSp r ∧ r.head? ≠ some 60 ∧ Apart w r
  | .seq cl, w, r => Stop cl r ∧ Apart w r
  | .expr cl, w, r => Stop cl r ∧ Apart w r ∧ r.head? ≠ some 47

/-- The patterns of the categories. -/
def Cat.pat : Cat → Pat
  | .prim => .nonterm "Primary"
  | .seq _ => .nonterm "Sequence"
  | .expr _ => .nonterm "Expression"

theorem seq_fol {cl : Bool} {t r : List UInt8} (h : Syn (.seq cl) t) (hr : Stop cl r) :
    NoSp (t ++ r) ∧ (t ++ r).head? ≠ some 63 ∧ (t ++ r).head? ≠ some 42 ∧ ((t = [] → cl = false) → (t ++ r).head? ≠ some 43) ∧
      (t ++ r).head? ≠ some 60 := by
  rcases seq_head h with rfl | ⟨b, l, rfl, hb⟩
  · exact ⟨hr.sp, hr.q, hr.s, fun h => hr.p (h rfl), hr.a⟩
  · obtain ⟨f0, f1, f2, f3, f4, f5⟩ := hdSeq_facts hb
    have ne : ∀ {c : UInt8}, b ≠ c → ((b :: l) ++ r).head? ≠ some c := fun hc e => by cases e; exact hc rfl
    exact ⟨Re.noSp_cons f0, ne f1, ne f2, fun _ => ne f3, ne f4⟩

theorem complete {c : Cat} {w : List UInt8} (h : Syn c w) : ∀ r, Fol c w r → Eats rePegEnv c.pat (w ++ r) (some r) := by
  have nn : ∀ {b : UInt8} {l : List UInt8}, isStart b = false →
      Eats rePegEnv (.seq (.nonterm "Identifier") (.not (.lit [60, 45]))) (b :: l) none := fun hb =>
    .seqFail (name_none (notIn_cons hb))
  induction h with
  | @ident n sp hn hs =>
    rintro r ⟨h1, h2, h3⟩
    rw [List.append_assoc]
    exact .nonterm Re.rePeg_Primary (.altL (.seqOk (to_re rfl (PegPeg.name_eats hn hs h1 h3)) (.notOk (.litF h2))))
  | @paren t ht ih =>
    rintro r ⟨h1, h2, h3⟩
    have e : 40 :: (t ++ [41]) ++ r = [40] ++ (t ++ 41 :: r) := by simp
    rw [e]
    refine .nonterm Re.rePeg_Primary (.altR (nn (by decide)) (.altL (.seqOk (s' := 41 :: r) (.seqOk (s' := t ++ 41 :: r)
      .litOk (ih _ ⟨stop_head (.inr (.inl rfl)), apart_head ?_, by simp⟩)) (.litOk (w := [41])))))
    rintro y ⟨⟩; decide
  | @lit q t sp hq ht hs =>
    rintro r ⟨h1, h2, h3⟩
    have e : q :: (t ++ sp) ++ r = q :: (t ++ (sp ++ r)) := by simp
    rw [e]
    exact .nonterm Re.rePeg_Primary (.altR (nn (by rcases hq with rfl | rfl <;> decide)) (.altR (.seqFail (.seqFail
      (.litF (by rcases hq with rfl | rfl <;> simp)))) (.altL (to_re rfl (PegPeg.literal_eats hq ht hs h1)))))
  | @cls neg u t sp hu ht k1 k2 hs =>
    rintro r ⟨h1, h2, h3⟩
    have e : 91 :: (u ++ (t ++ sp)) ++ r = 91 :: (u ++ (t ++ (sp ++ r))) := by simp
    rw [e]
    exact .nonterm Re.rePeg_Primary (.altR (nn (by decide)) (.altR (.seqFail (.seqFail (.litF (by simp))))
      (.altR (literal_none (by simp) (by simp)) (.altL (class_eats hu ht k1 k2 hs h1)))))
  | @brace t ht ih =>
    rintro r ⟨h1, h2, h3⟩
    have e : 123 :: (t ++ [125]) ++ r = [123] ++ (t ++ 125 :: r) := by simp
    rw [e]
    refine .nonterm Re.rePeg_Primary (.altR (nn (by decide)) (.altR (.seqFail (.seqFail (.litF (by simp))))
      (.altR (literal_none (by simp) (by simp)) (.altR (class_none (by simp)) (.altL (.seqOk (s' := 125 :: r) (.seqOk (s' := t ++ 125 :: r)
      .litOk (ih _ ⟨stop_head (.inr (.inr (.inl rfl))), apart_head ?_, by simp⟩)) (.litOk (w := [125]))))))))
    rintro y ⟨⟩; decide
  | @memo t ht ih =>
    rintro r ⟨h1, h2, h3⟩
    have e : 123 :: 43 :: (t ++ [43, 125]) ++ r = [123, 43] ++ (t ++ 43 :: 125 :: r) := by simp
    rw [e]
    have hb : Eats rePegEnv (.nonterm "Expression") (43 :: (t ++ 43 :: 125 :: r)) (some (43 :: (t ++ 43 :: 125 :: r))) :=
      .nonterm Re.rePeg_Expression (.seqOk (.nonterm Re.rePeg_Sequence (.starEnd (prefix_none (by rintro x ⟨⟩; decide))))
        (.starEnd (.seqFail (.litF (by simp)))))
    refine .nonterm Re.rePeg_Primary (.altR (nn (by decide)) (.altR (.seqFail (.seqFail (.litF (by simp))))
      (.altR (literal_none (by simp) (by simp)) (.altR (class_none (by simp)) (.altR (.seqOk (.seqOk (.litOk (w := [123])) hb) (.litF (by simp)))
      (.altL (.seqOk (s' := 43 :: 125 :: r) (.seqOk (s' := t ++ 43 :: 125 :: r)
      .litOk (ih _ ⟨stop_head (.inr (.inr (.inr ⟨rfl, rfl⟩))), apart_head ?_, by simp⟩)) (.litOk (w := [43, 125])))))))))
    rintro y ⟨⟩; decide
  | @dot sp hs =>
    rintro r ⟨h1, h2, h3⟩
    exact .nonterm Re.rePeg_Primary (.altR (nn (by decide)) (.altR (.seqFail (.seqFail (.litF (by simp))))
      (.altR (literal_none (by simp) (by simp)) (.altR (class_none (by simp)) (.altR (.seqFail (.seqFail (.litF (by simp))))
      (.altR (.seqFail (.seqFail (.litF (by simp)))) (tok_eats (w := [46]) rfl hs h1)))))))
  | empty => rintro r ⟨h1, h2⟩; exact .nonterm Re.rePeg_Sequence (.starEnd h1.pre)
  | @item cl a b c t ha hb hc ht hap hcl ihb iht =>
    rintro r ⟨h1, h2⟩
    have e : a ++ (b ++ (c ++ t)) ++ r = a ++ (b ++ (c ++ (t ++ r))) := by simp
    rw [e]
    have h2' : Apart (b ++ (c ++ t)) r := h2.suffix
    have h3 : Apart (b ++ c) (t ++ r) := hap.append fun e => by
      subst e; rw [List.append_nil] at h2'; exact h2'
    have h4 : Apart t r := (h2'.suffix (a := b)).suffix (a := c)
    obtain ⟨f0, f1, f2, f3, f4⟩ := seq_fol ht h1
    have hfol : Fol .prim b (c ++ (t ++ r)) := by
      rcases hc with rfl | ⟨x, sp, hx, hsp, rfl⟩
      · rw [List.append_nil] at h3; exact ⟨f0, f4, h3⟩
      · simp only [List.mem_cons, List.not_mem_nil, or_false] at hx
        refine ⟨Re.noSp_cons ?_, ?_, apart_head ?_⟩
        · rcases hx with rfl | rfl | rfl <;> decide
        · rcases hx with rfl | rfl | rfl <;> simp
        · rintro y ⟨⟩; rcases hx with rfl | rfl | rfl <;> decide
    have g0 : Eats rePegEnv sufP (c ++ (t ++ r)) (some (t ++ r)) := to_re rfl (suf_eats hc f0 fun e => ⟨f1, f2, f3 fun e' => by
      cases cl with
      | false => rfl
      | true => exact absurd e (hcl rfl e')⟩)
    have g1 : Eats rePegEnv (.nonterm "Suffix") (b ++ (c ++ (t ++ r))) (some (t ++ r)) := .nonterm Re.rePeg_Suffix (.seqOk (ihb _ hfol) g0)
    have g2 : Eats rePegEnv (.nonterm "Prefix") (a ++ (b ++ (c ++ (t ++ r)))) (some (t ++ r)) := by
      refine .nonterm Re.rePeg_Prefix (.seqOk (to_re rfl (PegPeg.pre_eats ha ?_ ?_ ?_)) g1)
      all_goals
        obtain ⟨x, l, rfl, hx⟩ := prim_head hb
        obtain ⟨k0, k1, k2⟩ := hd_facts' hx
      · exact noSp_hd (.inl k0)
      · intro e; cases e; exact k1 rfl
      · intro e; cases e; exact k2 rfl
    exact .nonterm Re.rePeg_Sequence (.starStep g2 (nonterm_inv Re.rePeg_Sequence (iht r ⟨h1, h4⟩)))
  | one _ ih =>
    rintro r ⟨h1, h2, h3⟩
    exact .nonterm Re.rePeg_Expression (.seqOk (ih r ⟨h1, h2⟩) (.starEnd (.seqFail (.litF h3))))
  | @alt cl t u ht hu iht ihu =>
    rintro r ⟨h1, h2, h3⟩
    have e : t ++ 47 :: u ++ r = t ++ 47 :: (u ++ r) := by simp
    rw [e]
    have h4 : Apart u r := by
      rw [show t ++ 47 :: u = (t ++ [47]) ++ u by simp] at h2
      exact h2.suffix
    obtain ⟨s', g1, g2⟩ := seq_inv (nonterm_inv Re.rePeg_Expression (ihu r ⟨h1, h4, h3⟩))
    refine .nonterm Re.rePeg_Expression (.seqOk (iht _ ⟨stop_head (.inl rfl), apart_head ?_⟩)
      (.starStep (.seqOk (.litOk (w := [47])) g1) g2))
    rintro y ⟨⟩; decide

/-! ## Only texts of the syntax are matched -/

theorem lines_suffix {a b : List UInt8} (h : Re.Lines (a ++ b)) : Re.Lines b :=
  fun u sp v e hs => h (a ++ u) sp v (by rw [e]; simp) hs

/-- A text of a category up to a rest. -/
def Upto (c : Bool → Cat) (w r : List UInt8) : Prop := Syn (c false) w ∧ (r.head? = some 43 → Syn (c true) w) ∧ Apart w r

/-- Expressions on texts shorter than `n` are sound. -/
def SoundTo (n : Nat) : Prop := ∀ s r, s.length < n → Re.Lines s → Eats rePegEnv (.nonterm "Expression") s (some r) →
  ∃ w, s = w ++ r ∧ Upto .expr w r

theorem apart_last {b : UInt8} {w r : List UInt8} (hb : isCont b = false) : Apart (w ++ [b]) r := apart_one hb .nil

theorem prim_sound {n : Nat} (IH : SoundTo n) {s r : List UInt8} (hs : s.length ≤ n) (hl : Re.Lines s)
    (h : Eats rePegEnv (.nonterm "Primary") s (some r)) : ∃ w, s = w ++ r ∧ Syn .prim w ∧ Apart w r := by
  rcases alt_inv (nonterm_inv Re.rePeg_Primary h) with h | ⟨_, h⟩
  · cases h with
    | seqOk h1 h2 =>
      cases h2
      obtain ⟨nm, sp, rfl, h3, h4, h5⟩ := PegPeg.name_inv (of_re rfl h1)
      exact ⟨nm ++ sp, by simp, .ident h3 h4, h5⟩
  rcases alt_inv h with h | ⟨_, h⟩
  · obtain ⟨s2, hh, h2⟩ := seq_inv h
    obtain ⟨s1, h0, h1⟩ := seq_inv hh
    obtain rfl := lit_inv h0
    obtain rfl := lit_inv h2
    obtain ⟨w, rfl, hw, _⟩ := IH s1 _ (by simp only [List.length_append, List.length_cons] at hs; omega) (lines_suffix hl) h1
    refine ⟨40 :: (w ++ [41]), by simp, .paren hw, ?_⟩
    exact apart_last (w := 40 :: w) (by decide)
  rcases alt_inv h with h | ⟨_, h⟩
  · obtain ⟨q, t, sp, rfl, hq, ht, hsp⟩ := PegPeg.literal_inv (of_re rfl h)
    refine ⟨q :: (t ++ sp), by simp, .lit hq ht hsp, ?_⟩
    obtain ⟨v, rfl⟩ := lit_last ht
    rw [show q :: (v ++ [q] ++ sp) = (q :: v) ++ q :: sp by simp]
    exact apart_one (by rcases hq with rfl | rfl <;> decide) hsp
  rcases alt_inv h with h | ⟨_, h⟩
  · obtain ⟨neg, u, t, sp, rfl, hu, ht, k1, k2, hsp⟩ := class_inv hl h
    refine ⟨91 :: (u ++ (t ++ sp)), by simp, .cls hu ht k1 k2 hsp, ?_⟩
    obtain ⟨v, rfl⟩ := items_last ht
    rw [show (91 :: (u ++ (v ++ [93] ++ sp)) : List UInt8) = (91 :: (u ++ v)) ++ 93 :: sp by simp]
    exact apart_one (by decide) hsp
  rcases alt_inv h with h | ⟨_, h⟩
  · obtain ⟨s2, hh, h2⟩ := seq_inv h
    obtain ⟨s1, h0, h1⟩ := seq_inv hh
    obtain rfl := lit_inv h0
    obtain rfl := lit_inv h2
    obtain ⟨w, rfl, hw, _⟩ := IH s1 _ (by simp only [List.length_append, List.length_cons] at hs; omega) (lines_suffix hl) h1
    refine ⟨123 :: (w ++ [125]), by simp, .brace hw, ?_⟩
    exact apart_last (w := 123 :: w) (by decide)
  rcases alt_inv h with h | ⟨_, h⟩
  · obtain ⟨s2, hh, h2⟩ := seq_inv h
    obtain ⟨s1, h0, h1⟩ := seq_inv hh
    obtain rfl := lit_inv h0
    obtain rfl := lit_inv h2
    obtain ⟨w, rfl, _, hw, _⟩ := IH s1 _ (by simp only [List.length_append, List.length_cons] at hs; omega) (lines_suffix hl) h1
    refine ⟨123 :: 43 :: (w ++ [43, 125]), by simp, .memo (hw rfl), ?_⟩
    rw [show (123 :: 43 :: (w ++ [43, 125]) : List UInt8) = (123 :: 43 :: (w ++ [43])) ++ [125] by simp]
    exact apart_last (by decide)
  · obtain ⟨sp, rfl, hsp, _⟩ := tok_inv (w := [46]) rfl h
    exact ⟨46 :: sp, by simp, .dot hsp, apart_one (s := []) (by decide) hsp⟩

theorem seq_sound {n : Nat} (IH : SoundTo n) {s r : List UInt8} (hs : s.length ≤ n) (hl : Re.Lines s)
    (h : Eats rePegEnv (.nonterm "Sequence") s (some r)) : ∃ w, s = w ++ r ∧ Upto .seq w r := by
  refine star_ind (P := fun s r => s.length ≤ n → Re.Lines s → ∃ w, s = w ++ r ∧ Upto .seq w r)
    (fun s _ _ _ => ⟨[], rfl, .empty, fun _ => .empty, apart_nil⟩)
    (fun s s' r h _ ih hs hl => ?_) (nonterm_inv Re.rePeg_Sequence h) hs hl
  have hl' : Re.Lines s' := by
    obtain ⟨w, rfl⟩ := h.suffix s' rfl
    exact lines_suffix hl
  obtain ⟨t, rfl, ht, ht', hap⟩ := ih (Nat.le_trans (PegPeg.Eats.le h) hs) hl'
  obtain ⟨s1, h0, h1⟩ := seq_inv (nonterm_inv Re.rePeg_Prefix h)
  obtain ⟨a, rfl, ha⟩ := PegPeg.pre_inv (of_re rfl h0)
  obtain ⟨s2, h2, h3⟩ := seq_inv (nonterm_inv Re.rePeg_Suffix h1)
  have h3 := of_re rfl h3
  obtain ⟨c, rfl, hc⟩ := PegPeg.suf_inv h3
  obtain ⟨b, rfl, hb, hapb⟩ := prim_sound IH (by simp only [List.length_append] at hs ⊢; omega) (lines_suffix hl) h2
  have hbc : Apart (b ++ c) (t ++ r) := by
    rcases hc with rfl | ⟨x, sp, hx, hsp, rfl⟩
    · rw [List.append_nil]; exact hapb
    · simp only [List.mem_cons, List.not_mem_nil, or_false] at hx
      exact apart_one (by rcases hx with rfl | rfl | rfl <;> decide) hsp
  refine ⟨a ++ (b ++ (c ++ t)), by simp, .item ha hb hc ht (apart_pre hbc) (by simp), fun h43 => .item ha hb hc (ht' h43) (apart_pre hbc) ?_, ?_⟩
  · rintro _ rfl rfl
    exact suf_none h3 h43
  by_cases e : t = []
  · subst e
    rw [List.append_nil]
    obtain ⟨x, l, rfl, _⟩ := prim_head hb
    exact apart_tail (by simp) hbc
  · rw [show a ++ (b ++ (c ++ t)) = (a ++ (b ++ c)) ++ t by simp]
    exact apart_tail e hap

theorem expr_sound : ∀ n, SoundTo n := by
  intro n
  induction n with
  | zero => intro s r hs; omega
  | succ n IH =>
    intro s r hs hl h
    obtain ⟨s1, h0, h1⟩ := seq_inv (nonterm_inv Re.rePeg_Expression h)
    obtain ⟨t, rfl, ht⟩ := seq_sound IH (by omega) hl h0
    have key := star_ind (P := fun s r => s.length ≤ n → Re.Lines s → ∃ w, s = w ++ r ∧ ∀ t, Upto .seq t s → Upto .expr (t ++ w) r)
      (fun s _ _ _ => ⟨[], rfl, fun t ht => by rw [List.append_nil]; exact ⟨.one ht.1, fun h => .one (ht.2.1 h), ht.2.2⟩⟩)
      (fun s s' r h _ ih hs hl => by
        obtain ⟨s2, h2, h3⟩ := seq_inv h
        obtain rfl := lit_inv h2
        have hl2 : Re.Lines s2 := lines_suffix hl
        obtain ⟨u, rfl, hu⟩ := seq_sound IH (by simp only [List.length_append, List.length_cons] at hs ⊢; omega) hl2 h3
        obtain ⟨w, rfl, hw⟩ := ih (by simp only [List.length_append, List.length_cons] at hs ⊢; omega) (lines_suffix hl2)
        obtain ⟨k1, k2, k3⟩ := hw u hu
        refine ⟨47 :: (u ++ w), by simp, fun t ht => ⟨.alt ht.1 k1, fun h43 => .alt ht.1 (k2 h43), ?_⟩⟩
        by_cases e : u ++ w = []
        · rw [e]; exact apart_last (by decide)
        · rw [show t ++ 47 :: (u ++ w) = (t ++ [47]) ++ (u ++ w) by simp]
          exact apart_tail e k3) h1 (by simp only [List.length_append] at hs; omega) (lines_suffix hl)
    obtain ⟨w, rfl, hw⟩ := key
    exact ⟨t ++ w, by simp, hw t ht⟩

/-- The grammar of the file matches all of a text of the syntax, and nothing else. -/
theorem re_iff {s r : List UInt8} (hl : Re.Lines s) :
    Eats rePegEnv (.seq (.seq (.nonterm "Spacing_") (.nonterm "Expression")) (.nonterm "EndOfFile_")) s (some r) ↔ r = [] ∧ ReText s := by
  constructor
  · intro h
    obtain ⟨s2, hh, h2⟩ := seq_inv h
    obtain ⟨s1, h0, h1⟩ := seq_inv hh
    obtain ⟨rfl, rfl⟩ := PegPeg.eof_inv (of_re rfl h2)
    obtain ⟨sp, rfl, hsp⟩ := PegPeg.sp_inv (of_re rfl h0)
    obtain ⟨w, e, hw⟩ := expr_sound _ _ _ (Nat.lt_succ_self _) (lines_suffix hl) h1
    rw [List.append_nil] at e
    subst e
    exact ⟨rfl, sp, s1, rfl, hsp, hw.1⟩
  · rintro ⟨rfl, sp, t, rfl, hsp, ht⟩
    have h := complete ht [] ⟨stop_nil, fun _ _ _ h => (by cases h), by simp⟩
    have hn := expr_noSp ht (stop_nil (cl := false)).sp
    rw [List.append_nil] at h hn
    exact .seqOk (.seqOk (to_re rfl (PegPeg.sp_eats hsp hn)) h) (to_re rfl (.nonterm PegPeg.l_EndOfFile (.notOk .dotFail)))

end Gpeg.RePeg
