import Verif.PegPeg
/-! # `grammars/peg.peg`, continued: expressions and definitions -/
namespace Gpeg.PegPeg
open Gpeg.Re (Sp IsName Apart isStart isCont NoSp blank apart_nil apart_head apart_sp apart_tail)

/-! ## Operators -/

abbrev preP : Pat := .opt (.alt (.nonterm "AND") (.nonterm "NOT"))
abbrev sufP : Pat := .opt (.alt (.nonterm "QUESTION") (.alt (.nonterm "STAR") (.nonterm "PLUS")))

theorem pre_eats {a s : List UInt8} (ha : Op [38, 33] a) (hs : NoSp s) (h1 : s.head? ≠ some 38) (h2 : s.head? ≠ some 33) :
    Eats pegEnv preP (a ++ s) (some s) := by
  rcases ha with rfl | ⟨b, sp, hb, hsp, rfl⟩
  · exact .optNone (.altR (tok_none rfl h1) (tok_none rfl h2))
  · simp only [List.mem_cons, List.not_mem_nil, or_false] at hb
    rcases hb with rfl | rfl
    · exact .optSome (.altL (tok_eats (w := [38]) rfl hsp hs))
    · exact .optSome (.altR (tok_none (b := 38) (w := []) rfl (by simp)) (tok_eats (w := [33]) rfl hsp hs))

theorem suf_eats {a s : List UInt8} (ha : Op [63, 42, 43] a) (hs : NoSp s) (h1 : s.head? ≠ some 63) (h2 : s.head? ≠ some 42)
    (h3 : s.head? ≠ some 43) : Eats pegEnv sufP (a ++ s) (some s) := by
  rcases ha with rfl | ⟨b, sp, hb, hsp, rfl⟩
  · exact .optNone (.altR (tok_none rfl h1) (.altR (tok_none rfl h2) (tok_none rfl h3)))
  · simp only [List.mem_cons, List.not_mem_nil, or_false] at hb
    rcases hb with rfl | rfl | rfl
    · exact .optSome (.altL (tok_eats (w := [63]) rfl hsp hs))
    · exact .optSome (.altR (tok_none (b := 63) (w := []) rfl (by simp)) (.altL (tok_eats (w := [42]) rfl hsp hs)))
    · exact .optSome (.altR (tok_none (b := 63) (w := []) rfl (by simp)) (.altR (tok_none (b := 42) (w := []) rfl (by simp))
        (tok_eats (w := [43]) rfl hsp hs)))

theorem op_of_tok {n : String} {b : UInt8} {ops s r : List UInt8} (hl : lookupNT n pegEnv = some (token [b], pegEnv)) (hb : b ∈ ops)
    (h : Eats pegEnv (.nonterm n) s (some r)) : ∃ a, s = a ++ r ∧ Op ops a := by
  obtain ⟨sp, rfl, hsp⟩ := tok_inv hl h
  exact ⟨b :: sp, rfl, .inr ⟨b, sp, hb, hsp, rfl⟩⟩

theorem pre_inv {s r : List UInt8} (h : Eats pegEnv preP s (some r)) : ∃ a, s = a ++ r ∧ Op [38, 33] a := by
  rcases opt_inv h with h | rfl
  · rcases alt_inv h with h | ⟨_, h⟩
    · exact op_of_tok (b := 38) rfl (by simp) h
    · exact op_of_tok (b := 33) rfl (by simp) h
  · exact ⟨[], rfl, .inl rfl⟩

theorem suf_inv {s r : List UInt8} (h : Eats pegEnv sufP s (some r)) : ∃ a, s = a ++ r ∧ Op [63, 42, 43] a := by
  rcases opt_inv h with h | rfl
  · rcases alt_inv h with h | ⟨_, h⟩
    · exact op_of_tok (b := 63) rfl (by simp) h
    · rcases alt_inv h with h | ⟨_, h⟩
      · exact op_of_tok (b := 42) rfl (by simp) h
      · exact op_of_tok (b := 43) rfl (by simp) h
  · exact ⟨[], rfl, .inl rfl⟩

/-! ## First bytes -/

/-- Bytes that begin a primary. -/
def hd (b : UInt8) : Bool := isStart b || [40, 39, 34, 91, 46].contains b
/-- Bytes that begin an item of a sequence. -/
def hdSeq (b : UInt8) : Bool := hd b || [38, 33].contains b

theorem hd_facts {b : UInt8} (h : hd b = true) : hdSeq b = true ∧ b ≠ 38 ∧ b ≠ 33 := by
  have : ∀ b : UInt8, hd b = true → hdSeq b = true ∧ b ≠ 38 ∧ b ≠ 33 := forall_byte (by decide +kernel)
  exact this b h

theorem hdSeq_facts {b : UInt8} (h : hdSeq b = true) :
    (blank b = false ∧ b ≠ 35) ∧ b ≠ 63 ∧ b ≠ 42 ∧ b ≠ 43 ∧ b ≠ 60 ∧ b ≠ 47 := by
  have : ∀ b : UInt8, hdSeq b = true → (blank b = false ∧ b ≠ 35) ∧ b ≠ 63 ∧ b ≠ 42 ∧ b ≠ 43 ∧ b ≠ 60 ∧ b ≠ 47 := forall_byte (by decide +kernel)
  exact this b h

theorem name_head {n : List UInt8} (h : IsName n) : ∃ b l, n = b :: l ∧ hd b = true := by
  obtain ⟨b, l, rfl, hb, _⟩ := h
  exact ⟨b, l, rfl, by simp [hd, hb]⟩

theorem prim_head {t : List UInt8} (h : Syn .prim t) : ∃ b l, t = b :: l ∧ hd b = true := by
  cases h with
  | ident hn _ => obtain ⟨b, l, rfl, hb⟩ := name_head hn; exact ⟨b, _, rfl, hb⟩
  | paren => exact ⟨40, _, rfl, by decide⟩
  | lit hq => rcases hq with rfl | rfl <;> exact ⟨_, _, rfl, by decide⟩
  | cls => exact ⟨91, _, rfl, by decide⟩
  | dot => exact ⟨46, _, rfl, by decide⟩

theorem seq_head {t : List UInt8} (h : Syn .seq t) : t = [] ∨ ∃ b l, t = b :: l ∧ hdSeq b = true := by
  cases h with
  | empty => exact .inl rfl
  | @item a b c t ha hb =>
    refine .inr ?_
    rcases ha with rfl | ⟨x, sp, hx, _, rfl⟩
    · obtain ⟨y, l, rfl, hy⟩ := prim_head hb
      exact ⟨y, _, rfl, (hd_facts hy).1⟩
    · exact ⟨x, _, rfl, by simp only [hdSeq, Bool.or_eq_true, List.contains_iff_mem]; exact .inr hx⟩

theorem expr_head {t : List UInt8} (h : Syn .expr t) : t = [] ∨ ∃ b l, t = b :: l ∧ (hdSeq b = true ∨ b = 47) := by
  cases h with
  | one h => exact (seq_head h).imp id fun ⟨b, l, e, hb⟩ => ⟨b, l, e, .inl hb⟩
  | @alt t sp u h =>
    refine .inr ?_
    rcases seq_head h with rfl | ⟨b, l, rfl, hb⟩
    · exact ⟨47, _, rfl, .inr rfl⟩
    · exact ⟨b, _, rfl, .inl hb⟩

theorem noSp_hd {b : UInt8} {l : List UInt8} (h : hdSeq b = true ∨ b = 47) : NoSp (b :: l) := by
  rcases h with h | rfl
  · exact Re.noSp_cons (hdSeq_facts h).1
  · exact Re.noSp_cons (by decide)

theorem expr_noSp {t r : List UInt8} (h : Syn .expr t) (hr : NoSp r) : NoSp (t ++ r) := by
  rcases expr_head h with rfl | ⟨b, l, rfl, hb⟩
  · exact hr
  · exact noSp_hd hb

/-! ## What stops a sequence -/

structure Stop (r : List UInt8) : Prop where
  sp : NoSp r
  q : r.head? ≠ some 63
  s : r.head? ≠ some 42
  p : r.head? ≠ some 43
  a : r.head? ≠ some 60
  pre : Eats pegEnv (.nonterm "Prefix") r none

theorem prefix_none {r : List UInt8} (h : ∀ b, r.head? = some b → hdSeq b = false)
    (hi : Eats pegEnv (.seq (.nonterm "Identifier") (.not (.nonterm "LEFTARROW_"))) r none) : Eats pegEnv (.nonterm "Prefix") r none := by
  have ne : ∀ {c : UInt8}, hdSeq c = true → r.head? ≠ some c := fun hc e => by rw [h _ e] at hc; cases hc
  exact .nonterm l_Prefix (.seqOk (s' := r) (.optNone (.altR (tok_none rfl (ne (by decide))) (tok_none rfl (ne (by decide)))))
    (.nonterm l_Suffix (.seqFail (.nonterm l_Primary (.altR hi (.altR (.seqFail (.seqFail (tok_none rfl (ne (by decide)))))
    (.altR (literal_none (ne (by decide)) (ne (by decide))) (.altR (class_none (ne (by decide))) (tok_none rfl (ne (by decide)))))))))))

theorem not_start {r : List UInt8} (h : ∀ b, r.head? = some b → hdSeq b = false) : NotIn isStart r := by
  intro b hb
  have := h b hb
  simp only [hdSeq, hd, Bool.or_eq_false_iff] at this
  exact this.1.1

theorem stop_head {b : UInt8} {l : List UInt8} (h : b = 47 ∨ b = 41) : Stop (b :: l) := by
  have hb : ∀ x, (b :: l).head? = some x → hdSeq x = false := by
    rintro x ⟨⟩
    rcases h with rfl | rfl <;> decide
  refine ⟨Re.noSp_cons ?_, ?_, ?_, ?_, ?_, prefix_none hb (.seqFail (name_none (not_start hb)))⟩ <;> rcases h with rfl | rfl <;> simp <;> decide

theorem stop_nil : Stop [] :=
  ⟨fun _ h => (by cases h), by simp, by simp, by simp, by simp, prefix_none (fun _ h => by cases h) (.seqFail (name_none notIn_nil))⟩

theorem stop_def {n sp sp' w : List UInt8} (hn : IsName n) (hs : Sp sp) (hs' : Sp sp') (hw : NoSp w) :
    Stop (n ++ (sp ++ 60 :: 45 :: (sp' ++ w))) := by
  have hi : Eats pegEnv (.seq (.nonterm "Identifier") (.not (.nonterm "LEFTARROW_"))) (n ++ (sp ++ 60 :: 45 :: (sp' ++ w))) none := by
    refine .seqOk (name_eats hn hs (Re.noSp_cons (by decide)) (apart_head ?_)) (.notFail (tok_eats (w := [60, 45]) rfl hs' hw))
    rintro y ⟨⟩; decide
  obtain ⟨b, l, rfl, hb, hl⟩ := hn
  have nh : hdSeq b = true := (hd_facts (by simp [hd, hb])).1
  have ne : ∀ {c : UInt8}, c ≠ b → ((b :: l) ++ (sp ++ 60 :: 45 :: (sp' ++ w))).head? ≠ some c := fun hc e => by cases e; exact hc rfl
  obtain ⟨f0, f1, f2, f3, f4, f5⟩ := hdSeq_facts nh
  have st : ∀ {c : UInt8}, isStart c = false → ((b :: l) ++ (sp ++ 60 :: 45 :: (sp' ++ w))).head? ≠ some c := fun hc e => by
    cases e; rw [hb] at hc; cases hc
  refine ⟨Re.noSp_cons f0, ne (Ne.symm f1), ne (Ne.symm f2), ne (Ne.symm f3), ne (Ne.symm f4), ?_⟩
  exact .nonterm l_Prefix (.seqOk (.optNone (.altR (tok_none rfl (st (by decide))) (tok_none rfl (st (by decide)))))
    (.nonterm l_Suffix (.seqFail (.nonterm l_Primary (.altR hi (.altR (.seqFail (.seqFail (tok_none rfl (st (by decide)))))
    (.altR (literal_none (st (by decide)) (st (by decide))) (.altR (class_none (st (by decide))) (tok_none rfl (st (by decide)))))))))))

theorem defs_stop {u : List UInt8} (h : Syn .defs u) : Stop u ∧ u.head? ≠ some 47 := by
  have h47 : ∀ {n v : List UInt8}, IsName n → (n ++ v).head? ≠ some 47 := by
    rintro n v ⟨b, l, rfl, hb, _⟩ ⟨⟩; cases hb
  cases h with
  | @dfn n sp sp' t hn hs hs' ht =>
    refine ⟨?_, h47 hn⟩
    have := stop_def hn hs hs' (w := t) (by simpa using expr_noSp (r := []) ht stop_nil.sp)
    exact this
  | @dfns n sp sp' t u hn hs hs' ht hu _ =>
    refine ⟨stop_def hn hs hs' (expr_noSp ht ?_), h47 hn⟩
    cases hu with
    | dfn hn => obtain ⟨b, l, rfl, hb⟩ := name_head hn; exact noSp_hd (.inl (hd_facts hb).1)
    | dfns hn => obtain ⟨b, l, rfl, hb⟩ := name_head hn; exact noSp_hd (.inl (hd_facts hb).1)

/-! ## Texts of the syntax are matched -/

/-- What may follow a text of a category. -/
def Fol : Cat → List UInt8 → List UInt8 → Prop
  | .prim, w, r => NoSp r ∧ r.head? ≠ some 60 ∧ Apart w r
  | .seq, w, r => Stop r ∧ Apart w r
  | .expr, w, r => Stop r ∧ Apart w r ∧ r.head? ≠ some 47
  | .defs, _, r => r = []

/-- The patterns of the categories. -/
def Cat.pat : Cat → Pat
  | .prim => .nonterm "Primary"
  | .seq => .nonterm "Sequence"
  | .expr => .nonterm "Expression"
  | .defs => .plus (.nonterm "Definition")

theorem def_none : Eats pegEnv (.nonterm "Definition") [] none := .nonterm l_Definition (.seqFail (.seqFail (name_none notIn_nil)))

theorem seq_fol {t r : List UInt8} (h : Syn .seq t) (hr : Stop r) :
    NoSp (t ++ r) ∧ (t ++ r).head? ≠ some 63 ∧ (t ++ r).head? ≠ some 42 ∧ (t ++ r).head? ≠ some 43 ∧ (t ++ r).head? ≠ some 60 := by
  rcases seq_head h with rfl | ⟨b, l, rfl, hb⟩
  · exact ⟨hr.sp, hr.q, hr.s, hr.p, hr.a⟩
  · obtain ⟨f0, f1, f2, f3, f4, f5⟩ := hdSeq_facts hb
    have ne : ∀ {c : UInt8}, b ≠ c → ((b :: l) ++ r).head? ≠ some c := fun hc e => by cases e; exact hc rfl
    exact ⟨Re.noSp_cons f0, ne f1, ne f2, ne f3, ne f4⟩

theorem definition_eats {n sp sp' t r : List UInt8} (hn : IsName n) (hs : Sp sp) (hs' : Sp sp') (ht : Syn .expr t) (hr : NoSp r)
    (h : Eats pegEnv (.nonterm "Expression") (t ++ r) (some r)) :
    Eats pegEnv (.nonterm "Definition") (n ++ (sp ++ 60 :: 45 :: (sp' ++ (t ++ r)))) (some r) := by
  refine .nonterm l_Definition (.seqOk (s' := t ++ r) (.seqOk (name_eats hn hs (Re.noSp_cons (by decide)) (apart_head ?_))
    (tok_eats (w := [60, 45]) rfl hs' (expr_noSp ht hr))) h)
  rintro y ⟨⟩; decide

theorem complete {c : Cat} {w : List UInt8} (h : Syn c w) : ∀ r, Fol c w r → Eats pegEnv c.pat (w ++ r) (some r) := by
  have nn : ∀ {b : UInt8} {l : List UInt8}, isStart b = false →
      Eats pegEnv (.seq (.nonterm "Identifier") (.not (.nonterm "LEFTARROW_"))) (b :: l) none := fun hb =>
    .seqFail (name_none (notIn_cons hb))
  induction h with
  | @ident n sp hn hs =>
    rintro r ⟨h1, h2, h3⟩
    rw [List.append_assoc]
    exact .nonterm l_Primary (.altL (.seqOk (name_eats hn hs h1 h3) (.notOk (tok_none rfl h2))))
  | @paren sp t sp' hs ht hs' ih =>
    rintro r ⟨h1, h2, h3⟩
    have e : 40 :: (sp ++ (t ++ 41 :: sp')) ++ r = [40] ++ (sp ++ (t ++ 41 :: (sp' ++ r))) := by simp
    rw [e]
    refine .nonterm l_Primary (.altR (nn (by decide)) (.altL (.seqOk (s' := 41 :: (sp' ++ r)) (.seqOk
      (tok_eats (w := [40]) rfl hs (expr_noSp ht (Re.noSp_cons (by decide)))) (ih _ ⟨stop_head (.inr rfl), apart_head ?_, by simp⟩))
      (tok_eats (w := [41]) rfl hs' h1))))
    rintro y ⟨⟩; decide
  | @lit q t sp hq ht hs =>
    rintro r ⟨h1, h2, h3⟩
    have e : q :: (t ++ sp) ++ r = q :: (t ++ (sp ++ r)) := by simp
    rw [e]
    exact .nonterm l_Primary (.altR (nn (by rcases hq with rfl | rfl <;> decide)) (.altR (.seqFail (.seqFail
      (tok_none (b := 40) (w := []) rfl (by rcases hq with rfl | rfl <;> simp)))) (.altL (literal_eats hq ht hs h1))))
  | @cls t sp ht hs =>
    rintro r ⟨h1, h2, h3⟩
    have e : 91 :: (t ++ sp) ++ r = 91 :: (t ++ (sp ++ r)) := by simp
    rw [e]
    exact .nonterm l_Primary (.altR (nn (by decide)) (.altR (.seqFail (.seqFail (tok_none (b := 40) (w := []) rfl (by simp))))
      (.altR (literal_none (by simp) (by simp)) (.altL (class_eats ht hs h1)))))
  | @dot sp hs =>
    rintro r ⟨h1, h2, h3⟩
    exact .nonterm l_Primary (.altR (nn (by decide)) (.altR (.seqFail (.seqFail (tok_none (b := 40) (w := []) rfl (by simp))))
      (.altR (literal_none (by simp) (by simp)) (.altR (class_none (by simp)) (tok_eats (w := [46]) rfl hs h1)))))
  | empty => rintro r ⟨h1, h2⟩; exact .nonterm l_Sequence (.starEnd h1.pre)
  | @item a b c t ha hb hc ht hap ihb iht =>
    rintro r ⟨h1, h2⟩
    have e : a ++ (b ++ (c ++ t)) ++ r = a ++ (b ++ (c ++ (t ++ r))) := by simp
    rw [e]
    have h2' : Apart (b ++ (c ++ t)) r := h2.suffix
    have h3 : Apart (b ++ c) (t ++ r) := hap.append fun e => by
      subst e; rw [List.append_nil] at h2'; exact h2'
    have h4 : Apart t r := (h2'.suffix (a := b)).suffix (a := c)
    obtain ⟨f0, f1, f2, f3, f4⟩ := seq_fol ht h1
    have hfol : Fol .prim b (c ++ (t ++ r)) := by
      rcases hc with rfl | ⟨x, sp, hx, hsp, rfl⟩
      · rw [List.append_nil] at h3; exact ⟨f0, f4, h3⟩
      · simp only [List.mem_cons, List.not_mem_nil, or_false] at hx
        refine ⟨Re.noSp_cons ?_, ?_, apart_head ?_⟩
        · rcases hx with rfl | rfl | rfl <;> decide
        · rcases hx with rfl | rfl | rfl <;> simp
        · rintro y ⟨⟩; rcases hx with rfl | rfl | rfl <;> decide
    have g1 : Eats pegEnv (.nonterm "Suffix") (b ++ (c ++ (t ++ r))) (some (t ++ r)) :=
      .nonterm l_Suffix (.seqOk (ihb _ hfol) (suf_eats hc f0 f1 f2 f3))
    have g2 : Eats pegEnv (.nonterm "Prefix") (a ++ (b ++ (c ++ (t ++ r)))) (some (t ++ r)) := by
      refine .nonterm l_Prefix (.seqOk (pre_eats ha ?_ ?_ ?_) g1)
      all_goals
        obtain ⟨x, l, rfl, hx⟩ := prim_head hb
        obtain ⟨k0, k1, k2⟩ := hd_facts hx
      · exact noSp_hd (.inl k0)
      · intro e; cases e; exact k1 rfl
      · intro e; cases e; exact k2 rfl
    exact .nonterm l_Sequence (.starStep g2 (nonterm_inv l_Sequence (iht r ⟨h1, h4⟩)))
  | one _ ih =>
    rintro r ⟨h1, h2, h3⟩
    exact .nonterm l_Expression (.seqOk (ih r ⟨h1, h2⟩) (.starEnd (.seqFail (tok_none (b := 47) (w := []) rfl h3))))
  | @alt t sp u ht hs hu iht ihu =>
    rintro r ⟨h1, h2, h3⟩
    have e : t ++ 47 :: (sp ++ u) ++ r = t ++ 47 :: (sp ++ (u ++ r)) := by simp
    rw [e]
    have h4 : Apart u r := by
      rw [show t ++ 47 :: (sp ++ u) = (t ++ 47 :: sp) ++ u by simp] at h2
      exact h2.suffix
    obtain ⟨s', g1, g2⟩ := seq_inv (nonterm_inv l_Expression (ihu r ⟨h1, h4, h3⟩))
    refine .nonterm l_Expression (.seqOk (iht _ ⟨stop_head (.inl rfl), apart_head ?_⟩)
      (.starStep (.seqOk (tok_eats (w := [47]) rfl hs (expr_noSp hu h1.sp)) g1) g2))
    rintro y ⟨⟩; decide
  | @dfn n sp sp' t hn hs hs' ht ih =>
    rintro r ⟨⟩
    have := definition_eats hn hs hs' ht stop_nil.sp (ih [] ⟨stop_nil, fun _ _ _ hy => (by cases hy), by simp⟩)
    simp only [List.append_nil] at this ⊢
    exact .plusOk this (.starEnd def_none)
  | @dfns n sp sp' t u hn hs hs' ht hu hap iht ihu =>
    rintro r ⟨⟩
    obtain ⟨k1, k2⟩ := defs_stop hu
    have := definition_eats hn hs hs' ht k1.sp (iht u ⟨k1, hap, k2⟩)
    have hu' := ihu [] rfl
    simp only [List.append_nil] at hu' ⊢
    obtain ⟨s', g1, g2⟩ := plus_inv hu'
    exact .plusOk this (.starStep g1 g2)

/-! ## Only texts of the syntax are matched -/

theorem apart_one {b : UInt8} {s sp r : List UInt8} (hb : isCont b = false) (hs : Sp sp) : Apart (s ++ b :: sp) r := by
  rw [show s ++ b :: sp = (s ++ [b]) ++ sp by simp]
  refine apart_sp hs fun x hx => ?_
  rw [List.getLast?_append] at hx
  cases hx
  exact hb

theorem lit_last {q : UInt8} {t : List UInt8} (h : Lit q t) : ∃ v, t = v ++ [q] := by
  induction h with
  | nil => exact ⟨[], rfl⟩
  | @cons t rest _ _ _ ih => obtain ⟨v, rfl⟩ := ih; exact ⟨t ++ v, by simp⟩

theorem items_last {t : List UInt8} (h : Items t) : ∃ v, t = v ++ [93] := by
  induction h with
  | nil => exact ⟨[], rfl⟩
  | @one t rest _ _ _ _ ih => obtain ⟨v, rfl⟩ := ih; exact ⟨t ++ v, by simp⟩
  | @range t u rest _ _ _ _ ih => obtain ⟨v, rfl⟩ := ih; exact ⟨t ++ 45 :: (u ++ v), by simp⟩

/-- Expressions on texts shorter than `n` are sound. -/
def SoundTo (n : Nat) : Prop := ∀ s r, s.length < n → Eats pegEnv (.nonterm "Expression") s (some r) → ∃ w, s = w ++ r ∧ Syn .expr w ∧ Apart w r

theorem prim_sound {n : Nat} (IH : SoundTo n) {s r : List UInt8} (hs : s.length ≤ n) (h : Eats pegEnv (.nonterm "Primary") s (some r)) :
    ∃ w, s = w ++ r ∧ Syn .prim w ∧ Apart w r := by
  rcases alt_inv (nonterm_inv l_Primary h) with h | ⟨_, h⟩
  · cases h with
    | seqOk h1 h2 =>
      cases h2
      obtain ⟨nm, sp, rfl, h3, h4, h5⟩ := name_inv h1
      exact ⟨nm ++ sp, by simp, .ident h3 h4, h5⟩
  rcases alt_inv h with h | ⟨_, h⟩
  · obtain ⟨s2, hh, h2⟩ := seq_inv h
    obtain ⟨s1, h0, h1⟩ := seq_inv hh
    obtain ⟨sp, rfl, hsp⟩ := tok_inv (w := [40]) rfl h0
    obtain ⟨sp', rfl, hsp'⟩ := tok_inv (w := [41]) rfl h2
    obtain ⟨w, rfl, hw, _⟩ := IH s1 _ (by simp only [List.length_append, List.length_cons] at hs; omega) h1
    refine ⟨40 :: (sp ++ (w ++ 41 :: sp')), by simp, .paren hsp hw hsp', ?_⟩
    rw [show (40 :: (sp ++ (w ++ 41 :: sp')) : List UInt8) = (40 :: (sp ++ w)) ++ 41 :: sp' by simp]
    exact apart_one (by decide) hsp'
  rcases alt_inv h with h | ⟨_, h⟩
  · obtain ⟨q, t, sp, rfl, hq, ht, hsp⟩ := literal_inv h
    refine ⟨q :: (t ++ sp), by simp, .lit hq ht hsp, ?_⟩
    obtain ⟨v, rfl⟩ := lit_last ht
    rw [show q :: (v ++ [q] ++ sp) = (q :: v) ++ q :: sp by simp]
    exact apart_one (by rcases hq with rfl | rfl <;> decide) hsp
  rcases alt_inv h with h | ⟨_, h⟩
  · obtain ⟨t, sp, rfl, ht, hsp⟩ := class_inv h
    refine ⟨91 :: (t ++ sp), by simp, .cls ht hsp, ?_⟩
    obtain ⟨v, rfl⟩ := items_last ht
    rw [show (91 :: (v ++ [93] ++ sp) : List UInt8) = (91 :: v) ++ 93 :: sp by simp]
    exact apart_one (by decide) hsp
  · obtain ⟨sp, rfl, hsp⟩ := tok_inv (w := [46]) rfl h
    exact ⟨46 :: sp, by simp, .dot hsp, apart_one (s := []) (by decide) hsp⟩

theorem Eats.le {env : Env} {p : Pat} {s r : List UInt8} (h : Eats env p s (some r)) : r.length ≤ s.length := by
  obtain ⟨w, rfl⟩ := h.suffix r rfl
  simp

theorem apart_pre {a t r : List UInt8} (h : Apart a (t ++ r)) : Apart a t := by
  cases t with
  | nil => exact fun x y _ hy => by cases hy
  | cons y t => exact fun x z hx hz => h x z hx hz

theorem seq_sound {n : Nat} (IH : SoundTo n) {s r : List UInt8} (hs : s.length ≤ n) (h : Eats pegEnv (.nonterm "Sequence") s (some r)) :
    ∃ w, s = w ++ r ∧ Syn .seq w ∧ Apart w r := by
  refine star_ind (P := fun s r => s.length ≤ n → ∃ w, s = w ++ r ∧ Syn .seq w ∧ Apart w r) (fun s _ _ => ⟨[], rfl, .empty, apart_nil⟩)
    (fun s s' r h _ ih hs => ?_) (nonterm_inv l_Sequence h) hs
  obtain ⟨t, rfl, ht, hap⟩ := ih (Nat.le_trans (Eats.le h) hs)
  obtain ⟨s1, h0, h1⟩ := seq_inv (nonterm_inv l_Prefix h)
  obtain ⟨a, rfl, ha⟩ := pre_inv h0
  obtain ⟨s2, h2, h3⟩ := seq_inv (nonterm_inv l_Suffix h1)
  obtain ⟨c, rfl, hc⟩ := suf_inv h3
  obtain ⟨b, rfl, hb, hapb⟩ := prim_sound IH (by simp only [List.length_append] at hs ⊢; omega) h2
  have hbc : Apart (b ++ c) (t ++ r) := by
    rcases hc with rfl | ⟨x, sp, hx, hsp, rfl⟩
    · rw [List.append_nil]; exact hapb
    · simp only [List.mem_cons, List.not_mem_nil, or_false] at hx
      exact apart_one (by rcases hx with rfl | rfl | rfl <;> decide) hsp
  refine ⟨a ++ (b ++ (c ++ t)), by simp, .item ha hb hc ht (apart_pre hbc), ?_⟩
  by_cases e : t = []
  · subst e
    rw [List.append_nil]
    obtain ⟨x, l, rfl, _⟩ := prim_head hb
    exact apart_tail (by simp) hbc
  · rw [show a ++ (b ++ (c ++ t)) = (a ++ (b ++ c)) ++ t by simp]
    exact apart_tail e hap

theorem expr_sound : ∀ n, SoundTo n := by
  intro n
  induction n with
  | zero => intro s r hs; omega
  | succ n IH =>
    intro s r hs h
    obtain ⟨s1, h0, h1⟩ := seq_inv (nonterm_inv l_Expression h)
    obtain ⟨t, rfl, ht, hap⟩ := seq_sound IH (by omega) h0
    have key := star_ind (P := fun s r => s.length ≤ n → ∃ w, s = w ++ r ∧ (∀ t, Syn .seq t → Syn .expr (t ++ w)) ∧
        ∀ t, Apart t s → Apart (t ++ w) r)
      (fun s _ _ => ⟨[], rfl, fun t ht => by rw [List.append_nil]; exact .one ht, fun t h => by rw [List.append_nil]; exact h⟩)
      (fun s s' r h _ ih hs => by
        obtain ⟨w, rfl, hw, hapw⟩ := ih (Nat.le_trans (Eats.le h) hs)
        obtain ⟨s2, h2, h3⟩ := seq_inv h
        obtain ⟨sp, rfl, hsp⟩ := tok_inv (w := [47]) rfl h2
        obtain ⟨u, rfl, hu, hapu⟩ := seq_sound IH (by simp only [List.length_append, List.length_cons] at hs ⊢; omega) h3
        refine ⟨47 :: (sp ++ (u ++ w)), by simp, fun t ht => .alt ht hsp (hw u hu), fun t _ => ?_⟩
        by_cases e : u ++ w = []
        · rw [e, List.append_nil]; exact apart_one (by decide) hsp
        · rw [show t ++ 47 :: (sp ++ (u ++ w)) = (t ++ 47 :: sp) ++ (u ++ w) by simp]
          exact apart_tail e (hapw u hapu)) h1 (by simp only [List.length_append] at hs; omega)
    obtain ⟨w, rfl, hw, hapw⟩ := key
    exact ⟨t ++ w, by simp, hw t ht, hapw t hap⟩

theorem definition_inv {s r : List UInt8} (h : Eats pegEnv (.nonterm "Definition") s (some r)) :
    ∃ n sp sp' t, s = n ++ (sp ++ 60 :: 45 :: (sp' ++ (t ++ r))) ∧ IsName n ∧ Sp sp ∧ Sp sp' ∧ Syn .expr t ∧ Apart t r := by
  obtain ⟨s2, hh, h2⟩ := seq_inv (nonterm_inv l_Definition h)
  obtain ⟨s1, h0, h1⟩ := seq_inv hh
  obtain ⟨sp', rfl, hsp'⟩ := tok_inv l_Arrow h1
  obtain ⟨n, sp, rfl, hn, hsp, _⟩ := name_inv h0
  obtain ⟨t, rfl, ht, hap⟩ := expr_sound _ _ _ (Nat.lt_succ_self _) h2
  exact ⟨n, sp, sp', t, by simp, hn, hsp, hsp', ht, hap⟩

theorem defs_of {s r : List UInt8} (h : Eats pegEnv (.nonterm "Definition") s (some r)) (hr : r = [] ∨ Syn .defs r) : Syn .defs s := by
  obtain ⟨n, sp, sp', t, rfl, hn, hsp, hsp', ht, hap⟩ := definition_inv h
  rcases hr with rfl | hr
  · rw [List.append_nil]; exact .dfn hn hsp hsp' ht
  · exact .dfns hn hsp hsp' ht hr hap

theorem eof_inv {s r : List UInt8} (h : Eats pegEnv (.nonterm "EndOfFile_") s (some r)) : s = [] ∧ r = [] := by
  cases nonterm_inv l_EndOfFile h with
  | notOk hd => cases hd; exact ⟨rfl, rfl⟩

/-- The grammar of the file matches all of a text of the syntax, and nothing else. -/
theorem peg_iff {s r : List UInt8} : Eats pegEnv (.nonterm "Grammar") s (some r) ↔ r = [] ∧ PegText s := by
  constructor
  · intro h
    obtain ⟨s2, hh, h2⟩ := seq_inv (nonterm_inv l_Grammar h)
    obtain ⟨s1, h0, h1⟩ := seq_inv hh
    obtain ⟨rfl, rfl⟩ := eof_inv h2
    obtain ⟨sp, rfl, hsp⟩ := sp_inv h0
    obtain ⟨s', h3, h4⟩ := plus_inv h1
    refine ⟨rfl, sp, s1, rfl, hsp, defs_of h3 ?_⟩
    exact star_ind (P := fun s r => r = [] → s = [] ∨ Syn .defs s) (fun s _ e => .inl e) (fun s s' r h _ ih e => .inr (defs_of h (ih e))) h4 rfl
  · rintro ⟨rfl, sp, t, rfl, hsp, ht⟩
    have h := complete ht [] rfl
    rw [List.append_nil] at h
    exact .nonterm l_Grammar (.seqOk (.seqOk (sp_eats hsp (defs_stop ht).1.sp) h) (.nonterm l_EndOfFile (.notOk .dotFail)))

end Gpeg.PegPeg
