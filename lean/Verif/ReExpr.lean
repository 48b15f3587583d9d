import Verif.ReTree
/-! # The parser of the `re` syntax: expressions -/
namespace Gpeg.Re

variable {d : List UInt8} {i : Nat} {capg : Bool}

theorem u8_all (P : UInt8 → Bool) (h : ((List.range 256).all fun n => P (UInt8.ofNat n)) = true) (b : UInt8) : P b = true := by
  have := List.all_eq_true.1 h b.toNat (List.mem_range.2 b.toNat_lt)
  simpa using this

/-- The bytes a `Prefix` may begin with. -/
def okHead (b : UInt8) : Bool := isStart b || [38, 33, 40, 123, 39, 34, 91, 46].contains b

theorem okHead_facts {b : UInt8} (h : okHead b = true) :
    blank b = false ∧ b ≠ 35 ∧ b ≠ 60 ∧ b ≠ 63 ∧ b ≠ 42 ∧ b ≠ 43 ∧ b ≠ 47 := by
  have := u8_all (fun b => !okHead b || (blank b == false && b != 35 && b != 60 && b != 63 && b != 42 && b != 43 && b != 47))
    (by decide +kernel) b
  simp only [h, Bool.not_true, Bool.false_or, Bool.and_eq_true, bne_iff_ne, beq_iff_eq] at this
  obtain ⟨⟨⟨⟨⟨⟨h1, h2⟩, h3⟩, h4⟩, h5⟩, h6⟩, h7⟩ := this
  exact ⟨h1, h2, h3, h4, h5, h6, h7⟩

theorem isStart_facts {b : UInt8} (h : isStart b = true) :
    isCont b = true ∧ [38, 33, 40, 123, 39, 34, 91, 46].contains b = false := by
  have := u8_all (fun b => !isStart b || (isCont b && [38, 33, 40, 123, 39, 34, 91, 46].contains b == false))
    (by decide +kernel) b
  simp only [h, Bool.not_true, Bool.false_or, Bool.and_eq_true, beq_iff_eq] at this
  exact this

theorem isName_last {n : List UInt8} (h : IsName n) : ∃ x, n.getLast? = some x ∧ isCont x = true := by
  obtain ⟨b, l, rfl, hb, hl⟩ := h
  refine ⟨(b :: l).getLast (by simp), List.getLast?_eq_some_getLast (by simp), ?_⟩
  rcases List.mem_cons.1 (List.getLast_mem (l := b :: l) (by simp)) with h | h
  · rw [h]; exact (isStart_facts hb).1
  · exact hl _ h

theorem sp_head {sp : List UInt8} {y : UInt8} (h : Sp sp) (hy : sp.head? = some y) : isCont y = false := by
  have hb : blank y = true ∨ y = 35 := by
    cases h with
    | nil => simp at hy
    | blank hb _ => simp at hy; subst hy; exact .inl hb
    | comment => simp at hy; exact .inr hy.symm
  have := u8_all (fun b => (!(blank b || b == 35)) || !isCont b) (by decide +kernel) y
  rcases hb with hb | rfl
  · simpa [hb] using this
  · simpa using this

/-! ## Texts side by side -/

theorem apart_nil {r : List UInt8} : Apart [] r := by intro x y hx; simp at hx

theorem Apart.suffix {a b r : List UInt8} (h : Apart (a ++ b) r) : Apart b r := by
  cases b with
  | nil => exact apart_nil
  | cons x b =>
    intro u v hu hv
    refine h u v ?_ hv
    rw [List.getLast?_append, hu]; rfl

theorem Apart.append {s t r : List UInt8} (h : Apart s t) (h' : t = [] → Apart s r) : Apart s (t ++ r) := by
  cases t with
  | nil => exact h' rfl
  | cons a t => exact fun x y hx hy => h x y hx hy

theorem apart_head {s r : List UInt8} (h : ∀ y, r.head? = some y → isCont y = false) : Apart s r :=
  fun _ y _ hy => .inr (h y hy)

theorem ident_after {n sp r : List UInt8} (hn : IsName n) (hs : Sp sp) (ha : Apart (n ++ sp) r) :
    ∀ y, (sp ++ r).head? = some y → isCont y = false := by
  intro y hy
  cases sp with
  | nil =>
    obtain ⟨x, hx, hx'⟩ := isName_last hn
    rw [List.append_nil] at ha
    rcases ha x y hx hy with h | h
    · rw [hx'] at h; cases h
    · exact h
  | cons a sp => exact sp_head hs (by simpa using hy)

/-! ## Beginnings -/

theorem okHead_start {b : UInt8} (h : isStart b = true) : okHead b = true := by simp [okHead, h]

theorem prim_head {p : Prim} {t : List UInt8} (h : PrimS p t) : ∃ b l, t = b :: l ∧ okHead b = true ∧ b ≠ 38 ∧ b ≠ 33 := by
  cases h with
  | ident hn _ =>
    obtain ⟨b, l, rfl, hb, _⟩ := hn
    refine ⟨b, _, rfl, okHead_start hb, ?_, ?_⟩ <;> (rintro rfl; revert hb; decide)
  | paren => exact ⟨_, _, rfl, by decide, by decide, by decide⟩
  | memo => exact ⟨_, _, rfl, by decide, by decide, by decide⟩
  | lit hq => rcases hq with rfl | rfl <;> exact ⟨_, _, rfl, by decide, by decide, by decide⟩
  | cls => exact ⟨_, _, rfl, by decide, by decide, by decide⟩
  | dot => exact ⟨_, _, rfl, by decide, by decide, by decide⟩

theorem seq_head {s : Seqn} {t : List UInt8} (h : SeqS s t) : t = [] ∨ ∃ b l, t = b :: l ∧ okHead b = true := by
  cases h with
  | nil => exact .inl rfl
  | cons hpre hp _ _ _ =>
    obtain ⟨b, l, rfl, hb, _⟩ := prim_head hp
    cases hpre with
    | none => exact .inr ⟨b, _, rfl, hb⟩
    | and => exact .inr ⟨_, _, rfl, by decide⟩
    | not => exact .inr ⟨_, _, rfl, by decide⟩

theorem expr_head {e : Expr} {t : List UInt8} (h : ExprS e t) :
    t = [] ∨ ∃ b l, t = b :: l ∧ (okHead b = true ∨ b = 47) := by
  cases h with
  | one h =>
    rcases seq_head h with h | ⟨b, l, h, hb⟩
    · exact .inl h
    · exact .inr ⟨b, l, h, .inl hb⟩
  | alt h _ _ =>
    rcases seq_head h with rfl | ⟨b, l, rfl, hb⟩
    · exact .inr ⟨_, _, rfl, .inr rfl⟩
    · exact .inr ⟨b, _, rfl, .inl hb⟩

/-- What may follow a primary. -/
structure Tok (r : List UInt8) : Prop where
  sp : NoSp r
  arrow : r.head? ≠ some 60

theorem tok_ok_head {b : UInt8} {l : List UInt8} (h : okHead b = true ∨ b = 47 ∨ b = 41 ∨ b = 125) : Tok (b :: l) := by
  have h' : blank b = false ∧ b ≠ 35 ∧ b ≠ 60 := by
    rcases h with h | rfl | rfl | rfl
    · exact ⟨(okHead_facts h).1, (okHead_facts h).2.1, (okHead_facts h).2.2.1⟩
    all_goals decide
  refine ⟨fun y hy => ?_, ?_⟩
  · simp at hy; subst hy; exact ⟨h'.1, h'.2.1⟩
  · simpa using h'.2.2

theorem tok_nil : Tok [] := ⟨fun y hy => by simp at hy, by simp⟩

theorem tok_append {t r : List UInt8} (h : t = [] → Tok r) (h' : t ≠ [] → Tok t) : Tok (t ++ r) := by
  cases t with
  | nil => exact h rfl
  | cons a t => exact ⟨(h' (by simp)).sp, (h' (by simp)).arrow⟩

theorem expr_tok {e : Expr} {t r : List UInt8} (h : ExprS e t) (hr : Tok r) : Tok (t ++ r) := by
  refine tok_append (fun _ => hr) fun hne => ?_
  rcases expr_head h with h | ⟨b, l, rfl, h'⟩
  · exact absurd h hne
  · exact tok_ok_head (h'.imp_right .inl)

theorem seq_tok {s : Seqn} {t r : List UInt8} (h : SeqS s t) (hr : Tok r) : Tok (t ++ r) := by
  refine tok_append (fun _ => hr) fun hne => ?_
  rcases seq_head h with h | ⟨b, l, rfl, h'⟩
  · exact absurd h hne
  · exact tok_ok_head (.inl h')

/-! ## Failure of `Primary` and `Prefix` -/

/-- The alternatives of `Primary` after the first. -/
theorem primary_rest_no {x : Option (Nat × List CTree)} (hx : x = none)
    (h : ∀ y, (d.drop i).head? = some y → [40, 123, 39, 34, 91, 46].contains y = false) :
    FAlt d E [concatPat [.nonterm "OPEN", .nonterm "Expression", .nonterm "CLOSE"],
      concatPat [.nonterm "BRACEPO", .nonterm "Expression", .nonterm "BRACEPC"],
      concatPat [.nonterm "BRACEO", .nonterm "Expression", .nonterm "BRACEC"],
      .nonterm "Literal", .nonterm "Class", .nonterm "DOT"] i x := by
  subst hx
  have hne : ∀ b : UInt8, [40, 123, 39, 34, 91, 46].contains b = true → (d.drop i).head? ≠ some b := by
    intro b hb hd
    rw [h b hd] at hb; cases hb
  refine .next (cc (.fail (nt rfl (tok_no (hne 40 (by decide)))))) <|
    .next (cc (.fail (nt rfl (tok_no (hne 123 (by decide)))))) <|
    .next (cc (.fail (nt rfl (tok_no (hne 123 (by decide)))))) <|
    .next (nt rfl (.capFail (oo (.next (cc (.fail (lit_no (hne 39 (by decide)))))
      (.next (cc (.fail (lit_no (hne 34 (by decide))))) .nil))))) <|
    .next (nt rfl (.capFail (cc (.fail (lit_no (hne 91 (by decide))))))) <|
    .next (nt rfl (tok_no (hne 46 (by decide)))) .nil

theorem prefix_of_primary_no (hp : Ford d E (.nonterm "Primary") i none)
    (h38 : (d.drop i).head? ≠ some 38) (h33 : (d.drop i).head? ≠ some 33) : Ford d E (.nonterm "Prefix") i none := by
  refine nt rfl (.capFail (cc (?_)))
  have h1 : Ford d E (.opt (orPat [.nonterm "AND", .nonterm "NOT"])) i (some (i, [])) :=
    .optNone (oo (.next (nt rfl (tok_no h38)) (.next (nt rfl (tok_no h33)) .nil)))
  exact ford_seq_fail h1 (.fail (nt rfl (.capFail (cc (.fail hp)))))

theorem prefix_no (h : ∀ y, (d.drop i).head? = some y → okHead y = false) : Ford d E (.nonterm "Prefix") i none := by
  refine prefix_of_primary_no (nt rfl (.capFail (oo (.next (cc (.fail (ident_no fun y hy => ?_)))
    (primary_rest_no rfl fun y hy => ?_))))) ?_ ?_
  · have := h y hy
    simp only [okHead, Bool.or_eq_false_iff] at this
    exact this.1
  · have := h y hy
    simp only [okHead, Bool.or_eq_false_iff] at this
    have h2 := this.2
    simp at h2 ⊢
    exact h2.2.2
  · intro hc; have := h _ hc; revert this; decide
  · intro hc; have := h _ hc; revert this; decide

/-- What may follow a sequence. -/
structure Stop (r : List UInt8) : Prop where
  tok : Tok r
  pre : ∀ d i, d.drop i = r → Ford d E (.nonterm "Prefix") i none
  suf : r.head? ≠ some 63 ∧ r.head? ≠ some 42 ∧ r.head? ≠ some 43

theorem stop_nil : Stop [] :=
  ⟨tok_nil, fun d i h => prefix_no (by rw [h]; simp), by simp, by simp, by simp⟩

theorem stop_cons {b : UInt8} {l : List UInt8} (hb : b = 47 ∨ b = 41 ∨ b = 125) : Stop (b :: l) := by
  refine ⟨tok_ok_head (.inr hb), fun d i h => prefix_no ?_, ?_⟩
  · rw [h]; intro y hy; simp at hy; subst hy; rcases hb with rfl | rfl | rfl <;> decide
  · rcases hb with rfl | rfl | rfl <;> simp

/-- A name followed by an arrow is no primary. -/
theorem primary_def_no {n sp sp' r : List UInt8} (hn : IsName n) (hs : Sp sp) (hs' : Sp sp') (hr : NoSp r)
    (h : d.drop i = n ++ (sp ++ 60 :: 45 :: (sp' ++ r))) : Ford d E (.nonterm "Primary") i none := by
  obtain ⟨c, h1, _⟩ := ident_ok (r := 60 :: 45 :: (sp' ++ r)) hn hs
    (by intro y hy; simp at hy; subst hy; decide)
    (ident_after hn hs (apart_head (by intro y hy; simp at hy; subst hy; decide))) h
  have hd := drop_add (drop_add h)
  have h2 : Ford d E (.nonterm "LEFTARROW") (i + n.length + sp.length) (some (i + n.length + sp.length + 2 + sp'.length, [])) :=
    nt rfl (tok0_ok [60, 45] hs' hr hd)
  refine nt rfl (.capFail (oo (.next (cc (.cons h1 (.fail (.notFail h2)))) (primary_rest_no rfl fun y hy => ?_))))
  rw [h] at hy
  obtain ⟨b, l, rfl, hb, _⟩ := hn
  simp at hy; subst hy
  have := (isStart_facts hb).2
  simp at this ⊢
  exact this.2.2

theorem stop_def {n sp sp' r : List UInt8} (hn : IsName n) (hs : Sp sp) (hs' : Sp sp') (hr : NoSp r) :
    Stop (n ++ (sp ++ 60 :: 45 :: (sp' ++ r))) := by
  obtain ⟨b, l, rfl, hb, hl⟩ := hn
  have hf := okHead_facts (okHead_start hb)
  have hc := (isStart_facts hb).2
  refine ⟨tok_ok_head (.inl (okHead_start hb)), fun d i h => prefix_of_primary_no
    (primary_def_no ⟨b, l, rfl, hb, hl⟩ hs hs' hr h) ?_ ?_, ?_⟩
  · rw [h]; simp at hc ⊢; exact hc.1
  · rw [h]; simp at hc ⊢; exact hc.2.1
  · simp; exact ⟨hf.2.2.2.1, hf.2.2.2.2.1, hf.2.2.2.2.2.1⟩

/-! ## Literals and classes -/

theorem quoted_ok {q : UInt8} {bs t sp r : List UInt8} (hl : LitS q bs t) (hs : Sp sp) (hr : NoSp r)
    (h : d.drop i = q :: (t ++ (sp ++ r))) :
    ∃ cs, Ford d E (quoted q) i (some (i + 1 + t.length + sp.length, cs)) ∧ cs.map (fun c => parseChar (textOf d c)) = bs := by
  obtain ⟨n, cs, h1, h2, h3, h4⟩ := litS_ok hl (drop_cons h)
  have h5 := spacing hs hr (drop_cons h3)
  refine ⟨cs, ford_of (cc (.cons (lit1_ok h) (.cons h2 (.cons (lit1_ok h3) (.cons h5 .nil))))) ?_, h4⟩
  simp [fcons]; omega

theorem literal_ok {q : UInt8} {bs t sp r : List UInt8} (hq : q = 39 ∨ q = 34) (hl : LitS q bs t) (hs : Sp sp) (hr : NoSp r)
    (h : d.drop i = q :: (t ++ (sp ++ r))) :
    ∃ c, Ford d E (.nonterm "Literal") i (some (i + 1 + t.length + sp.length, [c])) ∧ cid c = idLiteral ∧
      ∀ m, compileRe capg d c m = (some (.lit bs), m) := by
  obtain ⟨cs, h1, h2⟩ := quoted_ok hl hs hr h
  have h3 : Ford d E (orPat [quoted 39, quoted 34]) i (some (i + 1 + t.length + sp.length, cs)) := by
    rcases hq with rfl | rfl
    · exact oo (.here h1)
    · exact oo (.next (cc (.fail (lit_no (by rw [h]; simp)))) (.here h1))
  refine ⟨.node idLiteral i (i + 1 + t.length + sp.length - i) cs, nt rfl (.capOk h3), rfl, fun m => ?_⟩
  rw [cr_literal, h2]

theorem class_ok {neg : Bool} {its : List Item} {u t sp r : List UInt8} (hc : CaratS neg u) (hi : ItemsS its t)
    (hne : neg = true ∨ its ≠ []) (hcar : neg = true → ∀ x, t.head? = some x → blank x = false ∧ x ≠ 35)
    (hcar' : neg = false → t.head? ≠ some 94) (hs : Sp sp) (hr : NoSp r)
    (h : d.drop i = 91 :: (u ++ (t ++ (sp ++ r)))) :
    ∃ c, Ford d E (.nonterm "Class") i (some (i + 1 + u.length + t.length + sp.length, [c])) ∧ cid c = idClass ∧
      ∀ m, compileRe capg d c m = (some (.cls (setOf fun x => its.any (·.mem x) != neg)), m) := by
  have htne := itemsS_ne hi
  obtain ⟨n, cs, h1, h2, h3, h4, h5, h6⟩ := itemsS_ok hi (drop_add (drop_cons h))
  have h7 := spacing hs hr (drop_cons h3)
  cases hc with
  | no =>
    have h8 : Ford d E (.opt (.nonterm "CARAT")) (i + 1) (some (i + 1, [])) := by
      refine .optNone (nt rfl (tok_no ?_))
      rw [drop_cons h]
      show (t ++ (sp ++ r)).head? ≠ _
      rw [head_append htne]
      exact hcar' rfl
    refine ⟨.node idClass i (1 + t.length + sp.length) cs, nt rfl (ford_of (.capOk (cc (.cons (lit1_ok h) (.cons h8 (.cons h2
      (.cons (lit1_ok h3) (.cons h7 .nil))))))) ?_), rfl, fun m => ?_⟩
    · simp [fcons]; omega
    · cases cs with
      | nil =>
        rcases hne with hne | hne
        · cases hne
        · exact absurd (List.length_eq_zero_iff.1 h5.symm) hne
      | cons c cs =>
        rw [cr_class (by rw [h6 c List.mem_cons_self]; decide)]
        congr 3
        apply CSet.ext_has
        intro x
        rw [has_foldl, has_setOf, has_empty, Bool.false_or, h4]
        simp
  | @yes sp' hsp' =>
    have h8 : Ford d E (.nonterm "CARAT") (i + 1) (some (i + 1 + 1 + sp'.length, [.node idCARAT (i + 1) (1 + sp'.length) []])) := by
      refine nt rfl (tok_ok [94] idCARAT hsp' ?_ (drop_cons h))
      intro y hy
      rw [head_append htne] at hy
      exact hcar rfl y hy
    have e : i + 1 + (94 :: sp').length = i + 1 + 1 + sp'.length := by simp; omega
    rw [e] at h2 h3 h7
    refine ⟨.node idClass i (1 + (1 + sp'.length) + t.length + sp.length) (.node idCARAT (i + 1) (1 + sp'.length) [] :: cs),
      nt rfl (ford_of (.capOk (cc (.cons (lit1_ok h) (.cons (.optSome h8) (.cons h2
      (.cons (lit1_ok h3) (.cons h7 .nil))))))) ?_), rfl, fun m => ?_⟩
    · simp [fcons]; omega
    · rw [cr_nclass rfl]
      congr 3
      apply CSet.ext_has
      intro x
      rw [CSet.has_complement, has_foldl, has_setOf, has_empty, Bool.false_or, h4]
      simp

/-! ## Operators -/

theorem pre_ok {pre : Pre} {a t r : List UInt8} (hp : PreS pre a) (ht : NoSp (t ++ r)) (ht' : (t ++ r).head? ≠ some 38)
    (ht'' : (t ++ r).head? ≠ some 33) (h : d.drop i = a ++ (t ++ r)) (c : CTree) (hc : cid c = idSuffix) {j : Nat}
    (hs : Ford d E (.nonterm "Suffix") (i + a.length) (some (j, [c]))) :
    ∃ c', Ford d E (.nonterm "Prefix") i (some (j, [c'])) ∧
      ∀ m p m', compileRe capg d c m = (some p, m') → compileRe capg d c' m = (some (pre.apply p), m') := by
  cases hp with
  | none =>
    have h1 : Ford d E (.opt (orPat [.nonterm "AND", .nonterm "NOT"])) i (some (i, [])) :=
      .optNone (oo (.next (nt rfl (tok_no (by rw [h]; exact ht'))) (.next (nt rfl (tok_no (by rw [h]; exact ht''))) .nil)))
    refine ⟨_, nt rfl (.capOk (cc (.cons h1 (.cons hs .nil)))), fun m p m' e => ?_⟩
    simp only [fcons, List.nil_append, List.append_nil]
    rw [cr_prefix (by rw [hc]; decide) (by rw [hc]; decide), e]; rfl
  | and hsp =>
    have h1 := tok_ok [38] idAND hsp ht h
    rw [Nat.add_assoc, ← List.length_append] at h1
    refine ⟨_, nt rfl (.capOk (cc (.cons (.optSome (oo (.here (nt rfl h1)))) (.cons hs .nil)))), fun m p m' e => ?_⟩
    simp only [fcons, List.nil_append, List.append_nil, List.cons_append]
    rw [cr_and rfl, e]; rfl
  | not hsp =>
    have h0 : Ford d E (.nonterm "AND") i none := nt rfl (tok_no (by rw [h]; simp))
    have h1 := tok_ok [33] idNOT hsp ht h
    rw [Nat.add_assoc, ← List.length_append] at h1
    refine ⟨_, nt rfl (.capOk (cc (.cons (.optSome (oo (.next h0 (.here (nt rfl h1))))) (.cons hs .nil)))), fun m p m' e => ?_⟩
    simp only [fcons, List.nil_append, List.append_nil, List.cons_append]
    rw [cr_not rfl, e]; rfl

theorem suf_ok {suf : Suf} {b r : List UInt8} (hp : SufS suf b) (hr : NoSp r) (hr' : r.head? ≠ some 63 ∧ r.head? ≠ some 42 ∧
    r.head? ≠ some 43) {j : Nat} (h : d.drop j = b ++ r) (c : CTree)
    (hs : Ford d E (.nonterm "Primary") i (some (j, [c]))) :
    ∃ c', Ford d E (.nonterm "Suffix") i (some (j + b.length, [c'])) ∧ cid c' = idSuffix ∧
      ∀ m p m', compileRe capg d c m = (some p, m') → compileRe capg d c' m = (some (suf.apply p), m') := by
  cases hp with
  | none =>
    have h' : d.drop j = r := h
    have h1 : Ford d E (.opt (orPat [.nonterm "QUESTION", .nonterm "STAR", .nonterm "PLUS"])) j (some (j, [])) :=
      .optNone (oo (.next (nt rfl (tok_no (by rw [h']; exact hr'.1))) (.next (nt rfl (tok_no (by rw [h']; exact hr'.2.1)))
        (.next (nt rfl (tok_no (by rw [h']; exact hr'.2.2))) .nil))))
    refine ⟨_, nt rfl (.capOk (cc (.cons hs (.cons h1 .nil)))), rfl, fun m p m' e => ?_⟩
    simp only [List.nil_append, List.append_nil]
    rw [cr_suffix, e]; rfl
  | opt hsp =>
    have h1 := tok_ok [63] idQUESTION hsp hr h
    rw [Nat.add_assoc, ← List.length_append] at h1
    refine ⟨_, nt rfl (.capOk (cc (.cons hs (.cons (.optSome (oo (.here (nt rfl h1)))) .nil)))), rfl, fun m p m' e => ?_⟩
    simp only [List.nil_append, List.append_nil, List.cons_append]
    rw [cr_opt rfl, e]; rfl
  | star hsp =>
    have h0 : Ford d E (.nonterm "QUESTION") j none := nt rfl (tok_no (by rw [h]; simp))
    have h1 := tok_ok [42] idSTAR hsp hr h
    rw [Nat.add_assoc, ← List.length_append] at h1
    refine ⟨_, nt rfl (.capOk (cc (.cons hs (.cons (.optSome (oo (.next h0 (.here (nt rfl h1))))) .nil)))), rfl,
      fun m p m' e => ?_⟩
    simp only [List.nil_append, List.append_nil, List.cons_append]
    rw [cr_star rfl, e]; rfl
  | plus hsp =>
    have h0 : Ford d E (.nonterm "QUESTION") j none := nt rfl (tok_no (by rw [h]; simp))
    have h0' : Ford d E (.nonterm "STAR") j none := nt rfl (tok_no (by rw [h]; simp))
    have h1 := tok_ok [43] idPLUS hsp hr h
    rw [Nat.add_assoc, ← List.length_append] at h1
    refine ⟨_, nt rfl (.capOk (cc (.cons hs (.cons (.optSome (oo (.next h0 (.next h0' (.here (nt rfl h1)))))) .nil)))), rfl,
      fun m p m' e => ?_⟩
    simp only [List.nil_append, List.append_nil, List.cons_append]
    rw [cr_plus rfl, e]; rfl

end Gpeg.Re
