import Verif.ReExpr
/-! # The parser of the `re` syntax on texts that write an expression or a grammar -/
namespace Gpeg.Re

variable {capg : Bool}

theorem expr_pat (e : Expr) (m : Nat) : e.pat m = (orPat (e.alts m).1, (e.alts m).2) := by
  cases e <;> simp only [Expr.pat, Expr.alts]

theorem compileAll_cons {d : List UInt8} {c : CTree} {cs : List CTree} {m m' m'' : Nat} {p : Pat} {ps : List Pat}
    (h : compileRe capg d c m = (some p, m')) (h' : compileAll capg d cs m' = (some ps, m'')) :
    compileAll capg d (c :: cs) m = (some (p :: ps), m'') := by
  rw [compileAll, h, h']; rfl

theorem not_of_head {d : List UInt8} {i : Nat} {b b' : UInt8} {l : List UInt8} (h : d.drop i = b :: l) (hb : b ≠ b') :
    (d.drop i).head? ≠ some b' := by rw [h]; simpa using hb

/-- What follows a primary in a sequence. -/
theorem after_prim {suf : Suf} {rest : Seqn} {a b c t r : List UInt8} (hsuf : SufS suf c) (hrest : SeqS rest t)
    (hap : Apart (b ++ c) t) (hr : Tok r) (ha : Apart (a ++ (b ++ (c ++ t))) r) :
    Tok (c ++ (t ++ r)) ∧ Apart b (c ++ (t ++ r)) := by
  have htr : Tok (t ++ r) := seq_tok hrest hr
  have hap' : Apart (b ++ c) (t ++ r) := hap.append fun e => by
    subst e
    simp only [List.append_nil] at ha
    exact ha.suffix
  constructor
  · refine tok_append (fun _ => htr) fun _ => ?_
    cases hsuf with
    | none => exact tok_nil
    | opt => exact ⟨fun y hy => by simp at hy; subst hy; decide, by simp⟩
    | star => exact ⟨fun y hy => by simp at hy; subst hy; decide, by simp⟩
    | plus => exact ⟨fun y hy => by simp at hy; subst hy; decide, by simp⟩
  · cases hsuf with
    | none => simpa using hap'
    | opt => exact apart_head (by intro y hy; simp at hy; subst hy; decide)
    | star => exact apart_head (by intro y hy; simp at hy; subst hy; decide)
    | plus => exact apart_head (by intro y hy; simp at hy; subst hy; decide)

theorem primary_mk {d : List UInt8} {i j k : Nat} {cs : List CTree} {F : Nat → Option Pat × Nat}
    (h : Ford d E (orPat [
      concatPat [.nonterm "Identifier", .not (.nonterm "LEFTARROW")],
      concatPat [.nonterm "OPEN", .nonterm "Expression", .nonterm "CLOSE"],
      concatPat [.nonterm "BRACEPO", .nonterm "Expression", .nonterm "BRACEPC"],
      concatPat [.nonterm "BRACEO", .nonterm "Expression", .nonterm "BRACEC"],
      .nonterm "Literal", .nonterm "Class", .nonterm "DOT"]) i (some (j, cs))) (hj : j = k)
    (hF : ∀ m, compileRe capg d (.node idPrimary i (j - i) cs) m = F m) :
    ∃ c, Ford d E (.nonterm "Primary") i (some (k, [c])) ∧ ∀ m, compileRe capg d c m = F m :=
  hj ▸ ⟨_, nt rfl (.capOk h), hF⟩

mutual
theorem prim_ok (d : List UInt8) : ∀ (p : Prim) (t r : List UInt8) (i : Nat), PrimS p t → d.drop i = t ++ r → Tok r → Apart t r →
    ∃ c, Ford d E (.nonterm "Primary") i (some (i + t.length, [c])) ∧
      ∀ m, compileRe capg d c m = (some (p.pat m).1, (p.pat m).2)
  | .ident n, _, r, i, .ident (sp := sp) hn hs, h, hr, ha => by
    rw [List.append_assoc] at h
    obtain ⟨c, h1, h2, h3⟩ := ident_ok hn hs hr.sp (ident_after hn hs ha) h
    have h4 : Ford d E (.nonterm "LEFTARROW") (i + n.length + sp.length) none :=
      nt rfl (tok0_no (by rw [drop_add (drop_add h)]; exact hr.arrow))
    refine primary_mk (oo (.here (cc (.cons h1 (.cons (.notOk h4) .nil))))) ?_ fun m => ?_
    rotate_left
    · simp only [List.append_nil]
      rw [cr_primary (.inl h2), cr_ident' h2, h3]; rfl
    · simp; omega
  | .paren e, _, r, i, .paren (t := t) (sp := sp) (sp' := sp') hs he hs', h, hr, ha => by
    simp only [List.cons_append, List.append_assoc] at h
    have hne : ∀ b', (40 : UInt8) ≠ b' → (d.drop i).head? ≠ some b' := fun b' => not_of_head h
    have ht : Tok (t ++ 41 :: (sp' ++ r)) := expr_tok he (tok_ok_head (by simp))
    have h1 := tok_ok [40] idOPEN hs ht.sp h
    have hd := drop_add (drop_cons h)
    obtain ⟨c, h2, h3⟩ := expr_ok d e t _ _ he hd (stop_cons (by simp)) (by simp)
      (apart_head (by intro y hy; simp at hy; subst hy; decide))
    have h4 := tok0_ok [41] hs' hr.sp (drop_add hd)
    have h0 : Ford d E (.nonterm "Identifier") i none := ident_no (by rw [h]; intro y hy; simp at hy; subst hy; decide)
    refine primary_mk (oo (.next (cc (.fail h0)) (.here (cc (.cons (nt rfl h1) (.cons h2
      (.cons (nt rfl h4) .nil))))))) ?_ fun m => ?_
    rotate_left
    · simp only [List.append_nil, List.cons_append, List.nil_append]
      rw [cr_open rfl, h3]; simp only [Prim.pat]
    · simp; omega
  | .memo e, _, r, i, .memo (t := t) (sp := sp) (sp' := sp') hs he hs', h, hr, ha => by
    simp only [List.cons_append, List.append_assoc] at h
    have ht : Tok (t ++ 125 :: 125 :: (sp' ++ r)) := expr_tok he (tok_ok_head (by simp))
    have h1 := tok_ok [123, 123] idBRACEPO hs ht.sp h
    have hd := drop_add (drop_cons (drop_cons h))
    obtain ⟨c, h2, h3⟩ := expr_ok d e t _ _ he hd (stop_cons (by simp)) (by simp)
      (apart_head (by intro y hy; simp at hy; subst hy; decide))
    have h4 := tok0_ok [125, 125] hs' hr.sp (drop_add hd)
    have h0 : Ford d E (.nonterm "Identifier") i none := ident_no (by rw [h]; intro y hy; simp at hy; subst hy; decide)
    have h0' : Ford d E (.nonterm "OPEN") i none := nt rfl (tok_no (not_of_head h (by decide)))
    refine primary_mk (oo (.next (cc (.fail h0)) (.next (cc (.fail h0')) (.here (cc (.cons (nt rfl h1) (.cons h2
      (.cons (nt rfl h4) .nil)))))))) ?_ fun m => ?_
    rotate_left
    · simp only [List.append_nil, List.cons_append, List.nil_append]
      rw [cr_memo rfl, h3]; simp only [Prim.pat, Option.map_some]
    · simp; omega
  | .lit bs, _, r, i, .lit (q := q) (t := t) (sp := sp) hq hl hs, h, hr, ha => by
    simp only [List.cons_append, List.append_assoc] at h
    obtain ⟨c, h1, h2, h3⟩ := literal_ok (capg := capg) hq hl hs hr.sp h
    have hne : ∀ b' : UInt8, [40, 123].contains b' = true → (d.drop i).head? ≠ some b' := by
      intro b' hb'
      refine not_of_head h ?_
      rintro rfl
      rcases hq with rfl | rfl <;> revert hb' <;> decide
    have h0 : Ford d E (.nonterm "Identifier") i none :=
      ident_no (by rw [h]; intro y hy; simp at hy; subst hy; rcases hq with rfl | rfl <;> decide)
    refine primary_mk (oo (.next (cc (.fail h0)) (.next (cc (.fail (nt rfl (tok_no (hne 40 (by decide))))))
      (.next (cc (.fail (nt rfl (tok_no (hne 123 (by decide)))))) (.next (cc (.fail (nt rfl (tok_no (hne 123 (by decide))))))
      (.here h1)))))) ?_ fun m => ?_
    rotate_left
    · rw [cr_primary (.inr (.inl h2)), h3]; rfl
    · simp; omega
  | .cls neg its, _, r, i, .cls (u := u) (t := t) (sp := sp) hc hi hne h' h'' hs, h, hr, ha => by
    simp only [List.cons_append, List.append_assoc] at h
    obtain ⟨c, h1, h2, h3⟩ := class_ok (capg := capg) hc hi hne h' h'' hs hr.sp h
    have hne : ∀ b' : UInt8, 91 ≠ b' → (d.drop i).head? ≠ some b' := fun b' => not_of_head h
    have h0 : Ford d E (.nonterm "Identifier") i none :=
      ident_no (by rw [h]; intro y hy; simp at hy; subst hy; decide)
    refine primary_mk (oo (.next (cc (.fail h0)) (.next (cc (.fail (nt rfl (tok_no (hne 40 (by decide))))))
      (.next (cc (.fail (nt rfl (tok_no (hne 123 (by decide)))))) (.next (cc (.fail (nt rfl (tok_no (hne 123 (by decide))))))
      (.next (nt rfl (.capFail (oo (.next (cc (.fail (lit_no (hne 39 (by decide)))))
      (.next (cc (.fail (lit_no (hne 34 (by decide))))) .nil))))) (.here h1))))))) ?_ fun m => ?_
    rotate_left
    · rw [cr_primary (.inr (.inr h2)), h3]; rfl
    · simp; omega
  | .dot, _, r, i, .dot (sp := sp) hs, h, hr, ha => by
    have hne : ∀ b' : UInt8, 46 ≠ b' → (d.drop i).head? ≠ some b' := fun b' => not_of_head h
    have h1 := tok_ok [46] idDOT hs hr.sp h
    have h0 : Ford d E (.nonterm "Identifier") i none :=
      ident_no (by rw [h]; intro y hy; simp at hy; subst hy; decide)
    refine primary_mk (oo (.next (cc (.fail h0)) (.next (cc (.fail (nt rfl (tok_no (hne 40 (by decide))))))
      (.next (cc (.fail (nt rfl (tok_no (hne 123 (by decide)))))) (.next (cc (.fail (nt rfl (tok_no (hne 123 (by decide))))))
      (.next (nt rfl (.capFail (oo (.next (cc (.fail (lit_no (hne 39 (by decide)))))
      (.next (cc (.fail (lit_no (hne 34 (by decide))))) .nil)))))
      (.next (nt rfl (.capFail (cc (.fail (lit_no (hne 91 (by decide))))))) (.here (nt rfl h1))))))))) ?_ fun m => ?_
    rotate_left
    · rw [cr_dot rfl]; rfl
    · simp; omega
theorem seq_ok (d : List UInt8) : ∀ (s : Seqn) (t r : List UInt8) (i : Nat), SeqS s t → d.drop i = t ++ r → Stop r → Apart t r →
    ∃ cs, Ford d E (.star (.nonterm "Prefix")) i (some (i + t.length, cs)) ∧
      ∀ m, compileAll capg d cs m = (some (s.pats m).1, (s.pats m).2)
  | .nil, _, r, i, .nil, h, hr, _ => ⟨[], .starEnd (hr.pre d i h), fun m => by rw [compileAll]; rfl⟩
  | .cons pre p suf rest, _, r, i, .cons (a := a) (b := b) (c := c) (t := t) hpre hp hsuf hrest hap, h, hr, ha => by
    simp only [List.append_assoc] at h
    have hd1 := drop_add h
    have hd2 := drop_add hd1
    have hd3 := drop_add hd2
    have htr : Tok (t ++ r) := seq_tok hrest hr.tok
    obtain ⟨htc, hapb⟩ := after_prim hsuf hrest hap hr.tok ha
    have hsufr : (t ++ r).head? ≠ some 63 ∧ (t ++ r).head? ≠ some 42 ∧ (t ++ r).head? ≠ some 43 := by
      rcases seq_head hrest with rfl | ⟨x, l, rfl, hx⟩
      · exact hr.suf
      · have := okHead_facts hx
        simp; exact ⟨this.2.2.2.1, this.2.2.2.2.1, this.2.2.2.2.2.1⟩
    obtain ⟨cp, h1, h2⟩ := prim_ok d p b _ _ hp hd1 htc hapb
    obtain ⟨cs', h3, h4, h5⟩ := suf_ok (capg := capg) hsuf htr.sp hsufr hd2 cp h1
    obtain ⟨x, l, hb, hx, h38, h33⟩ := prim_head hp
    obtain ⟨cpre, h6, h7⟩ := pre_ok (capg := capg) (t := b) (r := c ++ (t ++ r)) hpre
      (by rw [hb]; exact (tok_ok_head (.inl hx)).sp) (by rw [hb]; simpa using h38) (by rw [hb]; simpa using h33) h cs' h4 h3
    obtain ⟨cs, h8, h9⟩ := seq_ok d rest t r _ hrest hd3 hr
      (by rw [← List.append_assoc, ← List.append_assoc] at ha; exact ha.suffix)
    refine ⟨cpre :: cs, ford_of (.starStep h6 h8) ?_, fun m => ?_⟩
    · simp; omega
    · rw [compileAll_cons (h7 _ _ _ (h5 _ _ _ (h2 m))) (h9 _)]
      simp only [Seqn.pats]
theorem expr_alts (d : List UInt8) : ∀ (e : Expr) (t r : List UInt8) (i : Nat), ExprS e t → d.drop i = t ++ r → Stop r →
    r.head? ≠ some 47 → Apart t r →
    ∃ j c cs, Ford d E (.nonterm "Sequence") i (some (j, [c])) ∧
      Ford d E (.star (concatPat [.nonterm "SLASH", .nonterm "Sequence"])) j (some (i + t.length, cs)) ∧
      ∀ m, compileAll capg d (c :: cs) m = (some (e.alts m).1, (e.alts m).2)
  | .one s, _, r, i, .one (t := t) hs, h, hr, h47, ha => by
    obtain ⟨cs, h1, h2⟩ := seq_ok d s t r i hs h hr ha
    refine ⟨_, _, [], nt rfl (.capOk h1), .starEnd (cc (.fail (nt rfl (tok0_no ?_)))), fun m => ?_⟩
    · rw [drop_add h]; exact h47
    · rw [compileAll_cons (cr_sequence (h2 m)) (by rw [compileAll])]
      simp only [Expr.alts]
  | .alt s e, _, r, i, .alt (t := t) (u := u) (sp := sp) hs hsp he, h, hr, h47, ha => by
    simp only [List.append_assoc, List.cons_append] at h
    have hd1 := drop_add h
    have hd2 := drop_add (drop_cons hd1)
    obtain ⟨cs, h1, h2⟩ := seq_ok d s t _ i hs h (stop_cons (by simp))
      (apart_head (by intro y hy; simp at hy; subst hy; decide))
    have h3 := tok0_ok [47] hsp (expr_tok he hr.tok).sp hd1
    obtain ⟨j, c, cs', h4, h5, h6⟩ := expr_alts d e u r _ he hd2 hr h47
      (by
        have e' : t ++ 47 :: (sp ++ u) = (t ++ 47 :: sp) ++ u := by simp
        rw [e'] at ha; exact ha.suffix)
    refine ⟨_, _, c :: cs', nt rfl (.capOk h1), ford_of (.starStep (cc (.cons (nt rfl h3) (.cons h4 .nil))) h5) ?_, fun m => ?_⟩
    · simp; omega
    · rw [compileAll_cons (cr_sequence (h2 m)) (h6 _)]
      simp only [Expr.alts]
theorem expr_ok (d : List UInt8) : ∀ (e : Expr) (t r : List UInt8) (i : Nat), ExprS e t → d.drop i = t ++ r → Stop r →
    r.head? ≠ some 47 → Apart t r →
    ∃ c, Ford d E (.nonterm "Expression") i (some (i + t.length, [c])) ∧
      ∀ m, compileRe capg d c m = (some (e.pat m).1, (e.pat m).2)
  | e, t, r, i, he, h, hr, h47, ha => by
    obtain ⟨j, c, cs, h1, h2, h3⟩ := expr_alts d e t r i he h hr h47 ha
    refine ⟨_, nt rfl (.capOk (cc (.cons h1 (.cons h2 .nil)))), fun m => ?_⟩
    simp only [List.append_nil, List.cons_append, List.nil_append]
    rw [cr_expression (h3 m), expr_pat]
end

/-! ## Expressions are not grammars -/

variable {d : List UInt8} {i : Nat}

theorem def_no (h : ∀ y, (d.drop i).head? = some y → isStart y = false) : Ford d E (.nonterm "Definition") i none :=
  nt rfl (.capFail (cc (.fail (ident_no h))))

theorem seq_not_def {s : Seqn} {t r : List UInt8} (hs : SeqS s t) (h : d.drop i = t ++ r) (hr : Tok r)
    (hr' : ∀ y, r.head? = some y → isStart y = false) (ha : Apart t r) : Ford d E (.nonterm "Definition") i none := by
  cases hs with
  | nil => exact def_no (by rw [h]; exact hr')
  | @cons pre p suf rest a b c t hpre hp hsuf hrest hap =>
    have hf := after_prim hsuf hrest hap hr ha
    simp only [List.append_assoc] at h
    have other : ∀ x l, d.drop i = x :: l → isStart x = false → Ford d E (.nonterm "Definition") i none := by
      intro x l e hx
      refine def_no ?_
      rw [e]; intro y hy; simp at hy; subst hy; exact hx
    cases hpre with
    | and => exact other _ _ h (by decide)
    | not => exact other _ _ h (by decide)
    | none =>
      cases hp with
      | @ident n sp hn hsp =>
        rw [List.nil_append, List.append_assoc] at h
        obtain ⟨c', h1, _⟩ := ident_ok hn hsp hf.1.sp (ident_after hn hsp hf.2) h
        refine nt rfl (.capFail (cc (.cons (x := none) h1 (.fail (nt rfl (tok0_no ?_))))))
        rw [drop_add (drop_add h)]
        exact hf.1.arrow
      | paren => exact other _ _ h (by decide)
      | memo => exact other _ _ h (by decide)
      | lit hq => rcases hq with rfl | rfl <;> exact other _ _ h (by decide)
      | cls => exact other _ _ h (by decide)
      | dot => exact other _ _ h (by decide)

theorem expr_not_def {e : Expr} {t : List UInt8} (he : ExprS e t) (h : d.drop i = t) : Ford d E (.nonterm "Definition") i none := by
  cases he with
  | one hs => exact seq_not_def (r := []) hs (by simpa using h) tok_nil (by simp) (by intro x y _ hy; simp at hy)
  | alt hs hsp he =>
    exact seq_not_def hs h (tok_ok_head (by simp)) (by intro y hy; simp at hy; subst hy; decide)
      (apart_head (by intro y hy; simp at hy; subst hy; decide))

/-! ## Grammars -/

/-- The definitions in a list. -/
def gpairs : Gram → Nat → List (String × Pat) × Nat
  | [], m => ([], m)
  | (n, e) :: g, m => ((nameOf n, (e.pat m).1) :: (gpairs g (e.pat m).2).1, (gpairs g (e.pat m).2).2)

theorem gram_tok {g : Gram} {t : List UInt8} (h : GramS g t) : Stop t ∧ t.head? ≠ some 47 := by
  cases h with
  | nil => exact ⟨stop_nil, by simp⟩
  | @cons n e g sp sp' t u hn hs hs' he hg hap =>
    have hu : Tok (t ++ u) := by
      refine expr_tok he ?_
      cases hg with
      | nil => exact tok_nil
      | cons hn' =>
        obtain ⟨b, l, rfl, hb, _⟩ := hn'
        exact tok_ok_head (.inl (okHead_start hb))
    refine ⟨stop_def hn hs hs' hu.sp, ?_⟩
    obtain ⟨b, l, rfl, hb, _⟩ := hn
    have := okHead_facts (okHead_start hb)
    simp; exact this.2.2.2.2.2.2

theorem gram_ok (capg : Bool) {g : Gram} {t : List UInt8} (hg : GramS g t) : ∀ {i}, d.drop i = t →
    ∃ cs, Ford d E (.star (.nonterm "Definition")) i (some (i + t.length, cs)) ∧
      (∀ m, compileDefs capg d cs m = (some (gpairs g m).1, (gpairs g m).2)) ∧
      (g ≠ [] → Ford d E (.plus (.nonterm "Definition")) i (some (i + t.length, cs))) := by
  induction hg with
  | nil =>
    intro i h
    exact ⟨[], .starEnd (def_no (by rw [h]; simp)), fun m => by rw [compileDefs]; rfl, fun h => absurd rfl h⟩
  | @cons n e g sp sp' t u hn hs hs' he hg hap ih =>
    intro i h
    have hst := gram_tok hg
    obtain ⟨c, h1, h2, h3⟩ := ident_ok (r := 60 :: 45 :: (sp' ++ (t ++ u))) hn hs
      (by intro y hy; simp at hy; subst hy; decide)
      (ident_after hn hs (apart_head (by intro y hy; simp at hy; subst hy; decide))) h
    have hd1 := drop_add (drop_add h)
    have h4 := tok0_ok [60, 45] hs' (expr_tok he hst.1.tok).sp hd1
    have hd2 := drop_add (drop_cons (drop_cons hd1))
    obtain ⟨c', h5, h6⟩ := expr_ok (capg := capg) d e t u _ he hd2 hst.1 hst.2 hap
    obtain ⟨cs, h7, h8, _⟩ := ih (drop_add hd2)
    have h9 : Ford d E (.nonterm "Definition") i _ := nt rfl (.capOk (cc (.cons h1 (.cons (nt rfl h4) (.cons h5 .nil)))))
    have e1 : (i + (n ++ (sp ++ 60 :: 45 :: (sp' ++ (t ++ u)))).length) =
        i + n.length + sp.length + 1 + 1 + sp'.length + t.length + u.length := by
      simp; omega
    rw [e1]
    refine ⟨_, .starStep h9 h7, fun m => ?_, fun _ => .plusOk h9 h7⟩
    simp only [List.append_nil, List.cons_append, List.nil_append]
    rw [compileDefs]
    simp only [h6, h8, h3, gpairs]
    rfl

/-- Definitions from a list, after others. -/
def appL : Defs → List (String × Pat) → Defs
  | .nil, [] => .nil
  | .nil, (k, v) :: l => .cons k v (appL .nil l)
  | .cons k v rest, l => .cons k v (appL rest l)
termination_by ds l => (sizeOf ds, sizeOf l)

theorem set_append (k : String) (v : Pat) : ∀ ds : Defs, k ∉ ds.names → Defs.set k v ds = appL ds [(k, v)]
  | .nil, _ => by rw [Defs.set, appL, appL]
  | .cons k' v' rest, h => by
    simp only [Defs.names, List.mem_cons, not_or] at h
    rw [Defs.set, if_neg (fun e => h.1 e.symm), set_append k v rest h.2, appL]

theorem appL_appL (a : String × Pat) (l : List (String × Pat)) : ∀ ds : Defs, appL (appL ds [a]) l = appL ds (a :: l)
  | .nil => by obtain ⟨k, v⟩ := a; rw [appL, appL, appL, appL]
  | .cons k v rest => by rw [appL, appL, appL_appL a l rest, appL]

theorem names_appL (l : List (String × Pat)) : ∀ ds : Defs, (appL ds l).names = ds.names ++ l.map Prod.fst
  | .nil => by
    induction l with
    | nil => rw [appL]; rfl
    | cons a l ih => obtain ⟨k, v⟩ := a; rw [appL]; show k :: (appL .nil l).names = _; rw [ih]; rfl
  | .cons k v rest => by rw [appL, Defs.names, names_appL l rest]; rfl

theorem appL_nil : ∀ ds : Defs, appL ds [] = ds
  | .nil => by rw [appL]
  | .cons k v rest => by rw [appL, appL_nil rest]

theorem foldl_set (l : List (String × Pat)) : ∀ ds : Defs, (ds.names ++ l.map Prod.fst).Nodup →
    l.foldl (fun ds kv => Defs.set kv.1 kv.2 ds) ds = appL ds l := by
  induction l with
  | nil =>
    intro ds _
    exact (appL_nil ds).symm
  | cons a l ih =>
    intro ds h
    obtain ⟨k, v⟩ := a
    have hk : k ∉ ds.names := by
      intro hk
      rw [List.nodup_append] at h
      exact h.2.2 k hk k (by simp) rfl
    rw [List.foldl_cons, set_append k v ds hk, ih, appL_appL]
    rw [names_appL]
    simpa using h

theorem gram_pats : ∀ (g : Gram) (m : Nat), Gram.pats g m = (appL .nil (gpairs g m).1, (gpairs g m).2)
  | [], m => by simp only [Gram.pats, gpairs]; rw [appL]
  | (n, e) :: g, m => by simp only [Gram.pats, gpairs]; rw [appL, gram_pats g]

theorem gpairs_names : ∀ (g : Gram) (m : Nat), (gpairs g m).1.map Prod.fst = g.map fun d => nameOf d.1
  | [], m => rfl
  | (n, e) :: g, m => by simp only [gpairs, List.map_cons, gpairs_names g]

theorem cr_grammar {ch : List CTree} {st len : Nat} {g : Gram} (hne : g ≠ []) (hnd : (g.map fun d => nameOf d.1).Nodup) (m : Nat)
    (h : compileDefs false d ch m = (some (gpairs g m).1, (gpairs g m).2)) :
    compileRe false d (.node idGrammar st len ch) m = (some ((Top.gram g).pat m).1, ((Top.gram g).pat m).2) := by
  cases g with
  | nil => exact absurd rfl hne
  | cons a g =>
    obtain ⟨n, e⟩ := a
    rw [compileRe.eq_def]
    have e2 := gram_pats ((n, e) :: g) m
    have e3 := gpairs_names ((n, e) :: g) m
    simp only [gpairs, List.map_cons] at h e2 e3 hnd
    have hfold : (gpairs g (e.pat m).2).1.foldl (fun ds kv => Defs.set kv.1 kv.2 ds) (.cons (nameOf n) (e.pat m).1 .nil) =
        appL .nil ((nameOf n, (e.pat m).1) :: (gpairs g (e.pat m).2).1) := by
      rw [foldl_set, appL, appL]
      simp only [Defs.names, List.cons_append, List.nil_append]
      rw [e3]; exact hnd
    simp only [idGrammar, idPattern, h, Top.pat, e2, hfold]
    simp

/-! ## Grammars with several definitions of a name, and capturing grammars -/

theorem eof_ok (h : d.drop i = []) : Ford d E (.nonterm "EndOfFile") i (some (i, [])) := nt rfl (.notOk (dot_no h))

theorem find_set (k k' : String) (v : Pat) : ∀ ds : Defs, (Defs.set k v ds).find k' = if k = k' then some v else ds.find k'
  | .nil => by simp only [Defs.set, Defs.find]
  | .cons n p rest => by
    have ih := find_set k k' v rest
    rw [Defs.set]
    by_cases h : n = k
    · subst h
      rw [if_pos rfl]
      simp only [Defs.find]
      by_cases h' : n = k'
      · simp [h']
      · simp [h']
    · rw [if_neg h]
      simp only [Defs.find, ih]
      by_cases h' : n = k'
      · subst h'
        rw [if_pos rfl, if_neg (fun e => h e.symm), if_pos rfl]
      · rw [if_neg h', if_neg h']

theorem names_set (k : String) (v : Pat) : ∀ ds : Defs,
    (Defs.set k v ds).names = if k ∈ ds.names then ds.names else ds.names ++ [k]
  | .nil => by simp [Defs.set, Defs.names]
  | .cons n p rest => by
    have ih := names_set k v rest
    rw [Defs.set]
    by_cases h : n = k
    · subst h
      simp [Defs.names]
    · rw [if_neg h]
      simp only [Defs.names, ih, List.mem_cons]
      by_cases hk : k ∈ rest.names
      · simp [hk]
      · have h' : k ≠ n := fun e => h e.symm
        simp [hk, h']

theorem nodup_set (k : String) (v : Pat) (ds : Defs) (h : ds.names.Nodup) : (Defs.set k v ds).names.Nodup := by
  rw [names_set]
  split
  · exact h
  · rename_i hk
    rw [List.nodup_append]
    refine ⟨h, by simp, ?_⟩
    intro a ha b hb
    simp only [List.mem_singleton] at hb
    subst hb
    intro e
    exact hk (e ▸ ha)

theorem foldl_set_spec (l : List (String × Pat)) : ∀ ds : Defs, ds.names.Nodup →
    (l.foldl (fun ds kv => Defs.set kv.1 kv.2 ds) ds).names.Nodup ∧
    ∀ k, (l.foldl (fun ds kv => Defs.set kv.1 kv.2 ds) ds).find k = match lastDef k (appL .nil l) with
      | some p => some p
      | none => ds.find k := by
  induction l with
  | nil => intro ds h; refine ⟨h, fun k => ?_⟩; rw [appL]; rfl
  | cons a l ih =>
    intro ds h
    obtain ⟨n, v⟩ := a
    obtain ⟨h1, h2⟩ := ih (Defs.set n v ds) (nodup_set n v ds h)
    refine ⟨h1, fun k => ?_⟩
    rw [List.foldl_cons, h2 k, appL, lastDef]
    cases lastDef k (appL .nil l) with
    | some p => rfl
    | none =>
      simp only [find_set]
      by_cases hn : n = k
      · simp [hn]
      · simp [hn]

/-- The definitions of a grammar as `compile` collects them. -/
def collect (g : Gram) (m : Nat) : Defs := (gpairs g m).1.foldl (fun ds kv => Defs.set kv.1 kv.2 ds) .nil

theorem collect_nodup (g : Gram) (m : Nat) : (collect g m).names.Nodup :=
  (foldl_set_spec _ .nil (by simp [Defs.names])).1

theorem collect_find (g : Gram) (m : Nat) (k : String) : (collect g m).find k = lastDef k (Gram.pats g m).1 := by
  rw [collect, (foldl_set_spec _ .nil (by simp [Defs.names])).2, gram_pats]
  simp only
  cases lastDef k (appL .nil (gpairs g m).1) <;> rfl

theorem cr_grammar_all {capg : Bool} {ch : List CTree} {st len : Nat} {n : List UInt8} {e : Expr} {g : Gram} (m : Nat)
    (h : compileDefs capg d ch m = (some (gpairs ((n, e) :: g) m).1, (gpairs ((n, e) :: g) m).2)) :
    compileRe capg d (.node idGrammar st len ch) m = (some (.grammar (nameOf n)
      (if capg then capDefs (collect ((n, e) :: g) m) 0 else collect ((n, e) :: g) m)), (Gram.pats ((n, e) :: g) m).2) := by
  rw [compileRe.eq_def]
  have e2 := gram_pats ((n, e) :: g) m
  simp only [gpairs] at h e2
  have e3 : collect ((n, e) :: g) m =
      (gpairs g (e.pat m).2).1.foldl (fun ds kv => Defs.set kv.1 kv.2 ds) (.cons (nameOf n) (e.pat m).1 .nil) := rfl
  simp only [idGrammar, idPattern, h, e2, e3]
  simp

theorem names_capDefs : ∀ (ds : Defs) (id : Int), (capDefs ds id).names = ds.names
  | .nil, _ => rfl
  | .cons k v rest, id => by simp only [capDefs, Defs.names, names_capDefs rest]

theorem capDefs_spec : ∀ (ds : Defs) (id : Int), ds.names.Nodup → ∃ num : String → Int,
    (∀ k ∈ ds.names, id ≤ num k ∧ num k < id + ds.names.length) ∧
    (∀ k ∈ ds.names, ∀ k' ∈ ds.names, num k = num k' → k = k') ∧
    ∀ k, (capDefs ds id).find k = (ds.find k).map fun p => .cap p (num k)
  | .nil, id, _ => ⟨fun _ => 0, by simp [Defs.names], by simp [Defs.names], fun k => rfl⟩
  | .cons n v rest, id, h => by
    simp only [Defs.names, List.nodup_cons] at h
    obtain ⟨num, h1, h2, h3⟩ := capDefs_spec rest (id + 1) h.2
    have hne : ∀ k ∈ rest.names, k ≠ n := fun k hk e => h.1 (e ▸ hk)
    refine ⟨fun k => if k = n then id else num k, ?_, ?_, ?_⟩
    · intro k hk
      simp only [Defs.names, List.mem_cons, List.length_cons] at hk ⊢
      by_cases e : k = n
      · rw [if_pos e]; omega
      · have := h1 k (hk.resolve_left e)
        rw [if_neg e]; omega
    · intro k hk k' hk' he
      simp only [Defs.names, List.mem_cons] at hk hk'
      by_cases e : k = n
      · by_cases e' : k' = n
        · rw [e, e']
        · have := h1 k' (hk'.resolve_left e')
          simp only [if_pos e, if_neg e'] at he
          omega
      · by_cases e' : k' = n
        · have := h1 k (hk.resolve_left e)
          simp only [if_neg e, if_pos e'] at he
          omega
        · simp only [if_neg e, if_neg e'] at he
          exact h2 k (hk.resolve_left e) k' (hk'.resolve_left e') he
    · intro k
      simp only [capDefs, Defs.find]
      by_cases e : n = k
      · simp [e]
      · rw [if_neg e, if_neg e, h3 k]
        have e' : k ≠ n := fun h => e h.symm
        simp only [if_neg e']

theorem gram_text_ok (capg : Bool) {n : List UInt8} {ex : Expr} {g : Gram} {sp t : List UInt8} (hs : Sp sp)
    (hg : GramS ((n, ex) :: g) t) :
    ∃ c, Ford (sp ++ t) [] reGrammar 0 (some ((sp ++ t).length, [c])) ∧
      ∀ m, compileRe capg (sp ++ t) c m = (some (.grammar (nameOf n)
        (if capg then capDefs (collect ((n, ex) :: g) m) 0 else collect ((n, ex) :: g) m)), (Gram.pats ((n, ex) :: g) m).2) := by
  have hd : (sp ++ t).drop (0 + sp.length) = t := by simp
  have h1 := spacing (d := sp ++ t) (i := 0) hs (gram_tok hg).1.tok.sp (by simp)
  obtain ⟨cs, _, h2, h3⟩ := gram_ok capg hg hd
  have h4 := eof_ok (d := sp ++ t) (i := 0 + sp.length + t.length) (by simp)
  have h5 : Ford (sp ++ t) [] reGrammar 0 _ :=
    .grammar rfl (.capOk (cc (.cons h1 (.cons (oo (.here (nt rfl (.capOk (h3 (by simp)))))) (.cons h4 .nil)))))
  have e : 0 + sp.length + t.length = (sp ++ t).length := by simp
  refine ⟨_, e ▸ h5, fun m => ?_⟩
  simp only [List.append_nil, List.nil_append]
  rw [cr_pattern, cr_grammar_all m (h2 m)]

/-! ## The whole text -/

theorem top_ok {top : Top} {text : List UInt8} (h : TopS top text) :
    ∃ c, Ford text [] reGrammar 0 (some (text.length, [c])) ∧
      ∀ m, compileRe false text c m = (some (top.pat m).1, (top.pat m).2) := by
  cases h with
  | @expr e sp t hs he =>
    have hd : (sp ++ t).drop (0 + sp.length) = t := by simp
    have ht : Tok (t ++ []) := expr_tok he tok_nil
    rw [List.append_nil] at ht
    have h1 := spacing (d := sp ++ t) (i := 0) hs ht.sp (by simp)
    obtain ⟨c, h2, h3⟩ := expr_ok (capg := false) (sp ++ t) e t [] (0 + sp.length) he (by rw [hd]; simp) stop_nil (by simp)
      (by intro x y _ hy; simp at hy)
    have h0 : Ford (sp ++ t) E (.nonterm "Grammar") (0 + sp.length) none :=
      nt rfl (.capFail (.plusFail (expr_not_def he hd)))
    have h4 := eof_ok (d := sp ++ t) (i := 0 + sp.length + t.length) (by simp)
    have h5 : Ford (sp ++ t) [] reGrammar 0 _ :=
      .grammar rfl (.capOk (cc (.cons h1 (.cons (oo (.next h0 (.here h2))) (.cons h4 .nil)))))
    have e : 0 + sp.length + t.length = (sp ++ t).length := by simp
    refine ⟨_, e ▸ h5, fun m => ?_⟩
    simp only [List.append_nil, List.nil_append]
    rw [cr_pattern, h3]; rfl
  | @gram g sp t hs hg hne hnd =>
    have hd : (sp ++ t).drop (0 + sp.length) = t := by simp
    have h1 := spacing (d := sp ++ t) (i := 0) hs (gram_tok hg).1.tok.sp (by simp)
    obtain ⟨cs, _, h2, h3⟩ := gram_ok false hg hd
    have h4 := eof_ok (d := sp ++ t) (i := 0 + sp.length + t.length) (by simp)
    have h5 : Ford (sp ++ t) [] reGrammar 0 _ :=
      .grammar rfl (.capOk (cc (.cons h1 (.cons (oo (.here (nt rfl (.capOk (h3 hne))))) (.cons h4 .nil)))))
    have e : 0 + sp.length + t.length = (sp ++ t).length := by simp
    refine ⟨_, e ▸ h5, fun m => ?_⟩
    simp only [List.append_nil, List.nil_append]
    rw [cr_pattern, cr_grammar hne hnd m (h2 m)]

end Gpeg.Re
