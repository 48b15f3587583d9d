import Verif.ReParse
/-! # The parser of the `re` syntax: classes, expressions, grammars, and the patterns built from the captures -/
namespace Gpeg.Re

variable {d : List UInt8} {i : Nat}

/-! ## Classes -/

theorem itemsS_ne {its : List Item} {t : List UInt8} (h : ItemsS its t) : t ≠ [] := by
  cases h with
  | nil => simp
  | one hc => exact fun h => charS_ne hc (List.append_eq_nil_iff.1 h).1
  | range hc => simp

theorem head_append {t r : List UInt8} (h : t ≠ []) : (t ++ r).head? = t.head? := by
  cases t with
  | nil => exact absurd rfl h
  | cons a t => rfl

theorem itemsS_ok {its : List Item} {t r : List UInt8} (hi : ItemsS its t) : ∀ {i}, d.drop i = t ++ r →
    ∃ n cs, t.length = n + 1 ∧
      Ford d E (.star (concatPat [.not (.lit [93]), .nonterm "Range"])) i (some (i + n, cs)) ∧
      d.drop (i + n) = 93 :: r ∧ (∀ x, (cs.any fun c => (compileSet d c).has x) = its.any (·.mem x)) ∧
      cs.length = its.length ∧ ∀ c ∈ cs, cid c = idRange := by
  induction hi with
  | nil =>
    intro i h
    exact ⟨0, [], rfl, .starEnd (cc (.fail (.notFail (lit1_ok h)))), h, fun _ => rfl, rfl, by simp⟩
  | @one b t rest its hc hq h45 hl ih =>
    intro i h
    rw [List.append_assoc] at h
    obtain ⟨n, cs, h1, h2, h3, h4, h5, h6⟩ := ih (drop_add h)
    obtain ⟨c, hc1, hc2⟩ := char_ok (hc.mono_rest r (itemsS_ne hl)) h
    have hh : (d.drop i).head? ≠ some 93 := by rw [h]; exact lit_head_ne (charS_ne hc) hq
    have h45' : (d.drop (i + t.length)).head? ≠ some 45 := by
      rw [drop_add h, head_append (itemsS_ne hl)]; exact h45
    have hr : Ford d E (.nonterm "Range") i (some (i + t.length, [.node idRange i t.length [c]])) := by
      refine nt rfl (ford_of (.capOk (oo <| .next (cc (.cons hc1 (.fail (lit_no h45')))) <| .here hc1)) (by simp))
    have hstep : Ford d E (concatPat [.not (.lit [93]), .nonterm "Range"]) i
        (some (i + t.length, [.node idRange i t.length [c]])) :=
      cc (.cons (.notOk (lit_no hh)) (.cons hr .nil))
    refine ⟨t.length + n, .node idRange i t.length [c] :: cs, ?_, ford_of (.starStep hstep h2) ?_, ?_, ?_, ?_, ?_⟩
    · simp; omega
    · simp; omega
    · rw [← Nat.add_assoc]; exact h3
    · intro x
      rw [List.any_cons, List.any_cons, h4]
      congr 1
      simp only [compileSet, kids, hc2, CSet.has_new, Item.mem, List.contains_cons, List.contains_nil, Bool.or_false]
    · simp [h5]
    · intro c' hc'
      rcases List.mem_cons.1 hc' with rfl | hc'
      · rfl
      · exact h6 _ hc'
  | @range a b t u rest its hc hq hu hl ih =>
    intro i h
    rw [List.append_assoc, List.cons_append, List.append_assoc] at h
    have hd1 := drop_add h
    have hd2 := drop_cons hd1
    have hd3 := drop_add hd2
    obtain ⟨n, cs, h1, h2, h3, h4, h5, h6⟩ := ih hd3
    obtain ⟨c, hc1, hc2⟩ := char_ok (by simpa using hc.mono_rest r (by simp)) h
    obtain ⟨c', hc1', hc2'⟩ := char_ok (hu.mono_rest r (itemsS_ne hl)) hd2
    have hh : (d.drop i).head? ≠ some 93 := by rw [h]; exact lit_head_ne (charS_ne hc) hq
    have hr : Ford d E (.nonterm "Range") i
        (some (i + t.length + 1 + u.length, [.node idRange i (t.length + 1 + u.length) [c, c']])) := by
      refine nt rfl (ford_of (.capOk (oo <| .here (cc (.cons hc1 (.cons (lit1_ok hd1) (.cons hc1' .nil)))))) ?_)
      simp; omega
    have hstep : Ford d E (concatPat [.not (.lit [93]), .nonterm "Range"]) i
        (some (i + t.length + 1 + u.length, [.node idRange i (t.length + 1 + u.length) [c, c']])) :=
      cc (.cons (.notOk (lit_no hh)) (.cons hr .nil))
    refine ⟨t.length + 1 + u.length + n, .node idRange i (t.length + 1 + u.length) [c, c'] :: cs, ?_,
      ford_of (.starStep hstep h2) ?_, ?_, ?_, ?_, ?_⟩
    · simp; omega
    · simp; omega
    · rw [← h3]; congr 1; omega
    · intro x
      rw [List.any_cons, List.any_cons, h4]
      congr 1
      simp only [compileSet, kids, hc2, hc2', CSet.has_range, Item.mem]
      simp
    · simp [h5]
    · intro c' hc'
      rcases List.mem_cons.1 hc' with rfl | hc'
      · rfl
      · exact h6 _ hc'

theorem has_setOf (f : UInt8 → Bool) (x : UInt8) : (setOf f).has x = f x := by
  unfold setOf
  rw [CSet.has_new, Bool.eq_iff_iff, List.contains_iff_mem, List.mem_filter]
  refine ⟨fun h => h.2, fun h => ⟨List.mem_map.2 ⟨x.toNat, List.mem_range.2 x.toNat_lt, ?_⟩, h⟩⟩
  simp

theorem has_empty (x : UInt8) : CSet.empty.has x = false := by
  have : CSet.empty = CSet.new [] := rfl
  rw [this, CSet.has_new]; rfl

theorem has_foldl (cs : List CTree) (x : UInt8) : ∀ S : CSet,
    (cs.foldl (fun set c => set.add (compileSet d c)) S).has x = (S.has x || cs.any fun c => (compileSet d c).has x) := by
  induction cs with
  | nil => intro S; simp
  | cons c cs ih => intro S; simp [ih, CSet.has_add, Bool.or_assoc]

/-! ## What a capture is turned into -/

variable {capg : Bool} {st len m : Nat} {c c1 : CTree} {ch rest : List CTree}

theorem cr_pattern : compileRe capg d (.node idPattern st len (c :: rest)) m = compileRe capg d c m := by
  rw [compileRe.eq_def]; rfl

theorem cr_expression {ps : List Pat} {m' : Nat} (h : compileAll capg d ch m = (some ps, m')) :
    compileRe capg d (.node idExpression st len ch) m = (some (orPat ps), m') := by
  rw [compileRe.eq_def]; simp [h, idExpression, idPattern, idGrammar]

theorem cr_sequence {ps : List Pat} {m' : Nat} (h : compileAll capg d ch m = (some ps, m')) :
    compileRe capg d (.node idSequence st len ch) m = (some (concatPat ps), m') := by
  rw [compileRe.eq_def]; simp [h, idExpression, idPattern, idGrammar, idSequence]

theorem cr_prefix (h : cid c ≠ idAND) (h' : cid c ≠ idNOT) :
    compileRe capg d (.node idPrefix st len (c :: rest)) m = compileRe capg d c m := by
  rw [compileRe.eq_def]; simp [h, h', idExpression, idPattern, idGrammar, idSequence, idPrefix]

theorem cr_and (h : cid c = idAND) : compileRe capg d (.node idPrefix st len (c :: c1 :: rest)) m =
    ((compileRe capg d c1 m).1.map .and, (compileRe capg d c1 m).2) := by
  rw [compileRe.eq_def]; simp [h, idExpression, idPattern, idGrammar, idSequence, idPrefix]

theorem cr_not (h : cid c = idNOT) : compileRe capg d (.node idPrefix st len (c :: c1 :: rest)) m =
    ((compileRe capg d c1 m).1.map .not, (compileRe capg d c1 m).2) := by
  rw [compileRe.eq_def]; simp [h, idExpression, idPattern, idGrammar, idSequence, idPrefix, idNOT, idAND]

theorem cr_suffix : compileRe capg d (.node idSuffix st len [c]) m = compileRe capg d c m := by
  rw [compileRe.eq_def]; simp [idExpression, idPattern, idGrammar, idSequence, idPrefix, idSuffix]

theorem cr_opt (h : cid c1 = idQUESTION) : compileRe capg d (.node idSuffix st len [c, c1]) m =
    ((compileRe capg d c m).1.map .opt, (compileRe capg d c m).2) := by
  rw [compileRe.eq_def]; simp [h, idExpression, idPattern, idGrammar, idSequence, idPrefix, idSuffix]

theorem cr_star (h : cid c1 = idSTAR) : compileRe capg d (.node idSuffix st len [c, c1]) m =
    ((compileRe capg d c m).1.map .star, (compileRe capg d c m).2) := by
  rw [compileRe.eq_def]; simp [h, idExpression, idPattern, idGrammar, idSequence, idPrefix, idSuffix, idSTAR, idQUESTION]

theorem cr_plus (h : cid c1 = idPLUS) : compileRe capg d (.node idSuffix st len [c, c1]) m =
    ((compileRe capg d c m).1.map .plus, (compileRe capg d c m).2) := by
  rw [compileRe.eq_def]
  simp [h, idExpression, idPattern, idGrammar, idSequence, idPrefix, idSuffix, idSTAR, idQUESTION, idPLUS]

theorem cr_primary (h : cid c = idIdentifier ∨ cid c = idLiteral ∨ cid c = idClass) :
    compileRe capg d (.node idPrimary st len (c :: rest)) m = compileRe capg d c m := by
  rw [compileRe.eq_def]; simp [h, idExpression, idPattern, idGrammar, idSequence, idPrefix, idSuffix, idPrimary]

theorem cr_open (h : cid c = idOPEN) :
    compileRe capg d (.node idPrimary st len (c :: c1 :: rest)) m = compileRe capg d c1 m := by
  rw [compileRe.eq_def]
  simp [h, idExpression, idPattern, idGrammar, idSequence, idPrefix, idSuffix, idPrimary, idOPEN, idIdentifier, idLiteral,
    idClass]

theorem cr_memo (h : cid c = idBRACEPO) : compileRe capg d (.node idPrimary st len (c :: c1 :: rest)) m =
    ((compileRe capg d c1 m).1.map fun p => .memo p (compileRe capg d c1 m).2, (compileRe capg d c1 m).2 + 1) := by
  rw [compileRe.eq_def]
  simp [h, idExpression, idPattern, idGrammar, idSequence, idPrefix, idSuffix, idPrimary, idOPEN, idIdentifier, idLiteral,
    idClass, idBRACEPO]

theorem cr_dot (h : cid c = idDOT) : compileRe capg d (.node idPrimary st len (c :: rest)) m = (some (.dot 1), m) := by
  rw [compileRe.eq_def]
  simp [h, idExpression, idPattern, idGrammar, idSequence, idPrefix, idSuffix, idPrimary, idOPEN, idIdentifier, idLiteral,
    idClass, idBRACEPO, idDOT]

theorem cr_literal : compileRe capg d (.node idLiteral st len ch) m =
    (some (.lit (ch.map fun c => parseChar (textOf d c))), m) := by
  rw [compileRe.eq_def]
  simp [idExpression, idPattern, idGrammar, idSequence, idPrefix, idSuffix, idPrimary, idLiteral]

theorem cr_class (h : cid c ≠ idCARAT) : compileRe capg d (.node idClass st len (c :: rest)) m =
    (some (.cls ((c :: rest).foldl (fun set c => set.add (compileSet d c)) CSet.empty)), m) := by
  rw [compileRe.eq_def]
  simp [h, idExpression, idPattern, idGrammar, idSequence, idPrefix, idSuffix, idPrimary, idLiteral, idClass]

theorem cr_nclass (h : cid c = idCARAT) : compileRe capg d (.node idClass st len (c :: rest)) m =
    (some (.cls (rest.foldl (fun set c => set.add (compileSet d c)) CSet.empty).complement), m) := by
  rw [compileRe.eq_def]
  simp [h, idExpression, idPattern, idGrammar, idSequence, idPrefix, idSuffix, idPrimary, idLiteral, idClass]

theorem cr_ident : compileRe capg d (.node idIdentifier st len ch) m =
    (some (.nonterm (parseId d (.node idIdentifier st len ch))), m) := by
  rw [compileRe.eq_def]
  simp [idExpression, idPattern, idGrammar, idSequence, idPrefix, idSuffix, idPrimary, idLiteral, idClass, idIdentifier]

theorem cr_ident' (h : cid c = idIdentifier) : compileRe capg d c m = (some (.nonterm (parseId d c)), m) := by
  obtain ⟨id, st, len, ch⟩ := c
  have h' : id = idIdentifier := h
  subst h'
  exact cr_ident

end Gpeg.Re
