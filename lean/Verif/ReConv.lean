import Verif.ReMain
/-! # What the parser of the `re` syntax accepts is a text of the syntax -/
namespace Gpeg.Re

variable {d : List UInt8} {i j k : Nat} {cs : List CTree}

/-! ## Inversion of the rules -/

/-- From `i` to `j` the text is `t`. -/
def Cut (d : List UInt8) (i : Nat) (t : List UInt8) (j : Nat) : Prop := d.drop i = t ++ d.drop j ∧ j = i + t.length

theorem Cut.of {t r : List UInt8} (h : d.drop i = t ++ r) : Cut d i t (i + t.length) := ⟨by rw [drop_add h, h], rfl⟩

theorem Cut.nil : Cut d i [] i := ⟨rfl, rfl⟩

theorem Cut.trans {t u : List UInt8} (h : Cut d i t j) (h' : Cut d j u k) : Cut d i (t ++ u) k :=
  ⟨by rw [h.1, h'.1, List.append_assoc], by rw [h'.2, h.2, List.length_append]; omega⟩

theorem Cut.le {t : List UInt8} (h : Cut d i t j) : i ≤ j := by have := h.2; omega

theorem Cut.head {t : List UInt8} (h : Cut d i t j) (ht : t ≠ []) : (d.drop i).head? = t.head? := by
  rw [h.1, head_append ht]

theorem nt_inv {n : String} {b : Pat} {x : Option (Nat × List CTree)} (hl : lookupNT n E = some (b, E))
    (h : Ford d E (.nonterm n) i x) : Ford d E b i x := by
  cases h with
  | nonterm h1 h2 => rw [hl] at h1; cases h1; exact h2

theorem lit_inv {env : Env} {s : List UInt8} (h : Ford d env (.lit s) i (some (j, cs))) : Cut d i s j ∧ cs = [] := by
  cases h with
  | litOk h =>
    obtain ⟨t, e⟩ := h
    exact ⟨.of e.symm, rfl⟩

theorem cls_inv {env : Env} {S : CSet} (h : Ford d env (.cls S) i (some (j, cs))) :
    ∃ b, Cut d i [b] j ∧ S.has b = true ∧ cs = [] := by
  cases h with
  | clsOk h hb =>
    refine ⟨_, .of (t := [_]) (r := d.drop (i + 1)) ?_, hb, rfl⟩
    rw [List.getElem?_eq_some_iff] at h
    obtain ⟨hl, rfl⟩ := h
    rw [List.drop_eq_getElem_cons hl]; rfl

theorem dot_inv {env : Env} (h : Ford d env (.dot 1) i (some (j, cs))) : ∃ b, Cut d i [b] j ∧ cs = [] := by
  cases h with
  | dotOk h =>
    have hl : i + 1 ≤ d.length := h
    refine ⟨d[i], .of (t := [_]) (r := d.drop (i + 1)) ?_, rfl⟩
    rw [List.drop_eq_getElem_cons hl]; rfl

theorem cc_inv {p : Pat} {ps : List Pat} {env : Env} (h : FSeq d env (p :: ps) i (some (k, cs))) :
    ∃ j c1 c2, Ford d env p i (some (j, c1)) ∧ FSeq d env ps j (some (k, c2)) ∧ cs = c1 ++ c2 := by
  generalize hx : some (k, cs) = x at h
  cases h with
  | fail => cases hx
  | @cons _ _ _ j c1 y h1 h2 =>
    cases y with
    | none => cases hx
    | some y => obtain ⟨k', c2⟩ := y; cases hx; exact ⟨j, c1, c2, h1, h2, rfl⟩

theorem cc_nil {env : Env} (h : FSeq d env [] i (some (k, cs))) : k = i ∧ cs = [] := by cases h; exact ⟨rfl, rfl⟩

theorem cc1 {p : Pat} {env : Env} (h : FSeq d env [p] i (some (k, cs))) : Ford d env p i (some (k, cs)) := by
  obtain ⟨j, c1, c2, h1, h2, rfl⟩ := cc_inv h
  obtain ⟨rfl, rfl⟩ := cc_nil h2
  simpa using h1

theorem cc_of {ps : List Pat} {x : Option (Nat × List CTree)} (h : Ford d E (concatPat ps) i x) : FSeq d E ps i x :=
  (C43_concat _ _ _).1 h
theorem oo_of {p : Pat} {ps : List Pat} {x : Option (Nat × List CTree)} (h : Ford d E (orPat (p :: ps)) i x) :
    FAlt d E (p :: ps) i x := (C43_or _ _ _ _).1 h

theorem oo_inv {p : Pat} {ps : List Pat} {x : Nat × List CTree} (h : FAlt d E (p :: ps) i (some x)) :
    Ford d E p i (some x) ∨ (Ford d E p i none ∧ FAlt d E ps i (some x)) := by
  cases h with
  | here h => exact .inl h
  | next h h' => exact .inr ⟨h, h'⟩

theorem oo_last {p : Pat} {x : Nat × List CTree} (h : FAlt d E [p] i (some x)) : Ford d E p i (some x) := by
  rcases oo_inv h with h | ⟨_, h⟩
  · exact h
  · cases h

theorem cap_inv {env : Env} {p : Pat} {id : Int} (h : Ford d env (.cap p id) i (some (j, cs))) :
    ∃ ch, cs = [.node id i (j - i) ch] ∧ Ford d env p i (some (j, ch)) := by
  cases h with
  | capOk h => exact ⟨_, rfl, h⟩

theorem opt_inv {env : Env} {p : Pat} (h : Ford d env (.opt p) i (some (j, cs))) :
    Ford d env p i (some (j, cs)) ∨ (Ford d env p i none ∧ j = i ∧ cs = []) := by
  cases h with
  | optSome h => exact .inl h
  | optNone h => exact .inr ⟨h, rfl, rfl⟩

theorem not_inv {env : Env} {p : Pat} (h : Ford d env (.not p) i (some (j, cs))) : Ford d env p i none ∧ j = i ∧ cs = [] := by
  cases h with
  | notOk h => exact ⟨h, rfl, rfl⟩

/-- A repetition, step by step. -/
inductive Reps (d : List UInt8) (p : Pat) : Nat → Nat → List CTree → Prop
  | nil {a : Nat} : Ford d E p a none → Reps d p a a []
  | cons {a b c : Nat} {cs cs' : List CTree} : Ford d E p a (some (b, cs)) → Reps d p b c cs' → Reps d p a c (cs ++ cs')

theorem star_inv {p : Pat} (h : Ford d E (.star p) i (some (k, cs))) : Reps d p i k cs := by
  have key : ∀ {env : Env} {q : Pat} {i : Nat} {x : Option (Nat × List CTree)}, Ford d env q i x → q = .star p → env = E →
      ∀ k cs, x = some (k, cs) → Reps d p i k cs := by
    intro env q i x h
    induction h with
    | starEnd h =>
      rintro hq rfl k cs hx
      cases hq; cases hx
      exact .nil h
    | starStep h1 _ _ ih =>
      rintro hq rfl k cs hx
      cases hq; cases hx
      exact .cons h1 (ih rfl rfl _ _ rfl)
    | _ => intro hq; cases hq
  exact key h rfl rfl k cs rfl

theorem head_of_lit_no {env : Env} {b : UInt8} (h : Ford d env (.lit [b]) i none) : (d.drop i).head? ≠ some b := by
  intro hb
  cases hd : d.drop i with
  | nil => rw [hd] at hb; cases hb
  | cons a l =>
    rw [hd] at hb
    cases hb
    cases h.det (lit1_ok hd)

/-! ## Spacing -/

/-- No spacing can be taken from the text: no blank comes first, and if a `#` comes first, no line end follows. -/
def NoSp' (r : List UInt8) : Prop := ∀ y l, r = y :: l → blank y = false ∧ (y = 35 → ¬∃ x ∈ l, x = 10 ∨ x = 13)

theorem first_eol : ∀ (v : List UInt8), (∃ x ∈ v, x = 10 ∨ x = 13) →
    ∃ c b l, v = c ++ b :: l ∧ (∀ x ∈ c, x ≠ 10 ∧ x ≠ 13) ∧ (b = 10 ∨ b = 13)
  | [], h => by obtain ⟨x, hx, _⟩ := h; cases hx
  | a :: v, h => by
    by_cases ha : a = 10 ∨ a = 13
    · exact ⟨[], a, v, rfl, by simp, ha⟩
    · obtain ⟨x, hx, hx'⟩ := h
      rcases List.mem_cons.1 hx with rfl | hx
      · exact absurd hx' ha
      · obtain ⟨c, b, l, rfl, h1, h2⟩ := first_eol v ⟨x, hx, hx'⟩
        refine ⟨a :: c, b, l, rfl, ?_, h2⟩
        intro y hy
        rcases List.mem_cons.1 hy with rfl | hy
        · exact ⟨fun e => ha (.inl e), fun e => ha (.inr e)⟩
        · exact h1 y hy

theorem eol_inv (h : Ford d E (.nonterm "EndOfLine") i (some (j, cs))) :
    cs = [] ∧ ∃ t, Cut d i t j ∧ (t = [13, 10] ∨ t = [10] ∨ t = [13]) := by
  have h := oo_of (nt_inv (b := dEndOfLine) rfl h)
  rcases oo_inv h with h | ⟨_, h⟩
  · obtain ⟨h1, h2⟩ := lit_inv h; exact ⟨h2, _, h1, .inl rfl⟩
  · rcases oo_inv h with h | ⟨_, h⟩
    · obtain ⟨h1, h2⟩ := lit_inv h; exact ⟨h2, _, h1, .inr (.inl rfl)⟩
    · obtain ⟨h1, h2⟩ := lit_inv (oo_last h); exact ⟨h2, _, h1, .inr (.inr rfl)⟩

theorem eol_head {b : UInt8} {l : List UInt8} (h : Ford d E (.nonterm "EndOfLine") i none) (hd : d.drop i = b :: l) :
    b ≠ 10 ∧ b ≠ 13 := by
  refine ⟨fun e => ?_, fun e => ?_⟩
  · rcases eol_ok (.inl e) hd with h' | ⟨_, _, h'⟩ <;> cases h.det h'
  · rcases eol_ok (.inr e) hd with h' | ⟨_, _, h'⟩ <;> cases h.det h'

theorem sp_eol {t l : List UInt8} (ht : t = [13, 10] ∨ t = [10] ∨ t = [13]) (hl : Sp l) : Sp (t ++ l) := by
  rcases ht with rfl | rfl | rfl
  · exact .blank (by decide) (.blank (by decide) hl)
  · exact .blank (by decide) hl
  · exact .blank (by decide) hl

theorem sp_comment {c t l : List UInt8} (hc : ∀ x ∈ c, x ≠ 10 ∧ x ≠ 13) (ht : t = [13, 10] ∨ t = [10] ∨ t = [13]) (hl : Sp l) :
    Sp (35 :: (c ++ (t ++ l))) := by
  rcases ht with rfl | rfl | rfl
  · exact .comment hc (.inr rfl) (.blank (by decide) hl)
  · exact .comment hc (.inl rfl) hl
  · exact .comment hc (.inr rfl) hl

theorem comment_inv (h : Ford d E (.nonterm "Comment") i (some (j, cs))) :
    cs = [] ∧ ∃ c t, Cut d i (35 :: (c ++ t)) j ∧ (∀ x ∈ c, x ≠ 10 ∧ x ≠ 13) ∧ (t = [13, 10] ∨ t = [10] ∨ t = [13]) := by
  obtain ⟨i1, c1, c2, h1, g, rfl⟩ := cc_inv (cc_of (nt_inv (b := dComment) rfl h))
  obtain ⟨i2, c3, c4, h2, g', rfl⟩ := cc_inv g
  have h3 := cc1 g'
  obtain ⟨k1, rfl⟩ := lit_inv h1
  have key : ∀ {a b : Nat} {cs : List CTree}, Reps d (concatPat [.not (.nonterm "EndOfLine"), .dot 1]) a b cs →
      cs = [] ∧ ∃ c, Cut d a c b ∧ ∀ x ∈ c, x ≠ 10 ∧ x ≠ 13 := by
    intro a b cs h
    induction h with
    | nil => exact ⟨rfl, [], .nil, by simp⟩
    | cons h1 _ ih =>
      obtain ⟨rfl, c, hc, hn⟩ := ih
      obtain ⟨_, _, _, hn1, hd1, rfl⟩ := cc_inv (cc_of h1)
      obtain ⟨hno, rfl, rfl⟩ := not_inv hn1
      obtain ⟨x, hx, rfl⟩ := dot_inv (cc1 hd1)
      refine ⟨rfl, x :: c, hx.trans hc, ?_⟩
      intro y hy
      rcases List.mem_cons.1 hy with rfl | hy
      · exact eol_head hno hx.1
      · exact hn y hy
  obtain ⟨rfl, c, hc, hn⟩ := key (star_inv h2)
  obtain ⟨rfl, t, ht, he⟩ := eol_inv h3
  exact ⟨rfl, c, t, (k1.trans (hc.trans ht)), hn, he⟩

theorem spacing_inv (h : Ford d E (.nonterm "Spacing") i (some (j, cs))) :
    cs = [] ∧ NoSp' (d.drop j) ∧ ∃ sp, Sp sp ∧ Cut d i sp j := by
  have g := star_inv (nt_inv (b := dSpacing) rfl h)
  clear h
  generalize hp : orPat [.nonterm "Space", .nonterm "Comment"] = p at g
  induction g with
  | @nil i h =>
    subst hp
    refine ⟨rfl, fun b l hd => ?_, [], .nil, .nil⟩
    · have hno : ∀ {x}, Ford d E (orPat [.nonterm "Space", .nonterm "Comment"]) i (some x) → False := fun h' => by
        cases h.det h'
      constructor
      · cases hb : blank b with
        | false => rfl
        | true =>
          exfalso
          by_cases hb2 : b = 32 ∨ b = 9
          · refine hno <| oo <| .here <| nt rfl <| oo <| .here <| cls_ok hd ?_
            rw [CSet.has_new]
            rcases hb2 with rfl | rfl <;> decide
          · have hb3 : b = 10 ∨ b = 13 := by
              simp only [blank, Bool.or_eq_true, beq_iff_eq] at hb
              rcases hb with ((hb | hb) | hb) | hb
              · exact absurd (.inl hb) hb2
              · exact absurd (.inr hb) hb2
              · exact .inl hb
              · exact .inr hb
            have hcl : Ford d E (.cls (CSet.new [32, 9])) i none := by
              refine cls_no fun y hy => ?_
              rw [hd] at hy; simp at hy; subst hy
              rw [CSet.has_new]
              rcases hb3 with rfl | rfl <;> decide
            rcases eol_ok hb3 hd with h' | ⟨_, _, h'⟩
            · exact hno <| oo <| .here <| nt rfl <| oo <| .next hcl <| .here h'
            · exact hno <| oo <| .here <| nt rfl <| oo <| .next hcl <| .here h'
      · rintro rfl hx
        obtain ⟨c, b, r, rfl, hc, hb⟩ := first_eol _ hx
        have hsp : Ford d E (.nonterm "Space") i none := by
          refine nt rfl <| oo <| .next (cls_no fun y hy => ?_) <| .next (eol_no fun y hy => ?_) .nil
          · rw [hd] at hy; simp at hy; subst hy; rw [CSet.has_new]; decide
          · rw [hd] at hy; simp at hy; subst hy; decide
        have h1 := comment_body hc hb (drop_cons hd)
        rcases eol_ok hb (drop_add (drop_cons hd)) with h' | ⟨_, _, h'⟩
        · exact hno <| oo <| .next hsp <| .here <| nt rfl <| cc (.cons (lit1_ok hd) (.cons h1 (.cons h' .nil)))
        · exact hno <| oo <| .next hsp <| .here <| nt rfl <| cc (.cons (lit1_ok hd) (.cons h1 (.cons h' .nil)))
  | cons h1 _ ih =>
    obtain ⟨rfl, hn, sp, hsp, hc⟩ := ih
    subst hp
    rcases oo_inv (oo_of h1) with h | ⟨_, h⟩
    · rcases oo_inv (oo_of (nt_inv (b := dSpace) rfl h)) with h | ⟨_, h⟩
      · obtain ⟨b, hb, hh, rfl⟩ := cls_inv h
        refine ⟨rfl, hn, b :: sp, .blank ?_ hsp, hb.trans hc⟩
        rw [CSet.has_new, List.contains_iff_mem] at hh
        simp only [List.mem_cons, List.not_mem_nil, or_false] at hh
        rcases hh with rfl | rfl <;> decide
      · obtain ⟨rfl, t, ht, he⟩ := eol_inv (oo_last h)
        exact ⟨rfl, hn, _, sp_eol he hsp, ht.trans hc⟩
    · obtain ⟨rfl, c, t, ht, hcc, he⟩ := comment_inv (oo_last h)
      refine ⟨rfl, hn, _, sp_comment hcc he hsp, ?_⟩
      have := ht.trans hc
      simpa using this

/-- The last byte of a text. -/
theorem last_append {s t : List UInt8} (h : t ≠ []) : (s ++ t).getLast? = t.getLast? := by
  rw [List.getLast?_append, List.getLast?_eq_some_getLast h]; rfl

theorem sp_last {sp : List UInt8} {x : UInt8} (h : Sp sp) (hx : sp.getLast? = some x) : isCont x = false := by
  have hb : blank x = true := by
    induction h with
    | nil => cases hx
    | @blank b l hb hl ih =>
      cases l with
      | nil => simp at hx; subst hx; exact hb
      | cons a l => exact ih (by simpa [List.getLast?_cons_cons] using hx)
    | @comment c b l hc hb hl ih =>
      cases l with
      | nil =>
        rw [show (35 :: (c ++ [b]) : List UInt8) = (35 :: c) ++ [b] from rfl, List.getLast?_concat] at hx
        cases hx
        rcases hb with rfl | rfl <;> decide
      | cons a l =>
        refine ih ?_
        rw [show (35 :: (c ++ b :: a :: l) : List UInt8) = (35 :: c ++ [b]) ++ (a :: l) by simp,
          last_append (by simp)] at hx
        exact hx
  have := u8_all (fun b => !blank b || isCont b == false) (by decide +kernel) x
  simpa [hb] using this

/-- Texts that end with spacing after something that is no identifier. -/
theorem apart_sp {s sp r : List UInt8} (hs : Sp sp) (h : ∀ x, s.getLast? = some x → isCont x = false) : Apart (s ++ sp) r := by
  intro x y hx _
  left
  cases sp with
  | nil => exact h x (by simpa using hx)
  | cons a sp => rw [last_append (by simp)] at hx; exact sp_last hs hx

theorem apart_tail {s t r : List UInt8} (ht : t ≠ []) (h : Apart t r) : Apart (s ++ t) r := by
  intro x y hx hy
  rw [last_append ht] at hx
  exact h x y hx hy

/-! ## Tokens, identifiers -/

theorem tok0_inv {s : List UInt8} (h : Ford d E (tok0 s) i (some (j, cs))) :
    cs = [] ∧ NoSp' (d.drop j) ∧ ∃ sp, Sp sp ∧ Cut d i (s ++ sp) j := by
  obtain ⟨_, _, _, h1, g, rfl⟩ := cc_inv (cc_of h)
  obtain ⟨k1, rfl⟩ := lit_inv h1
  obtain ⟨rfl, hn, sp, hs, k2⟩ := spacing_inv (cc1 g)
  exact ⟨rfl, hn, sp, hs, k1.trans k2⟩

theorem tok_inv {s : List UInt8} {id : Int} (h : Ford d E (tok s id) i (some (j, cs))) :
    cs = [.node id i (j - i) []] ∧ NoSp' (d.drop j) ∧ ∃ sp, Sp sp ∧ Cut d i (s ++ sp) j := by
  obtain ⟨ch, rfl, g⟩ := cap_inv h
  obtain ⟨rfl, g'⟩ := tok0_inv g
  exact ⟨rfl, g'⟩

theorem tok_no_inv {b : UInt8} {id : Int} (h : Ford d E (tok [b] id) i none) : (d.drop i).head? ≠ some b := by
  cases h with
  | capFail h =>
    have h := cc_of h
    generalize hx : (none : Option (Nat × List CTree)) = x at h
    cases h with
    | fail h => exact head_of_lit_no h
    | @cons _ _ _ _ _ y _ h2 =>
      cases y with
      | some y => obtain ⟨_, _⟩ := y; cases hx
      | none =>
        generalize hx : (none : Option (Nat × List CTree)) = x at h2
        cases h2 with
        | fail h => exact absurd (nt_inv (b := dSpacing) rfl h) (star_not_none rfl rfl)
        | @cons _ _ _ _ _ y _ h2 =>
          cases h2
          cases hx

theorem cont_head (h : Ford d E (.nonterm "IdentCont") i none) : ∀ y, (d.drop i).head? = some y → isCont y = false := by
  intro y hy
  cases hd : d.drop i with
  | nil => rw [hd] at hy; cases hy
  | cons b l =>
    rw [hd] at hy
    obtain rfl : b = y := by simpa using hy
    cases hc : isCont b with
    | false => rfl
    | true =>
      exfalso
      by_cases hs : isStart b = true
      · cases h.det (nt rfl <| .capOk <| oo <| .here <| identStart_ok hs hd)
      · refine nomatch h.det (nt rfl <| .capOk <| oo <| .next (identStart_no fun y hy => ?_) <| .here (cls_ok hd ?_))
        · rw [hd] at hy; simp at hy; subst hy; simpa using hs
        · rw [has_digit]
          simp only [isCont, Bool.or_eq_true] at hc
          exact hc.resolve_left hs

theorem ident_inv (h : Ford d E (.nonterm "Identifier") i (some (j, cs))) :
    ∃ ch, cs = [.node idIdentifier i (j - i) ch] ∧ NoSp' (d.drop j) ∧ ∃ n sp, IsName n ∧ Sp sp ∧ Cut d i (n ++ sp) j ∧
      Apart (n ++ sp) (d.drop j) := by
  obtain ⟨ch, rfl, g⟩ := cap_inv (nt_inv (b := dIdentifier) rfl h)
  obtain ⟨i1, _, _, h1, g', rfl⟩ := cc_inv (cc_of g)
  obtain ⟨i2, _, _, h2, g'', rfl⟩ := cc_inv g'
  obtain ⟨rfl, hn, sp, hs, k3⟩ := spacing_inv (cc1 g'')
  obtain ⟨_, rfl, h1'⟩ := cap_inv (nt_inv (b := dIdentStart) rfl h1)
  obtain ⟨b, k1, hb, rfl⟩ := cls_inv h1'
  rw [has_start] at hb
  have key : ∀ {a e : Nat} {cs : List CTree}, Reps d (.nonterm "IdentCont") a e cs →
      (∀ y, (d.drop e).head? = some y → isCont y = false) ∧ ∃ l, Cut d a l e ∧ ∀ x ∈ l, isCont x = true := by
    intro a e cs h
    induction h with
    | nil h => exact ⟨cont_head h, [], .nil, by simp⟩
    | @cons a b' _ _ _ h1 _ ih =>
      obtain ⟨hy, l, kl, hl⟩ := ih
      have : ∃ x, Cut d a [x] b' ∧ isCont x = true := by
        obtain ⟨_, rfl, g⟩ := cap_inv (nt_inv (b := dIdentCont) rfl h1)
        rcases oo_inv (oo_of g) with h | ⟨_, h⟩
        · obtain ⟨_, rfl, g'⟩ := cap_inv (nt_inv (b := dIdentStart) rfl h)
          obtain ⟨x, k, hx, _⟩ := cls_inv g'
          rw [has_start] at hx
          exact ⟨x, k, by simp [isCont, hx]⟩
        · obtain ⟨x, k, hx, _⟩ := cls_inv (oo_last h)
          rw [has_digit] at hx
          exact ⟨x, k, by simp only [isCont, Bool.or_eq_true]; exact .inr hx⟩
      obtain ⟨x, kx, hx⟩ := this
      refine ⟨hy, x :: l, kx.trans kl, ?_⟩
      intro y hy
      rcases List.mem_cons.1 hy with rfl | hy
      · exact hx
      · exact hl y hy
  obtain ⟨hy, l, k2, hl'⟩ := key (star_inv h2)
  refine ⟨_, rfl, hn, b :: l, sp, ⟨b, l, rfl, hb, hl'⟩, hs, ?_, ?_⟩
  · simpa using k1.trans (k2.trans k3)
  · cases sp with
    | nil =>
      intro x y _ hh
      right
      refine hy y ?_
      rw [k3.1]; exact hh
    | cons a sp => exact fun x y hx _ => .inl (sp_last hs (by rwa [last_append (by simp)] at hx))

/-! ## Literals, classes -/

/-- No octal escape of 200 or above. -/
def LowOctal (d : List UInt8) : Prop := ∀ u v b c, d = u ++ 92 :: 50 :: b :: c :: v → isOct b = false ∨ isOct c = false

theorem CharS.head_rest {b : UInt8} {t rest rest' : List UInt8} (h : CharS b t rest) (hr : rest'.head? = rest.head?) :
    CharS b t rest' := by
  have hn : NoOct rest → NoOct rest' := fun hn x hx => hn x (hr ▸ hx)
  cases h with
  | raw h => exact .raw h
  | esc h => exact .esc h
  | oct3 h1 h2 h3 h4 => exact .oct3 h1 h2 h3 h4
  | oct2 h1 h2 h3 => exact .oct2 h1 h2 (h3.imp_right hn)
  | oct1 h1 h2 => exact .oct1 h1 (hn h2)

theorem char_cut (ho : LowOctal d) (h : Ford d E (.nonterm "Char") i (some (j, cs))) :
    ∃ b t, Cut d i t j ∧ CharS b t (d.drop j) := by
  obtain ⟨t, rest, hd, rfl, hc⟩ := char_inv h
  have hk := Cut.of hd
  rcases hc with ⟨b, hc⟩ | ⟨b, c, rfl, hb, hc⟩
  · exact ⟨b, t, hk, by rwa [drop_add hd]⟩
  · have e : d = d.take i ++ 92 :: 50 :: b :: c :: rest := by
      have := List.take_append_drop i d
      rw [hd] at this
      exact this.symm
    rcases ho _ _ _ _ e with h | h
    · rw [hb] at h; cases h
    · rw [hc] at h; cases h

theorem litS_inv (ho : LowOctal d) {q : UInt8} (h : Reps d (concatPat [.not (.lit [q]), .nonterm "Char"]) i j cs)
    (hk : Cut d j [q] k) : ∃ bs t, LitS q bs t ∧ Cut d i t k := by
  induction h with
  | nil => exact ⟨[], [q], .nil, hk⟩
  | @cons a b _ _ _ h1 _ ih =>
    obtain ⟨bs, t, hl, kt⟩ := ih hk
    obtain ⟨_, _, _, g1, g2, _⟩ := cc_inv (cc_of h1)
    obtain ⟨hn, rfl, rfl⟩ := not_inv g1
    obtain ⟨x, u, ku, hc⟩ := char_cut ho (cc1 g2)
    have hne : t ≠ [] := by
      cases hl with
      | nil => simp
      | cons hc' => exact fun h => charS_ne hc' (List.append_eq_nil_iff.1 h).1
    refine ⟨x :: bs, u ++ t, .cons (hc.head_rest (kt.head hne).symm) ?_ hl, ku.trans kt⟩
    rw [← ku.head (charS_ne hc)]
    exact head_of_lit_no hn

theorem quoted_inv (ho : LowOctal d) {q : UInt8} (h : Ford d E (quoted q) i (some (j, cs))) :
    NoSp' (d.drop j) ∧ ∃ bs t sp, LitS q bs t ∧ Sp sp ∧ Cut d i (q :: (t ++ sp)) j := by
  obtain ⟨_, _, _, h1, g, rfl⟩ := cc_inv (cc_of h)
  obtain ⟨_, _, _, h2, g', rfl⟩ := cc_inv g
  obtain ⟨_, _, _, h3, g'', rfl⟩ := cc_inv g'
  obtain ⟨k1, _⟩ := lit_inv h1
  obtain ⟨k3, _⟩ := lit_inv h3
  obtain ⟨_, hn, sp, hs, k4⟩ := spacing_inv (cc1 g'')
  obtain ⟨bs, t, ht, k2⟩ := litS_inv ho (star_inv h2) k3
  refine ⟨hn, bs, t, sp, ht, hs, ?_⟩
  simpa using k1.trans (k2.trans k4)

theorem range_char (h : Ford d E (.nonterm "Range") i (some (j, cs))) : ∃ x, Ford d E (.nonterm "Char") i (some x) := by
  obtain ⟨_, rfl, g⟩ := cap_inv (nt_inv (b := dRange) rfl h)
  rcases oo_inv (oo_of g) with g | ⟨_, g⟩
  · obtain ⟨_, _, _, h1, _⟩ := cc_inv (cc_of g)
    exact ⟨_, h1⟩
  · exact ⟨_, oo_last g⟩

theorem char_raw {b : UInt8} {l : List UInt8} (hb : b ≠ 92) (h : d.drop i = b :: l) :
    ∃ c, Ford d E (.nonterm "Char") i (some (i + 1, [c])) := by
  obtain ⟨c, h1, _⟩ := char_tree (t := [b]) (rest := l) (.raw hb) h
  exact ⟨c, h1⟩

/-- A dash after which no character can be read does not occur in a class. -/
theorem dash_end {l : List UInt8} (h : Reps d (concatPat [.not (.lit [93]), .nonterm "Range"]) i j cs)
    (hk : Cut d j [93] k) (hd : d.drop i = 45 :: l) (hc : Ford d E (.nonterm "Char") (i + 1) none) : False := by
  cases h with
  | nil => rw [hk.1] at hd; cases hd
  | @cons _ b _ _ _ h1 h2 =>
    obtain ⟨i', _, _, g1, g2, _⟩ := cc_inv (cc_of h1)
    obtain ⟨_, rfl, rfl⟩ := not_inv g1
    obtain ⟨c, hr⟩ := char_raw (by decide) hd
    have hb : b = i' + 1 := by
      obtain ⟨_, rfl, g⟩ := cap_inv (nt_inv (b := dRange) rfl (cc1 g2))
      rcases oo_inv (oo_of g) with g | ⟨_, g⟩
      · obtain ⟨_, _, _, e1, g, _⟩ := cc_inv (cc_of g)
        obtain ⟨_, _, _, e2, g, _⟩ := cc_inv g
        cases e1.det hr
        obtain ⟨k2, _⟩ := lit_inv e2
        obtain ⟨c', hr'⟩ := char_raw (by decide) (show d.drop (i' + 1) = 45 :: _ from k2.1)
        cases hc.det hr'
      · cases (oo_last g).det hr
        rfl
    subst hb
    cases h2 with
    | nil =>
      obtain ⟨c', hr'⟩ := char_raw (by decide) (show d.drop (i' + 1) = 93 :: _ from hk.1)
      cases hc.det hr'
    | cons h3 _ =>
      obtain ⟨_, _, _, g1, g2, _⟩ := cc_inv (cc_of h3)
      obtain ⟨_, rfl, rfl⟩ := not_inv g1
      obtain ⟨x, hx⟩ := range_char (cc1 g2)
      cases hc.det hx

theorem lit_fail_seq {p : Pat} {ps : List Pat} (h : FSeq d E (p :: ps) i none) {c : List CTree}
    (hp : Ford d E p i (some (j, c))) : FSeq d E ps j none := by
  generalize hx : (none : Option (Nat × List CTree)) = x at h
  cases h with
  | fail h => cases hp.det h
  | @cons _ _ _ _ _ y h1 h2 =>
    cases hp.det h1
    cases y with
    | none => exact h2
    | some y => obtain ⟨_, _⟩ := y; cases hx

theorem items_inv (ho : LowOctal d) (h : Reps d (concatPat [.not (.lit [93]), .nonterm "Range"]) i j cs)
    (hk : Cut d j [93] k) : ∃ its t, ItemsS its t ∧ Cut d i t k := by
  induction h with
  | nil => exact ⟨[], [93], .nil, hk⟩
  | @cons a b c _ _ h1 h2 ih =>
    obtain ⟨its, t, hi, kt⟩ := ih hk
    obtain ⟨_, _, _, g1, g2, _⟩ := cc_inv (cc_of h1)
    obtain ⟨hn, rfl, rfl⟩ := not_inv g1
    obtain ⟨_, rfl, g⟩ := cap_inv (nt_inv (b := dRange) rfl (cc1 g2))
    have hd := head_of_lit_no hn
    rcases oo_inv (oo_of g) with g | ⟨hno, g⟩
    · obtain ⟨_, _, _, e1, g, _⟩ := cc_inv (cc_of g)
      obtain ⟨_, _, _, e2, g, _⟩ := cc_inv g
      obtain ⟨x, u, ku, hc⟩ := char_cut ho e1
      obtain ⟨k2, _⟩ := lit_inv e2
      obtain ⟨y, v, kv, hc'⟩ := char_cut ho (cc1 g)
      refine ⟨.range x y :: its, u ++ 45 :: (v ++ t), .range (hc.head_rest ?_) ?_ (hc'.head_rest ?_) hi, ?_⟩
      · rw [k2.1]; rfl
      · rw [← ku.head (charS_ne hc)]; exact hd
      · exact (kt.head (itemsS_ne hi)).symm
      · exact ku.trans (k2.trans (kv.trans kt))
    · have e1 := oo_last g
      obtain ⟨x, u, ku, hc⟩ := char_cut ho e1
      refine ⟨.one x :: its, u ++ t, .one (hc.head_rest (kt.head (itemsS_ne hi)).symm) ?_ ?_ hi, ku.trans kt⟩
      · rw [← ku.head (charS_ne hc)]; exact hd
      · rw [← kt.head (itemsS_ne hi)]
        intro h45
        cases hb : d.drop b with
        | nil => rw [hb] at h45; cases h45
        | cons z l =>
          rw [hb] at h45
          obtain rfl : z = 45 := by simpa using h45
          have f1 := lit_fail_seq (lit_fail_seq (cc_of hno) e1) (lit1_ok hb)
          generalize hx : (none : Option (Nat × List CTree)) = x at f1
          cases f1 with
          | fail f => exact dash_end h2 hk hb f
          | @cons _ _ _ _ _ y _ f2 => cases f2; cases hx

/-- A `#` after `[^` and spacing has a line end somewhere after it. -/
def Lines (d : List UInt8) : Prop := ∀ u sp v, d = u ++ 91 :: 94 :: (sp ++ 35 :: v) → Sp sp → ∃ x ∈ v, x = 10 ∨ x = 13

/-- The result of `Class`: a text of a class, or nothing. -/
theorem class_inv (hl : Lines d) (ho : LowOctal d) (h : Ford d E (.nonterm "Class") i (some (j, cs))) :
    NoSp' (d.drop j) ∧ ∃ ch, cs = [.node idClass i (j - i) ch] ∧
      (ch = [] ∨ ∃ neg its u t sp, CaratS neg u ∧ ItemsS its t ∧ (neg = true ∨ its ≠ []) ∧
        (neg = true → ∀ x, t.head? = some x → blank x = false ∧ x ≠ 35) ∧ (neg = false → t.head? ≠ some 94) ∧ Sp sp ∧
        Cut d i (91 :: (u ++ (t ++ sp))) j) := by
  obtain ⟨ch, rfl, g⟩ := cap_inv (nt_inv (b := dClass) rfl h)
  obtain ⟨i1, _, _, h1, g1, rfl⟩ := cc_inv (cc_of g)
  obtain ⟨i2, c2, _, h2, g2, rfl⟩ := cc_inv g1
  obtain ⟨i3, c3, _, h3, g3, rfl⟩ := cc_inv g2
  obtain ⟨i4, _, _, h4, g4, rfl⟩ := cc_inv g3
  obtain ⟨rfl, hn, sp, hs, k5⟩ := spacing_inv (cc1 g4)
  obtain ⟨k1, rfl⟩ := lit_inv h1
  obtain ⟨k4, rfl⟩ := lit_inv h4
  obtain ⟨its, t, hi, k3⟩ := items_inv ho (star_inv h3) k4
  obtain ⟨n, cs', hl', h3', _, _, hlen, _⟩ := itemsS_ok hi (d := d) (i := i2) k3.1
  obtain ⟨_, rfl⟩ : i3 = i2 + n ∧ c3 = cs' := by cases h3.det h3'; exact ⟨rfl, rfl⟩
  refine ⟨hn, _, rfl, ?_⟩
  rcases opt_inv h2 with g2 | ⟨g2, rfl, rfl⟩
  · obtain ⟨rfl, hn2, sp2, hs2, k2⟩ := tok_inv (nt_inv (b := tok [94] idCARAT) rfl g2)
    refine .inr ⟨true, its, 94 :: sp2, t, sp, .yes hs2, hi, .inl rfl, fun _ x hx => ?_, (fun h => nomatch h), hs, ?_⟩
    · cases hd : d.drop i2 with
      | nil => rw [← k3.head (itemsS_ne hi), hd] at hx; cases hx
      | cons b l =>
        rw [← k3.head (itemsS_ne hi), hd] at hx
        obtain rfl : b = x := by simpa using hx
        refine ⟨(hn2 b l hd).1, fun hb => (hn2 b l hd).2 hb (hl (d.take i) sp2 l ?_ hs2)⟩
        have e := (k1.trans k2).1
        rw [hd, hb] at e
        have := List.take_append_drop i d
        rw [e] at this
        simpa using this.symm
    · simpa using k1.trans (k2.trans (k3.trans k5))
  · have hc := tok_no_inv (nt_inv (b := tok [94] idCARAT) rfl g2)
    by_cases hits : its = []
    · subst hits
      left
      have : c3 = [] := List.length_eq_zero_iff.1 (by simpa using hlen)
      simp [this]
    · refine .inr ⟨false, its, [], t, sp, .no, hi, .inr hits, (fun h => nomatch h), fun _ => ?_, hs, ?_⟩
      · rw [← k3.head (itemsS_ne hi)]; exact hc
      · simpa using k1.trans (k3.trans k5)

/-! ## Expressions -/

theorem ford_le {env : Env} {p : Pat} {x : Option (Nat × List CTree)} (h : Ford d env p i x) :
    ∀ j cs, x = some (j, cs) → i ≤ j := by
  induction h with
  | _ => grind

theorem ford_end {env : Env} {p : Pat} {x : Option (Nat × List CTree)} (h : Ford d env p i x) :
    ∀ j cs, x = some (j, cs) → i ≤ d.length → j ≤ d.length := by
  intro j cs hx hi
  subst hx
  obtain ⟨far, h⟩ := h.evals (chk := fun _ s _ _ _ _ _ => (none, s)) (w := (⟨[], ()⟩ : World Unit))
  exact (h.bounds (fun _ _ _ _ _ _ _ _ => by simp) hi).2

/-- `compile` makes a nil pattern or one with a nil part of the capture. -/
def Nil (d : List UInt8) (c : CTree) : Prop := ∀ capg m, (compileRe capg d c m).1 = none

theorem compileAll_nil {c : CTree} (hc : Nil d c) : ∀ (cs : List CTree), c ∈ cs → ∀ capg m, (compileAll capg d cs m).1 = none
  | x :: cs, h, capg, m => by
    rw [compileAll]
    rcases List.mem_cons.1 h with rfl | h
    · simp [hc capg m]
    · have := compileAll_nil hc cs h capg (compileRe capg d x m).2
      simp only [this]
      cases (compileRe capg d x m).1 <;> rfl

/-- What is claimed of `Expression` at a position. -/
def ExprAt (d : List UInt8) (i : Nat) : Prop := ∀ j cs, Ford d E (.nonterm "Expression") i (some (j, cs)) →
  ∃ c, cs = [c] ∧ (Nil d c ∨ ∃ e t, ExprS e t ∧ Cut d i t j ∧ Apart t (d.drop j))

theorem cut_lt {b : UInt8} {t : List UInt8} (h : Cut d i (b :: t) j) : i < d.length ∧ i < j := by
  have h1 := congrArg List.length h.1
  have h2 := h.2
  simp only [List.length_drop, List.length_append, List.length_cons] at h1 h2
  omega

theorem primary_inv (hl : Lines d) (ho : LowOctal d) (ih : ∀ k, d.length - k < d.length - i → ExprAt d k)
    (h : Ford d E (.nonterm "Primary") i (some (j, cs))) :
    ∃ c, cs = [c] ∧ (Nil d c ∨ ∃ p t, PrimS p t ∧ Cut d i t j ∧ Apart t (d.drop j)) := by
  obtain ⟨ch, rfl, g⟩ := cap_inv (nt_inv (b := dPrimary) rfl h)
  refine ⟨_, rfl, ?_⟩
  rcases oo_inv (oo_of g) with g | ⟨_, g⟩
  · obtain ⟨i1, _, _, h1, g1, rfl⟩ := cc_inv (cc_of g)
    obtain ⟨_, rfl, rfl⟩ := not_inv (cc1 g1)
    obtain ⟨ch, rfl, _, n, sp, hn, hs, hk, ha⟩ := ident_inv h1
    exact .inr ⟨.ident n, _, .ident hn hs, hk, ha⟩
  rcases oo_inv g with g | ⟨_, g⟩
  · obtain ⟨i1, _, _, h1, g1, rfl⟩ := cc_inv (cc_of g)
    obtain ⟨i2, _, _, h2, g2, rfl⟩ := cc_inv g1
    obtain ⟨rfl, _, sp, hs, k1⟩ := tok_inv (nt_inv (b := tok [40] idOPEN) rfl h1)
    obtain ⟨rfl, _, sp', hs', k3⟩ := tok0_inv (nt_inv (b := tok0 [41]) rfl (cc1 g2))
    have := cut_lt k1
    obtain ⟨c, rfl, hc | ⟨e, t, he, k2, _⟩⟩ := ih i1 (by omega) _ _ h2
    · exact .inl fun capg m => by
        show (compileRe capg d (.node idPrimary _ _ (_ :: c :: [])) m).1 = none
        rw [cr_open rfl]; exact hc capg m
    · refine .inr ⟨.paren e, _, .paren hs he hs', ?_, ?_⟩
      · simpa using k1.trans (k2.trans k3)
      · rw [show (40 :: (sp ++ (t ++ 41 :: sp')) : List UInt8) = (40 :: (sp ++ (t ++ [41]))) ++ sp' by simp]
        exact apart_sp hs' (by intro x hx; simp [List.getLast?_cons, List.getLast?_append] at hx; subst hx; rfl)
  rcases oo_inv g with g | ⟨_, g⟩
  · obtain ⟨i1, _, _, h1, g1, rfl⟩ := cc_inv (cc_of g)
    obtain ⟨i2, _, _, h2, g2, rfl⟩ := cc_inv g1
    obtain ⟨rfl, _, sp, hs, k1⟩ := tok_inv (nt_inv (b := tok [123, 123] idBRACEPO) rfl h1)
    obtain ⟨rfl, _, sp', hs', k3⟩ := tok0_inv (nt_inv (b := tok0 [125, 125]) rfl (cc1 g2))
    have := cut_lt k1
    obtain ⟨c, rfl, hc | ⟨e, t, he, k2, _⟩⟩ := ih i1 (by omega) _ _ h2
    · exact .inl fun capg m => by
        show (compileRe capg d (.node idPrimary _ _ (_ :: c :: [])) m).1 = none
        rw [cr_memo rfl, hc capg m]; rfl
    · refine .inr ⟨.memo e, _, .memo hs he hs', ?_, ?_⟩
      · simpa using k1.trans (k2.trans k3)
      · rw [show (123 :: 123 :: (sp ++ (t ++ 125 :: 125 :: sp')) : List UInt8) = (123 :: 123 :: (sp ++ (t ++ [125, 125]))) ++ sp' by simp]
        exact apart_sp hs' (by intro x hx; simp [List.getLast?_cons, List.getLast?_append] at hx; subst hx; rfl)
  rcases oo_inv g with g | ⟨_, g⟩
  · obtain ⟨i1, _, _, h1, g1, rfl⟩ := cc_inv (cc_of g)
    obtain ⟨rfl, _⟩ := tok_inv (nt_inv (b := tok [123] idBRACEO) rfl h1)
    exact .inl fun capg m => by
      rw [compileRe.eq_def]
      simp [cid, idExpression, idPattern, idGrammar, idSequence, idPrefix, idSuffix, idPrimary, idOPEN, idIdentifier, idLiteral,
        idClass, idBRACEPO, idDOT, idBRACEO]
  rcases oo_inv g with g | ⟨_, g⟩
  · obtain ⟨ch, rfl, gl⟩ := cap_inv (nt_inv (b := dLiteral) rfl g)
    have key : ∀ q : UInt8, q = 39 ∨ q = 34 → Ford d E (quoted q) i (some (j, ch)) →
        ∃ p t, PrimS p t ∧ Cut d i t j ∧ Apart t (d.drop j) := fun q hq g => by
      obtain ⟨_, bs, t, sp, ht, hs, k⟩ := quoted_inv ho g
      refine ⟨.lit bs, _, .lit hq ht hs, k, ?_⟩
      rw [show (q :: (t ++ sp) : List UInt8) = (q :: t) ++ sp by simp]
      refine apart_sp hs fun x hx => ?_
      have : x = q := by
        clear g k
        induction ht with
        | nil => simpa using hx.symm
        | @cons b bs t rest hc _ hl' ihl =>
          apply ihl
          have : rest ≠ [] := by cases hl' with
            | nil => simp
            | cons h => exact fun e => charS_ne h (List.append_eq_nil_iff.1 e).1
          rw [← List.cons_append, last_append this] at hx
          rw [← List.singleton_append, last_append this]
          exact hx
      rcases hq with rfl | rfl <;> subst this <;> rfl
    rcases oo_inv (oo_of gl) with g | ⟨_, g⟩
    · exact .inr (key 39 (.inl rfl) g)
    · exact .inr (key 34 (.inr rfl) (oo_last g))
  rcases oo_inv g with g | ⟨_, g⟩
  · obtain ⟨_, ch, rfl, rfl | ⟨neg, its, u, t, sp, h1, h2, h3, h4, h5, hs, k⟩⟩ := class_inv hl ho g
    · exact .inl fun capg m => by
        rw [cr_primary (.inr (.inr rfl)), compileRe.eq_def]
        simp [idExpression, idPattern, idGrammar, idSequence, idPrefix, idSuffix, idPrimary, idLiteral, idClass]
    · refine .inr ⟨.cls neg its, _, .cls h1 h2 h3 h4 h5 hs, k, ?_⟩
      rw [show (91 :: (u ++ (t ++ sp)) : List UInt8) = (91 :: (u ++ t)) ++ sp by simp]
      refine apart_sp hs fun x hx => ?_
      have ht := itemsS_ne h2
      rw [← List.cons_append, last_append ht] at hx
      have : x = 93 := by
        clear h3 h4 h5 k ht
        induction h2 with
        | nil => simpa using hx.symm
        | @one b t rest its _ _ _ hi ihl =>
          rw [last_append (itemsS_ne hi)] at hx
          exact ihl hx
        | @range a b t u rest its _ _ _ hi ihl =>
          rw [← List.cons_append, ← List.append_assoc, last_append (itemsS_ne hi)] at hx
          exact ihl hx
      subst this; rfl
  · obtain ⟨rfl, _, sp, hs, k⟩ := tok_inv (nt_inv (b := tok [46] idDOT) rfl (oo_last g))
    refine .inr ⟨.dot, _, .dot hs, k, ?_⟩
    exact apart_sp hs (s := [46]) (by intro x hx; simp at hx; subst hx; rfl)

theorem primS_ne {p : Prim} {t : List UInt8} (h : PrimS p t) : t ≠ [] := by
  cases h with
  | ident hn => obtain ⟨b, l, rfl, _⟩ := hn; simp
  | _ => simp

theorem suffix_inv (hl : Lines d) (ho : LowOctal d) (ih : ∀ k, d.length - k < d.length - i → ExprAt d k)
    (h : Ford d E (.nonterm "Suffix") i (some (j, cs))) :
    ∃ c, cs = [c] ∧ cid c = idSuffix ∧ (Nil d c ∨ ∃ p suf t u, PrimS p t ∧ SufS suf u ∧ Cut d i (t ++ u) j ∧
      Apart (t ++ u) (d.drop j)) := by
  obtain ⟨ch, rfl, g⟩ := cap_inv (nt_inv (b := dSuffix) rfl h)
  refine ⟨_, rfl, rfl, ?_⟩
  obtain ⟨i1, _, _, h1, g1, rfl⟩ := cc_inv (cc_of g)
  obtain ⟨c, rfl, hc⟩ := primary_inv hl ho ih h1
  have key : ∀ (id : Int) (b : UInt8) (suf : Suf) (cs : List CTree), (id = idQUESTION ∨ id = idSTAR ∨ id = idPLUS) →
      isCont b = false → (∀ sp, Sp sp → SufS suf (b :: sp)) → Ford d E (tok [b] id) i1 (some (j, cs)) →
      (Nil d (.node idSuffix i (j - i) ([c] ++ cs)) ∨ ∃ p suf t u, PrimS p t ∧ SufS suf u ∧ Cut d i (t ++ u) j ∧
        Apart (t ++ u) (d.drop j)) := fun id b suf cs hid hb hsuf g => by
    obtain ⟨rfl, _, sp, hs, k⟩ := tok_inv g
    rcases hc with hc | ⟨p, t, hp, k', _⟩
    · refine .inl fun capg m => ?_
      rcases hid with rfl | rfl | rfl
      · show (compileRe capg d (.node idSuffix _ _ [c, _]) m).1 = none
        rw [cr_opt rfl, hc capg m]; rfl
      · show (compileRe capg d (.node idSuffix _ _ [c, _]) m).1 = none
        rw [cr_star rfl, hc capg m]; rfl
      · show (compileRe capg d (.node idSuffix _ _ [c, _]) m).1 = none
        rw [cr_plus rfl, hc capg m]; rfl
    · refine .inr ⟨p, suf, t, b :: sp, hp, hsuf sp hs, k'.trans k, apart_tail (by simp) ?_⟩
      exact apart_sp (s := [b]) hs (by intro x hx; simp at hx; subst hx; exact hb)
  rcases opt_inv (cc1 g1) with g2 | ⟨_, rfl, rfl⟩
  · rcases oo_inv (oo_of g2) with g | ⟨_, g⟩
    · exact key _ 63 .opt _ (.inl rfl) rfl (fun _ => .opt) (nt_inv (b := tok [63] idQUESTION) rfl g)
    rcases oo_inv g with g | ⟨_, g⟩
    · exact key _ 42 .star _ (.inr (.inl rfl)) rfl (fun _ => .star) (nt_inv (b := tok [42] idSTAR) rfl g)
    · exact key _ 43 .plus _ (.inr (.inr rfl)) rfl (fun _ => .plus) (nt_inv (b := tok [43] idPLUS) rfl (oo_last g))
  · rcases hc with hc | ⟨p, t, hp, k', ha⟩
    · refine .inl fun capg m => ?_
      show (compileRe capg d (.node idSuffix _ _ [c]) m).1 = none
      rw [cr_suffix]; exact hc capg m
    · exact .inr ⟨p, .none, t, [], hp, .none, by simpa using k', by simpa using ha⟩

theorem prefix_inv (hl : Lines d) (ho : LowOctal d) (ih : ∀ k, d.length - k < d.length - i → ExprAt d k)
    (h : Ford d E (.nonterm "Prefix") i (some (j, cs))) :
    ∃ c, cs = [c] ∧ (Nil d c ∨ ∃ pre p suf a t u, PreS pre a ∧ PrimS p t ∧ SufS suf u ∧ Cut d i (a ++ (t ++ u)) j ∧
      Apart (t ++ u) (d.drop j)) := by
  obtain ⟨ch, rfl, g⟩ := cap_inv (nt_inv (b := dPrefix) rfl h)
  refine ⟨_, rfl, ?_⟩
  obtain ⟨i1, _, _, h1, g1, rfl⟩ := cc_inv (cc_of g)
  have hle := ford_le h1 _ _ rfl
  obtain ⟨c, rfl, hid, hc⟩ := suffix_inv hl ho (fun k hk => ih k (by omega)) (cc1 g1)
  have key : ∀ (id : Int) (b : UInt8) (pre : Pre) (cs : List CTree), (id = idAND ∨ id = idNOT) →
      (∀ sp, Sp sp → PreS pre (b :: sp)) → Ford d E (tok [b] id) i (some (i1, cs)) →
      (Nil d (.node idPrefix i (j - i) (cs ++ [c])) ∨ ∃ pre p suf a t u, PreS pre a ∧ PrimS p t ∧ SufS suf u ∧
        Cut d i (a ++ (t ++ u)) j ∧ Apart (t ++ u) (d.drop j)) := fun id b pre cs hid hpre g => by
    obtain ⟨rfl, _, sp, hs, k⟩ := tok_inv g
    rcases hc with hc | ⟨p, suf, t, u, hp, hsuf, k', ha⟩
    · refine .inl fun capg m => ?_
      rcases hid with rfl | rfl
      · show (compileRe capg d (.node idPrefix _ _ (_ :: c :: [])) m).1 = none
        rw [cr_and rfl, hc capg m]; rfl
      · show (compileRe capg d (.node idPrefix _ _ (_ :: c :: [])) m).1 = none
        rw [cr_not rfl, hc capg m]; rfl
    · exact .inr ⟨pre, p, suf, b :: sp, t, u, hpre sp hs, hp, hsuf, k.trans k', ha⟩
  rcases opt_inv h1 with g2 | ⟨_, rfl, rfl⟩
  · rcases oo_inv (oo_of g2) with g | ⟨_, g⟩
    · exact key _ 38 .and _ (.inl rfl) (fun _ => .and) (nt_inv (b := tok [38] idAND) rfl g)
    · exact key _ 33 .not _ (.inr rfl) (fun _ => .not) (nt_inv (b := tok [33] idNOT) rfl (oo_last g))
  · rcases hc with hc | ⟨p, suf, t, u, hp, hsuf, k', ha⟩
    · refine .inl fun capg m => ?_
      show (compileRe capg d (.node idPrefix _ _ (c :: [])) m).1 = none
      rw [cr_prefix (by rw [hid]; decide) (by rw [hid]; decide)]; exact hc capg m
    · exact .inr ⟨.none, p, suf, [], t, u, .none, hp, hsuf, k', ha⟩

/-- A text, and the text after it. -/
theorem Apart.cut {s t : List UInt8} (h : Apart s (d.drop i)) (k : Cut d i t j) : Apart s t := by
  cases t with
  | nil => intro x y _ hy; cases hy
  | cons b l => intro x y hx hy; exact h x y hx (by rw [k.head (by simp)]; exact hy)

theorem reps_prefix_inv (hl : Lines d) (ho : LowOctal d) (h : Reps d (.nonterm "Prefix") i j cs)
    (ih : ∀ k, d.length - k < d.length - i → ExprAt d k) :
    (∃ c ∈ cs, Nil d c) ∨ ∃ s t, SeqS s t ∧ Cut d i t j ∧ Apart t (d.drop j) := by
  induction h with
  | nil => exact .inr ⟨.nil, [], .nil, .nil, fun x y hx => by cases hx⟩
  | @cons a b e cs cs' h1 _ ihr =>
    have hle := ford_le h1 _ _ rfl
    obtain ⟨c, rfl, hc⟩ := prefix_inv hl ho ih h1
    rcases ihr (fun k hk => ih k (by omega)) with ⟨x, hx, hn⟩ | ⟨s, t, hs, k, ha⟩
    · exact .inl ⟨x, by simp [hx], hn⟩
    rcases hc with hc | ⟨pre, p, suf, v, t', u, h1, h2, h3, k', ha'⟩
    · exact .inl ⟨c, by simp, hc⟩
    · refine .inr ⟨.cons pre p suf s, _, .cons h1 h2 h3 hs (ha'.cut k), by simpa using k'.trans k, ?_⟩
      cases t with
      | nil =>
        obtain rfl : b = e := by have := k.2; simp at this; exact this.symm
        by_cases htu : t' ++ u = []
        · simp only [List.append_nil, htu]
          obtain ⟨rfl, rfl⟩ := List.append_eq_nil_iff.1 htu
          exact absurd rfl (primS_ne h2)
        · rw [List.append_nil]
          exact apart_tail htu ha'
      | cons x l =>
        rw [show v ++ (t' ++ (u ++ x :: l)) = (v ++ (t' ++ u)) ++ x :: l by simp]
        exact apart_tail (by simp) ha

theorem sequence_inv (hl : Lines d) (ho : LowOctal d) (ih : ∀ k, d.length - k < d.length - i → ExprAt d k)
    (h : Ford d E (.nonterm "Sequence") i (some (j, cs))) :
    ∃ c, cs = [c] ∧ (Nil d c ∨ ∃ s t, SeqS s t ∧ Cut d i t j ∧ Apart t (d.drop j)) := by
  obtain ⟨ch, rfl, g⟩ := cap_inv (nt_inv (b := dSequence) rfl h)
  refine ⟨_, rfl, ?_⟩
  rcases reps_prefix_inv hl ho (star_inv g) ih with ⟨c, hc, hn⟩ | h
  · refine .inl fun capg m => ?_
    have := compileAll_nil hn ch hc capg m
    rw [compileRe.eq_def]
    simp only [idExpression, idPattern, idGrammar, idSequence]
    generalize compileAll capg d ch m = r at this
    obtain ⟨r1, r2⟩ := r
    simp only at this
    subst this
    rfl
  · exact .inr h

theorem reps_slash_inv (hl : Lines d) (ho : LowOctal d) {p : Pat} (hp : p = concatPat [.nonterm "SLASH", .nonterm "Sequence"])
    (h : Reps d p i j cs) (ih : ∀ k, d.length - k < d.length - i → ExprAt d k) :
    (∃ c ∈ cs, Nil d c) ∨ (∀ s t k, SeqS s t → Cut d k t i → Apart t (d.drop i) →
      ∃ e u, ExprS e u ∧ Cut d k u j ∧ Apart u (d.drop j)) := by
  induction h with
  | nil => exact .inr fun s t k hs hk ha => ⟨.one s, t, .one hs, hk, ha⟩
  | @cons a b e cs cs' h1 _ ihr =>
    have hle := ford_le h1 _ _ rfl
    subst hp
    obtain ⟨i1, _, _, hs1, g, rfl⟩ := cc_inv (cc_of h1)
    obtain ⟨rfl, _, sp, hsp, k1⟩ := tok0_inv (nt_inv (b := tok0 [47]) rfl hs1)
    have := cut_lt k1
    obtain ⟨c, rfl, hc⟩ := sequence_inv hl ho (fun k hk => ih k (by omega)) (cc1 g)
    rcases ihr (fun k hk => ih k (by omega)) with ⟨x, hx, hn⟩ | hr
    · exact .inl ⟨x, by simp [hx], hn⟩
    rcases hc with hc | ⟨s', t', hs', k2, ha'⟩
    · exact .inl ⟨c, by simp, hc⟩
    · obtain ⟨e', u, he, k3, ha⟩ := hr s' t' i1 hs' k2 ha'
      refine .inr fun s t k hs hk _ => ⟨.alt s e', _, .alt hs hsp he, by simpa using hk.trans (k1.trans k3), ?_⟩
      by_cases hu : u = []
      · subst hu
        rw [show t ++ 47 :: (sp ++ []) = (t ++ [47]) ++ sp by simp]
        exact apart_sp hsp (by intro x hx; simp [List.getLast?_append] at hx; subst hx; rfl)
      · rw [show t ++ 47 :: (sp ++ u) = (t ++ 47 :: sp) ++ u by simp]
        exact apart_tail hu ha

theorem exprAt (hl : Lines d) (ho : LowOctal d) (i : Nat) : ExprAt d i := by
  generalize hn : d.length - i = n
  induction n using Nat.strongRecOn generalizing i with
  | _ n ih =>
    subst hn
    intro j cs h
    obtain ⟨ch, rfl, g⟩ := cap_inv (nt_inv (b := dExpression) rfl h)
    refine ⟨_, rfl, ?_⟩
    obtain ⟨i1, c1, c2, h1, g1, rfl⟩ := cc_inv (cc_of g)
    have hle := ford_le h1 _ _ rfl
    have ih' : ∀ k, d.length - k < d.length - i → ExprAt d k := fun k hk => ih _ hk k rfl
    obtain ⟨c, rfl, hc⟩ := sequence_inv hl ho ih' h1
    have nil : ∀ x ∈ [c] ++ c2, Nil d x → Nil d (.node idExpression i (j - i) ([c] ++ c2)) := fun x hx hn capg m => by
      have := compileAll_nil hn _ hx capg m
      rw [compileRe.eq_def]
      simp only [idExpression, idPattern, idGrammar]
      generalize compileAll capg d ([c] ++ c2) m = r at this
      obtain ⟨r1, r2⟩ := r
      simp only at this
      subst this
      rfl
    rcases reps_slash_inv hl ho rfl (star_inv (cc1 g1)) (fun k hk => ih' k (by omega)) with ⟨x, hx, hn⟩ | hr
    · exact .inl (nil x (by simp [hx]) hn)
    rcases hc with hc | ⟨s, t, hs, k, ha⟩
    · exact .inl (nil c (by simp) hc)
    · exact .inr (hr s t i hs k ha)

/-! ## Grammars -/

theorem reps_def_inv (hl : Lines d) (ho : LowOctal d) (h : Reps d (.nonterm "Definition") i j cs) :
    (∀ capg m, (compileDefs capg d cs m).1 = none) ∨ ∃ g t, GramS g t ∧ Cut d i t j ∧ (g = [] → cs = []) := by
  induction h with
  | nil => exact .inr ⟨[], [], .nil, .nil, fun _ => rfl⟩
  | @cons a b e cs cs' h1 _ ihr =>
    obtain ⟨ch, rfl, g⟩ := cap_inv (nt_inv (b := dDefinition) rfl h1)
    obtain ⟨i1, _, _, hs1, g1, rfl⟩ := cc_inv (cc_of g)
    obtain ⟨i2, _, _, hs2, g2, rfl⟩ := cc_inv g1
    obtain ⟨ch, rfl, _, n, sp, hn, hs, k1, _⟩ := ident_inv hs1
    obtain ⟨rfl, _, sp', hs', k2⟩ := tok0_inv (nt_inv (b := tok0 [60, 45]) rfl hs2)
    obtain ⟨c, rfl, hc⟩ := exprAt hl ho i2 _ _ (cc1 g2)
    rcases hc with hc | ⟨ex, t, he, k3, ha⟩
    · refine .inl fun capg m => ?_
      show (compileDefs capg d (.node _ _ _ (_ :: c :: []) :: cs') m).1 = none
      simp only [compileDefs, hc capg m, Option.bind_none]
    rcases ihr with hr | ⟨g, u, hg, k4, _⟩
    · refine .inl fun capg m => ?_
      show (compileDefs capg d (.node _ _ _ (_ :: c :: []) :: cs') m).1 = none
      simp only [compileDefs, hr capg, Option.map_none]
      cases (compileRe capg d c m).1 <;> rfl
    · refine .inr ⟨(n, ex) :: g, _, .cons hn hs hs' he hg (ha.cut k4), ?_, by simp⟩
      simpa using k1.trans (k2.trans (k3.trans k4))

/-- The text is one of the syntax: spacing, then an expression, or one or more definitions. -/
def InSyntax (text : List UInt8) : Prop := ∃ sp t, text = sp ++ t ∧ Sp sp ∧ ((∃ e, ExprS e t) ∨ ∃ g, g ≠ [] ∧ GramS g t)

theorem pattern_inv (hl : Lines d) (ho : LowOctal d) (h : Ford d [] reGrammar 0 (some (j, cs))) :
    j = d.length ∧ ∃ c, cs = [c] ∧ (Nil d c ∨ InSyntax d) := by
  have h' : Ford d E dPattern 0 (some (j, cs)) := by
    cases h with
    | grammar h1 h2 => cases h1; exact h2
  obtain ⟨ch, rfl, g⟩ := cap_inv h'
  obtain ⟨i1, _, _, h1, g1, rfl⟩ := cc_inv (cc_of g)
  obtain ⟨i2, _, _, h2, g2, rfl⟩ := cc_inv g1
  obtain ⟨rfl, _, sp, hs, k1⟩ := spacing_inv h1
  obtain ⟨hno, rfl, rfl⟩ := not_inv (nt_inv (b := dEndOfFile) rfl (cc1 g2))
  have hj : d.length ≤ j := by
    cases hd : d.drop j with
    | nil => simpa using hd
    | cons b l => cases hno.det (dot_ok hd)
  have hj' : j ≤ d.length := ford_end h _ _ rfl (Nat.zero_le _)
  obtain rfl : j = d.length := by omega
  refine ⟨rfl, _, rfl, ?_⟩
  have all : ∀ {t : List UInt8}, Cut d i1 t d.length → d = sp ++ t := fun k2 => by
    have := (k1.trans k2).1
    simpa using this
  rcases oo_inv (oo_of h2) with g | ⟨_, g⟩
  · obtain ⟨ch, rfl, gp⟩ := cap_inv (nt_inv (b := dGrammar) rfl g)
    have hr : Reps d (.nonterm "Definition") i1 d.length ch ∧ ch ≠ [] := by
      cases gp with
      | plusOk gd gs =>
        refine ⟨.cons gd (star_inv gs), ?_⟩
        obtain ⟨_, rfl, _⟩ := cap_inv (nt_inv (b := dDefinition) rfl gd)
        simp
    rcases reps_def_inv hl ho hr.1 with hn | ⟨g, t, hg, k2, hne⟩
    · refine .inl fun capg m => ?_
      show (compileRe capg d (.node idPattern _ _ (.node idGrammar _ _ ch :: [])) m).1 = none
      have := hn capg m
      rw [cr_pattern, compileRe.eq_def]
      simp only [idPattern, idGrammar]
      generalize compileDefs capg d ch m = r at this
      obtain ⟨r1, r2⟩ := r
      simp only at this
      subst this
      rfl
    · exact .inr ⟨sp, t, all k2, hs, .inr ⟨g, fun e => hr.2 (hne e), hg⟩⟩
  · obtain ⟨c, rfl, hc | ⟨e, t, he, k2, _⟩⟩ := exprAt hl ho i1 _ _ (oo_last g)
    · refine .inl fun capg m => ?_
      show (compileRe capg d (.node idPattern _ _ (c :: [])) m).1 = none
      rw [cr_pattern]; exact hc capg m
    · exact .inr ⟨sp, t, all k2, hs, .inl ⟨e, he⟩⟩

end Gpeg.Re
