import Verif.ReSpec
import Verif.Props.Construct
/-! # The parser of the `re` syntax on texts that write a syntax tree -/
namespace Gpeg.Re

/-- The environment inside of `reGrammar`. -/
abbrev E : Env := [defs]

variable {d : List UInt8} {i : Nat}

theorem ford_of {env : Env} {p : Pat} {x y : Option (Nat × List CTree)} (h : Ford d env p i x) (e : x = y) :
    Ford d env p i y := e ▸ h

theorem drop_add {s r : List UInt8} (h : d.drop i = s ++ r) : d.drop (i + s.length) = r := by
  rw [← List.drop_drop, h, List.drop_left]

theorem drop_cons {b : UInt8} {r : List UInt8} (h : d.drop i = b :: r) : d.drop (i + 1) = r :=
  drop_add (s := [b]) h

theorem get_drop {b : UInt8} {r : List UInt8} (h : d.drop i = b :: r) : d[i]? = some b := by
  have := congrArg List.head? h
  rwa [List.head?_drop] at this

theorem lt_drop {b : UInt8} {r : List UInt8} (h : d.drop i = b :: r) : i + 1 ≤ d.length := by
  have := congrArg List.length h
  simp at this; omega

section
variable {env : Env}

theorem lit_ok (s : List UInt8) {r : List UInt8} (h : d.drop i = s ++ r) : Ford d env (.lit s) i (some (i + s.length, [])) :=
  .litOk (h ▸ List.prefix_append s r)

theorem lit1_ok {b : UInt8} {r : List UInt8} (h : d.drop i = b :: r) : Ford d env (.lit [b]) i (some (i + 1, [])) :=
  lit_ok [b] h

theorem lit_no {b : UInt8} {s : List UInt8} (h : (d.drop i).head? ≠ some b) : Ford d env (.lit (b :: s)) i none := by
  refine .litFail fun hc => h ?_
  obtain ⟨t, e⟩ := hc
  rw [← e]; rfl

theorem cls_ok {b : UInt8} {r : List UInt8} {cs : CSet} (h : d.drop i = b :: r) (hb : cs.has b = true) :
    Ford d env (.cls cs) i (some (i + 1, [])) := .clsOk (get_drop h) hb

theorem cls_no {cs : CSet} (h : ∀ y, (d.drop i).head? = some y → cs.has y = false) : Ford d env (.cls cs) i none :=
  .clsFail fun b hb => h b (by rw [List.head?_drop]; exact hb)

theorem dot_ok {b : UInt8} {r : List UInt8} (h : d.drop i = b :: r) : Ford d env (.dot 1) i (some (i + 1, [])) :=
  .dotOk (n := 1) (lt_drop h)

theorem dot_no (h : d.drop i = []) : Ford d env (.dot 1) i none :=
  .dotFail (n := 1) (by have := List.drop_eq_nil_iff.1 h; show d.length < i + 1; omega)

end

theorem nt {n : String} {b : Pat} {x : Option (Nat × List CTree)} (hl : lookupNT n E = some (b, E))
    (h : Ford d E b i x) : Ford d E (.nonterm n) i x := .nonterm hl h

/-- `Concat`, `Or`. -/
theorem cc {ps : List Pat} {x : Option (Nat × List CTree)} (h : FSeq d E ps i x) : Ford d E (concatPat ps) i x :=
  (C43_concat _ _ _).2 h
theorem oo {p : Pat} {ps : List Pat} {x : Option (Nat × List CTree)} (h : FAlt d E (p :: ps) i x) :
    Ford d E (orPat (p :: ps)) i x := (C43_or _ _ _ _).2 h

/-! ## Spacing -/

/-- What may follow spacing. -/
def NoSp (r : List UInt8) : Prop := ∀ y, r.head? = some y → blank y = false ∧ y ≠ 35

theorem eol_no (h : ∀ y, (d.drop i).head? = some y → y ≠ 10 ∧ y ≠ 13) : Ford d E (.nonterm "EndOfLine") i none :=
  nt rfl <| oo <|
    .next (lit_no fun h' => (h _ h').2 rfl) <| .next (lit_no fun h' => (h _ h').1 rfl) <|
    .next (lit_no fun h' => (h _ h').2 rfl) .nil

/-- A line end: one byte or two. -/
theorem eol_ok {b : UInt8} {l : List UInt8} (hb : b = 10 ∨ b = 13) (h : d.drop i = b :: l) :
    Ford d E (.nonterm "EndOfLine") i (some (i + 1, [])) ∨
      (∃ l', l = 10 :: l' ∧ Ford d E (.nonterm "EndOfLine") i (some (i + 2, []))) := by
  rcases hb with rfl | rfl
  · refine .inl <| nt rfl <| oo <| .next (lit_no (by rw [h]; simp)) <| .here (lit1_ok h)
  · by_cases hl : ∃ l', l = 10 :: l'
    · obtain ⟨l', rfl⟩ := hl
      exact .inr ⟨l', rfl, nt rfl <| oo <| .here (lit_ok [13, 10] h)⟩
    · refine .inl <| nt rfl <| oo <| .next (.litFail ?_) <| .next (lit_no (by rw [h]; simp)) <| .here (lit1_ok h)
      rintro ⟨t, e⟩
      rw [h] at e
      simp at e
      exact hl ⟨t, e.symm⟩

theorem comment_body {c r : List UInt8} (hc : ∀ x ∈ c, x ≠ 10 ∧ x ≠ 13) {b : UInt8} (hb : b = 10 ∨ b = 13) :
    ∀ {i}, d.drop i = c ++ b :: r → Ford d E (.star (concatPat [.not (.nonterm "EndOfLine"), .dot 1])) i
      (some (i + c.length, [])) := by
  induction c with
  | nil =>
    intro i h
    refine .starEnd (cc (.fail (?_)))
    rcases eol_ok hb h with h' | ⟨_, _, h'⟩
    · exact .notFail h'
    · exact .notFail h'
  | cons x c ih =>
    intro i h
    have hx := hc x List.mem_cons_self
    have h1 : Ford d E (concatPat [.not (.nonterm "EndOfLine"), .dot 1]) i (some (i + 1, [])) :=
      cc (.cons (.notOk (eol_no (by rw [h]; simpa using hx))) (.cons (dot_ok h) .nil))
    have h2 := ih (fun y hy => hc y (List.mem_cons_of_mem _ hy)) (drop_cons h)
    refine ford_of (.starStep h1 h2) ?_
    simp; omega

theorem blank_ne {b : UInt8} (h : blank b = false) : b ≠ 32 ∧ b ≠ 9 ∧ b ≠ 10 ∧ b ≠ 13 := by
  simpa [blank, and_assoc] using h

theorem space_no {r : List UInt8} (h : d.drop i = r) (hr : NoSp r) : Ford d E (.nonterm "Space") i none := by
  refine nt rfl <| oo <| .next (cls_no fun y hy => ?_) <| .next (eol_no fun y hy => ?_) .nil
  · rw [h] at hy
    have := blank_ne (hr y hy).1
    rw [CSet.has_new]; simp [this]
  · rw [h] at hy
    have := blank_ne (hr y hy).1
    exact ⟨this.2.2.1, this.2.2.2⟩

theorem comment_no {r : List UInt8} (h : d.drop i = r) (hr : r.head? ≠ some 35) : Ford d E (.nonterm "Comment") i none :=
  nt rfl <| cc <| .fail (lit_no (by rw [h]; exact hr))

/-- The body of `Spacing` at a blank or comment: it leaves spacing. -/
theorem spacing_star {sp r : List UInt8} (hs : Sp sp) (hr : NoSp r) : ∀ {i}, d.drop i = sp ++ r →
    Ford d E dSpacing i (some (i + sp.length, [])) := by
  induction hm : sp.length using Nat.strongRecOn generalizing sp with
  | ind m ih =>
    subst hm
    -- after a line end
    have after : ∀ {b : UInt8} {l : List UInt8} {q : Nat}, b = 10 ∨ b = 13 → Sp l → l.length < sp.length →
        d.drop q = b :: (l ++ r) → ∃ j k, Ford d E (.nonterm "EndOfLine") q (some (j, [])) ∧
          Ford d E dSpacing j (some (k, [])) ∧ k = q + 1 + l.length := by
      intro b l q hb hl hlen hq
      rcases eol_ok hb hq with h | ⟨l', e, h⟩
      · exact ⟨_, _, h, ih _ hlen hl rfl (drop_cons hq), by omega⟩
      · cases hl with
        | nil => exact absurd (hr 10 (by rw [show r = 10 :: l' from e]; rfl)).1 (by decide)
        | @blank b' l'' hb' hl' =>
          rw [List.cons_append] at e
          injection e with e1 e2
          subst e1
          refine ⟨_, _, h, ih l''.length (by simp at hlen; omega) hl' rfl ?_, by simp; omega⟩
          have := drop_cons (drop_cons hq)
          exact this
        | comment => rw [List.cons_append] at e; injection e with e1 _; cases e1
    intro i h
    cases hs with
    | nil =>
      refine .starEnd <| oo <| .next (space_no h hr) <| .next (comment_no h fun h' => ?_) .nil
      exact (hr 35 h').2 rfl
    | @blank b l hb hl =>
      by_cases hb2 : b = 32 ∨ b = 9
      · have h1 : Ford d E (orPat [.nonterm "Space", .nonterm "Comment"]) i (some (i + 1, [])) := by
          refine oo <| .here <| nt rfl <| oo <| .here <| cls_ok h ?_
          rw [CSet.has_new]
          rcases hb2 with rfl | rfl <;> decide
        have h2 := ih l.length (by simp) hl rfl (drop_cons h)
        refine ford_of (.starStep h1 h2) ?_
        simp; omega
      · have hb3 : b = 10 ∨ b = 13 := by
          simp only [blank, Bool.or_eq_true, beq_iff_eq] at hb
          rcases hb with ((hb | hb) | hb) | hb
          · exact absurd (.inl hb) hb2
          · exact absurd (.inr hb) hb2
          · exact .inl hb
          · exact .inr hb
        obtain ⟨j, k, h1, h2, e⟩ := after hb3 hl (by simp) h
        have h3 : Ford d E (orPat [.nonterm "Space", .nonterm "Comment"]) i (some (j, [])) := by
          refine oo <| .here <| nt rfl <| oo <| .next (cls_no fun y hy => ?_) <| .here h1
          rw [h] at hy
          simp at hy; subst hy
          rw [CSet.has_new]
          rcases hb3 with rfl | rfl <;> decide
        refine ford_of (.starStep h3 h2) ?_
        simp [e]; omega
    | @comment c b l hc hb hl =>
      have hsp : Ford d E (.nonterm "Space") i none := by
        refine nt rfl <| oo <| .next (cls_no fun y hy => ?_) <| .next (eol_no fun y hy => ?_) .nil
        · rw [h] at hy; simp at hy; subst hy; rw [CSet.has_new]; decide
        · rw [h] at hy; simp at hy; subst hy; decide
      have hd1 : d.drop (i + 1) = c ++ b :: (l ++ r) := by
        have := drop_cons h
        simpa using this
      have hd2 := drop_add hd1
      obtain ⟨j, k, h1, h2, e⟩ := after hb hl (by simp; omega) hd2
      have h3 : Ford d E (orPat [.nonterm "Space", .nonterm "Comment"]) i (some (j, [])) := by
        refine oo <| .next hsp <| .here <| nt rfl ?_
        exact cc (.cons (lit1_ok h) (.cons (comment_body hc hb hd1) (.cons h1 .nil)))
      refine ford_of (.starStep h3 h2) ?_
      simp [e]; omega

theorem spacing {sp r : List UInt8} (hs : Sp sp) (hr : NoSp r) (h : d.drop i = sp ++ r) :
    Ford d E (.nonterm "Spacing") i (some (i + sp.length, [])) := nt rfl (spacing_star hs hr h)

/-! ## Tokens -/

theorem tok0_ok (s : List UInt8) {sp r : List UInt8} (hs : Sp sp) (hr : NoSp r) (h : d.drop i = s ++ (sp ++ r)) :
    Ford d E (tok0 s) i (some (i + s.length + sp.length, [])) :=
  cc (.cons (lit_ok s h) (.cons (spacing hs hr (drop_add h)) .nil))

theorem tok_ok (s : List UInt8) (id : Int) {sp r : List UInt8} (hs : Sp sp) (hr : NoSp r)
    (h : d.drop i = s ++ (sp ++ r)) :
    Ford d E (tok s id) i (some (i + s.length + sp.length, [.node id i (s.length + sp.length) []])) := by
  refine ford_of (.capOk (tok0_ok s hs hr h)) ?_
  simp; omega

theorem tok0_no {b : UInt8} {s : List UInt8} (h : (d.drop i).head? ≠ some b) : Ford d E (tok0 (b :: s)) i none :=
  cc (.fail (lit_no h))

theorem tok_no {b : UInt8} {s : List UInt8} {id : Int} (h : (d.drop i).head? ≠ some b) :
    Ford d E (tok (b :: s) id) i none := .capFail (tok0_no h)

/-! ## Identifiers -/

theorem has_start (b : UInt8) : startSet.has b = isStart b := by
  unfold startSet isStart
  rw [CSet.has_add, CSet.has_add, CSet.has_range, CSet.has_range, CSet.has_new]
  simp [Bool.beq_eq_decide_eq]

theorem has_digit (b : UInt8) : (CSet.range 48 57).has b = (48 ≤ b && b ≤ 57) := by
  rw [CSet.has_range]; simp

theorem identStart_ok {b : UInt8} {r : List UInt8} (hb : isStart b = true) (h : d.drop i = b :: r) :
    Ford d E (.nonterm "IdentStart") i (some (i + 1, [.node idIdentStart i 1 []])) := by
  refine nt rfl (ford_of (.capOk (cls_ok h (by rw [has_start, hb]))) ?_)
  simp

theorem identStart_no (h : ∀ y, (d.drop i).head? = some y → isStart y = false) :
    Ford d E (.nonterm "IdentStart") i none :=
  nt rfl (.capFail (cls_no fun y hy => by rw [has_start]; exact h y hy))

/-- The captures of the characters of an identifier spell it. -/
theorem identCont_star {l r : List UInt8} (hl : ∀ x ∈ l, isCont x = true) (hr : ∀ y, r.head? = some y → isCont y = false) :
    ∀ {i}, d.drop i = l ++ r → ∃ cs, Ford d E (.star (.nonterm "IdentCont")) i (some (i + l.length, cs)) ∧
      cs.flatMap (textOf d) = l := by
  induction l with
  | nil =>
    intro i h
    refine ⟨[], .starEnd <| nt rfl <| .capFail <| oo <| .next (identStart_no fun y hy => ?_) <|
      .next (cls_no fun y hy => ?_) .nil, rfl⟩
    · rw [h] at hy
      have := hr y hy
      simp only [isCont, Bool.or_eq_false_iff] at this
      exact this.1
    · rw [h] at hy
      have := hr y hy
      simp only [isCont, Bool.or_eq_false_iff] at this
      rw [has_digit]; exact this.2
  | cons x l ih =>
    intro i h
    have hx := hl x List.mem_cons_self
    obtain ⟨cs, h2, e⟩ := ih (fun y hy => hl y (List.mem_cons_of_mem _ hy)) (drop_cons h)
    have h1 : ∃ c, Ford d E (.nonterm "IdentCont") i (some (i + 1, [c])) ∧ textOf d c = [x] := by
      by_cases hs : isStart x = true
      · refine ⟨_, nt rfl <| .capOk <| oo <| .here <| identStart_ok hs h, ?_⟩
        simp [textOf, h]
      · refine ⟨_, nt rfl <| .capOk <| oo <| .next (identStart_no fun y hy => ?_) <| .here (cls_ok h ?_), ?_⟩
        · rw [h] at hy; simp at hy; subst hy; simpa using hs
        · rw [has_digit]
          simp only [isCont, Bool.or_eq_true] at hx
          exact hx.resolve_left hs
        · simp [textOf, h]
    obtain ⟨c, h1, ec⟩ := h1
    refine ⟨c :: cs, ford_of (.starStep h1 h2) ?_, ?_⟩
    · simp; omega
    · simp [ec, e]

theorem isName_ne {n : List UInt8} (h : IsName n) : n ≠ [] := by
  obtain ⟨b, l, rfl, _⟩ := h; simp

theorem ident_ok {n sp r : List UInt8} (hn : IsName n) (hs : Sp sp) (hr : NoSp r)
    (ha : ∀ y, (sp ++ r).head? = some y → isCont y = false) (h : d.drop i = n ++ (sp ++ r)) :
    ∃ c, Ford d E (.nonterm "Identifier") i (some (i + n.length + sp.length, [c])) ∧ cid c = idIdentifier ∧
      parseId d c = nameOf n := by
  obtain ⟨b, l, rfl, hb, hl⟩ := hn
  obtain ⟨cs, h2, e⟩ := identCont_star hl ha (drop_cons h)
  have h3 := spacing hs hr (drop_add (drop_cons h))
  refine ⟨.node idIdentifier i ((b :: l).length + sp.length) (.node idIdentStart i 1 [] :: cs),
    nt rfl (ford_of (.capOk (cc (.cons (identStart_ok hb h) (.cons h2 (.cons h3 .nil))))) ?_), rfl, ?_⟩
  · simp [fcons]; omega
  · simp only [parseId, kids, List.flatMap_cons, e, textOf, h]
    rfl

theorem ident_no (h : ∀ y, (d.drop i).head? = some y → isStart y = false) : Ford d E (.nonterm "Identifier") i none :=
  nt rfl <| .capFail <| cc <| .fail (identStart_no h)

/-! ## Characters -/

theorem oct_cases {a : UInt8} (h : isOct a = true) :
    a = 48 ∨ a = 49 ∨ a = 50 ∨ a = 51 ∨ a = 52 ∨ a = 53 ∨ a = 54 ∨ a = 55 := by
  simp only [isOct, Bool.and_eq_true, decide_eq_true_eq, UInt8.le_iff_toNat_le] at h
  simp only [← UInt8.toNat_inj]
  have e : (48 : UInt8).toNat = 48 ∧ (49 : UInt8).toNat = 49 ∧ (50 : UInt8).toNat = 50 ∧ (51 : UInt8).toNat = 51 ∧
    (52 : UInt8).toNat = 52 ∧ (53 : UInt8).toNat = 53 ∧ (54 : UInt8).toNat = 54 ∧ (55 : UInt8).toNat = 55 := by decide
  obtain ⟨e0, e1, e2, e3, e4, e5, e6, e7⟩ := e
  omega

theorem has_oct (b : UInt8) : octSet.has b = isOct b := by
  unfold octSet isOct; rw [CSet.has_range]; simp

theorem has_esc_oct {a : UInt8} (h : isOct a = true) : (CSet.new escSet).has a = false := by
  rw [CSet.has_new]
  rcases oct_cases h with rfl | rfl | rfl | rfl | rfl | rfl | rfl | rfl <;> decide

theorem lookup_oct {a : UInt8} (h : isOct a = true) : special.lookup a = none := by
  rcases oct_cases h with rfl | rfl | rfl | rfl | rfl | rfl | rfl | rfl <;> decide

theorem octLe {a : UInt8} (h : isOct a = true) : 48 ≤ a.toNat ∧ a.toNat ≤ 55 := by
  simp only [isOct, Bool.and_eq_true, decide_eq_true_eq, UInt8.le_iff_toNat_le] at h
  exact h

theorem parseChar_oct {a : UInt8} (h : isOct a = true) (rest : List UInt8) :
    parseChar (92 :: a :: rest) = UInt8.ofNat (parseOctal8 (a :: rest)) := by
  show (match special.lookup a with | some v => v | none => UInt8.ofNat (parseOctal8 (a :: rest))) = _
  rw [lookup_oct h]

/-- **C46**, the part that holds: `parseChar` of an escape or single byte is the byte it denotes. -/
theorem parseChar_spec {b : UInt8} {t rest : List UInt8} (h : CharS b t rest) : parseChar t = b := by
  cases h with
  | raw hb => unfold parseChar; split <;> simp_all
  | esc hc =>
    cases hc with
    | self h =>
      simp only [List.mem_cons, List.not_mem_nil, or_false] at h
      rcases h with rfl | rfl | rfl | rfl | rfl | rfl <;> rfl
    | _ => rfl
  | @oct3 a b c _ ha ha' hb hc =>
    have h1 := octLe ha
    have h2 := octLe hb
    have h3 := octLe hc
    have h4 : a.toNat ≤ 49 := UInt8.le_iff_toNat_le.1 ha'
    rw [parseChar_oct ha, parseOctal8]
    have hall : [a, b, c].all (fun c => 48 ≤ c && c ≤ 55) = true := by
      simp only [List.all_cons, List.all_nil, Bool.and_true, Bool.and_eq_true]
      simp only [isOct, Bool.and_eq_true] at ha hb hc
      exact ⟨ha, hb, hc⟩
    simp only [hall, if_true, List.foldl]
    congr 1
    omega
  | @oct2 a b _ ha hb _ =>
    have h1 := octLe ha
    have h2 := octLe hb
    rw [parseChar_oct ha, parseOctal8]
    have hall : [a, b].all (fun c => 48 ≤ c && c ≤ 55) = true := by
      simp only [List.all_cons, List.all_nil, Bool.and_true, Bool.and_eq_true]
      simp only [isOct, Bool.and_eq_true] at ha hb
      exact ⟨ha, hb⟩
    simp only [hall, if_true, List.foldl]
    congr 1
    omega
  | @oct1 a _ ha _ =>
    have h1 := octLe ha
    rw [parseChar_oct ha, parseOctal8]
    have hall : [a].all (fun c => 48 ≤ c && c ≤ 55) = true := by
      simp only [List.all_cons, List.all_nil, Bool.and_true, Bool.and_eq_true]
      simp only [isOct, Bool.and_eq_true] at ha
      exact ha
    simp only [hall, if_true, List.foldl]
    congr 1
    omega

/-- More text after a nonempty rest does not matter. -/
theorem CharS.mono_rest {b : UInt8} {t rest : List UInt8} (h : CharS b t rest) (r : List UInt8) (hne : rest ≠ [] := by simp) :
    CharS b t (rest ++ r) := by
  have hn : NoOct rest → NoOct (rest ++ r) := by
    intro hn x hx
    cases rest with
    | nil => exact absurd rfl hne
    | cons a rest => exact hn x hx
  cases h with
  | raw h => exact .raw h
  | esc h => exact .esc h
  | oct3 h1 h2 h3 h4 => exact .oct3 h1 h2 h3 h4
  | oct2 h1 h2 h3 => exact .oct2 h1 h2 (h3.imp_right hn)
  | oct1 h1 h2 => exact .oct1 h1 (hn h2)

theorem ford_seq_fail {p : Pat} {ps : List Pat} {j : Nat} (h : Ford d E p i (some (j, []))) (h' : FSeq d E ps j none) :
    FSeq d E (p :: ps) i none := .cons h h'

theorem charS_ne {b : UInt8} {t rest : List UInt8} (h : CharS b t rest) : t ≠ [] := by
  cases h <;> simp

theorem char_tree {b : UInt8} {t rest : List UInt8} (hc : CharS b t rest) (h : d.drop i = t ++ rest) :
    ∃ c, Ford d E (.nonterm "Char") i (some (i + t.length, [c])) ∧ textOf d c = t := by
  have key : Ford d E (orPat [
      concatPat [.lit [92], .cls (CSet.new escSet)],
      concatPat [.lit [92], .cls (CSet.range 48 50), .cls octSet, .cls octSet],
      concatPat [.lit [92], .cls octSet, .opt (.cls octSet)],
      concatPat [.not (.lit [92]), .dot 1]]) i (some (i + t.length, [])) := by
    have hr02 : ∀ {a : UInt8}, isOct a = true → a ≤ 50 → (CSet.range 48 50).has a = true := by
      intro a ha ha'
      rw [CSet.has_range, decide_eq_true_eq]
      simp only [isOct, Bool.and_eq_true, decide_eq_true_eq] at ha
      exact ⟨ha.1, ha'⟩
    cases hc with
    | raw hb =>
      have h92 : (d.drop i).head? ≠ some 92 := by rw [h]; simpa using hb
      exact oo <| .next (cc (.fail (lit_no h92))) <| .next (cc (.fail (lit_no h92))) <|
        .next (cc (.fail (lit_no h92))) <| .here (cc (.cons (.notOk (lit_no h92)) (.cons (dot_ok h) .nil)))
    | @esc _ c _ hc =>
      refine oo <| .here (cc (.cons (lit1_ok h) (.cons (cls_ok (drop_cons h) ?_) .nil)))
      rw [CSet.has_new]
      cases hc with
      | self h =>
        simp only [List.mem_cons, List.not_mem_nil, or_false] at h
        rcases h with rfl | rfl | rfl | rfl | rfl | rfl <;> decide
      | _ => decide
    | @oct3 a b c _ ha ha' hb hc =>
      have hd1 := drop_cons h
      have hd2 := drop_cons hd1
      have hd3 := drop_cons hd2
      have ha50 : a ≤ 50 := UInt8.le_trans ha' (by decide)
      have e1 : FSeq d E [.lit [92], .cls (CSet.new escSet)] i none := by
        refine ford_seq_fail (lit1_ok h) (.fail (cls_no fun y hy => ?_))
        rw [hd1] at hy; simp at hy; subst hy; exact has_esc_oct ha
      exact oo <| .next (cc e1) <| .here <| cc <| .cons (lit1_ok h) <| .cons (cls_ok hd1 (hr02 ha ha50)) <|
        .cons (cls_ok hd2 (by rw [has_oct]; exact hb)) <| .cons (cls_ok hd3 (by rw [has_oct]; exact hc)) .nil
    | @oct2 a b _ ha hb hn =>
      have hd1 := drop_cons h
      have hd2 := drop_cons hd1
      have hd3 := drop_cons hd2
      have e1 : FSeq d E [.lit [92], .cls (CSet.new escSet)] i none := by
        refine ford_seq_fail (lit1_ok h) (.fail (cls_no fun y hy => ?_))
        rw [hd1] at hy; simp at hy; subst hy; exact has_esc_oct ha
      have e2 : FSeq d E [.lit [92], .cls (CSet.range 48 50), .cls octSet, .cls octSet] i none := by
        refine ford_seq_fail (lit1_ok h) ?_
        by_cases h50 : a ≤ 50
        · refine ford_seq_fail (cls_ok hd1 (hr02 ha h50)) (ford_seq_fail (cls_ok hd2 (by rw [has_oct]; exact hb))
            (.fail (cls_no fun y hy => ?_)))
          rw [hd3] at hy
          rw [has_oct]
          rcases hn with hn | hn
          · exact absurd (UInt8.le_trans hn h50) (by decide)
          · exact hn y hy
        · refine .fail (cls_no fun y hy => ?_)
          rw [hd1] at hy; simp at hy; subst hy
          rw [CSet.has_range, decide_eq_false_iff_not]
          exact fun h => h50 h.2
      exact oo <| .next (cc e1) <| .next (cc e2) <| .here <| cc <| .cons (lit1_ok h) <|
        .cons (cls_ok hd1 (by rw [has_oct]; exact ha)) <|
        .cons (.optSome (cls_ok hd2 (by rw [has_oct]; exact hb))) .nil
    | @oct1 a _ ha hn =>
      have hd1 := drop_cons h
      have hd2 := drop_cons hd1
      have hno : ∀ y, (d.drop (i + 1 + 1)).head? = some y → octSet.has y = false := by
        intro y hy
        rw [hd2] at hy
        rw [has_oct]; exact hn y hy
      have e1 : FSeq d E [.lit [92], .cls (CSet.new escSet)] i none := by
        refine ford_seq_fail (lit1_ok h) (.fail (cls_no fun y hy => ?_))
        rw [hd1] at hy; simp at hy; subst hy; exact has_esc_oct ha
      have e2 : FSeq d E [.lit [92], .cls (CSet.range 48 50), .cls octSet, .cls octSet] i none := by
        refine ford_seq_fail (lit1_ok h) ?_
        by_cases h50 : a ≤ 50
        · exact ford_seq_fail (cls_ok hd1 (hr02 ha h50)) (.fail (cls_no hno))
        · refine .fail (cls_no fun y hy => ?_)
          rw [hd1] at hy; simp at hy; subst hy
          rw [CSet.has_range, decide_eq_false_iff_not]
          exact fun h => h50 h.2
      exact oo <| .next (cc e1) <| .next (cc e2) <| .here <| cc <| .cons (lit1_ok h) <|
        .cons (cls_ok hd1 (by rw [has_oct]; exact ha)) <| .cons (.optNone (cls_no hno)) .nil
  refine ⟨.node idChar i t.length [], nt rfl (ford_of (.capOk key) (by simp)), ?_⟩
  rw [textOf, h, List.take_left]

theorem char_ok {b : UInt8} {t rest : List UInt8} (hc : CharS b t rest) (h : d.drop i = t ++ rest) :
    ∃ c, Ford d E (.nonterm "Char") i (some (i + t.length, [c])) ∧ parseChar (textOf d c) = b := by
  obtain ⟨c, h1, h2⟩ := char_tree hc h
  exact ⟨c, h1, by rw [h2]; exact parseChar_spec hc⟩

theorem char_no (h : Ford d E (orPat [
      concatPat [.lit [92], .cls (CSet.new escSet)],
      concatPat [.lit [92], .cls (CSet.range 48 50), .cls octSet, .cls octSet],
      concatPat [.lit [92], .cls octSet, .opt (.cls octSet)],
      concatPat [.not (.lit [92]), .dot 1]]) i none) : Ford d E (.nonterm "Char") i none := nt rfl (.capFail h)

theorem esc_of_has {c : UInt8} (h : (CSet.new escSet).has c = true) : ∃ b, Esc c b := by
  rw [CSet.has_new, List.contains_iff_mem] at h
  simp only [escSet, List.mem_cons, List.not_mem_nil, or_false] at h
  rcases h with rfl | rfl | rfl | rfl | rfl | rfl | rfl | rfl | rfl
  · exact ⟨_, .n⟩
  · exact ⟨_, .r⟩
  · exact ⟨_, .t⟩
  all_goals exact ⟨_, .self (by decide)⟩

/-- Everything `Char` accepts. -/
theorem char_inv {j : Nat} {cs : List CTree} (h : Ford d E (.nonterm "Char") i (some (j, cs))) :
    ∃ t rest, d.drop i = t ++ rest ∧ j = i + t.length ∧
      ((∃ b, CharS b t rest) ∨ ∃ b c, t = [92, 50, b, c] ∧ isOct b = true ∧ isOct c = true) := by
  -- the texts of `CharS`
  have ok : ∀ {b t rest}, CharS b t rest → d.drop i = t ++ rest → ∃ t rest, d.drop i = t ++ rest ∧ j = i + t.length ∧
      ((∃ b, CharS b t rest) ∨ ∃ b c, t = [92, 50, b, c] ∧ isOct b = true ∧ isOct c = true) := by
    intro b t rest hc hd
    obtain ⟨c, h1, _⟩ := char_tree hc hd
    have := h.det h1
    injection this with this
    injection this with h2 _
    exact ⟨t, rest, hd, h2, .inl ⟨b, hc⟩⟩
  have no : ¬ Ford d E (.nonterm "Char") i none := fun h' => by cases h.det h'
  cases hd : d.drop i with
  | nil =>
    have hl : ∀ b : UInt8, (d.drop i).head? ≠ some b := by intro b; rw [hd]; simp
    exact absurd (char_no (oo (.next (cc (.fail (lit_no (hl _)))) (.next (cc (.fail (lit_no (hl _)))) (.next (cc (.fail (lit_no (hl _))))
      (.next (cc (ford_seq_fail (.notOk (lit_no (hl _))) (.fail (dot_no hd)))) .nil)))))) no
  | cons b l =>
    rw [hd] at ok
    by_cases hb : b = 92
    · subst hb
      cases l with
      | nil =>
        have hc : ∀ cs : CSet, Ford d E (.cls cs) (i + 1) none := fun cs => cls_no (by rw [drop_cons hd]; simp)
        exact absurd (char_no (oo (.next (cc (ford_seq_fail (lit1_ok hd) (.fail (hc _))))
          (.next (cc (ford_seq_fail (lit1_ok hd) (.fail (hc _)))) (.next (cc (ford_seq_fail (lit1_ok hd) (.fail (hc _))))
          (.next (cc (.fail (.notFail (lit1_ok hd)))) .nil)))))) no
      | cons c l =>
        by_cases he : (CSet.new escSet).has c = true
        · obtain ⟨b, he⟩ := esc_of_has he
          exact ok (.esc he) rfl
        · by_cases ho : isOct c = true
          · by_cases h1 : NoOct l
            · exact ok (t := [92, c]) (.oct1 ho h1) rfl
            · cases l with
              | nil => exact absurd (by intro x hx; simp at hx) h1
              | cons c1 l =>
                have ho1 : isOct c1 = true := by
                  cases hh : isOct c1 with
                  | true => rfl
                  | false => exact absurd (by intro x hx; simp at hx; subst hx; exact hh) h1
                by_cases h2 : 51 ≤ c ∨ NoOct l
                · exact ok (t := [92, c, c1]) (.oct2 ho ho1 h2) rfl
                · cases l with
                  | nil => exact absurd (.inr (by intro x hx; simp at hx)) h2
                  | cons c2 l =>
                    have ho2 : isOct c2 = true := by
                      cases hh : isOct c2 with
                      | true => rfl
                      | false => exact absurd (.inr (by intro x hx; simp at hx; subst hx; exact hh)) h2
                    by_cases h3 : c ≤ 49
                    · exact ok (t := [92, c, c1, c2]) (.oct3 ho h3 ho1 ho2) rfl
                    · have hc : c = 50 := by
                        have h2' : ¬ 51 ≤ c := fun h => h2 (.inl h)
                        rw [UInt8.le_iff_toNat_le] at h3 h2'
                        rw [← UInt8.toNat_inj]
                        have e : (49 : UInt8).toNat = 49 ∧ (50 : UInt8).toNat = 50 ∧ (51 : UInt8).toNat = 51 := by decide
                        omega
                      subst hc
                      refine ⟨[92, 50, c1, c2], l, rfl, ?_, .inr ⟨c1, c2, rfl, ho1, ho2⟩⟩
                      have hd1 := drop_cons hd
                      have hd2 := drop_cons hd1
                      have hd3 := drop_cons hd2
                      have e1 : FSeq d E [.lit [92], .cls (CSet.new escSet)] i none := by
                        refine ford_seq_fail (lit1_ok hd) (.fail (cls_no fun y hy => ?_))
                        rw [hd1] at hy; simp at hy; subst hy; exact has_esc_oct ho
                      have e2 : Ford d E (.nonterm "Char") i (some (i + 4, [.node idChar i (i + 4 - i) []])) := by
                        refine nt rfl (.capOk (oo (.next (cc e1) (.here (cc (.cons (lit1_ok hd) (.cons (cls_ok hd1 ?_)
                          (.cons (cls_ok hd2 ?_) (.cons (cls_ok hd3 ?_) .nil)))))))))
                        · rw [CSet.has_range]; decide
                        · rw [has_oct]; exact ho1
                        · rw [has_oct]; exact ho2
                      have := h.det e2
                      injection this with this
                      injection this with h2 _
          · have hd1 := drop_cons hd
            have hno : ∀ cs : CSet, cs.has c = false → Ford d E (.cls cs) (i + 1) none := fun cs hcs =>
              cls_no (by rw [hd1]; intro y hy; simp at hy; subst hy; exact hcs)
            have ho' : isOct c = false := by simpa using ho
            have h02 : (CSet.range 48 50).has c = false := by
              rw [CSet.has_range, decide_eq_false_iff_not]
              rintro ⟨h1, h2⟩
              simp only [isOct, Bool.and_eq_false_iff, decide_eq_false_iff_not] at ho'
              rcases ho' with h | h
              · exact h h1
              · exact h (UInt8.le_trans h2 (by decide))
            exact absurd (char_no (oo (.next (cc (ford_seq_fail (lit1_ok hd) (.fail (hno _ (by simpa using he)))))
              (.next (cc (ford_seq_fail (lit1_ok hd) (.fail (hno _ h02)))) (.next (cc (ford_seq_fail (lit1_ok hd)
              (.fail (hno _ (by rw [has_oct]; exact ho')))))
              (.next (cc (.fail (.notFail (lit1_ok hd)))) .nil)))))) no
    · exact ok (t := [b]) (.raw hb) rfl

theorem lit_head_ne {q : UInt8} {t r : List UInt8} (ht : t ≠ []) (h : t.head? ≠ some q) : (t ++ r).head? ≠ some q := by
  cases t with
  | nil => exact absurd rfl ht
  | cons a t => exact h

/-- The characters of a literal. -/
theorem litS_ok {q : UInt8} {bs t r : List UInt8} (hl : LitS q bs t) : ∀ {i}, d.drop i = t ++ r →
    ∃ n cs, t.length = n + 1 ∧
      Ford d E (.star (concatPat [.not (.lit [q]), .nonterm "Char"])) i (some (i + n, cs)) ∧
      d.drop (i + n) = q :: r ∧ cs.map (fun c => parseChar (textOf d c)) = bs := by
  induction hl with
  | nil =>
    intro i h
    exact ⟨0, [], rfl, .starEnd (cc (.fail (.notFail (lit1_ok h)))), h, rfl⟩
  | @cons b bs t rest hc hq hl ih =>
    intro i h
    have hrest : rest ≠ [] := by
      cases hl with
      | nil => simp
      | cons hc' => exact fun h => charS_ne hc' (List.append_eq_nil_iff.1 h).1
    rw [List.append_assoc] at h
    obtain ⟨n, cs, h1, h2, h3, h4⟩ := ih (drop_add h)
    obtain ⟨c, hc1, hc2⟩ := char_ok (hc.mono_rest r hrest) h
    have hh : (d.drop i).head? ≠ some q := by rw [h]; exact lit_head_ne (charS_ne hc) hq
    have hstep : Ford d E (concatPat [.not (.lit [q]), .nonterm "Char"]) i (some (i + t.length, [c])) :=
      cc (.cons (.notOk (lit_no hh)) (.cons hc1 .nil))
    refine ⟨t.length + n, c :: cs, ?_, ford_of (.starStep hstep h2) ?_, ?_, ?_⟩
    · simp; omega
    · simp; omega
    · rw [← Nat.add_assoc]; exact h3
    · simp [hc2, h4]

end Gpeg.Re
