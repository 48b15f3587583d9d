import Verif.GrammarFiles
import Verif.Lang
/-!
# `grammars/arith.peg` and arithmetic expressions
-/
namespace Gpeg.ArithPeg
open Gpeg.Re

/-! ## Arithmetic expressions -/

/-- The syntactic categories. -/
inductive ArithCat | expr | factor | term | number

/-- Decimal digits. -/
def isDigit (b : UInt8) : Bool := 48 ≤ b && b ≤ 57

/-- Texts of the categories: sums and differences of products and quotients of numbers and expressions in parentheses. -/
inductive Arith : ArithCat → List UInt8 → Prop
  | digit {b} : isDigit b = true → Arith .number [b]
  | digits {b w} : isDigit b = true → Arith .number w → Arith .number (b :: w)
  | num {w} : Arith .number w → Arith .term w
  | paren {w} : Arith .expr w → Arith .term (40 :: (w ++ [41]))
  | single {w} : Arith .term w → Arith .factor w
  | mul {w b v} : Arith .term w → b = 42 ∨ b = 47 → Arith .factor v → Arith .factor (w ++ b :: v)
  | one {w} : Arith .factor w → Arith .expr w
  | add {w b v} : Arith .factor w → b = 43 ∨ b = 45 → Arith .expr v → Arith .expr (w ++ b :: v)

/-! ## The grammar -/

/-- The definitions. -/
def arithDefs : Defs :=
  .cons "Expr" (.seq (.nonterm "Factor") (.star (.seq (.cls (cset [.one 43, .one 45])) (.nonterm "Factor"))))
  (.cons "Factor" (.seq (.nonterm "Term") (.star (.seq (.cls (cset [.one 42, .one 47])) (.nonterm "Term"))))
  (.cons "Term" (.alt (.nonterm "Number") (.seq (.seq (.lit [40]) (.nonterm "Expr")) (.lit [41])))
  (.cons "Number" (.plus (.cls (cset [.range 48 57]))) .nil)))

theorem arith_defs : ((Top.gram arithGram).pat 0).1 = .grammar "Expr" arithDefs := by
  have h1 : nameOf (bytes "Expr") = "Expr" := by decide +kernel
  have h2 : nameOf (bytes "Factor") = "Factor" := by decide +kernel
  have h3 : nameOf (bytes "Term") = "Term" := by decide +kernel
  have h4 : nameOf (bytes "Number") = "Number" := by decide +kernel
  simp only [arithGram, Top.pat, Gram.pats, Expr.pat, Expr.alts, Seqn.pats, Prim.pat, Pre.apply, Suf.apply, concatPat, orPat, List.foldl,
    List.reverse_cons, List.reverse_nil, List.nil_append, List.cons_append, h1, h2, h3, h4]
  rfl

abbrev arithEnv : Env := [arithDefs]

theorem arith_expr : lookupNT "Expr" arithEnv = some (.seq (.nonterm "Factor") (.star (.seq (.cls (cset [.one 43, .one 45])) (.nonterm "Factor"))), arithEnv) := rfl
theorem arith_factor : lookupNT "Factor" arithEnv = some (.seq (.nonterm "Term") (.star (.seq (.cls (cset [.one 42, .one 47])) (.nonterm "Term"))), arithEnv) := rfl
theorem arith_term : lookupNT "Term" arithEnv = some (.alt (.nonterm "Number") (.seq (.seq (.lit [40]) (.nonterm "Expr")) (.lit [41])), arithEnv) := rfl
theorem arith_number : lookupNT "Number" arithEnv = some (.plus (.cls (cset [.range 48 57])), arithEnv) := rfl

theorem has_digit (x : UInt8) : (cset [.range 48 57]).has x = isDigit x := by
  rw [has_cset]; simp [Item.mem, isDigit]

/-- Bytes which may continue a text of a category. -/
def ArithCat.cont : ArithCat → UInt8 → Bool
  | .number, b | .term, b => isDigit b
  | .factor, b => isDigit b || (b == 42 || b == 47)
  | .expr, b => isDigit b || (b == 42 || b == 47) || (b == 43 || b == 45)

/-- The names of the categories in the file. -/
def ArithCat.name : ArithCat → String
  | .number => "Number"
  | .term => "Term"
  | .factor => "Factor"
  | .expr => "Expr"


/-- Matching one of the categories; for those with a repetition, its parts. -/
def Parts : ArithCat → List UInt8 → List UInt8 → Prop
  | .number, s, r => Eats arithEnv (.nonterm "Number") s (some r)
  | .term, s, r => Eats arithEnv (.nonterm "Term") s (some r)
  | .factor, s, r => ∃ r1, Eats arithEnv (.nonterm "Term") s (some r1) ∧
      Eats arithEnv (.star (.seq (.cls (cset [.one 42, .one 47])) (.nonterm "Term"))) r1 (some r)
  | .expr, s, r => ∃ r1, Eats arithEnv (.nonterm "Factor") s (some r1) ∧
      Eats arithEnv (.star (.seq (.cls (cset [.one 43, .one 45])) (.nonterm "Factor"))) r1 (some r)

theorem Parts.eats {c : ArithCat} {s r : List UInt8} (h : Parts c s r) : Eats arithEnv (.nonterm c.name) s (some r) := by
  cases c with
  | number => exact h
  | term => exact h
  | factor => obtain ⟨r1, h1, h2⟩ := h; exact .nonterm arith_factor (.seqOk h1 h2)
  | expr => obtain ⟨r1, h1, h2⟩ := h; exact .nonterm arith_expr (.seqOk h1 h2)

theorem parts_of {c : ArithCat} {s r : List UInt8} (h : Eats arithEnv (.nonterm c.name) s (some r)) : Parts c s r := by
  cases c with
  | number => exact h
  | term => exact h
  | factor => exact seq_inv (nonterm_inv arith_factor h)
  | expr => exact seq_inv (nonterm_inv arith_expr h)

theorem number_fails {s : List UInt8} (h : NotIn isDigit s) : Eats arithEnv (.nonterm "Number") s none :=
  .nonterm arith_number (.plusFail (.clsFail fun b hb => by rw [has_digit]; exact h b hb))

theorem mul_has (b : UInt8) : (cset [.one 42, .one 47]).has b = (b == 42 || b == 47) := by
  rw [has_cset]; simp [Item.mem]
theorem add_has (b : UInt8) : (cset [.one 43, .one 45]).has b = (b == 43 || b == 45) := by
  rw [has_cset]; simp [Item.mem]

theorem number_step {b : UInt8} {s r : List UInt8} (hb : isDigit b = true) (h : Eats arithEnv (.nonterm "Number") s (some r)) :
    Eats arithEnv (.nonterm "Number") (b :: s) (some r) := by
  obtain ⟨s', h1, h2⟩ := plus_inv (nonterm_inv arith_number h)
  exact .nonterm arith_number (.plusOk (.clsOk (by rw [has_digit]; exact hb)) (.starStep h1 h2))

/-- A text of a category is matched as a whole, if what follows cannot continue it. -/
theorem exact {c : ArithCat} {w : List UInt8} (h : Arith c w) : ∀ r, NotIn c.cont r → Parts c (w ++ r) r := by
  induction h with
  | @digit b hb =>
    intro r hr
    exact .nonterm arith_number (.plusOk (.clsOk (by rw [has_digit]; exact hb))
      (.starEnd (.clsFail fun x hx => by rw [has_digit]; exact hr x hx)))
  | @digits b w hb _ ih => exact fun r hr => number_step hb (ih r hr)
  | num _ ih => exact fun r hr => .nonterm arith_term (.altL (ih r hr))
  | @paren w _ ih =>
    intro r hr
    have h1 := (ih (41 :: r) (notIn_cons (by decide))).eats
    have e : 40 :: (w ++ [41]) ++ r = [40] ++ (w ++ ([41] ++ r)) := by simp
    rw [e]
    exact .nonterm arith_term (.altR (number_fails (notIn_cons (by decide))) (.seqOk (.seqOk .litOk h1) .litOk))
  | single _ ih =>
    intro r hr
    refine ⟨r, ih r fun b hb => ?_, .starEnd (.seqFail (.clsFail fun b hb => ?_))⟩
    · have := hr b hb
      simp only [ArithCat.cont, Bool.or_eq_false_iff] at this ⊢
      exact this.1
    · rw [mul_has]
      have := hr b hb
      simp only [ArithCat.cont, Bool.or_eq_false_iff] at this ⊢
      exact this.2
  | @mul w b v _ hb _ ih1 ih2 =>
    intro r hr
    obtain ⟨r1, h1, h2⟩ := ih2 r hr
    refine ⟨b :: (v ++ r), ?_, .starStep (.seqOk (.clsOk ?_) h1) h2⟩
    · rw [List.append_assoc]
      exact ih1 _ (notIn_cons (by rcases hb with rfl | rfl <;> decide))
    · rw [mul_has]; rcases hb with rfl | rfl <;> rfl
  | one _ ih =>
    intro r hr
    refine ⟨r, (ih r fun b hb => ?_).eats, .starEnd (.seqFail (.clsFail fun b hb => ?_))⟩
    · have := hr b hb
      simp only [ArithCat.cont, Bool.or_eq_false_iff] at this ⊢
      exact this.1
    · rw [add_has]
      have := hr b hb
      simp only [ArithCat.cont, Bool.or_eq_false_iff] at this ⊢
      exact this.2
  | @add w b v _ hb _ ih1 ih2 =>
    intro r hr
    obtain ⟨r1, h1, h2⟩ := ih2 r hr
    refine ⟨b :: (v ++ r), ?_, .starStep (.seqOk (.clsOk ?_) h1) h2⟩
    · rw [List.append_assoc]
      exact (ih1 _ (notIn_cons (by rcases hb with rfl | rfl <;> decide))).eats
    · rw [add_has]; rcases hb with rfl | rfl <;> rfl

/-! ## At least as much as a text of the language -/

theorem arith_envOK : EnvWF arithEnv ∧ Env.Pure arithEnv ∧ Env.Plain arithEnv := by
  refine ⟨⟨Defs.wfB_sound 40 _ _ (by decide +kernel), trivial⟩, ?_, ?_⟩
  · intro ds h
    cases List.mem_singleton.1 h
    constructor <;> intro h <;> simp [arithDefs, Defs.leaves, Pat.leaves] at h
  · intro ds h
    cases List.mem_singleton.1 h
    simp [arithDefs, Defs.Plain, Pat.Plain]

theorem star_total {p : Pat} (hw : (Pat.star p).wfB 40 arithEnv = true) (hp : p.Plain) (s : List UInt8) :
    ∃ r, Eats arithEnv (.star p) s (some r) ∧ r.length ≤ s.length := by
  obtain ⟨h1, h2, h3⟩ := arith_envOK
  have hl : ∀ l ∈ (Pat.star p).leaves, l = .dot 1 := Pat.Plain.leaves (p := .star p) hp
  obtain ⟨x, hx⟩ := eats_total h1 (Pat.wfB_sound 40 _ _ hw) ⟨fun h => (by cases hl _ h), fun h => (by cases hl _ h)⟩ h2 hp h3 s
  obtain ⟨r, rfl⟩ := star_some hx
  obtain ⟨w, rfl⟩ := hx.suffix r rfl
  exact ⟨r, hx, by simp⟩

theorem atLeast {c : ArithCat} {w : List UInt8} (h : Arith c w) : ∀ r, ∃ r', Parts c (w ++ r) r' ∧ r'.length ≤ r.length := by
  induction h with
  | @digit b hb =>
    intro r
    obtain ⟨r', h1, h2⟩ := star_total (p := .cls (cset [.range 48 57])) (by decide +kernel) trivial r
    exact ⟨r', .nonterm arith_number (.plusOk (.clsOk (by rw [has_digit]; exact hb)) h1), h2⟩
  | @digits b w hb _ ih =>
    intro r
    obtain ⟨r', h1, h2⟩ := ih r
    exact ⟨r', number_step hb h1, h2⟩
  | num _ ih =>
    intro r
    obtain ⟨r', h1, h2⟩ := ih r
    exact ⟨r', .nonterm arith_term (.altL h1), h2⟩
  | @paren w hw _ =>
    intro r
    have h1 := (exact hw (41 :: r) (notIn_cons (by decide))).eats
    have e : 40 :: (w ++ [41]) ++ r = [40] ++ (w ++ ([41] ++ r)) := by simp
    rw [e]
    exact ⟨r, .nonterm arith_term (.altR (number_fails (notIn_cons (by decide))) (.seqOk (.seqOk .litOk h1) .litOk)), Nat.le_refl _⟩
  | single _ ih =>
    intro r
    obtain ⟨r1, h1, h2⟩ := ih r
    obtain ⟨r', h3, h4⟩ := star_total (p := .seq (.cls (cset [.one 42, .one 47])) (.nonterm "Term")) (by decide +kernel) ⟨trivial, trivial⟩ r1
    exact ⟨r', ⟨r1, h1, h3⟩, by omega⟩
  | @mul w b v hw hb _ _ ih2 =>
    intro r
    obtain ⟨r', ⟨r1, h1, h2⟩, h3⟩ := ih2 r
    refine ⟨r', ⟨b :: (v ++ r), ?_, .starStep (.seqOk (.clsOk ?_) h1) h2⟩, h3⟩
    · rw [List.append_assoc]
      exact exact hw _ (notIn_cons (by rcases hb with rfl | rfl <;> decide))
    · rw [mul_has]; rcases hb with rfl | rfl <;> rfl
  | one _ ih =>
    intro r
    obtain ⟨r1, h1, h2⟩ := ih r
    obtain ⟨r', h3, h4⟩ := star_total (p := .seq (.cls (cset [.one 43, .one 45])) (.nonterm "Factor")) (by decide +kernel) ⟨trivial, trivial⟩ r1
    exact ⟨r', ⟨r1, h1.eats, h3⟩, by omega⟩
  | @add w b v hw hb _ _ ih2 =>
    intro r
    obtain ⟨r', ⟨r1, h1, h2⟩, h3⟩ := ih2 r
    refine ⟨r', ⟨b :: (v ++ r), ?_, .starStep (.seqOk (.clsOk ?_) h1) h2⟩, h3⟩
    · rw [List.append_assoc]
      exact (exact hw _ (notIn_cons (by rcases hb with rfl | rfl <;> decide))).eats
    · rw [add_has]; rcases hb with rfl | rfl <;> rfl

/-! ## What is matched is a text of the language -/

theorem number_sound {s r : List UInt8} (h : Eats arithEnv (.nonterm "Number") s (some r)) : ∃ w, s = w ++ r ∧ Arith .number w := by
  obtain ⟨s', h1, h2⟩ := plus_inv (nonterm_inv arith_number h)
  obtain ⟨b, rfl, hb⟩ := cls_inv h1
  obtain ⟨w, rfl, hw⟩ := star_cls_inv h2
  rw [has_digit] at hb
  refine ⟨b :: w, rfl, ?_⟩
  clear h h1 h2
  induction w generalizing b with
  | nil => exact .digit hb
  | cons x w ih => exact .digits hb (ih x (by rw [← has_digit]; exact hw x (by simp)) fun y hy => hw y (by simp [hy]))

theorem sound (n : Nat) : ∀ (c : ArithCat) (s r : List UInt8), s.length ≤ n → Eats arithEnv (.nonterm c.name) s (some r) →
    ∃ w, s = w ++ r ∧ Arith c w := by
  induction n using Nat.strongRecOn with
  | ind n ih =>
    have hterm : ∀ s r : List UInt8, s.length ≤ n → Eats arithEnv (.nonterm "Term") s (some r) → ∃ w, s = w ++ r ∧ Arith .term w := by
      intro s r hn h
      rcases alt_inv (nonterm_inv arith_term h) with h | ⟨_, h⟩
      · obtain ⟨w, e, hw⟩ := number_sound h
        exact ⟨w, e, .num hw⟩
      · obtain ⟨s2, h12, h3⟩ := seq_inv h
        obtain ⟨s1, h1, h2⟩ := seq_inv h12
        have e1 := lit_inv h1
        have e3 := lit_inv h3
        subst e1 e3
        obtain ⟨w, rfl, hw⟩ := ih (n - 1) (by simp at hn; omega) .expr s1 ([41] ++ r) (by simp at hn ⊢; omega) h2
        exact ⟨40 :: (w ++ [41]), by simp, .paren hw⟩
    have hfactor : ∀ s r : List UInt8, s.length ≤ n → Eats arithEnv (.nonterm "Factor") s (some r) → ∃ w, s = w ++ r ∧ Arith .factor w := by
      intro s r hn h
      obtain ⟨s1, h1, h2⟩ := seq_inv (nonterm_inv arith_factor h)
      obtain ⟨w, rfl, hw⟩ := hterm s s1 hn h1
      obtain ⟨v, rfl, hv⟩ := star_sound (L := fun u => ∃ b v, u = b :: v ∧ (b = 42 ∨ b = 47) ∧ Arith .term v) h2 (by
        rintro s' r' ⟨u, rfl⟩ h'
        obtain ⟨s2, h3, h4⟩ := seq_inv h'
        obtain ⟨b, rfl, hb⟩ := cls_inv h3
        obtain ⟨v, rfl, hv⟩ := hterm s2 r' (by simp at hn; omega) h4
        exact ⟨b :: v, rfl, b, v, rfl, by rw [mul_has] at hb; simpa using hb, hv⟩)
      refine ⟨w ++ v, by simp, ?_⟩
      clear h h1 h2 hn
      induction hv generalizing w with
      | nil => rw [List.append_nil]; exact .single hw
      | cons h1 _ ihv =>
        obtain ⟨b, u, rfl, hb, hu⟩ := h1
        exact .mul hw hb (ihv u hu)
    intro c s r hn h
    cases c with
    | number => exact number_sound h
    | term => exact hterm s r hn h
    | factor => exact hfactor s r hn h
    | expr =>
      obtain ⟨s1, h1, h2⟩ := seq_inv (nonterm_inv arith_expr h)
      obtain ⟨w, rfl, hw⟩ := hfactor s s1 hn h1
      obtain ⟨v, rfl, hv⟩ := star_sound (L := fun u => ∃ b v, u = b :: v ∧ (b = 43 ∨ b = 45) ∧ Arith .factor v) h2 (by
        rintro s' r' ⟨u, rfl⟩ h'
        obtain ⟨s2, h3, h4⟩ := seq_inv h'
        obtain ⟨b, rfl, hb⟩ := cls_inv h3
        obtain ⟨v, rfl, hv⟩ := hfactor s2 r' (by simp at hn; omega) h4
        exact ⟨b :: v, rfl, b, v, rfl, by rw [add_has] at hb; simpa using hb, hv⟩)
      refine ⟨w ++ v, by simp, ?_⟩
      clear h h1 h2 hn
      induction hv generalizing w with
      | nil => rw [List.append_nil]; exact .one hw
      | cons h1 _ ihv =>
        obtain ⟨b, u, rfl, hb, hu⟩ := h1
        exact .add hw hb (ihv u hu)

end Gpeg.ArithPeg
