import Verif.Lang
/-!
# Spacing in the grammar files

`Spacing_` of `grammars/re.peg` (and `peg.peg`) and `S` of `grammars/lpeg.peg` match the spacing of the `re` syntax.
-/
namespace Gpeg.Re
variable {env : Env} {S sp cm el : String}

/-- `EndOfLine_` and `eol`. -/
abbrev eolPat : Pat := .alt (.lit [13, 10]) (.alt (.lit [10]) (.lit [13]))
/-- `Space_` and `space`. -/
abbrev spacePat (el : String) : Pat := .alt (.lit [32]) (.alt (.lit [9]) (.nonterm el))
/-- `Comment_` and `comment`. -/
abbrev commentPat (el : String) : Pat := .seq (.seq (.lit [35]) (.star (.seq (.not (.nonterm el)) (.dot 1)))) (.nonterm el)
/-- `Spacing_` and `S`. -/
abbrev spacingPat (sp cm : String) : Pat := .star (.alt (.nonterm sp) (.nonterm cm))

theorem noSp_cons {b : UInt8} {r : List UInt8} (h : blank b = false ∧ b ≠ 35) : NoSp (b :: r) := by
  intro x hx; cases hx; exact h

theorem eats_eol (he : lookupNT el env = some (eolPat, env)) {b : UInt8} {l r : List UInt8} (hb : b = 10 ∨ b = 13) (hl : Sp l)
    (hr : NoSp r) : ∃ l', Sp l' ∧ l'.length ≤ l.length ∧ Eats env (.nonterm el) (b :: (l ++ r)) (some (l' ++ r)) := by
  rcases hb with rfl | rfl
  · exact ⟨l, hl, Nat.le_refl _, .nonterm he (.altR (.litF (by simp)) (.altL (.litOk (w := [10]))))⟩
  · have hn : (l ++ r).head? ≠ some 10 → Eats env (.nonterm el) (13 :: (l ++ r)) (some (l ++ r)) := by
      intro h
      refine .nonterm he (.altR (.litFail ?_) (.altR (.litF (by simp)) (.litOk (w := [13]))))
      rintro ⟨t, ht⟩
      simp only [List.cons_append, List.nil_append, List.cons.injEq, true_and] at ht
      exact h (by rw [← ht]; rfl)
    cases hl with
    | nil =>
      refine ⟨[], .nil, Nat.le_refl _, hn fun h => ?_⟩
      have := (hr _ h).1
      cases this
    | @blank x l hx hl =>
      by_cases h : x = 10
      · subst h
        exact ⟨l, hl, by simp, .nonterm he (.altL (.litOk (w := [13, 10]) (s := l ++ r)))⟩
      · exact ⟨_, .blank hx hl, Nat.le_refl _, hn (by simpa using h)⟩
    | @comment c x l h1 h2 h3 => exact ⟨_, .comment h1 h2 h3, Nat.le_refl _, hn (by simp)⟩

theorem eol_none (he : lookupNT el env = some (eolPat, env)) {s : List UInt8} (h : ∀ b, s.head? = some b → b ≠ 10 ∧ b ≠ 13) :
    Eats env (.nonterm el) s none :=
  .nonterm he (.altR (.litF fun h' => (h _ h').2 rfl) (.altR (.litF fun h' => (h _ h').1 rfl) (.litF fun h' => (h _ h').2 rfl)))

theorem space_none (hs : lookupNT sp env = some (spacePat el, env)) (he : lookupNT el env = some (eolPat, env)) {s : List UInt8}
    (h : ∀ b, s.head? = some b → blank b = false) : Eats env (.nonterm sp) s none := by
  refine .nonterm hs (.altR (.litF fun h' => ?_) (.altR (.litF fun h' => ?_) (eol_none he fun b hb => ⟨?_, ?_⟩)))
  · exact absurd (h _ h') (by decide)
  · exact absurd (h _ h') (by decide)
  · rintro rfl; exact absurd (h _ hb) (by decide)
  · rintro rfl; exact absurd (h _ hb) (by decide)

theorem comment_none (hc : lookupNT cm env = some (commentPat el, env)) {s : List UInt8} (h : s.head? ≠ some 35) :
    Eats env (.nonterm cm) s none := .nonterm hc (.seqFail (.seqFail (.litF h)))

theorem spacing_step (hc : lookupNT cm env = some (commentPat el, env)) (hs : lookupNT sp env = some (spacePat el, env))
    (he : lookupNT el env = some (eolPat, env)) {t r : List UInt8} (ht : Sp t) (hne : t ≠ []) (hr : NoSp r) :
    ∃ t', Sp t' ∧ t'.length < t.length ∧ Eats env (.alt (.nonterm sp) (.nonterm cm)) (t ++ r) (some (t' ++ r)) := by
  cases ht with
  | nil => exact absurd rfl hne
  | @blank b l hb hl =>
    by_cases h1 : b = 32
    · subst h1
      exact ⟨l, hl, by simp, .altL (.nonterm hs (.altL (.litOk (w := [32]))))⟩
    · by_cases h2 : b = 9
      · subst h2
        exact ⟨l, hl, by simp, .altL (.nonterm hs (.altR (.litF (by simp)) (.altL (.litOk (w := [9])))))⟩
      · have hb' : b = 10 ∨ b = 13 := by simpa [blank, h1, h2] using hb
        obtain ⟨l', g1, g2, g3⟩ := eats_eol he hb' hl hr
        exact ⟨l', g1, by simp only [List.length_cons]; omega, .altL (.nonterm hs (.altR (.litF (by simpa using h1)) (.altR (.litF (by simpa using h2)) g3)))⟩
  | @comment c b l h1 h2 h3 =>
    obtain ⟨l', g1, g2, g3⟩ := eats_eol he h2 h3 hr
    refine ⟨l', g1, by simp only [List.length_cons, List.length_append]; omega, .altR (space_none hs he ?_) (.nonterm hc (.seqOk (s' := b :: (l ++ r)) (.seqOk (.litOk (w := [35])) ?_) g3))⟩
    · intro x hx
      simp only [List.cons_append, List.head?_cons, Option.some.injEq] at hx
      subst hx
      decide
    · show Eats env _ ((c ++ (b :: l)) ++ r) _
      rw [List.append_assoc]
      show Eats env _ (c ++ (b :: (l ++ r))) _
      clear g3 hne
      induction c with
      | nil => exact .starEnd (.seqFail (.notFail (eats_eol he h2 h3 hr).choose_spec.2.2))
      | cons x c ih =>
        refine .starStep (s' := c ++ b :: (l ++ r)) (.seqOk (.notOk (eol_none he fun y hy => ?_)) .dotOk) (ih fun y hy => h1 y (by simp [hy]))
        simp only [List.cons_append, List.head?_cons, Option.some.injEq] at hy
        subst hy
        exact h1 x (by simp)

/-- Spacing is matched as a whole. -/
theorem spacing_eats (hS : lookupNT S env = some (spacingPat sp cm, env)) (hc : lookupNT cm env = some (commentPat el, env))
    (hs : lookupNT sp env = some (spacePat el, env)) (he : lookupNT el env = some (eolPat, env)) {r : List UInt8} (hr : NoSp r)
    {t : List UInt8} (ht : Sp t) : Eats env (.nonterm S) (t ++ r) (some r) := by
  refine .nonterm hS ?_
  generalize hn : t.length = n
  induction n using Nat.strongRecOn generalizing t with
  | ind n ih =>
    by_cases hne : t = []
    · subst hne
      exact .starEnd (.altR (space_none hs he fun b hb => (hr b hb).1) (comment_none hc fun h => (hr _ h).2 rfl))
    · obtain ⟨t', g1, g2, g3⟩ := spacing_step hc hs he ht hne hr
      exact .starStep g3 (ih _ (by omega) g1 rfl)

end Gpeg.Re
