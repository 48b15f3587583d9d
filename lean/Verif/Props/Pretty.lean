import Verif.Pretty
import Verif.Props.Re
import Verif.Props.Get
import Verif.CompTotal
/-!
# `Prettify` and `re.Compile`: property C76
-/
namespace Gpeg

/-- Two patterns with the same evaluations: results, captures, bytes looked at, errors, states of checkers, divergence. -/
def SameMeaning (p q : Pat) : Prop :=
  ∀ (σ : Type) (c : Ctx σ) (env : Env) (pos : Nat) (w : World σ) (e : Ev σ), Evals c env p pos w e ↔ Evals c env q pos w e

theorem SameMeaning.refl (p : Pat) : SameMeaning p p := fun _ _ _ _ _ _ => Iff.rfl
theorem SameMeaning.symm {p q : Pat} (h : SameMeaning p q) : SameMeaning q p := fun σ c env pos w e => (h σ c env pos w e).symm
theorem SameMeaning.trans {p q r : Pat} (h : SameMeaning p q) (h' : SameMeaning q r) : SameMeaning p r :=
  fun σ c env pos w e => (h σ c env pos w e).trans (h' σ c env pos w e)

theorem same_get (p : Pat) : SameMeaning (get p) p := fun _ c env pos w e => (C14_get_preserves_meaning p c env pos w e).symm

theorem same_seq {l l' r r' : Pat} (hl : SameMeaning l l') (hr : SameMeaning r r') : SameMeaning (.seq l r) (.seq l' r') := by
  intro σ c env pos w e
  simp only [evals_seq, hl σ, hr σ]

theorem same_alt {l l' r r' : Pat} (hl : SameMeaning l l') (hr : SameMeaning r r') : SameMeaning (.alt l r) (.alt l' r') := by
  intro σ c env pos w e
  simp only [evals_alt, hl σ, hr σ]

theorem star_le {σ : Type} {p q : Pat} (h : SameMeaning p q) (c : Ctx σ) (env : Env) : ∀ (n pos : Nat) (w : World σ) (e : Ev σ),
    eval n c env (.star p) pos w = some e → Evals c env (.star q) pos w e := by
  intro n
  induction n with
  | zero => intro pos w e h; cases h
  | succ n ih =>
    intro pos w e he
    rw [eval] at he
    obtain ⟨⟨res, f, w'⟩, hx, he⟩ := Option.bind_eq_some_iff.1 he
    refine evals_star.2 ⟨_, (h _ _ _ _ _ _).1 ⟨n, hx⟩, ?_⟩
    cases res with
    | ok p1 c1 =>
      obtain ⟨⟨r2, f2, w2⟩, hy, rfl⟩ := Option.map_eq_some_iff.1 he
      exact ⟨_, ih _ _ _ hy, rfl⟩
    | fail => cases he; rfl
    | abort p1 => cases he; rfl

theorem same_star {p q : Pat} (h : SameMeaning p q) : SameMeaning (.star p) (.star q) :=
  fun _ c env _ _ _ => ⟨fun ⟨n, x⟩ => star_le h c env n _ _ _ x, fun ⟨n, x⟩ => star_le h.symm c env n _ _ _ x⟩

theorem same_plus {p q : Pat} (h : SameMeaning p q) : SameMeaning (.plus p) (.plus q) := by
  intro σ c env pos w e
  simp only [evals_plus, h σ, same_star h σ]

theorem same_opt {p q : Pat} (h : SameMeaning p q) : SameMeaning (.opt p) (.opt q) := by
  intro σ c env pos w e
  simp only [evals_opt, h σ]

theorem same_not {p q : Pat} (h : SameMeaning p q) : SameMeaning (.not p) (.not q) := by
  intro σ c env pos w e
  simp only [evals_not, h σ]

theorem same_and {p q : Pat} (h : SameMeaning p q) : SameMeaning (.and p) (.and q) := by
  intro σ c env pos w e
  simp only [evals_and, h σ]

theorem same_memo {p q : Pat} (h : SameMeaning p q) (i j : Int) : SameMeaning (.memo p i) (.memo q j) := by
  intro σ c env pos w e
  simp only [evals_memo, h σ]

theorem same_inl (n : String) (p : Pat) : SameMeaning p (.inl n p) := fun _ _ _ _ _ _ => evals_inl.symm

theorem same_lit_nil : SameMeaning (.lit []) .empty := by
  intro σ c env pos w e
  rw [evals_lit, evals_empty]
  rfl

namespace Re

/-! ## The patterns with a text -/

/-- The bytes that look the same in a quoted Go string and in a literal of `re`. -/
def Clear (b : UInt8) : Prop := b = 9 ∨ b = 10 ∨ b = 13 ∨ (32 ≤ b ∧ b < 127)

/-- Patterns whose printed form is an expression of `re`, as `Get` rewrites them on the way: 0 for primaries, 1 with a suffix
operator, 2 with a prefix operator. No captures, classes, `Any(n)` with `n ≠ 1`, searches, checks, errors, assertions, grammars; no
operator on a pattern that itself begins or ends with one of the same or a weaker kind. -/
inductive Plain : Nat → Pat → Prop
  | lit {n p s} : get p = .lit s → (∀ b ∈ s, Clear b) → Plain n p
  | dot {n p} : get p = .dot 1 → Plain n p
  | empty {n p} : get p = .empty → Plain n p
  | name {n p x} : get p = .nonterm (nameOf x) → IsName x → Plain n p
  | alt {n p l r} : get p = .alt l r → Plain 2 (get l) → Plain 2 (get r) → Plain n p
  | seq {n p l r} : get p = .seq l r → Plain 2 (get l) → Plain 2 (get r) → Plain n p
  | memo {n p q id} : get p = .memo q id → Plain 2 (get q) → Plain n p
  | inl {n p q x} : get p = .inl x q → Plain n (get q) → Plain n p
  | star {n p q} : get p = .star q → 1 ≤ n → Plain 0 (get q) → Plain n p
  | plus {n p q} : get p = .plus q → 1 ≤ n → Plain 0 (get q) → Plain n p
  | opt {n p q} : get p = .opt q → 1 ≤ n → Plain 0 (get q) → Plain n p
  | not {n p q} : get p = .not q → 2 ≤ n → Plain 1 (get q) → Plain n p
  | and {n p q} : get p = .and q → 2 ≤ n → Plain 1 (get q) → Plain n p

theorem clear_char {b : UInt8} (h : Clear b) (rest : List UInt8) :
    CharS b (quoteByte b) rest ∧ (quoteByte b).head? ≠ some 34 ∧ b < 128 := by
  by_cases h1 : b = 34
  · subst h1; exact ⟨.esc (.self (by simp)), by decide, by decide⟩
  by_cases h2 : b = 92
  · subst h2; exact ⟨.esc (.self (by simp)), by decide, by decide⟩
  rcases h with h | h | h | h
  · subst h; exact ⟨.esc .t, by decide, by decide⟩
  · subst h; exact ⟨.esc .n, by decide, by decide⟩
  · subst h; exact ⟨.esc .r, by decide, by decide⟩
  · have e : quoteByte b = [b] := by simp [quoteByte, h1, h2, h]
    rw [e]
    refine ⟨.raw h2, by simpa using h1, UInt8.lt_iff_toNat_lt.2 ?_⟩
    have := UInt8.lt_iff_toNat_lt.1 h.2
    have e1 : (127 : UInt8).toNat = 127 := rfl
    have e2 : (128 : UInt8).toNat = 128 := rfl
    omega

theorem clear_lit : ∀ {s : List UInt8}, (∀ b ∈ s, Clear b) → LitS 34 s (s.flatMap quoteByte ++ [34])
  | [], _ => .nil
  | b :: s, h => by
    obtain ⟨h1, h2, _⟩ := clear_char (h b (by simp)) (s.flatMap quoteByte ++ [34])
    have := LitS.cons (q := 34) h1 h2 (clear_lit fun x hx => h x (by simp [hx]))
    simpa using this

theorem quote_clear {hi : List UInt8 → List UInt8} {s : List UInt8} (h : ∀ b ∈ s, Clear b) :
    quoteStr hi s = 34 :: (s.flatMap quoteByte ++ [34]) := by
  rw [quoteStr, if_pos]
  rw [List.all_eq_true]
  intro b hb
  exact decide_eq_true (clear_char (h b hb) []).2.2

theorem utf8_ascii {b : UInt8} (h : isCont b = true) : String.utf8EncodeChar (Char.ofNat b.toNat) = [b] := by
  have key : ∀ n < 256, isCont (UInt8.ofNat n) = true → String.utf8EncodeChar (Char.ofNat n) = [UInt8.ofNat n] := by
    decide +kernel
  have := key b.toNat b.toNat_lt (by simpa using h)
  simpa using this

theorem bytesOf_name {x : List UInt8} (h : IsName x) : bytesOf (nameOf x) = x := by
  have hc : ∀ b ∈ x, isCont b = true := by
    obtain ⟨b, l, rfl, h1, h2⟩ := h
    intro y hy
    rcases List.mem_cons.1 hy with rfl | hy
    · simp [isCont, h1]
    · exact h2 y hy
  rw [bytesOf, nameOf, String.toList_ofList]
  clear h
  induction x with
  | nil => rfl
  | cons b x ih =>
    rw [List.map_cons, List.flatMap_cons, utf8_ascii (hc b (by simp)), ih fun y hy => hc y (by simp [hy])]
    rfl

theorem PrimS.ne {p : Prim} {t : List UInt8} (h : PrimS p t) : t ≠ [] := by
  cases h with
  | ident h => obtain ⟨b, l, rfl, _⟩ := h; simp
  | _ => simp

theorem count_ne (p : Pat) : 0 < p.count := by
  cases p <;> simp [Pat.count]

/-- `text` writes one element of a sequence that means the same as `p`, with operators as far as `n` allows; spacing may follow. -/
def Writes (n : Nat) (p : Pat) (text : List UInt8) : Prop :=
  ∀ sp, Sp sp → ∃ pre prim suf a b c, PreS pre a ∧ PrimS prim b ∧ SufS suf c ∧ text ++ sp = a ++ (b ++ c) ∧
    (n < 2 → pre = .none) ∧ (n < 1 → suf = .none) ∧ ∀ m, SameMeaning (pre.apply (suf.apply (prim.pat m).1)) p

theorem writes_prim {n : Nat} {p : Pat} {text : List UInt8}
    (h : ∀ sp, Sp sp → ∃ prim, PrimS prim (text ++ sp) ∧ ∀ m, SameMeaning (prim.pat m).1 p) : Writes n p text := by
  intro sp hsp
  obtain ⟨prim, h1, h2⟩ := h sp hsp
  exact ⟨.none, prim, .none, [], _, [], .none, h1, .none, by simp, fun _ => rfl, fun _ => rfl, h2⟩

theorem Writes.same {n : Nat} {p q : Pat} {text : List UInt8} (h : Writes n p text) (hs : SameMeaning p q) : Writes n q text := by
  intro sp hsp
  obtain ⟨pre, prim, suf, a, b, c, h1, h2, h3, h4, h5, h6, h7⟩ := h sp hsp
  exact ⟨pre, prim, suf, a, b, c, h1, h2, h3, h4, h5, h6, fun m => (h7 m).trans hs⟩

theorem writes_suf {n : Nat} {p : Pat} {text : List UInt8} {x : UInt8} {s : Suf} (hn : 1 ≤ n) (h : Writes 0 p text)
    (hs : ∀ sp, Sp sp → SufS s (x :: sp)) (hc : ∀ {q}, SameMeaning q p → SameMeaning (s.apply q) (s.apply p)) :
    Writes n (s.apply p) (text ++ [x]) := by
  intro sp hsp
  obtain ⟨pre, prim, suf, a, b, c, h1, h2, h3, h4, h5, h6, h7⟩ := h [] .nil
  cases h5 (by omega)
  cases h6 (by omega)
  cases h1
  cases h3
  refine ⟨.none, prim, s, [], b, _, .none, h2, hs sp hsp, ?_, fun _ => rfl, fun h => absurd h (by omega), fun m => hc (h7 m)⟩
  simp only [List.append_nil, List.nil_append] at h4 ⊢
  rw [h4]; simp

theorem writes_pre {n : Nat} {p : Pat} {text : List UInt8} {x : UInt8} {s : Pre} (hn : 2 ≤ n) (h : Writes 1 p text)
    (hs : PreS s [x]) (hc : ∀ {q}, SameMeaning q p → SameMeaning (s.apply q) (s.apply p)) :
    Writes n (s.apply p) (x :: text) := by
  intro sp hsp
  obtain ⟨pre, prim, suf, a, b, c, h1, h2, h3, h4, h5, h6, h7⟩ := h sp hsp
  cases h5 (by omega)
  cases h1
  refine ⟨s, prim, suf, [x], b, c, hs, h2, h3, ?_, fun h => absurd h (by omega), fun h => absurd h (by omega), fun m => hc (h7 m)⟩
  simp only [List.nil_append, List.cons_append] at h4 ⊢
  rw [h4]

theorem apart_end (s : List UInt8) : Apart s [] := fun _ _ _ hy => by simp at hy

theorem last_app {a b : List UInt8} (h : b ≠ []) : (a ++ b).getLast? = b.getLast? := by
  rw [List.getLast?_append]
  cases hb : b.getLast? with
  | none => exact absurd (List.getLast?_eq_none_iff.1 hb) h
  | some x => rfl

/-- One element as a sequence. -/
theorem Writes.one {n : Nat} {p : Pat} {text : List UInt8} (h : Writes n p text) {sp : List UInt8} (hsp : Sp sp) :
    ∃ s, SeqS s (text ++ sp) ∧ ∀ m, SameMeaning (concatPat (s.pats m).1) p := by
  obtain ⟨pre, prim, suf, a, b, c, h1, h2, h3, h4, -, -, h7⟩ := h sp hsp
  refine ⟨.cons pre prim suf .nil, ?_, fun m => ?_⟩
  · rw [h4]
    simpa using SeqS.cons h1 h2 h3 .nil (apart_end _)
  · exact h7 m

/-- Two elements as a sequence. -/
theorem Writes.two {n n' : Nat} {p p' : Pat} {text text' : List UInt8} (h : Writes n p text) (h' : Writes n' p' text') :
    ∃ s, SeqS s (text ++ ([32] ++ text')) ∧ ∀ m, SameMeaning (concatPat (s.pats m).1) (.seq p p') := by
  obtain ⟨pre, prim, suf, a, b, c, h1, h2, h3, h4, -, -, h7⟩ := h [32] (.blank rfl .nil)
  obtain ⟨pre', prim', suf', a', b', c', h1', h2', h3', h4', -, -, h7'⟩ := h' [] .nil
  refine ⟨.cons pre prim suf (.cons pre' prim' suf' .nil), ?_, fun m => ?_⟩
  · have e : text ++ ([32] ++ text') = a ++ (b ++ (c ++ text')) := by
      rw [← List.append_assoc, h4]; simp
    rw [e]
    refine SeqS.cons h1 h2 h3 ?_ ?_
    · rw [List.append_nil] at h4'
      rw [h4']
      simpa using SeqS.cons h1' h2' h3' .nil (apart_end _)
    · intro x y hx _
      have hb : b ++ c ≠ [] := by simp [h2.ne]
      rw [← last_app (a := a) hb, ← h4] at hx
      simp at hx
      subst hx
      exact .inl rfl
  · exact same_seq (h7 m) (h7' _)

/-- Two elements as alternatives. -/
theorem Writes.or {n n' : Nat} {p p' : Pat} {text text' : List UInt8} (h : Writes n p text) (h' : Writes n' p' text') :
    ∃ s, ExprS s (text ++ ([32, 47, 32] ++ text')) ∧ ∀ m, SameMeaning (s.pat m).1 (.alt p p') := by
  obtain ⟨s, hs, hm⟩ := h.one (sp := [32]) (.blank rfl .nil)
  obtain ⟨s', hs', hm'⟩ := h'.one .nil
  refine ⟨.alt s (.one s'), ?_, fun m => same_alt (hm m) (hm' _)⟩
  have := ExprS.alt hs (sp := [32]) (.blank rfl .nil) (.one hs')
  simpa using this

theorem plain_writes (hi : List UInt8 → List UInt8) {n : Nat} {p : Pat} (h : Plain n p) :
    ∀ k, p.count ≤ k → Writes n p (prettyF hi k p) := by
  have key : ∀ {n : Nat} {p : Pat}, Plain n p → ∀ k, p.count ≤ k + 1 → Writes n (get p) (prettyF hi (k + 1) p) := by
    intro n p h
    induction h with
    | @lit n p s hg hs =>
      intro k hk
      rw [prettyF, hg]
      refine writes_prim fun sp hsp => ⟨.lit s, ?_, fun m => .refl _⟩
      simp only [quote_clear hs]
      have := PrimS.lit (.inr rfl) (clear_lit hs) hsp
      simpa using this
    | @dot n p hg =>
      intro k hk
      rw [prettyF, hg]
      exact writes_prim fun sp hsp => ⟨.dot, .dot hsp, fun m => .refl _⟩
    | @empty n p hg =>
      intro k hk
      rw [prettyF, hg]
      exact writes_prim fun sp hsp => ⟨.lit [], .lit (.inr rfl) .nil hsp, fun m => same_lit_nil⟩
    | @name n p x hg hx =>
      intro k hk
      rw [prettyF, hg]
      refine writes_prim fun sp hsp => ⟨.ident x, ?_, fun m => .refl _⟩
      simp only [bytesOf_name hx]
      exact .ident hx hsp
    | @alt n p l r hg _ _ ih1 ih2 =>
      intro k hk
      have hc := get_count p
      have hl := get_count l
      have hr := get_count r
      have l0 := count_ne l
      have r0 := count_ne r
      rw [hg] at hc
      simp only [Pat.count] at hc
      rw [prettyF, hg]
      obtain ⟨k, rfl⟩ : ∃ j, k = j + 1 := ⟨k - 1, by omega⟩
      have w1 := (ih1 k (by omega)).same ((same_get _).trans (same_get _))
      have w2 := (ih2 k (by omega)).same ((same_get _).trans (same_get _))
      obtain ⟨e, he, hm⟩ := w1.or w2
      refine writes_prim fun sp hsp => ⟨.paren e, ?_, hm⟩
      have := PrimS.paren (sp := []) .nil he hsp
      simpa using this
    | @seq n p l r hg _ _ ih1 ih2 =>
      intro k hk
      have hc := get_count p
      have hl := get_count l
      have hr := get_count r
      have l0 := count_ne l
      have r0 := count_ne r
      rw [hg] at hc
      simp only [Pat.count] at hc
      rw [prettyF, hg]
      obtain ⟨k, rfl⟩ : ∃ j, k = j + 1 := ⟨k - 1, by omega⟩
      have w1 := (ih1 k (by omega)).same ((same_get _).trans (same_get _))
      have w2 := (ih2 k (by omega)).same ((same_get _).trans (same_get _))
      obtain ⟨s, hs, hm⟩ := w1.two w2
      refine writes_prim fun sp hsp => ⟨.paren (.one s), ?_, hm⟩
      have := PrimS.paren (sp := []) .nil (.one hs) hsp
      simpa using this
    | @memo n p q id hg _ ih =>
      intro k hk
      have hc := get_count p
      have hl := get_count q
      have q0 := count_ne q
      rw [hg] at hc
      simp only [Pat.count] at hc
      rw [prettyF, hg]
      obtain ⟨k, rfl⟩ : ∃ j, k = j + 1 := ⟨k - 1, by omega⟩
      have w1 := (ih k (by omega)).same ((same_get _).trans (same_get _))
      obtain ⟨s, hs, hm⟩ := w1.one (sp := [32]) (.blank rfl .nil)
      refine writes_prim fun sp hsp => ⟨.memo (.one s), ?_, fun m => same_memo (hm m) _ _⟩
      have := PrimS.memo (sp := [32]) (.blank rfl .nil) (.one hs) hsp
      simpa using this
    | @inl n p q x hg _ ih =>
      intro k hk
      have hc := get_count p
      have hl := get_count q
      have q0 := count_ne q
      rw [hg] at hc
      simp only [Pat.count] at hc
      rw [prettyF, hg]
      obtain ⟨k, rfl⟩ : ∃ j, k = j + 1 := ⟨k - 1, by omega⟩
      exact (ih k (by omega)).same (((same_get _).trans (same_get _)).trans (same_inl x q))
    | @star n p q hg h1 _ ih =>
      intro k hk
      have hc := get_count p
      have hl := get_count q
      have q0 := count_ne q
      rw [hg] at hc
      simp only [Pat.count] at hc
      rw [prettyF, hg]
      obtain ⟨k, rfl⟩ : ∃ j, k = j + 1 := ⟨k - 1, by omega⟩
      exact writes_suf (s := .star) h1 ((ih k (by omega)).same ((same_get _).trans (same_get _))) (fun _ h => .star h) same_star
    | @plus n p q hg h1 _ ih =>
      intro k hk
      have hc := get_count p
      have hl := get_count q
      have q0 := count_ne q
      rw [hg] at hc
      simp only [Pat.count] at hc
      rw [prettyF, hg]
      obtain ⟨k, rfl⟩ : ∃ j, k = j + 1 := ⟨k - 1, by omega⟩
      exact writes_suf (s := .plus) h1 ((ih k (by omega)).same ((same_get _).trans (same_get _))) (fun _ h => .plus h) same_plus
    | @opt n p q hg h1 _ ih =>
      intro k hk
      have hc := get_count p
      have hl := get_count q
      have q0 := count_ne q
      rw [hg] at hc
      simp only [Pat.count] at hc
      rw [prettyF, hg]
      obtain ⟨k, rfl⟩ : ∃ j, k = j + 1 := ⟨k - 1, by omega⟩
      exact writes_suf (s := .opt) h1 ((ih k (by omega)).same ((same_get _).trans (same_get _))) (fun _ h => .opt h) same_opt
    | @not n p q hg h1 _ ih =>
      intro k hk
      have hc := get_count p
      have hl := get_count q
      have q0 := count_ne q
      rw [hg] at hc
      simp only [Pat.count] at hc
      rw [prettyF, hg]
      obtain ⟨k, rfl⟩ : ∃ j, k = j + 1 := ⟨k - 1, by omega⟩
      exact writes_pre (s := .not) h1 ((ih k (by omega)).same ((same_get _).trans (same_get _))) (.not .nil) same_not
    | @and n p q hg h1 _ ih =>
      intro k hk
      have hc := get_count p
      have hl := get_count q
      have q0 := count_ne q
      rw [hg] at hc
      simp only [Pat.count] at hc
      rw [prettyF, hg]
      obtain ⟨k, rfl⟩ : ∃ j, k = j + 1 := ⟨k - 1, by omega⟩
      exact writes_pre (s := .and) h1 ((ih k (by omega)).same ((same_get _).trans (same_get _))) (.and .nil) same_and
  intro k hk
  obtain ⟨k, rfl⟩ : ∃ j, k = j + 1 := ⟨k - 1, by have := count_ne p; omega⟩
  exact (key h k hk).same (same_get p)

/-! ## Expressions -/

/-- **C76** (missing: captures, classes, searches, checks, errors, assertions, `Any(n)` with `n ≠ 1`, stacked operators, bytes outside
printable ASCII: see `C76_false` and `C76_class_false`; grammars: see `C76_grammar_partial` and `C76_grammar_false`). The text that
`Prettify` makes of a plain pattern writes an expression in the syntax of `re`, and the pattern that expression denotes has the meaning
of the pattern printed. -/
theorem C76_text_partial (hi : List UInt8 → List UInt8) {p : Pat} (h : Plain 2 p) {k : Nat} (hk : p.count ≤ k) :
    ∃ e, TopS (.expr e) (prettyF hi k p) ∧ ∀ m, SameMeaning (e.pat m).1 p := by
  obtain ⟨s, h1, h2⟩ := (plain_writes hi h k hk).one .nil
  refine ⟨.one s, ?_, h2⟩
  have := TopS.expr (sp := []) .nil (.one h1)
  simpa using this

/-- **C76** for the machine (missing: as in `C76_text_partial`). `re.Compile` of the text of a plain pattern accepts the text and
returns a pattern with the same meaning. -/
theorem C76_compile_partial (hi : List UInt8 → List UInt8) {p : Pat} (h : Plain 2 p) {k : Nat} (hk : p.count ≤ k) {σ : Type} {st : σ}
    {code : Code} {chk : CheckFn σ} {bufsz : Nat} (hc : Compiled reGrammar code) (hchk : CheckOK chk) (hb : 0 < bufsz) :
    (∃ r, RunsTo chk none code bufsz (prettyF hi k p) st r) ∧
    ∀ r, RunsTo chk none code bufsz (prettyF hi k p) st r → ∃ ch src, r = .done true (some (.dummy 0 (prettyF hi k p).length ch)) src [] () st ∧
      ∀ m, ∃ q m', fromAst false (prettyF hi k p) (Capture.treesL ch) m = (some q, m') ∧ SameMeaning q p := by
  obtain ⟨e, h1, h2⟩ := C76_text_partial hi h hk
  obtain ⟨h3, h4⟩ := C51_compile (chk := chk) (st := st) h1 hc hchk hb
  refine ⟨h3, fun r hr => ?_⟩
  obtain ⟨ch, src, e1, e2⟩ := h4 r hr
  exact ⟨ch, src, e1, fun m => ⟨_, _, e2 m, h2 m⟩⟩

/-! ## Grammars -/

/-- Definitions that are plain, with identifiers for names. -/
inductive PlainDefs : Defs → Prop
  | nil : PlainDefs .nil
  | cons {x p ds} : IsName x → Plain 2 (get p) → PlainDefs ds → PlainDefs (.cons (nameOf x) p ds)

/-- The definitions written, one by one, mean what the definitions printed mean. -/
inductive SameDefs : Gram → Defs → Prop
  | nil : SameDefs [] .nil
  | cons {x e g p ds} : (∀ m, SameMeaning (e.pat m).1 p) → SameDefs g ds → SameDefs ((x, e) :: g) (.cons (nameOf x) p ds)

theorem plain_defs (hi : List UInt8 → List UInt8) {ds : Defs} (h : PlainDefs ds) : ∀ {k}, ds.count + ds.names.length ≤ k →
    ∃ g, GramS g (prettyDefsF hi k ds) ∧ SameDefs g ds := by
  induction h with
  | nil =>
    intro k _
    refine ⟨[], ?_, .nil⟩
    cases k <;> exact .nil
  | @cons x p ds hx hp _ ih =>
    intro k hk
    simp only [Defs.count, Defs.names, List.length_cons] at hk
    obtain ⟨k, rfl⟩ : ∃ j, k = j + 1 := ⟨k - 1, by omega⟩
    obtain ⟨g, hg, hd⟩ := ih (k := k) (by omega)
    have hc := get_count p
    obtain ⟨s, hs, hm⟩ := ((plain_writes hi hp k (by omega)).same (same_get p)).one (sp := [10]) (.blank rfl .nil)
    refine ⟨(x, .one s) :: g, ?_, .cons hm hd⟩
    have hap : Apart (prettyF hi k (get p) ++ [10]) (prettyDefsF hi k ds) := by
      intro a b ha _
      simp at ha
      subst ha
      exact .inl rfl
    have e : bytesOf " <- " = [32, 60, 45, 32] := by decide +kernel
    have := GramS.cons hx (sp := [32]) (sp' := [32]) (.blank rfl .nil) (.blank rfl .nil) (.one hs) hg hap
    rw [prettyDefsF, bytesOf_name hx, e]
    simpa using this

/-- **C76**, grammars (missing: as in `C76_text_partial`, and the first line). The text that `Prettify` makes of a grammar with plain
definitions is the name of the start on a line of its own, followed by a text that writes, in the order in which the map was
walked, definitions of the same names with the same meanings. -/
theorem C76_grammar_partial (hi : List UInt8 → List UInt8) {s : String} {ds : Defs} (h : PlainDefs ds.inline) {k : Nat}
    (hk : ds.inline.count + ds.inline.names.length ≤ k) :
    ∃ t g, prettyF hi (k + 1) (.grammar s ds) = bytesOf s ++ 10 :: t ∧ GramS g t ∧ SameDefs g ds.inline := by
  obtain ⟨g, h1, h2⟩ := plain_defs hi h hk
  refine ⟨_, g, ?_, h1, h2⟩
  have e : get (.grammar s ds) = .grammar s ds := by
    rw [get]
    cases (Pat.grammar s ds).count <;> rfl
  rw [prettyF, e]

/-- **C76** is false of the code for grammars: the text of every grammar whose start is an identifier and that has plain definitions,
at least one, is rejected by the grammar of `re`. -/
theorem C76_grammar_false (hi : List UInt8 → List UInt8) {x : List UInt8} {ds : Defs} (hx : IsName x) (h : PlainDefs ds.inline)
    (hne : ds.inline ≠ .nil) {k : Nat} (hk : ds.inline.count + ds.inline.names.length ≤ k) :
    Ford (prettyF hi (k + 1) (.grammar (nameOf x) ds)) [] reGrammar 0 none := by
  obtain ⟨t, g, h1, h2, h3⟩ := C76_grammar_partial hi (s := nameOf x) h hk
  rw [h1, bytesOf_name hx]
  have hg := gram_tok h2
  have ht : ∃ b l, t = b :: l := by
    cases h2 with
    | nil => cases hi : ds.inline with
      | nil => exact absurd hi hne
      | cons => rw [hi] at h3; cases h3
    | cons hn => obtain ⟨b, l, rfl, _⟩ := hn; exact ⟨b, _, rfl⟩
  have hs : SeqS (.cons .none (.ident x) .none .nil) (x ++ [10]) := by
    simpa using SeqS.cons .none (PrimS.ident hx (.blank (b := 10) rfl .nil)) .none .nil (apart_end _)
  have hap : Apart (x ++ [10]) t := by
    intro a b ha _
    simp at ha
    subst ha
    exact .inl rfl
  have hd : (x ++ 10 :: t).drop 0 = x ++ [10] ++ t := by simp
  have hsp : NoSp (x ++ 10 :: t) := by
    obtain ⟨b, l, rfl, hb, _⟩ := hx
    exact (tok_ok_head (.inl (okHead_start hb))).sp
  have f1 := spacing (d := x ++ 10 :: t) (i := 0) .nil hsp (by simp)
  obtain ⟨c, f2, -⟩ := expr_ok (capg := false) (x ++ 10 :: t) (.one _) (x ++ [10]) t 0 (.one hs) hd hg.1 hg.2 hap
  obtain ⟨c', f3, -⟩ := ident_ok (d := x ++ 10 :: t) (i := 0) (sp := [10]) hx (.blank rfl .nil) hg.1.tok.sp
    (by intro y hy; simp at hy; subst hy; rfl) (by simp)
  have hd' : (x ++ 10 :: t).drop (0 + x.length + [10].length) = t := by
    rw [show x ++ 10 :: t = x ++ [10] ++ t by simp, List.drop_left' (by simp)]
  have f4 : Ford (x ++ 10 :: t) E (.nonterm "Definition") 0 none := by
    refine nt rfl (.capFail (cc (.cons (x := none) f3 (.fail (nt rfl (tok0_no ?_))))))
    refine Eq.symm (congrArg List.head? hd') ▸ hg.1.tok.arrow
  have f5 : Ford (x ++ 10 :: t) E (.nonterm "Grammar") 0 none := nt rfl (.capFail (.plusFail f4))
  have f6 : Ford (x ++ 10 :: t) E (.nonterm "EndOfFile") (0 + (x ++ [10]).length) none := by
    obtain ⟨b, l, rfl⟩ := ht
    refine nt rfl (.notFail (dot_ok (b := b) (r := l) ?_))
    simpa [Nat.add_assoc] using hd'
  exact .grammar rfl (.capFail (cc (.cons (x := none) f1 (.cons (x := none) (oo (.next f5 (.here f2))) (.fail f6)))))

/-! ## Examples -/

/-- `("ab" / "c\n")* !x+`, the second part memoized. -/
def exPlain : Pat := .seq (.star (.alt (.lit [97, 98]) (.lit [99, 10]))) (.memo (.not (.plus (.nonterm "x"))) 7)

theorem exPlain_plain : Plain 2 exPlain := by
  have hx : IsName [120] := ⟨120, [], rfl, rfl, by simp⟩
  have e : (Pat.nonterm "x") = .nonterm (nameOf [120]) := by rw [show nameOf [120] = "x" by decide +kernel]
  refine .seq rfl (.star rfl (by omega) (.alt rfl (.lit rfl ?_) (.lit rfl ?_)))
    (.memo rfl (.not rfl (by omega) (.plus rfl (by omega) (.name (p := get (.nonterm "x")) e hx))))
  · intro b hb
    simp at hb
    rcases hb with rfl | rfl <;> exact .inr (.inr (.inr (by decide)))
  · intro b hb
    simp at hb
    rcases hb with rfl | rfl
    · exact .inr (.inr (.inr (by decide)))
    · exact .inr (.inl rfl)

/-- The text of the example: `(("ab" / "c\n")* {{ !x+ }})`. -/
example : prettyF (fun s => s) 20 exPlain =
    [40, 40, 34, 97, 98, 34, 32, 47, 32, 34, 99, 92, 110, 34, 41, 42, 32, 123, 123, 32, 33, 120, 43, 32, 125, 125, 41] := by
  decide +kernel

/-- A grammar that meets the hypotheses of `C76_grammar_partial` and `C76_grammar_false`: `x <- "a" x / ""`, where the second
alternative and the choice become an option. -/
def exDefs : Defs := .cons "x" (.alt (.seq (.lit [97]) (.nonterm "x")) .empty) .nil

example : PlainDefs exDefs.inline ∧ exDefs.inline ≠ .nil ∧
    prettyF (fun s => s) 20 (.grammar "x" exDefs) = bytesOf "x\nx <- (\"a\" x)?\n" := by
  have hx : IsName [120] := ⟨120, [], rfl, rfl, by simp⟩
  have e : nameOf [120] = "x" := by decide +kernel
  have ei : exDefs.inline = .cons (nameOf [120]) (.alt (.seq (.lit [97]) (.nonterm (nameOf [120]))) .empty) .nil := by
    rw [e]; rfl
  refine ⟨?_, by rw [ei]; simp, by decide +kernel⟩
  rw [ei]
  refine .cons hx (.opt rfl (by omega) (.seq rfl (.lit rfl ?_) (.name rfl hx))) .nil
  intro b hb
  simp at hb
  subst hb
  exact .inr (.inr (.inr (by decide)))

/-! ## What is not read back -/

/-- No checkers, no input but `data`. -/
def bare (data : List UInt8) : Ctx Unit := ⟨data, fun _ s _ _ _ _ _ => (none, s), false⟩

theorem not_same {p q : Pat} (data : List UInt8) (n : Nat) {e e' : Ev Unit} (h : eval n (bare data) [] p 0 ⟨[], ()⟩ = some e)
    (h' : eval n (bare data) [] q 0 ⟨[], ()⟩ = some e') (hne : e.1 ≠ e'.1) : ¬ SameMeaning p q := by
  intro hs
  have := Evals.det ⟨n, h'⟩ ((hs Unit (bare data) [] 0 ⟨[], ()⟩ e).1 ⟨n, h⟩)
  exact hne (by rw [this])

/-- The grammar of `re` does not accept the text: `re.Compile` returns an error. -/
def PrettyRejected (text : List UInt8) : Prop := Ford text [] reGrammar 0 none

/-- A test for it. -/
def prettyRejectTest (text : List UInt8) : Bool :=
  match eval 80 (bare text) [] reGrammar 0 ⟨[], ()⟩ with
  | some (.fail, _, _) => true
  | _ => false

theorem rejected_of {text : List UInt8} (h : prettyRejectTest text = true) : PrettyRejected text := by
  unfold prettyRejectTest at h
  split at h
  · rename_i far w he
    obtain ⟨x, h1, _, h3⟩ := evals_pure reGrammar_ok.1 (fun _ h => by cases h) ⟨_, he⟩
    cases x with
    | none => exact h3
    | some x => cases h1
  · cases h

/-- **C76** is false of the code. An option on a negation is printed as the negation of an option; `Any(2)` is printed as `Any(1)`; a
capture is printed in braces, for which `re.Compile` returns nil; a literal with a control character, a search, an assertion and an
error are printed as texts that `re.Compile` rejects, or takes for something else. -/
theorem C76_false (hi : List UInt8 → List UInt8) :
    (∃ e, TopS (.expr e) (prettyF hi 9 (.opt (.not (.lit [97])))) ∧ ∀ m, ¬ SameMeaning (e.pat m).1 (.opt (.not (.lit [97])))) ∧
    (∃ e, TopS (.expr e) (prettyF hi 9 (.dot 2)) ∧ ∀ m, ¬ SameMeaning (e.pat m).1 (.dot 2)) ∧
    NilPattern (prettyF hi 9 (.cap (.dot 1) 0)) ∧
    PrettyRejected (prettyF hi 9 (.lit [7])) ∧
    PrettyRejected (prettyF hi 9 (.star (.star (.dot 1)))) ∧
    PrettyRejected (prettyF hi 9 (.not (.not (.dot 1)))) ∧
    PrettyRejected (prettyF hi 9 (.err "oh!")) ∧
    (∃ e, TopS (.expr e) (prettyF hi 9 (.search (.lit [97]))) ∧ ∀ m, ¬ SameMeaning (e.pat m).1 (.search (.lit [97]))) := by
  refine ⟨⟨.one (.cons .not (.lit [97]) .opt .nil), ?_, fun m => ?_⟩, ⟨.one (.cons .none .dot .none .nil), ?_, fun m => ?_⟩, ?_, ?_, ?_, ?_, ?_,
    ⟨.one (.cons .none (.ident [115, 101, 97, 114, 99, 104]) .none (.cons .none (.paren (.one (.cons .none (.lit [97]) .none .nil))) .none .nil)),
      ?_, fun m => ?_⟩⟩
  · exact .expr (sp := []) (t := [33, 34, 97, 34, 63]) .nil (.one (.cons (.not .nil) (.lit (q := 34) (t := [97, 34]) (.inr rfl) (.cons (t := [97]) (.raw (by decide)) (by simp) .nil) .nil)
      (.opt .nil) .nil (apart_end _)))
  · exact not_same (p := .not (.opt (.lit [97]))) [] 9 rfl rfl (by simp)
  · exact .expr .nil (.one (.cons .none (.dot .nil) .none .nil (apart_end _)))
  · exact not_same (p := .dot 1) [97] 9 rfl rfl (by simp)
  · exact nilPattern_of (text := [123, 32, 46, 32, 125]) (by decide +kernel)
  · exact rejected_of (text := [34, 92, 97, 34]) (by decide +kernel)
  · exact rejected_of (text := [46, 42, 42]) (by decide +kernel)
  · exact rejected_of (text := [33, 33, 46]) (by decide +kernel)
  · have e : prettyF hi 9 (.err "oh!") = bytesOf "err(oh!, <invalid>)" := by
      show bytesOf "err(" ++ (bytesOf "oh!" ++ (bytesOf ", <invalid>" ++ [41])) = _
      decide +kernel
    rw [e]
    exact rejected_of (by decide +kernel)
  · have e : prettyF hi 9 (.search (.lit [97])) = [115, 101, 97, 114, 99, 104, 40, 34, 97, 34, 41] := by
      show bytesOf "search(" ++ ([34, 97, 34] ++ [41]) = _
      decide +kernel
    rw [e]
    exact .expr .nil (.one (.cons (b := [115, 101, 97, 114, 99, 104]) .none (.ident (sp := []) ⟨115, _, rfl, rfl, by decide⟩ .nil) .none (.cons .none (.paren .nil
      (.one (.cons .none (.lit (q := 34) (t := [97, 34]) (.inr rfl) (.cons (t := [97]) (.raw (by decide)) (by simp) .nil) .nil) .none .nil
        (apart_end _))) .nil) .none .nil (apart_end _)) (by intro x y _ hy; simp at hy; subst hy; exact .inr rfl)))
  · intro hs
    have h1 : Evals (bare [97]) [] (.search (.lit [97])) 0 ⟨[], ()⟩ (.ok 1 [], 0, ⟨[], ()⟩) := ⟨9, rfl⟩
    obtain ⟨n, h2⟩ := (hs _ _ _ _ _ _).2 h1
    cases n with
    | zero => cases h2
    | succ n =>
      cases n with
      | zero => cases h2
      | succ n => cases h2

/-- **C76** is false of the code for classes: the class of `b` alone is printed as `[{'b'}]`, the class of the four characters between
the brackets. Through `Get` this also concerns patterns without a class, like the choice between two characters. -/
theorem C76_class_false (hi : List UInt8 → List UInt8) :
    (∃ e, TopS (.expr e) (prettyF hi 9 (.cls (CSet.new [98]))) ∧ ∀ m, ¬ SameMeaning (e.pat m).1 (.cls (CSet.new [98]))) ∧
    (∃ e, TopS (.expr e) (prettyF hi 9 (.alt (.lit [97]) (.lit [98]))) ∧ ∀ m, ¬ SameMeaning (e.pat m).1 (.alt (.lit [97]) (.lit [98]))) := by
  have e1 : prettyF hi 9 (.cls (CSet.new [98])) = [91, 123, 39, 98, 39, 125, 93] := by
    show 91 :: (bytesOf (String.ofList (CSet.new [98]).string) ++ [93]) = _
    decide +kernel
  have e2 : prettyF hi 9 (.alt (.lit [97]) (.lit [98])) = [91, 123, 39, 97, 39, 46, 46, 39, 98, 39, 125, 93] := by
    show 91 :: (bytesOf (String.ofList (CSet.new [97, 98]).string) ++ [93]) = _
    decide +kernel
  have mk : ∀ its : List UInt8, (∀ b ∈ its, b ≠ 92 ∧ b ≠ 93 ∧ b ≠ 45) → ItemsS (its.map .one) (its ++ [93]) := by
    intro its
    induction its with
    | nil => intro _; exact .nil
    | cons b its ih =>
      intro h
      have hb := h b (by simp)
      refine ItemsS.one (t := [b]) (.raw hb.1) (by simpa using hb.2.1) ?_ (ih fun x hx => h x (by simp [hx]))
      cases its with
      | nil => simp
      | cons c its => simpa using (h c (by simp)).2.2
  have top : ∀ its : List UInt8, its ≠ [] → its.head? ≠ some 94 → (∀ b ∈ its, b ≠ 92 ∧ b ≠ 93 ∧ b ≠ 45) →
      TopS (.expr (.one (.cons .none (.cls false (its.map .one)) .none .nil))) (91 :: (its ++ [93])) := by
    intro its h0 h1 h2
    have hp : PrimS (.cls false (its.map .one)) (91 :: ([] ++ ((its ++ [93]) ++ []))) :=
      .cls .no (mk its h2) (.inr (by simpa using h0)) (by simp) (fun _ => by
        cases its with
        | nil => exact absurd rfl h0
        | cons b l => simpa using h1) .nil
    have := TopS.expr (sp := []) .nil (.one (.cons .none hp .none .nil (apart_end _)))
    simpa using this
  have yes : ∀ n cs, cs.has 123 = true → eval (n + 1) (bare [123]) [] (.cls cs) 0 ⟨[], ()⟩ = some (.ok 1 [], 1, ⟨[], ()⟩) := by
    intro n cs h
    simp [eval, inSet, bare, h]
  refine ⟨⟨_, e1 ▸ top [123, 39, 98, 39, 125] (by simp) (by simp) (by simp), fun m => ?_⟩,
    ⟨_, e2 ▸ top [123, 39, 97, 39, 46, 46, 39, 98, 39, 125] (by simp) (by simp) (by simp), fun m => ?_⟩⟩
  · exact not_same (p := .cls _) [123] 1 (yes _ _ (by rw [has_setOf]; rfl)) rfl (by simp)
  · exact not_same (p := .cls _) [123] 2 (yes _ _ (by rw [has_setOf]; rfl)) rfl (by simp)

end Re
end Gpeg
