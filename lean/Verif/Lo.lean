import Verif.CaseMemo
/-!
# What memoized patterns look at

An evaluation that does not count what memoized patterns look at (`Ctx.lo`) has the same result as one that does.
-/
namespace Gpeg
variable {σ : Type}

/-- The same outcome, except for what was looked at. -/
def Ev.Same (e e' : Ev σ) : Prop := e.1 = e'.1 ∧ e.2.2 = e'.2.2

/-- `o'` has the outcome of `o`, except for what was looked at. -/
def SameOut (o o' : Option (Ev σ)) : Prop := ∀ e, o = some e → ∃ e', o' = some e' ∧ e.Same e'

theorem SameOut.refl (o : Option (Ev σ)) : SameOut o o := fun e h => ⟨e, h, rfl, rfl⟩

theorem SameOut.bind {o o' : Option (Ev σ)} {f g : Ev σ → Option (Ev σ)} (h : SameOut o o')
    (hf : ∀ e e', e.Same e' → SameOut (f e) (g e')) : SameOut (o.bind f) (o'.bind g) := by
  intro e he
  obtain ⟨x, hx, he⟩ := Option.bind_eq_some_iff.1 he
  obtain ⟨x', hx', hs⟩ := h x hx
  rw [hx']
  exact hf x x' hs e he

theorem SameOut.map {o o' : Option (Ev σ)} {f g : Ev σ → Ev σ} (h : SameOut o o')
    (hf : ∀ e e', e.Same e' → (f e).Same (g e')) : SameOut (o.map f) (o'.map g) := by
  intro e he
  obtain ⟨x, hx, rfl⟩ := Option.map_eq_some_iff.1 he
  obtain ⟨x', hx', hs⟩ := h x hx
  rw [hx']
  exact ⟨_, rfl, hf x x' hs⟩

theorem SameOut.andThen {e e' : Ev σ} (he : e.Same e') {k k' : Nat → List CTree → World σ → Option (Ev σ)}
    (hk : ∀ p cs w, SameOut (k p cs w) (k' p cs w)) : SameOut (e.andThen k) (e'.andThen k') := by
  obtain ⟨r, f, w⟩ := e
  obtain ⟨r', f', w'⟩ := e'
  obtain ⟨h1, h2⟩ := he
  simp only at h1 h2
  subst h1 h2
  cases r with
  | ok p cs => exact (hk p cs w).map fun e e' h => ⟨h.1, h.2⟩
  | fail => intro x hx; cases hx; exact ⟨_, rfl, rfl, rfl⟩
  | abort p => intro x hx; cases hx; exact ⟨_, rfl, rfl, rfl⟩

theorem SameOut.orElse {e e' : Ev σ} (he : e.Same e') {k k' : World σ → Option (Ev σ)}
    (hk : ∀ w, SameOut (k w) (k' w)) : SameOut (e.orElse k) (e'.orElse k') := by
  obtain ⟨r, f, w⟩ := e
  obtain ⟨r', f', w'⟩ := e'
  obtain ⟨h1, h2⟩ := he
  simp only at h1 h2
  subst h1 h2
  cases r with
  | ok p cs => intro x hx; cases hx; exact ⟨_, rfl, rfl, rfl⟩
  | fail => exact (hk w).map fun e e' h => ⟨h.1, h.2⟩
  | abort p => intro x hx; cases hx; exact ⟨_, rfl, rfl, rfl⟩

theorem SameOut.search {ev ev' : Nat → World σ → Option (Ev σ)} (h : ∀ pos w, SameOut (ev pos w) (ev' pos w)) :
    ∀ k pos w, SameOut (searchLoop ev k pos w) (searchLoop ev' k pos w) := by
  intro k
  induction k with
  | zero => intro pos w; exact (h pos w).bind fun e e' he => SameOut.orElse he fun w => SameOut.refl _
  | succ k ih => intro pos w; exact (h pos w).bind fun e e' he => SameOut.orElse he fun w => ih _ _

theorem Ev.Same.veil {e e' : Ev σ} (h : e.Same e') (b b' : Bool) : (e.veil b).Same (e'.veil b') := by
  obtain ⟨r, f, w⟩ := e
  obtain ⟨r', f', w'⟩ := e'
  rw [Ev.veil_mk, Ev.veil_mk]
  exact h

/-- Whether what memoized patterns look at is counted makes no difference to the result. -/
theorem eval_sameOut {d : List UInt8} {chk : CheckFn σ} (b b' : Bool) (n : Nat) : ∀ (env : Env) (p : Pat) (pos : Nat) (w : World σ),
    SameOut (eval n ⟨d, chk, b⟩ env p pos w) (eval n ⟨d, chk, b'⟩ env p pos w) := by
  induction n with
  | zero => intro env p pos w e h; cases h
  | succ n ih =>
    intro env p pos w
    cases p with
    | empty | lit | cls | dot | emptyOp | err => exact SameOut.refl _
    | seq l r => exact (ih _ _ _ _).bind fun e e' he => SameOut.andThen he fun p cs w => (ih _ _ _ _).map fun e e' h => ⟨by simp only [h.1], h.2⟩
    | alt l r => exact (ih _ _ _ _).bind fun e e' he => SameOut.orElse he fun w => ih _ _ _ _
    | star q =>
      refine (ih _ _ _ _).bind fun e e' he => ?_
      obtain ⟨r, f, w⟩ := e
      obtain ⟨r', f', w'⟩ := e'
      obtain ⟨h1, h2⟩ := he
      simp only at h1 h2
      subst h1 h2
      cases r with
      | ok p cs => exact (ih _ (.star q) _ _).map fun e e' h => ⟨by simp only [h.1], h.2⟩
      | fail => intro x hx; cases hx; exact ⟨_, rfl, rfl, rfl⟩
      | abort p => intro x hx; cases hx; exact ⟨_, rfl, rfl, rfl⟩
    | plus q => exact (ih _ _ _ _).bind fun e e' he => SameOut.andThen he fun p cs w => (ih _ (.star q) _ _).map fun e e' h => ⟨by simp only [h.1], h.2⟩
    | opt q => exact (ih _ _ _ _).bind fun e e' he => SameOut.orElse he fun w => SameOut.refl _
    | not q =>
      refine (ih _ _ _ _).map fun e e' he => ?_
      obtain ⟨r, f, w⟩ := e
      obtain ⟨r', f', w'⟩ := e'
      obtain ⟨h1, h2⟩ := he
      simp only at h1 h2
      subst h1 h2
      cases r <;> exact ⟨rfl, rfl⟩
    | and q =>
      refine (ih _ _ _ _).map fun e e' he => ?_
      obtain ⟨r, f, w⟩ := e
      obtain ⟨r', f', w'⟩ := e'
      obtain ⟨h1, h2⟩ := he
      simp only at h1 h2
      subst h1 h2
      cases r <;> exact ⟨rfl, rfl⟩
    | cap q id =>
      refine (ih _ _ _ _).map fun e e' he => ?_
      obtain ⟨r, f, w⟩ := e
      obtain ⟨r', f', w'⟩ := e'
      obtain ⟨h1, h2⟩ := he
      simp only at h1 h2
      subst h1 h2
      cases r <;> exact ⟨rfl, rfl⟩
    | memo q id => exact (ih _ _ _ _).map fun e e' he => he.veil b b'
    | check q k id flag =>
      refine (ih _ _ _ _).map fun e e' he => ?_
      obtain ⟨r, f, w⟩ := e
      obtain ⟨r', f', w'⟩ := e'
      obtain ⟨h1, h2⟩ := he
      simp only at h1 h2
      subst h1 h2
      cases r with
      | ok pos' cs =>
        simp only
        cases chk k w.cst ((d.drop pos).take (pos' - pos)) d pos' id flag with
        | mk x st => cases x <;> exact ⟨rfl, rfl⟩
      | fail => exact ⟨rfl, rfl⟩
      | abort p => exact ⟨rfl, rfl⟩
    | grammar start defs =>
      simp only [eval]
      cases defs.find start with
      | none => exact SameOut.refl _
      | some x => exact ih _ _ _ _
    | search q => exact (SameOut.search (fun pos w => ih _ _ _ _) _ _ _).map fun e e' h => h
    | nonterm name =>
      simp only [eval]
      cases lookupNT name env with
      | none => exact SameOut.refl _
      | some x => exact ih _ _ _ _
    | inl m q => exact ih _ _ _ _
    | errRec m q => exact ih _ _ _ _

theorem Evals.lo {d : List UInt8} {chk : CheckFn σ} {b : Bool} (b' : Bool) {env : Env} {p : Pat} {pos : Nat} {w : World σ} {e : Ev σ}
    (h : Evals ⟨d, chk, b⟩ env p pos w e) : ∃ f, Evals ⟨d, chk, b'⟩ env p pos w (e.1, f, e.2.2) := by
  obtain ⟨n, h⟩ := h
  obtain ⟨⟨r, f, w'⟩, h1, h2, h3⟩ := eval_sameOut b b' n env p pos w e h
  exact ⟨f, n, by rw [h1, h2, h3]⟩

theorem Iter.lo {d : List UInt8} {chk : CheckFn σ} {b : Bool} (b' : Bool) {env : Env} {q : Pat} {pos pos' far : Nat} {w w' : World σ}
    {cs : List CTree} (h : Iter ⟨d, chk, b⟩ env q pos w pos' cs far w') : ∃ f, Iter ⟨d, chk, b'⟩ env q pos w pos' cs f w' := by
  induction h with
  | one hev => obtain ⟨f, h⟩ := hev.lo b'; exact ⟨f, .one h⟩
  | trans _ _ ih1 ih2 =>
    obtain ⟨f1, h1⟩ := ih1
    obtain ⟨f2, h2⟩ := ih2
    exact ⟨_, .trans h1 h2⟩

/-! ## Patterns without memoized parts -/

mutual
/-- No memoized node, in the pattern and in the definitions of the names in `S`, which are all that are used. -/
def Pat.memoless (S : String → Bool) : Pat → Bool
  | .memo _ _ => false
  | .nonterm n => S n
  | .alt l r | .seq l r => l.memoless S && r.memoless S
  | .star p | .plus p | .opt p | .not p | .and p | .cap p _ | .check p _ _ _ | .search p | .inl _ p | .errRec _ p => p.memoless S
  | .grammar st ds => S st && ds.memoless S
  | .cls _ | .lit _ | .dot _ | .err _ | .emptyOp _ | .empty => true
def Defs.memoless (S : String → Bool) : Defs → Bool
  | .nil => true
  | .cons n p rest => (!S n || p.memoless S) && rest.memoless S
end

theorem Defs.memoless_find {S : String → Bool} {n : String} {b : Pat} (hn : S n = true) : ∀ {ds : Defs}, ds.memoless S = true →
    ds.find n = some b → b.memoless S = true
  | .nil, _, hf => by cases hf
  | .cons m p rest, h, hf => by
    simp only [Defs.memoless, Bool.and_eq_true, Bool.or_eq_true, Bool.not_eq_true'] at h
    simp only [Defs.find] at hf
    split at hf
    · rename_i e
      subst e
      cases hf
      rcases h.1 with h | h
      · rw [hn] at h; cases h
      · exact h
    · exact Defs.memoless_find hn h.2 hf

theorem lookup_memoless {S : String → Bool} {n : String} (hn : S n = true) {b : Pat} {env' : Env} : ∀ {env : Env},
    (∀ d ∈ env, d.memoless S = true) → lookupNT n env = some (b, env') → b.memoless S = true ∧ ∀ d ∈ env', d.memoless S = true
  | [], _, h => by cases h
  | d :: ds, he, h => by
    simp only [lookupNT] at h
    split at h
    · rename_i hf
      cases h
      exact ⟨Defs.memoless_find hn (he d (by simp)) hf, he⟩
    · exact lookup_memoless hn (fun d hd => he d (by simp [hd])) h

theorem eval_memoless {S : String → Bool} {d : List UInt8} {chk : CheckFn σ} (b b' : Bool) (n : Nat) :
    ∀ (env : Env) (p : Pat) (pos : Nat) (w : World σ), p.memoless S = true → (∀ d ∈ env, d.memoless S = true) →
    eval n ⟨d, chk, b⟩ env p pos w = eval n ⟨d, chk, b'⟩ env p pos w := by
  induction n with
  | zero => intro env p pos w _ _; rfl
  | succ n ih =>
    intro env p pos w hp henv
    cases p with
    | empty | lit | cls | dot | emptyOp | err => rfl
    | memo q id => cases hp
    | seq l r =>
      simp only [Pat.memoless, Bool.and_eq_true] at hp
      have h2 := fun pos w => ih env r pos w hp.2 henv
      simp only [eval, ih env l pos w hp.1 henv, h2]
    | alt l r =>
      simp only [Pat.memoless, Bool.and_eq_true] at hp
      have h2 := fun pos w => ih env r pos w hp.2 henv
      simp only [eval, ih env l pos w hp.1 henv, h2]
    | star q =>
      have h2 := fun pos w => ih env (.star q) pos w hp henv
      have hp' : q.memoless S = true := hp
      simp only [eval, ih env q pos w hp' henv, h2]
    | plus q =>
      have hp' : q.memoless S = true := hp
      have h2 := fun pos w => ih env (.star q) pos w hp' henv
      simp only [eval, ih env q pos w hp' henv, h2]
    | opt q | not q | and q | cap q id | inl m q | errRec m q =>
      have hp' : q.memoless S = true := hp
      have h2 := fun w => ih env q pos w hp' henv
      simp only [eval, h2]
      try rfl
    | check q k id flag =>
      have hp' : q.memoless S = true := hp
      simp only [eval, ih env q pos w hp' henv]
    | grammar start defs =>
      simp only [Pat.memoless, Bool.and_eq_true] at hp
      simp only [eval]
      cases hb : defs.find start with
      | none => rfl
      | some x =>
        refine ih _ _ _ _ (Defs.memoless_find hp.1 hp.2 hb) fun d hd => ?_
        rcases List.mem_cons.1 hd with rfl | hd
        · exact hp.2
        · exact henv d hd
    | search q =>
      have hp' : q.memoless S = true := hp
      have : eval n ⟨d, chk, b⟩ env q = eval n ⟨d, chk, b'⟩ env q := funext fun pos => funext fun w => ih env q pos w hp' henv
      simp only [eval, this]
    | nonterm name =>
      simp only [eval]
      cases hb : lookupNT name env with
      | none => rfl
      | some x =>
        obtain ⟨x, env'⟩ := x
        obtain ⟨h1, h2⟩ := lookup_memoless hp henv hb
        exact ih _ _ _ _ h1 h2

end Gpeg
