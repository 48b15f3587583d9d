import Verif.Peg
/-! # Patterns without captures -/
namespace Gpeg
variable {σ : Type}

mutual
/-- No capture node, in the pattern and in the definitions of the names in `S`, which are all that are used. -/
def Pat.capless (S : String → Bool) : Pat → Bool
  | .cap _ _ => false
  | .nonterm n => S n
  | .alt l r | .seq l r => l.capless S && r.capless S
  | .star p | .plus p | .opt p | .not p | .and p | .memo p _ | .check p _ _ _ | .search p | .inl _ p | .errRec _ p => p.capless S
  | .grammar st ds => S st && ds.capless S
  | .cls _ | .lit _ | .dot _ | .err _ | .emptyOp _ | .empty => true
def Defs.capless (S : String → Bool) : Defs → Bool
  | .nil => true
  | .cons n p rest => (!S n || p.capless S) && rest.capless S
end

theorem Defs.capless_find {S : String → Bool} {n : String} {b : Pat} (hn : S n = true) : ∀ {ds : Defs}, ds.capless S = true →
    ds.find n = some b → b.capless S = true
  | .nil, _, hf => by cases hf
  | .cons m p rest, h, hf => by
    simp only [Defs.capless, Bool.and_eq_true, Bool.or_eq_true, Bool.not_eq_true'] at h
    simp only [Defs.find] at hf
    split at hf
    · rename_i e
      subst e
      cases hf
      rcases h.1 with h | h
      · rw [hn] at h; cases h
      · exact h
    · exact Defs.capless_find hn h.2 hf

theorem lookup_capless {S : String → Bool} {n : String} (hn : S n = true) {b : Pat} {env' : Env} : ∀ {env : Env},
    (∀ d ∈ env, d.capless S = true) → lookupNT n env = some (b, env') → b.capless S = true ∧ ∀ d ∈ env', d.capless S = true
  | [], _, h => by cases h
  | d :: ds, he, h => by
    simp only [lookupNT] at h
    split at h
    · rename_i hf
      cases h
      exact ⟨Defs.capless_find hn (he d (by simp)) hf, he⟩
    · exact lookup_capless hn (fun d hd => he d (by simp [hd])) h

/-- A success comes without captures. -/
def Ev.Bare (e : Ev σ) : Prop := ∀ pos cs, e.1 = .ok pos cs → cs = []

theorem Ev.Bare.orElse {e e' : Ev σ} {k : World σ → Option (Ev σ)} (h : e.Bare) (hk : ∀ w x, k w = some x → x.Bare)
    (he : e.orElse k = some e') : e'.Bare := by
  obtain ⟨res, f, w⟩ := e
  cases res with
  | fail =>
    simp only [Ev.orElse, Option.map_eq_some_iff] at he
    obtain ⟨x, hx, rfl⟩ := he
    exact fun p cs h => hk _ x hx p cs h
  | ok pos cs => cases he; exact h
  | abort pos => cases he; exact h

theorem Ev.Bare.andThen {e e' : Ev σ} {k : Nat → List CTree → World σ → Option (Ev σ)} (h : e.Bare)
    (hk : ∀ pos w x, k pos [] w = some x → x.Bare) (he : e.andThen k = some e') : e'.Bare := by
  obtain ⟨res, f, w⟩ := e
  cases res with
  | ok pos cs =>
    obtain rfl := h pos cs rfl
    simp only [Ev.andThen, Option.map_eq_some_iff] at he
    obtain ⟨x, hx, rfl⟩ := he
    exact fun p cs h => hk _ _ x hx p cs h
  | fail => cases he; exact h
  | abort pos => cases he; exact h

theorem prepend_nil (r : Res) : r.prepend [] = r := by cases r <;> rfl

theorem searchLoop_bare {ev : Nat → World σ → Option (Ev σ)} (h : ∀ pos w e, ev pos w = some e → e.Bare) :
    ∀ (k pos : Nat) (w : World σ) (e : Ev σ), searchLoop ev k pos w = some e → e.Bare
  | 0, pos, w, e, he => by
    rw [searchLoop] at he
    obtain ⟨x, hx, he⟩ := Option.bind_eq_some_iff.1 he
    exact (h _ _ _ hx).orElse (fun w y hy => by cases hy; intro _ _ h; cases h) he
  | k + 1, pos, w, e, he => by
    rw [searchLoop] at he
    obtain ⟨x, hx, he⟩ := Option.bind_eq_some_iff.1 he
    exact (h _ _ _ hx).orElse (fun w y hy => searchLoop_bare h k _ _ _ hy) he

theorem eval_bare {S : String → Bool} (c : Ctx σ) : ∀ (n : Nat) (env : Env) (p : Pat) (pos : Nat) (w : World σ) (e : Ev σ),
    p.capless S = true → (∀ d ∈ env, d.capless S = true) → eval n c env p pos w = some e → e.Bare := by
  intro n
  induction n with
  | zero => intro env p pos w e _ _ h; cases h
  | succ n ih =>
    intro env p pos w e hp henv h
    have htriv : ∀ (pos : Nat) (f : Nat) (w : World σ), Ev.Bare (Res.ok pos [], f, w) := by
      intro _ _ _ _ _ h; cases h; rfl
    have hfail : ∀ (f : Nat) (w : World σ), Ev.Bare (Res.fail, f, w) := by intro _ _ _ _ h; cases h
    have habort : ∀ (pos : Nat) (f : Nat) (w : World σ), Ev.Bare (Res.abort pos, f, w) := by intro _ _ _ _ _ h; cases h
    cases p with
    | empty => cases h; exact htriv _ _ _
    | lit s =>
      rw [eval] at h
      split at h <;> cases h
      · exact htriv _ _ _
      · exact hfail _ _
    | cls cs | dot k | emptyOp op =>
      rw [eval] at h
      split at h <;> cases h
      · exact htriv _ _ _
      · exact hfail _ _
    | seq l r =>
      simp only [Pat.capless, Bool.and_eq_true] at hp
      rw [eval] at h
      obtain ⟨x, hx, h⟩ := Option.bind_eq_some_iff.1 h
      refine (ih _ _ _ _ _ hp.1 henv hx).andThen (fun pos' w' y hy => ?_) h
      obtain ⟨z, hz, rfl⟩ := Option.map_eq_some_iff.1 hy
      obtain ⟨res, f, w''⟩ := z
      simp only [prepend_nil]
      exact ih _ _ _ _ _ hp.2 henv hz
    | alt l r =>
      simp only [Pat.capless, Bool.and_eq_true] at hp
      rw [eval] at h
      obtain ⟨x, hx, h⟩ := Option.bind_eq_some_iff.1 h
      exact (ih _ _ _ _ _ hp.1 henv hx).orElse (fun w' y hy => ih _ _ _ _ _ hp.2 henv hy) h
    | star q =>
      rw [eval] at h
      obtain ⟨x, hx, h⟩ := Option.bind_eq_some_iff.1 h
      have hb := ih _ _ _ _ _ (by simpa only [Pat.capless] using hp) henv hx
      obtain ⟨res, f, w'⟩ := x
      cases res with
      | ok pos' cs =>
        obtain rfl := hb pos' cs rfl
        obtain ⟨z, hz, rfl⟩ := Option.map_eq_some_iff.1 h
        obtain ⟨res, f, w''⟩ := z
        simp only [prepend_nil]
        exact fun p cs h => ih _ _ _ _ _ hp henv hz p cs h
      | fail => cases h; exact htriv _ _ _
      | abort p => cases h; exact habort _ _ _
    | plus q =>
      rw [eval] at h
      obtain ⟨x, hx, h⟩ := Option.bind_eq_some_iff.1 h
      refine (ih _ _ _ _ _ (by simpa only [Pat.capless] using hp) henv hx).andThen (fun pos' w' y hy => ?_) h
      obtain ⟨z, hz, rfl⟩ := Option.map_eq_some_iff.1 hy
      obtain ⟨res, f, w''⟩ := z
      simp only [prepend_nil]
      exact ih _ (.star q) _ _ _ (by simpa only [Pat.capless] using hp) henv hz
    | opt q =>
      rw [eval] at h
      obtain ⟨x, hx, h⟩ := Option.bind_eq_some_iff.1 h
      exact (ih _ _ _ _ _ (by simpa only [Pat.capless] using hp) henv hx).orElse
        (fun w' y hy => by cases hy; exact htriv _ _ _) h
    | not q =>
      rw [eval] at h
      obtain ⟨x, hx, rfl⟩ := Option.map_eq_some_iff.1 h
      obtain ⟨res, f, w'⟩ := x
      cases res with
      | ok pos' cs => exact hfail _ _
      | fail => exact htriv _ _ _
      | abort p => exact habort _ _ _
    | and q =>
      rw [eval] at h
      obtain ⟨x, hx, rfl⟩ := Option.map_eq_some_iff.1 h
      have hb := ih _ _ _ _ _ (by simpa only [Pat.capless] using hp) henv hx
      obtain ⟨res, f, w'⟩ := x
      cases res with
      | ok pos' cs => obtain rfl := hb pos' cs rfl; exact htriv _ _ _
      | fail => exact hfail _ _
      | abort p => exact habort _ _ _
    | cap q id => simp [Pat.capless] at hp
    | memo q id =>
      rw [eval] at h
      obtain ⟨x, hx, rfl⟩ := Option.map_eq_some_iff.1 h
      have hb := ih _ _ _ _ _ (by simpa only [Pat.capless] using hp) henv hx
      obtain ⟨res, f, w'⟩ := x
      rw [Ev.veil_mk]
      exact hb
    | inl nm q =>
      rw [eval] at h
      exact ih _ _ _ _ _ (by simpa only [Pat.capless] using hp) henv h
    | check q k id flag =>
      rw [eval] at h
      obtain ⟨x, hx, rfl⟩ := Option.map_eq_some_iff.1 h
      have hb := ih _ _ _ _ _ (by simpa only [Pat.capless] using hp) henv hx
      obtain ⟨res, f, w'⟩ := x
      cases res with
      | ok pos' cs =>
        obtain rfl := hb pos' cs rfl
        simp only []
        split
        · exact hfail _ _
        · exact htriv _ _ _
      | fail => exact hfail _ _
      | abort p => exact habort _ _ _
    | grammar st ds =>
      rw [eval] at h
      split at h
      · rename_i b hb
        simp only [Pat.capless, Bool.and_eq_true] at hp
        refine ih _ _ _ _ _ (Defs.capless_find hp.1 hp.2 hb) (fun d hd => ?_) h
        rcases List.mem_cons.1 hd with rfl | hd
        · exact hp.2
        · exact henv d hd
      · cases h
    | search q =>
      rw [eval] at h
      obtain ⟨x, hx, rfl⟩ := Option.map_eq_some_iff.1 h
      have := searchLoop_bare (fun pos w e he => ih _ q pos w e (by simpa only [Pat.capless] using hp) henv he) _ _ _ _ hx
      exact this
    | nonterm nm =>
      rw [eval] at h
      split at h
      · rename_i b env' hb
        obtain ⟨h1, h2⟩ := lookup_capless (by simpa only [Pat.capless] using hp) henv hb
        exact ih _ _ _ _ _ h1 h2 h
      · cases h
    | err m => cases h; exact habort _ _ _
    | errRec m q =>
      rw [eval] at h
      exact ih _ _ _ _ _ (by simpa only [Pat.capless] using hp) henv h

end Gpeg
