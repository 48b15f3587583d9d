import Verif.MemoPar
/-! # Evaluation of patterns whose checkers have no state -/
namespace Gpeg
variable {σ : Type}

/-- The answer of a checker does not depend on its state, which it leaves alone. -/
def Stateless (chk : CheckFn σ) (k : Nat) (id flag : Int) : Prop :=
  ∃ g : List UInt8 → List UInt8 → Nat → Option Nat, ∀ st m d pos, chk k st m d pos id flag = (g m d pos, st)

mutual
/-- No errors, and only checkers that `K` admits. -/
def Pat.calm (K : Nat → Int → Int → Bool) : Pat → Bool
  | .alt l r | .seq l r => l.calm K && r.calm K
  | .star p | .plus p | .opt p | .not p | .and p | .cap p _ | .memo p _ | .inl _ p | .search p => p.calm K
  | .check p k id flag => K k id flag && p.calm K
  | .err _ | .errRec _ _ => false
  | .grammar _ ds => ds.calm K
  | .dot _ | .nonterm _ | .cls _ | .lit _ | .emptyOp _ | .empty => true
/-- The same for definitions. -/
def Defs.calm (K : Nat → Int → Int → Bool) : Defs → Bool
  | .nil => true
  | .cons _ p rest => p.calm K && rest.calm K
end

theorem Defs.calm_find {K : Nat → Int → Int → Bool} {n : String} {b : Pat} : ∀ {ds : Defs}, ds.calm K = true → ds.find n = some b → b.calm K = true
  | .nil, _, h => by cases h
  | .cons m p rest, hp, h => by
    simp only [Defs.calm, Bool.and_eq_true] at hp
    unfold Defs.find at h
    split at h
    · cases h; exact hp.1
    · exact Defs.calm_find hp.2 h

theorem calm_lookup {K : Nat → Int → Int → Bool} {n : String} {b : Pat} {env' : Env} : ∀ {env : Env}, (∀ ds ∈ env, ds.calm K = true) →
    lookupNT n env = some (b, env') → b.calm K = true ∧ ∀ ds ∈ env', ds.calm K = true
  | [], _, h => by cases h
  | ds :: rest, hp, h => by
    unfold lookupNT at h
    split at h
    · rename_i hf
      cases h
      exact ⟨Defs.calm_find (hp ds List.mem_cons_self) hf, hp⟩
    · exact calm_lookup (env := rest) (fun e he => hp e (List.mem_cons_of_mem _ he)) h

/-- A calm pattern evaluates alike in every world, and passes it on. -/
theorem eval_calm {K : Nat → Int → Int → Bool} (c : Ctx σ) (hK : ∀ k id flag, K k id flag = true → Stateless c.chk k id flag) : ∀ (n : Nat) (env : Env) (p : Pat) (pos : Nat) (w : World σ) (e : Ev σ),
    p.calm K = true → (∀ ds ∈ env, ds.calm K = true) → eval n c env p pos w = some e →
    ∀ w2, eval n c env p pos w2 = some (e.setW w2) := by
  intro n
  induction n with
  | zero => intro env p pos w e _ _ h; cases h
  | succ n ih =>
    intro env p pos w e hp henv h w2
    cases p with
    | empty => cases h; rfl
    | lit s =>
      rw [eval] at h ⊢
      split at h <;> cases h <;> simp_all [Ev.setW]
    | cls cs =>
      rw [eval] at h ⊢
      split at h <;> cases h <;> simp_all [Ev.setW]
    | dot k =>
      rw [eval] at h ⊢
      split at h <;> cases h <;> simp_all [Ev.setW]
    | emptyOp op =>
      rw [eval] at h ⊢
      split at h <;> cases h <;> simp_all [Ev.setW]
    | seq l r =>
      simp only [Pat.calm, Bool.and_eq_true] at hp
      rw [eval] at h ⊢
      obtain ⟨x, hx, h⟩ := Option.bind_eq_some_iff.1 h
      rw [ih env l pos w x hp.1 henv hx w2]
      obtain ⟨res, f, w1⟩ := x
      cases res with
      | fail => cases h; rfl
      | abort p => cases h; rfl
      | ok pos' cs =>
        obtain ⟨y, hy, rfl⟩ := Option.map_eq_some_iff.1 h
        obtain ⟨z, hz, rfl⟩ := Option.map_eq_some_iff.1 hy
        simp only [Option.bind_some, Ev.setW, Ev.andThen]
        rw [ih env r pos' w1 z hp.2 henv hz w2]
        rfl
    | alt l r =>
      simp only [Pat.calm, Bool.and_eq_true] at hp
      rw [eval] at h ⊢
      obtain ⟨x, hx, h⟩ := Option.bind_eq_some_iff.1 h
      rw [ih env l pos w x hp.1 henv hx w2]
      obtain ⟨res, f, w1⟩ := x
      cases res with
      | ok p cs => cases h; rfl
      | abort p => cases h; rfl
      | fail =>
        obtain ⟨y, hy, rfl⟩ := Option.map_eq_some_iff.1 h
        simp only [Option.bind_some, Ev.setW, Ev.orElse]
        rw [ih env r pos w1 y hp.2 henv hy w2]
        rfl
    | star p =>
      rw [eval] at h ⊢
      obtain ⟨x, hx, h⟩ := Option.bind_eq_some_iff.1 h
      rw [ih env p pos w x hp henv hx w2]
      obtain ⟨res, f, w1⟩ := x
      cases res with
      | fail => cases h; rfl
      | abort p => cases h; rfl
      | ok pos' cs =>
        obtain ⟨y, hy, rfl⟩ := Option.map_eq_some_iff.1 h
        simp only [Option.bind_some, Ev.setW]
        rw [ih env (.star p) pos' w1 y hp henv hy w2]
        rfl
    | plus p =>
      rw [eval] at h ⊢
      obtain ⟨x, hx, h⟩ := Option.bind_eq_some_iff.1 h
      rw [ih env p pos w x hp henv hx w2]
      obtain ⟨res, f, w1⟩ := x
      cases res with
      | fail => cases h; rfl
      | abort p => cases h; rfl
      | ok pos' cs =>
        obtain ⟨y, hy, rfl⟩ := Option.map_eq_some_iff.1 h
        obtain ⟨z, hz, rfl⟩ := Option.map_eq_some_iff.1 hy
        simp only [Option.bind_some, Ev.setW, Ev.andThen]
        rw [ih env (.star p) pos' w1 z hp henv hz w2]
        rfl
    | opt p =>
      rw [eval] at h ⊢
      obtain ⟨x, hx, h⟩ := Option.bind_eq_some_iff.1 h
      rw [ih env p pos w x hp henv hx w2]
      obtain ⟨res, f, w1⟩ := x
      cases res <;> cases h <;> rfl
    | not p =>
      rw [eval] at h ⊢
      obtain ⟨x, hx, rfl⟩ := Option.map_eq_some_iff.1 h
      rw [ih env p pos w x hp henv hx w2]
      obtain ⟨res, f, w1⟩ := x
      cases res <;> rfl
    | and p =>
      rw [eval] at h ⊢
      obtain ⟨x, hx, rfl⟩ := Option.map_eq_some_iff.1 h
      rw [ih env p pos w x hp henv hx w2]
      obtain ⟨res, f, w1⟩ := x
      cases res <;> rfl
    | cap p id =>
      rw [eval] at h ⊢
      obtain ⟨x, hx, rfl⟩ := Option.map_eq_some_iff.1 h
      rw [ih env p pos w x hp henv hx w2]
      obtain ⟨res, f, w1⟩ := x
      cases res <;> rfl
    | memo p id =>
      rw [eval] at h ⊢
      obtain ⟨x, hx, rfl⟩ := Option.map_eq_some_iff.1 h
      rw [ih env p pos w x hp henv hx w2]
      obtain ⟨res, f, w1⟩ := x
      simp only [Option.map_some, Ev.setW, Ev.veil_mk]
    | inl name p => exact ih env p pos w e hp henv h w2
    | check p k id flag =>
      simp only [Pat.calm, Bool.and_eq_true] at hp
      obtain ⟨g, hg⟩ := hK k id flag hp.1
      rw [eval] at h ⊢
      obtain ⟨x, hx, rfl⟩ := Option.map_eq_some_iff.1 h
      rw [ih env p pos w x hp.2 henv hx w2]
      obtain ⟨res, f, w1⟩ := x
      cases res with
      | ok pos' cs =>
        simp only [Option.map_some, Ev.setW, hg]
        cases g ((c.data.drop pos).take (pos' - pos)) c.data pos' <;> rfl
      | fail => rfl
      | abort p => rfl
    | err m => cases hp
    | errRec m p => cases hp
    | search p =>
      obtain ⟨y, hy, rfl⟩ := Option.map_eq_some_iff.1 h
      exact Option.map_eq_some_iff.2 ⟨_, searchLoop_world
        (fun pos w e he => ih env p pos w e hp henv he) _ _ _ _ hy w2, rfl⟩
    | grammar start defs =>
      simp only [eval] at h ⊢
      cases hf : defs.find start with
      | none => rw [hf] at h; cases h
      | some b =>
        rw [hf] at h
        have hd : defs.calm K = true := hp
        exact ih _ b pos w e (Defs.calm_find hd hf) (fun d hd' => by
          rcases List.mem_cons.1 hd' with rfl | hd'
          · exact hd
          · exact henv d hd') h w2
    | nonterm name =>
      simp only [eval] at h ⊢
      cases hf : lookupNT name env with
      | none => rw [hf] at h; cases h
      | some be =>
        rw [hf] at h
        obtain ⟨b, env'⟩ := be
        obtain ⟨h1, h2⟩ := calm_lookup henv hf
        exact ih _ b pos w e h1 h2 h w2

/-- For memoized patterns it is enough that they do not use errors and checkers with a state. -/
theorem Occ.quiet_of_calm {chk : CheckFn σ} {K : Nat → Int → Int → Bool} {o : Occ} (hK : ∀ k id flag, K k id flag = true → Stateless chk k id flag)
    (hq : o.q.calm K = true) (he : ∀ ds ∈ o.env, ds.calm K = true) : o.Quiet chk := by
  intro n c pos w e hc h w2
  subst hc
  exact eval_calm c hK n o.env o.q pos w e hq he h w2

end Gpeg
