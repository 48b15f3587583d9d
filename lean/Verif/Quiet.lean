import Verif.Ford
/-! # Evaluation of pure patterns does not depend on errors and checkers -/
namespace Gpeg
variable {σ : Type}

/-- Replace the world in an outcome. -/
def Ev.setW (w : World σ) (e : Ev σ) : Ev σ := (e.1, e.2.1, w)

theorem searchLoop_world {ev : Nat → World σ → Option (Ev σ)}
    (h : ∀ pos w e, ev pos w = some e → ∀ w2, ev pos w2 = some (e.setW w2)) :
    ∀ (k pos : Nat) (w : World σ) (e : Ev σ), searchLoop ev k pos w = some e →
    ∀ w2, searchLoop ev k pos w2 = some (e.setW w2) := by
  intro k
  induction k with
  | zero =>
    intro pos w e he w2
    rw [searchLoop] at he ⊢
    obtain ⟨x, hx, he⟩ := Option.bind_eq_some_iff.1 he
    rw [h _ _ _ hx w2]
    obtain ⟨res, f, w1⟩ := x
    cases res <;> cases he <;> rfl
  | succ k ih =>
    intro pos w e he w2
    rw [searchLoop] at he ⊢
    obtain ⟨x, hx, he⟩ := Option.bind_eq_some_iff.1 he
    rw [h _ _ _ hx w2]
    obtain ⟨res, f, w1⟩ := x
    cases res with
    | ok p cs => cases he; rfl
    | abort p => cases he; rfl
    | fail =>
      obtain ⟨y, hy, rfl⟩ := Option.map_eq_some_iff.1 he
      show Option.map _ (searchLoop ev k (pos + 1) w2) = _
      rw [ih _ _ _ hy w2]
      rfl

/-- A pure pattern evaluates alike in every world, and passes it on. -/
theorem eval_world (c : Ctx σ) : ∀ (n : Nat) (env : Env) (p : Pat) (pos : Nat) (w : World σ) (e : Ev σ),
    p.Pure → Env.Pure env → eval n c env p pos w = some e →
    ∀ w2, eval n c env p pos w2 = some (e.setW w2) := by
  intro n
  induction n with
  | zero => intro env p pos w e _ _ h; cases h
  | succ n ih =>
    intro env p pos w e hp henv h w2
    cases p with
    | empty => cases h; rfl
    | lit s =>
      rw [eval] at h ⊢
      split at h <;> cases h <;> simp_all [Ev.setW]
    | cls cs =>
      rw [eval] at h ⊢
      split at h <;> cases h <;> simp_all [Ev.setW]
    | dot k =>
      rw [eval] at h ⊢
      split at h <;> cases h <;> simp_all [Ev.setW]
    | emptyOp op =>
      rw [eval] at h ⊢
      split at h <;> cases h <;> simp_all [Ev.setW]
    | seq l r =>
      simp only [Pat.Pure, Pat.leaves, List.mem_append, not_or] at hp
      rw [eval] at h ⊢
      obtain ⟨x, hx, h⟩ := Option.bind_eq_some_iff.1 h
      rw [ih env l pos w x ⟨hp.1.1, hp.2.1⟩ henv hx w2]
      obtain ⟨res, f, w1⟩ := x
      cases res with
      | fail => cases h; rfl
      | abort p => cases h; rfl
      | ok pos' cs =>
        obtain ⟨y, hy, rfl⟩ := Option.map_eq_some_iff.1 h
        obtain ⟨z, hz, rfl⟩ := Option.map_eq_some_iff.1 hy
        simp only [Option.bind_some, Ev.setW, Ev.andThen]
        rw [ih env r pos' w1 z ⟨hp.1.2, hp.2.2⟩ henv hz w2]
        rfl
    | alt l r =>
      simp only [Pat.Pure, Pat.leaves, List.mem_append, not_or] at hp
      rw [eval] at h ⊢
      obtain ⟨x, hx, h⟩ := Option.bind_eq_some_iff.1 h
      rw [ih env l pos w x ⟨hp.1.1, hp.2.1⟩ henv hx w2]
      obtain ⟨res, f, w1⟩ := x
      cases res with
      | ok p cs => cases h; rfl
      | abort p => cases h; rfl
      | fail =>
        obtain ⟨y, hy, rfl⟩ := Option.map_eq_some_iff.1 h
        simp only [Option.bind_some, Ev.setW, Ev.orElse]
        rw [ih env r pos w1 y ⟨hp.1.2, hp.2.2⟩ henv hy w2]
        rfl
    | star p =>
      rw [eval] at h ⊢
      obtain ⟨x, hx, h⟩ := Option.bind_eq_some_iff.1 h
      rw [ih env p pos w x hp henv hx w2]
      obtain ⟨res, f, w1⟩ := x
      cases res with
      | fail => cases h; rfl
      | abort p => cases h; rfl
      | ok pos' cs =>
        obtain ⟨y, hy, rfl⟩ := Option.map_eq_some_iff.1 h
        simp only [Option.bind_some, Ev.setW]
        rw [ih env (.star p) pos' w1 y hp henv hy w2]
        rfl
    | plus p =>
      rw [eval] at h ⊢
      obtain ⟨x, hx, h⟩ := Option.bind_eq_some_iff.1 h
      rw [ih env p pos w x hp henv hx w2]
      obtain ⟨res, f, w1⟩ := x
      cases res with
      | fail => cases h; rfl
      | abort p => cases h; rfl
      | ok pos' cs =>
        obtain ⟨y, hy, rfl⟩ := Option.map_eq_some_iff.1 h
        obtain ⟨z, hz, rfl⟩ := Option.map_eq_some_iff.1 hy
        simp only [Option.bind_some, Ev.setW, Ev.andThen]
        rw [ih env (.star p) pos' w1 z hp henv hz w2]
        rfl
    | opt p =>
      rw [eval] at h ⊢
      obtain ⟨x, hx, h⟩ := Option.bind_eq_some_iff.1 h
      rw [ih env p pos w x hp henv hx w2]
      obtain ⟨res, f, w1⟩ := x
      cases res <;> cases h <;> rfl
    | not p =>
      rw [eval] at h ⊢
      obtain ⟨x, hx, rfl⟩ := Option.map_eq_some_iff.1 h
      rw [ih env p pos w x hp henv hx w2]
      obtain ⟨res, f, w1⟩ := x
      cases res <;> rfl
    | and p =>
      rw [eval] at h ⊢
      obtain ⟨x, hx, rfl⟩ := Option.map_eq_some_iff.1 h
      rw [ih env p pos w x hp henv hx w2]
      obtain ⟨res, f, w1⟩ := x
      cases res <;> rfl
    | cap p id =>
      rw [eval] at h ⊢
      obtain ⟨x, hx, rfl⟩ := Option.map_eq_some_iff.1 h
      rw [ih env p pos w x hp henv hx w2]
      obtain ⟨res, f, w1⟩ := x
      cases res <;> rfl
    | memo p id =>
      rw [eval] at h ⊢
      obtain ⟨x, hx, rfl⟩ := Option.map_eq_some_iff.1 h
      rw [ih env p pos w x hp henv hx w2]
      obtain ⟨res, f, w1⟩ := x
      simp only [Option.map_some, Ev.setW, Ev.veil_mk]
    | inl name p => exact ih env p pos w e hp henv h w2
    | check p k id flag => simp [Pat.Pure, Pat.leaves] at hp
    | err m => simp [Pat.Pure, Pat.leaves] at hp
    | errRec m p => simp [Pat.Pure, Pat.leaves] at hp
    | search p =>
      simp only [Pat.Pure, Pat.leaves, List.mem_append, List.mem_cons, not_or] at hp
      obtain ⟨y, hy, rfl⟩ := Option.map_eq_some_iff.1 h
      exact Option.map_eq_some_iff.2 ⟨_, searchLoop_world
        (fun pos w e he => ih env p pos w e (by simpa [Pat.Pure] using hp) henv he) _ _ _ _ hy w2, rfl⟩
    | grammar start defs =>
      simp only [eval] at h ⊢
      cases hf : defs.find start with
      | none => rw [hf] at h; cases h
      | some b =>
        rw [hf] at h
        have hd : defs.Pure := hp
        exact ih _ b pos w e (hd.find hf) (fun d hd' => by
          rcases List.mem_cons.1 hd' with rfl | hd'
          · exact hd
          · exact henv d hd') h w2
    | nonterm name =>
      simp only [eval] at h ⊢
      cases hf : lookupNT name env with
      | none => rw [hf] at h; cases h
      | some be =>
        rw [hf] at h
        obtain ⟨b, env'⟩ := be
        obtain ⟨h1, h2⟩ := henv.lookup hf
        exact ih _ b pos w e h1 h2 h w2

theorem Evals.world {c : Ctx σ} {env : Env} {p : Pat} {pos : Nat} {w : World σ} {e : Ev σ} (hp : p.Pure)
    (henv : Env.Pure env) (h : Evals c env p pos w e) (w2 : World σ) : Evals c env p pos w2 (e.setW w2) := by
  obtain ⟨n, h⟩ := h
  exact ⟨n, eval_world c n env p pos w e hp henv h w2⟩

end Gpeg
