import Verif.Props.Memo
/-!
# Patterns without their memoized nodes

`Pat.unmemo` takes all `Memo` nodes out of a pattern. It has the same meaning.
-/
namespace Gpeg
variable {σ : Type}

mutual
/-- The pattern without `MemoNode`s (`pattern/nodes.go:57`). -/
def Pat.unmemo : Pat → Pat
  | .alt l r => .alt l.unmemo r.unmemo
  | .seq l r => .seq l.unmemo r.unmemo
  | .star p => .star p.unmemo
  | .plus p => .plus p.unmemo
  | .opt p => .opt p.unmemo
  | .not p => .not p.unmemo
  | .and p => .and p.unmemo
  | .cap p id => .cap p.unmemo id
  | .memo p _ => p.unmemo
  | .check p k id flag => .check p.unmemo k id flag
  | .grammar s ds => .grammar s ds.unmemo
  | .search p => .search p.unmemo
  | .inl n p => .inl n p.unmemo
  | .errRec m p => .errRec m p.unmemo
  | .cls cs => .cls cs
  | .lit s => .lit s
  | .nonterm n => .nonterm n
  | .dot n => .dot n
  | .err m => .err m
  | .emptyOp op => .emptyOp op
  | .empty => .empty
/-- The definitions without `MemoNode`s. -/
def Defs.unmemo : Defs → Defs
  | .nil => .nil
  | .cons n p rest => .cons n p.unmemo rest.unmemo
end

mutual
/-- Number of memoized nodes. -/
def Pat.nm : Pat → Nat
  | .alt l r | .seq l r => l.nm + r.nm
  | .star p | .plus p | .opt p | .not p | .and p | .cap p _ | .inl _ p
  | .check p _ _ _ | .errRec _ p | .search p => p.nm
  | .memo p _ => p.nm + 1
  | .grammar _ ds => ds.nm
  | .dot _ | .err _ | .nonterm _ | .cls _ | .lit _ | .emptyOp _ | .empty => 0
/-- The same for all definitions. -/
def Defs.nm : Defs → Nat
  | .nil => 0
  | .cons _ p rest => p.nm + rest.nm
end

theorem Defs.find_unmemo (ds : Defs) (n : String) : ds.unmemo.find n = (ds.find n).map Pat.unmemo := by
  induction ds using Defs.rec (motive_1 := fun _ => True) <;> try trivial
  rename_i m p rest _ ih
  simp only [Defs.unmemo, Defs.find]
  split
  · rfl
  · exact ih

theorem Defs.find_nm {ds : Defs} {n : String} {b : Pat} (h : ds.find n = some b) : b.nm ≤ ds.nm := by
  induction ds using Defs.rec (motive_1 := fun _ => True) <;> try trivial
  rename_i m p rest _ ih
  simp only [Defs.find, Defs.nm] at h ⊢
  split at h
  · cases h; omega
  · have := ih h; omega

theorem lookup_unmemo (n : String) : ∀ env : Env,
    lookupNT n (env.map Defs.unmemo) = (lookupNT n env).map fun x => (x.1.unmemo, x.2.map Defs.unmemo)
  | [] => rfl
  | d :: env => by
    simp only [List.map_cons, lookupNT, Defs.find_unmemo]
    cases d.find n with
    | none => exact lookup_unmemo n env
    | some b => rfl

theorem lookup_nm {n : String} {M : Nat} {b : Pat} {env' : Env} : ∀ {env : Env}, (∀ d ∈ env, d.nm ≤ M) →
    lookupNT n env = some (b, env') → b.nm ≤ M ∧ ∀ d ∈ env', d.nm ≤ M
  | [], _, h => by cases h
  | d :: env, hM, h => by
    simp only [lookupNT] at h
    cases hf : d.find n with
    | none => rw [hf] at h; exact lookup_nm (fun d hd => hM d (List.mem_cons_of_mem _ hd)) h
    | some x =>
      rw [hf] at h
      cases h
      exact ⟨Nat.le_trans (Defs.find_nm hf) (hM d List.mem_cons_self), hM⟩

/-- Taking out memoized nodes keeps results. -/
theorem eval_unmemo {c : Ctx σ} (hl : c.lo = false) (n : Nat) : ∀ (env : Env) (p : Pat) (pos : Nat) (w : World σ) (e : Ev σ),
    eval n c env p pos w = some e → eval n c (env.map Defs.unmemo) p.unmemo pos w = some e := by
  induction n with
  | zero => intro env p pos w e h; cases h
  | succ n ih =>
    intro env p pos w e h
    cases p with
    | empty | lit | cls | dot | emptyOp | err => exact h
    | seq l r =>
      refine bind_mono (ih _ _ _ _) (fun a x => andThen_mono fun p cs w x => ?_) h
      exact map_mono (ih _ _ _ _)
    | alt l r => exact bind_mono (ih _ _ _ _) (fun a x => orElse_mono fun w x => ih _ _ _ _ _) h
    | star p =>
      refine bind_mono (ih _ _ _ _) (fun a x => ?_) h
      obtain ⟨res, f, w⟩ := a
      cases res with
      | ok pos caps => exact map_mono (ih _ (.star p) _ _)
      | fail => exact id
      | abort p => exact id
    | plus p =>
      refine bind_mono (ih _ _ _ _) (fun a x => andThen_mono fun _ cs w x => ?_) h
      exact map_mono (ih _ (.star p) _ _)
    | opt p => exact bind_mono (ih _ _ _ _) (fun a x => id) h
    | not p => exact map_mono (ih _ _ _ _) h
    | and p => exact map_mono (ih _ _ _ _) h
    | cap p id => exact map_mono (ih _ _ _ _) h
    | memo p id => exact eval_succ _ _ _ _ _ _ _ (ih _ p _ _ _ ((eval_memo_hi hl).symm.trans h))
    | check p k id flag => exact map_mono (ih _ _ _ _) h
    | grammar start defs =>
      show (match defs.unmemo.find start with
        | some b => eval n c (defs.unmemo :: env.map Defs.unmemo) b pos w
        | none => none) = some e
      have h' : (match defs.find start with
        | some b => eval n c (defs :: env) b pos w
        | none => none) = some e := h
      rw [Defs.find_unmemo]
      cases hf : defs.find start with
      | none => rw [hf] at h'; cases h'
      | some b => rw [hf] at h'; exact ih _ _ _ _ _ h'
    | search p =>
      obtain ⟨y, hy, rfl⟩ := Option.map_eq_some_iff.1 h
      exact Option.map_eq_some_iff.2 ⟨y, searchLoop_mono (fun pos w e => ih _ _ _ _ _) _ _ _ _ hy, rfl⟩
    | nonterm name =>
      show (match lookupNT name (env.map Defs.unmemo) with
        | some (b, env') => eval n c env' b pos w
        | none => none) = some e
      have h' : (match lookupNT name env with
        | some (b, env') => eval n c env' b pos w
        | none => none) = some e := h
      rw [lookup_unmemo]
      cases hf : lookupNT name env with
      | none => rw [hf] at h'; cases h'
      | some be => rw [hf] at h'; exact ih _ _ _ _ _ h'
    | inl name b => exact ih _ _ _ _ _ h
    | errRec m p => exact ih _ _ _ _ _ h

/-- Putting them in again keeps results, the fuel being larger. -/
theorem eval_memo_again {c : Ctx σ} (hl : c.lo = false) (M n : Nat) : ∀ (env : Env) (p : Pat) (pos : Nat) (w : World σ) (e : Ev σ), p.nm ≤ M →
    (∀ d ∈ env, d.nm ≤ M) → eval n c (env.map Defs.unmemo) p.unmemo pos w = some e → eval (n * (M + 1)) c env p pos w = some e := by
  induction n with
  | zero => intro env p pos w e _ _ h; cases h
  | succ n ih0 =>
    intro env p pos w e hp henv h
    suffices hs : eval (n * (M + 1) + p.nm + 1) c env p pos w = some e by
      refine eval_mono ?_ hs
      rw [Nat.succ_mul]
      omega
    induction p using Pat.rec (motive_2 := fun _ => True) generalizing e pos w with
    | nil | cons => trivial
    | memo p id ihp =>
      rw [eval_memo_hi hl]
      exact ihp pos w e (Nat.le_trans (Nat.le_succ _) hp) h
    | empty | lit | cls | dot | emptyOp | err => exact h
    | seq l r =>
      simp only [Pat.nm] at hp ⊢
      have ih : ∀ q : Pat, q.nm ≤ l.nm + r.nm → ∀ pos w e, eval n c (env.map Defs.unmemo) q.unmemo pos w = some e →
        eval (n * (M + 1) + (l.nm + r.nm)) c env q pos w = some e :=
        fun q hq pos w e h => eval_mono (by omega) (ih0 env q pos w e (by omega) henv h)
      refine bind_mono (ih _ (by omega) _ _) (fun a x => andThen_mono fun p cs w x => ?_) h
      exact map_mono (ih _ (by omega) _ _)
    | alt l r =>
      simp only [Pat.nm] at hp ⊢
      have ih : ∀ q : Pat, q.nm ≤ l.nm + r.nm → ∀ pos w e, eval n c (env.map Defs.unmemo) q.unmemo pos w = some e →
        eval (n * (M + 1) + (l.nm + r.nm)) c env q pos w = some e :=
        fun q hq pos w e h => eval_mono (by omega) (ih0 env q pos w e (by omega) henv h)
      exact bind_mono (ih _ (by omega) _ _) (fun a x => orElse_mono fun w x => ih _ (by omega) _ _ _) h
    | star p =>
      have ih : ∀ q : Pat, q.nm ≤ p.nm → ∀ pos w e, eval n c (env.map Defs.unmemo) q.unmemo pos w = some e →
        eval (n * (M + 1) + p.nm) c env q pos w = some e :=
        fun q hq pos w e h => eval_mono (by omega) (ih0 env q pos w e (Nat.le_trans hq hp) henv h)
      refine bind_mono (ih _ (Nat.le_refl _) _ _) (fun a x => ?_) h
      obtain ⟨res, f, w⟩ := a
      cases res with
      | ok pos caps => exact map_mono (ih (.star p) (Nat.le_refl _) _ _)
      | fail => exact id
      | abort p => exact id
    | plus p =>
      have ih : ∀ q : Pat, q.nm ≤ p.nm → ∀ pos w e, eval n c (env.map Defs.unmemo) q.unmemo pos w = some e →
        eval (n * (M + 1) + p.nm) c env q pos w = some e :=
        fun q hq pos w e h => eval_mono (by omega) (ih0 env q pos w e (Nat.le_trans hq hp) henv h)
      refine bind_mono (ih _ (Nat.le_refl _) _ _) (fun a x => andThen_mono fun _ cs w x => ?_) h
      exact map_mono (ih (.star p) (Nat.le_refl _) _ _)
    | opt p =>
      exact bind_mono (fun e h => eval_mono (Nat.le_add_right _ _) (ih0 env p _ _ e hp henv h)) (fun a x => id) h
    | not p => exact map_mono (fun e h => eval_mono (Nat.le_add_right _ _) (ih0 env p _ _ e hp henv h)) h
    | and p => exact map_mono (fun e h => eval_mono (Nat.le_add_right _ _) (ih0 env p _ _ e hp henv h)) h
    | cap p id => exact map_mono (fun e h => eval_mono (Nat.le_add_right _ _) (ih0 env p _ _ e hp henv h)) h
    | check p k id flag => exact map_mono (fun e h => eval_mono (Nat.le_add_right _ _) (ih0 env p _ _ e hp henv h)) h
    | grammar start defs =>
      show (match defs.find start with
        | some b => eval (n * (M + 1) + defs.nm) c (defs :: env) b pos w
        | none => none) = some e
      have h' : (match defs.unmemo.find start with
        | some b => eval n c (defs.unmemo :: env.map Defs.unmemo) b pos w
        | none => none) = some e := h
      rw [Defs.find_unmemo] at h'
      cases hf : defs.find start with
      | none => rw [hf] at h'; cases h'
      | some b =>
        rw [hf] at h'
        refine eval_mono (Nat.le_add_right _ _) (ih0 (defs :: env) b _ _ e (Nat.le_trans (Defs.find_nm hf) hp) (fun d hd => ?_) h')
        rcases List.mem_cons.1 hd with rfl | hd
        · exact hp
        · exact henv d hd
    | search p =>
      obtain ⟨y, hy, rfl⟩ := Option.map_eq_some_iff.1 h
      exact Option.map_eq_some_iff.2 ⟨y, searchLoop_mono
        (fun pos w e h => eval_mono (Nat.le_add_right _ _) (ih0 env p _ _ e hp henv h)) _ _ _ _ hy, rfl⟩
    | nonterm name =>
      show (match lookupNT name env with
        | some (b, env') => eval (n * (M + 1)) c env' b pos w
        | none => none) = some e
      have h' : (match lookupNT name (env.map Defs.unmemo) with
        | some (b, env') => eval n c env' b pos w
        | none => none) = some e := h
      rw [lookup_unmemo] at h'
      cases hf : lookupNT name env with
      | none => rw [hf] at h'; cases h'
      | some be =>
        rw [hf] at h'
        obtain ⟨h1, h2⟩ := lookup_nm henv hf
        exact ih0 _ _ _ _ e h1 h2 h'
    | inl name b =>
      show eval (n * (M + 1) + b.nm) c env b pos w = some e
      exact eval_mono (Nat.le_add_right _ _) (ih0 env b _ _ e hp henv h)
    | errRec m p =>
      show eval (n * (M + 1) + p.nm) c env p pos { w with errs := w.errs ++ [⟨m, pos⟩] } = some e
      exact eval_mono (Nat.le_add_right _ _) (ih0 env p _ _ e hp henv h)

/-- A pattern means what it means without its memoized nodes. -/
theorem evals_unmemo {c : Ctx σ} (hl : c.lo = false) {p : Pat} {pos : Nat} {w : World σ} {e : Ev σ} :
    Evals c [] p.unmemo pos w e ↔ Evals c [] p pos w e :=
  ⟨fun ⟨n, h⟩ => ⟨n * (p.nm + 1), eval_memo_again hl _ n [] p pos w e (Nat.le_refl _) (fun _ h => by cases h) h⟩,
    fun ⟨n, h⟩ => ⟨n, eval_unmemo hl n [] p pos w e h⟩⟩

/-! ## Conditions on patterns -/

theorem Defs.names_unmemo (ds : Defs) : ds.unmemo.names = ds.names := by
  induction ds using Defs.rec (motive_1 := fun _ => True) <;> try trivial
  rename_i m p rest _ ih
  simp only [Defs.unmemo, Defs.names, ih]

mutual
theorem Pat.nts_unmemo : ∀ p : Pat, p.unmemo.nts = p.nts
  | .alt l r | .seq l r => by simp only [Pat.unmemo, Pat.nts, Pat.nts_unmemo l, Pat.nts_unmemo r]
  | .star p | .plus p | .opt p | .not p | .and p | .cap p _ | .memo p _ | .check p _ _ _ | .inl _ p
  | .errRec _ p | .search p => by simp only [Pat.unmemo, Pat.nts, Pat.nts_unmemo p]
  | .grammar _ ds => by simp only [Pat.unmemo, Pat.nts, Defs.nts_unmemo ds]
  | .dot _ | .err _ | .nonterm _ | .cls _ | .lit _ | .emptyOp _ | .empty => rfl
theorem Defs.nts_unmemo : ∀ ds : Defs, ds.unmemo.nts = ds.nts
  | .nil => rfl
  | .cons _ p rest => by simp only [Defs.unmemo, Defs.nts, Pat.nts_unmemo p, Defs.nts_unmemo rest]
end

mutual
theorem Pat.leaves_unmemo : ∀ p : Pat, p.unmemo.leaves = p.leaves
  | .alt l r | .seq l r => by simp only [Pat.unmemo, Pat.leaves, Pat.leaves_unmemo l, Pat.leaves_unmemo r]
  | .star p | .plus p | .opt p | .not p | .and p | .cap p _ | .memo p _ | .check p _ _ _ | .inl _ p
  | .errRec _ p | .search p => by simp only [Pat.unmemo, Pat.leaves, Pat.leaves_unmemo p]
  | .grammar _ ds => by simp only [Pat.unmemo, Pat.leaves, Defs.leaves_unmemo ds]
  | .dot _ | .err _ | .nonterm _ | .cls _ | .lit _ | .emptyOp _ | .empty => rfl
theorem Defs.leaves_unmemo : ∀ ds : Defs, ds.unmemo.leaves = ds.leaves
  | .nil => rfl
  | .cons _ p rest => by simp only [Defs.unmemo, Defs.leaves, Pat.leaves_unmemo p, Defs.leaves_unmemo rest]
end

mutual
theorem Pat.noCap_unmemo (ns : List String) : ∀ p : Pat, p.unmemo.noCap ns = p.noCap ns
  | .alt l r | .seq l r => by simp only [Pat.unmemo, Pat.noCap, Pat.noCap_unmemo ns l, Pat.noCap_unmemo ns r]
  | .star p | .plus p | .opt p | .not p | .and p | .cap p _ | .memo p _ | .check p _ _ _ | .inl _ p
  | .errRec _ p | .search p => by simp only [Pat.unmemo, Pat.noCap, Pat.noCap_unmemo ns p]
  | .grammar _ ds => by
    simp only [Pat.unmemo, Pat.noCap, Defs.noCap_unmemo ns ds, Defs.names_unmemo, Defs.nts_unmemo]
  | .dot _ | .err _ | .nonterm _ | .cls _ | .lit _ | .emptyOp _ | .empty => rfl
theorem Defs.noCap_unmemo (ns : List String) : ∀ ds : Defs, ds.unmemo.noCap ns = ds.noCap ns
  | .nil => rfl
  | .cons _ p rest => by simp only [Defs.unmemo, Defs.noCap, Pat.noCap_unmemo ns p, Defs.noCap_unmemo ns rest]
end

mutual
theorem Pat.scoped_unmemo : ∀ p : Pat, p.unmemo.Scoped = p.Scoped
  | .alt l r | .seq l r => by simp only [Pat.unmemo, Pat.Scoped, Pat.scoped_unmemo l, Pat.scoped_unmemo r]
  | .star p | .plus p | .opt p | .not p | .and p | .cap p _ | .memo p _ | .check p _ _ _ | .inl _ p
  | .errRec _ p => by simp only [Pat.unmemo, Pat.Scoped, Pat.scoped_unmemo p]
  | .search p => by simp only [Pat.unmemo, Pat.Scoped, Pat.scoped_unmemo p, Pat.nts_unmemo]
  | .grammar _ ds => by
    simp only [Pat.unmemo, Pat.Scoped, Defs.scoped_unmemo ds, Defs.noCap_unmemo, Defs.names_unmemo]
  | .dot _ | .err _ | .nonterm _ | .cls _ | .lit _ | .emptyOp _ | .empty => rfl
theorem Defs.scoped_unmemo : ∀ ds : Defs, ds.unmemo.Scoped = ds.Scoped
  | .nil => rfl
  | .cons _ p rest => by simp only [Defs.unmemo, Defs.Scoped, Pat.scoped_unmemo p, Defs.scoped_unmemo rest]
end

theorem Pat.dots1_unmemo {p : Pat} (h : p.Dots1) : p.unmemo.Dots1 := by
  unfold Pat.Dots1 at *
  rw [Pat.leaves_unmemo]
  exact h

end Gpeg
