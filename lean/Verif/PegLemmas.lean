import Verif.Peg
/-! # Basic facts about the reference semantics -/
namespace Gpeg
variable {σ : Type}

theorem andThen_mono {e r : Ev σ} {k k' : Nat → List CTree → World σ → Option (Ev σ)}
    (hk : ∀ p cs w x, k p cs w = some x → k' p cs w = some x)
    (h : e.andThen k = some r) : e.andThen k' = some r := by
  obtain ⟨res, f, w⟩ := e
  cases res with
  | ok pos caps =>
    simp only [Ev.andThen, Option.map_eq_some_iff] at h ⊢
    obtain ⟨x, hx, rfl⟩ := h
    exact ⟨x, hk _ _ _ _ hx, rfl⟩
  | fail => exact h
  | abort p => exact h

theorem orElse_mono {e r : Ev σ} {k k' : World σ → Option (Ev σ)}
    (hk : ∀ w x, k w = some x → k' w = some x)
    (h : e.orElse k = some r) : e.orElse k' = some r := by
  obtain ⟨res, f, w⟩ := e
  cases res with
  | ok pos caps => exact h
  | fail =>
    simp only [Ev.orElse, Option.map_eq_some_iff] at h ⊢
    obtain ⟨x, hx, rfl⟩ := h
    exact ⟨x, hk _ _ hx, rfl⟩
  | abort p => exact h

theorem bind_mono {α β : Type} {o o' : Option α} {k k' : α → Option β} {r : β}
    (ho : ∀ x, o = some x → o' = some x) (hk : ∀ a x, k a = some x → k' a = some x)
    (h : o.bind k = some r) : o'.bind k' = some r := by
  cases o with
  | none => cases h
  | some a => rw [ho a rfl]; exact hk a r h

theorem map_mono {α β : Type} {o o' : Option α} {k : α → β} {r : β}
    (ho : ∀ x, o = some x → o' = some x) (h : o.map k = some r) : o'.map k = some r := by
  cases o with
  | none => cases h
  | some a => rw [ho a rfl]; exact h

theorem searchLoop_mono {ev ev' : Nat → World σ → Option (Ev σ)}
    (h : ∀ pos w e, ev pos w = some e → ev' pos w = some e) :
    ∀ (k pos : Nat) (w : World σ) (e : Ev σ), searchLoop ev k pos w = some e →
      searchLoop ev' k pos w = some e := by
  intro k
  induction k with
  | zero => intro pos w e; exact bind_mono (h _ _) fun _ _ => id
  | succ k ih =>
    intro pos w e
    exact bind_mono (h _ _) fun a x => orElse_mono fun w x => ih _ _ _

/-- More fuel does not change a result. -/
theorem eval_succ (n : Nat) : ∀ (c : Ctx σ) (env : Env) (p : Pat) (pos : Nat) (w : World σ)
    (e : Ev σ), eval n c env p pos w = some e → eval (n + 1) c env p pos w = some e := by
  induction n with
  | zero => intro c env p pos w e h; cases h
  | succ n ih =>
    intro c env p pos w e h
    cases p with
    | empty | lit | cls | dot | emptyOp | err => exact h
    | seq l r =>
      refine bind_mono (ih _ _ _ _ _) (fun a x => andThen_mono fun p cs w x => ?_) h
      exact map_mono (ih _ _ _ _ _)
    | alt l r =>
      exact bind_mono (ih _ _ _ _ _) (fun a x => orElse_mono fun w x => ih _ _ _ _ _ _) h
    | star p =>
      refine bind_mono (ih _ _ _ _ _) (fun a x => ?_) h
      obtain ⟨res, f, w⟩ := a
      cases res with
      | ok pos caps => exact map_mono (ih _ _ _ _ _)
      | fail => exact id
      | abort p => exact id
    | plus p =>
      refine bind_mono (ih _ _ _ _ _) (fun a x => andThen_mono fun p cs w x => ?_) h
      exact map_mono (ih _ _ _ _ _)
    | opt p => exact bind_mono (ih _ _ _ _ _) (fun a x => id) h
    | not p => exact map_mono (ih _ _ _ _ _) h
    | and p => exact map_mono (ih _ _ _ _ _) h
    | cap p id => exact map_mono (ih _ _ _ _ _) h
    | memo p id => exact map_mono (ih _ _ _ _ _) h
    | check p k id flag => exact map_mono (ih _ _ _ _ _) h
    | grammar start defs =>
      show (match defs.find start with
        | some b => eval (n + 1) c (defs :: env) b pos w
        | none => none) = some e
      have h' : (match defs.find start with
        | some b => eval n c (defs :: env) b pos w
        | none => none) = some e := h
      cases hf : defs.find start with
      | none => rw [hf] at h'; cases h'
      | some b => rw [hf] at h'; exact ih _ _ _ _ _ _ h'
    | search p =>
      obtain ⟨y, hy, rfl⟩ := Option.map_eq_some_iff.1 h
      exact Option.map_eq_some_iff.2 ⟨y, searchLoop_mono (fun pos w e => ih _ _ _ _ _ _) _ _ _ _ hy, rfl⟩
    | nonterm name =>
      show (match lookupNT name env with
        | some (b, env') => eval (n + 1) c env' b pos w
        | none => none) = some e
      have h' : (match lookupNT name env with
        | some (b, env') => eval n c env' b pos w
        | none => none) = some e := h
      cases hf : lookupNT name env with
      | none => rw [hf] at h'; cases h'
      | some be => rw [hf] at h'; exact ih _ _ _ _ _ _ h'
    | inl name b => exact ih _ _ _ _ _ _ h
    | errRec m p => exact ih _ _ _ _ _ _ h

theorem eval_mono {n m : Nat} (hnm : n ≤ m) {c : Ctx σ} {env : Env} {p : Pat} {pos : Nat}
    {w : World σ} {e : Ev σ} (h : eval n c env p pos w = some e) :
    eval m c env p pos w = some e := by
  induction hnm with
  | refl => exact h
  | step _ ih => exact eval_succ _ _ _ _ _ _ _ ih

theorem Evals.det {c : Ctx σ} {env : Env} {p : Pat} {pos : Nat} {w : World σ} {e e' : Ev σ}
    (h : Evals c env p pos w e) (h' : Evals c env p pos w e') : e = e' := by
  obtain ⟨n, h⟩ := h
  obtain ⟨m, h'⟩ := h'
  have a := eval_mono (Nat.le_max_left n m) h
  have b := eval_mono (Nat.le_max_right n m) h'
  exact Option.some.inj (a.symm.trans b)

end Gpeg

namespace Gpeg
variable {σ : Type} {c : Ctx σ} {env : Env} {pos : Nat} {w : World σ} {e : Ev σ}

/-- Relational form of `Ev.andThen`. -/
def AndThenR (x : Ev σ) (K : Nat → List CTree → World σ → Ev σ → Prop) (e : Ev σ) : Prop :=
  match x with
  | (.ok pos caps, f, w) => ∃ y, K pos caps w y ∧ e = (y.1, max f y.2.1, y.2.2)
  | x => e = x

/-- Relational form of `Ev.orElse`. -/
def OrElseR (x : Ev σ) (K : World σ → Ev σ → Prop) (e : Ev σ) : Prop :=
  match x with
  | (.fail, f, w) => ∃ y, K w y ∧ e = (y.1, max f y.2.1, y.2.2)
  | x => e = x

theorem Evals.leaf {p : Pat} {r : Ev σ} (h : ∀ n, eval (n + 1) c env p pos w = some r) :
    Evals c env p pos w e ↔ e = r := by
  constructor
  · rintro ⟨n, hn⟩
    cases n with
    | zero => cases hn
    | succ n => exact (Option.some.inj ((h n).symm.trans hn)).symm
  · rintro rfl; exact ⟨1, h 0⟩

theorem evals_sub {p q : Pat} {env' : Env} {w' : World σ}
    (h : ∀ n, eval (n + 1) c env p pos w = eval n c env' q pos w') :
    Evals c env p pos w e ↔ Evals c env' q pos w' e := by
  constructor
  · rintro ⟨n, hn⟩
    cases n with
    | zero => cases hn
    | succ n => exact ⟨n, (h n).symm.trans hn⟩
  · rintro ⟨n, hn⟩; exact ⟨n + 1, (h n).trans hn⟩

theorem evals_map {p q : Pat} {g : Ev σ → Ev σ}
    (h : ∀ n, eval (n + 1) c env p pos w = (eval n c env q pos w).map g) :
    Evals c env p pos w e ↔ ∃ x, Evals c env q pos w x ∧ e = g x := by
  constructor
  · rintro ⟨n, hn⟩
    cases n with
    | zero => cases hn
    | succ n =>
      rw [h n, Option.map_eq_some_iff] at hn
      obtain ⟨x, hx, rfl⟩ := hn
      exact ⟨x, ⟨n, hx⟩, rfl⟩
  · rintro ⟨x, ⟨n, hn⟩, rfl⟩
    exact ⟨n + 1, by rw [h n, hn]; rfl⟩

/-- A binary construct: first `q`, then `K` on its result, where `K` is monotone in the fuel. -/
theorem evals_bind {p q : Pat} {K : Nat → Ev σ → Option (Ev σ)}
    (h : ∀ n, eval (n + 1) c env p pos w = (eval n c env q pos w).bind (K n))
    (hm : ∀ n m x y, n ≤ m → K n x = some y → K m x = some y) :
    Evals c env p pos w e ↔ ∃ x, Evals c env q pos w x ∧ ∃ n, K n x = some e := by
  constructor
  · rintro ⟨n, hn⟩
    cases n with
    | zero => cases hn
    | succ n =>
      rw [h n, Option.bind_eq_some_iff] at hn
      obtain ⟨x, hx, hk⟩ := hn
      exact ⟨x, ⟨n, hx⟩, n, hk⟩
  · rintro ⟨x, ⟨n, hn⟩, m, hk⟩
    refine ⟨max n m + 1, ?_⟩
    rw [h, eval_mono (Nat.le_max_left n m) hn]
    exact hm _ _ _ _ (Nat.le_max_right n m) hk

theorem andThen_iff {x : Ev σ} {K : Nat → Nat → List CTree → World σ → Option (Ev σ)} :
    (∃ n, x.andThen (K n) = some e) ↔ AndThenR x (fun p cs w y => ∃ n, K n p cs w = some y) e := by
  obtain ⟨r, f, w⟩ := x
  cases r with
  | ok p cs =>
    simp only [Ev.andThen, AndThenR, Option.map_eq_some_iff]
    constructor
    · rintro ⟨n, y, hy, rfl⟩; exact ⟨y, ⟨n, hy⟩, rfl⟩
    · rintro ⟨y, ⟨n, hy⟩, rfl⟩; exact ⟨n, y, hy, rfl⟩
  | fail => simp only [Ev.andThen, AndThenR, Option.some.injEq, exists_const]; exact eq_comm
  | abort q => simp only [Ev.andThen, AndThenR, Option.some.injEq, exists_const]; exact eq_comm

theorem orElse_iff {x : Ev σ} {K : Nat → World σ → Option (Ev σ)} :
    (∃ n, x.orElse (K n) = some e) ↔ OrElseR x (fun w y => ∃ n, K n w = some y) e := by
  obtain ⟨r, f, w⟩ := x
  cases r with
  | fail =>
    simp only [Ev.orElse, OrElseR, Option.map_eq_some_iff]
    constructor
    · rintro ⟨n, y, hy, rfl⟩; exact ⟨y, ⟨n, hy⟩, rfl⟩
    · rintro ⟨y, ⟨n, hy⟩, rfl⟩; exact ⟨n, y, hy, rfl⟩
  | ok p cs => simp only [Ev.orElse, OrElseR, Option.some.injEq, exists_const]; exact eq_comm
  | abort q => simp only [Ev.orElse, OrElseR, Option.some.injEq, exists_const]; exact eq_comm

theorem evals_seq {l r : Pat} : Evals c env (.seq l r) pos w e ↔
    ∃ x, Evals c env l pos w x ∧ AndThenR x (fun p cs w' y =>
      ∃ z, Evals c env r p w' z ∧ y = (z.1.prepend cs, z.2)) e := by
  rw [evals_bind (q := l) (K := fun n e => e.andThen fun pos' cs w' =>
        (eval n c env r pos' w').map fun (r, f) => (r.prepend cs, f)) (fun n => rfl)]
  · simp only [andThen_iff]
    refine exists_congr fun x => and_congr_right fun _ => ?_
    obtain ⟨res, f, w⟩ := x
    cases res with
    | ok p cs =>
      simp only [AndThenR, Option.map_eq_some_iff]
      constructor
      · rintro ⟨y, ⟨n, z, hz, rfl⟩, rfl⟩; exact ⟨_, ⟨z, ⟨n, hz⟩, rfl⟩, rfl⟩
      · rintro ⟨y, ⟨z, ⟨n, hz⟩, rfl⟩, rfl⟩; exact ⟨_, ⟨n, z, hz, rfl⟩, rfl⟩
    | fail => rfl
    | abort q => rfl
  · intro n m x y hnm h
    exact andThen_mono (fun p cs w z => map_mono fun x hx => eval_mono hnm hx) h

theorem evals_plus {p : Pat} : Evals c env (.plus p) pos w e ↔
    ∃ x, Evals c env p pos w x ∧ AndThenR x (fun pos' cs w' y =>
      ∃ z, Evals c env (.star p) pos' w' z ∧ y = (z.1.prepend cs, z.2)) e := by
  rw [← evals_seq]
  constructor
  · rintro ⟨n, h⟩; exact ⟨n, by cases n <;> exact h⟩
  · rintro ⟨n, h⟩; exact ⟨n, by cases n <;> exact h⟩

theorem evals_alt {l r : Pat} : Evals c env (.alt l r) pos w e ↔
    ∃ x, Evals c env l pos w x ∧ OrElseR x (fun w' y => Evals c env r pos w' y) e := by
  rw [evals_bind (q := l) (K := fun n e => e.orElse fun w' => eval n c env r pos w')
    (fun n => rfl)]
  · simp only [orElse_iff]; rfl
  · intro n m x y hnm h
    exact orElse_mono (fun w z hx => eval_mono hnm hx) h

theorem evals_opt {p : Pat} : Evals c env (.opt p) pos w e ↔
    ∃ x, Evals c env p pos w x ∧ OrElseR x (fun w' y => y = (.ok pos [], 0, w')) e := by
  rw [evals_bind (q := p) (K := fun n e => e.orElse fun w' => some (.ok pos [], 0, w'))
    (fun n => rfl)]
  · refine exists_congr fun x => and_congr_right fun _ => ?_
    rw [orElse_iff (K := fun _ w' => some (.ok pos [], 0, w'))]
    obtain ⟨res, f, w⟩ := x
    cases res with
    | fail =>
      simp only [OrElseR, Option.some.injEq, exists_const]
      exact exists_congr fun y => and_congr_left fun _ => eq_comm
    | ok p cs => rfl
    | abort q => rfl
  · intro n m x y hnm h; exact h

/-- What the loop does with a result of the body. -/
def StarR (pos : Nat) (x : Ev σ) (K : Nat → World σ → Ev σ → Prop) (e : Ev σ) : Prop :=
  match x with
  | (.ok pos' cs, f, w') => ∃ y, K pos' w' y ∧ e = (y.1.prepend cs, max f y.2.1, y.2.2)
  | (.fail, f, w') => e = (.ok pos [], f, w')
  | (.abort q, f, w') => e = (.abort q, f, w')

theorem evals_star {p : Pat} : Evals c env (.star p) pos w e ↔
    ∃ x, Evals c env p pos w x ∧ StarR pos x (fun pos' w' y => Evals c env (.star p) pos' w' y) e := by
  rw [evals_bind (q := p) (K := fun n e => match e with
        | (.ok pos' cs, f, w') => (eval n c env (.star p) pos' w').map fun (r, f', w'') =>
            (r.prepend cs, max f f', w'')
        | (.fail, f, w') => some (.ok pos [], f, w')
        | (.abort q, f, w') => some (.abort q, f, w')) (fun n => rfl)]
  · refine exists_congr fun x => and_congr_right fun _ => ?_
    obtain ⟨res, f, w⟩ := x
    cases res with
    | ok p cs =>
      simp only [StarR, Option.map_eq_some_iff]
      constructor
      · rintro ⟨n, y, hy, rfl⟩; exact ⟨y, ⟨n, hy⟩, rfl⟩
      · rintro ⟨y, ⟨n, hy⟩, rfl⟩; exact ⟨n, y, hy, rfl⟩
    | fail => simp only [StarR, Option.some.injEq, exists_const]; exact eq_comm
    | abort q => simp only [StarR, Option.some.injEq, exists_const]; exact eq_comm
  · intro n m x y hnm h
    obtain ⟨res, f, w⟩ := x
    cases res with
    | ok p cs => exact map_mono (fun x hx => eval_mono hnm hx) h
    | fail => exact h
    | abort q => exact h

/-- Result of `Not`. -/
def notEv (pos : Nat) : Ev σ → Ev σ
  | (.ok _ _, f, w') => (.fail, f, w')
  | (.fail, f, w') => (.ok pos [], f, w')
  | (.abort q, f, w') => (.abort q, f, w')

/-- Result of `And`. -/
def andEv (pos : Nat) : Ev σ → Ev σ
  | (.ok _ cs, f, w') => (.ok pos cs, f, w')
  | e => e

/-- Result of `Cap`. -/
def capEv (pos : Nat) (id : Int) : Ev σ → Ev σ
  | (.ok pos' cs, f, w') => (.ok pos' [.node id pos (pos' - pos) cs], f, w')
  | e => e

/-- Result of `Check`. -/
def checkEv (c : Ctx σ) (pos : Nat) (k : Nat) (id flag : Int) : Ev σ → Ev σ
  | (.ok pos' cs, f, w') =>
    match c.chk k w'.cst ((c.data.drop pos).take (pos' - pos)) c.data pos' id flag with
    | (none, st) => (.fail, f, { w' with cst := st })
    | (some m, st) => (.ok (pos' + m) cs, f, { w' with cst := st })
  | e => e

theorem evals_not {p : Pat} : Evals c env (.not p) pos w e ↔
    ∃ x, Evals c env p pos w x ∧ e = notEv pos x := evals_map fun _ => rfl

theorem evals_and {p : Pat} : Evals c env (.and p) pos w e ↔
    ∃ x, Evals c env p pos w x ∧ e = andEv pos x := evals_map fun _ => rfl

theorem evals_cap {p : Pat} {id : Int} : Evals c env (.cap p id) pos w e ↔
    ∃ x, Evals c env p pos w x ∧ e = capEv pos id x := evals_map fun _ => rfl

theorem evals_check {p : Pat} {k : Nat} {id flag : Int} :
    Evals c env (.check p k id flag) pos w e ↔
    ∃ x, Evals c env p pos w x ∧ e = checkEv c pos k id flag x := evals_map fun _ => rfl

theorem evals_memo {p : Pat} {id : Int} : Evals c env (.memo p id) pos w e ↔
    ∃ x, Evals c env p pos w x ∧ e = x.veil c.lo := evals_map fun _ => rfl

theorem eval_memo_hi {c : Ctx σ} (hl : c.lo = false) {n : Nat} {env : Env} {p : Pat} {id : Int} {pos : Nat} {w : World σ} :
    eval (n + 1) c env (.memo p id) pos w = eval n c env p pos w := by
  simp only [eval, hl]
  cases eval n c env p pos w <;> rfl

theorem evals_memo_hi {c : Ctx σ} (hl : c.lo = false) {env : Env} {p : Pat} {id : Int} {pos : Nat} {w : World σ} {e : Ev σ} :
    Evals c env (.memo p id) pos w e ↔ Evals c env p pos w e :=
  evals_sub fun _ => eval_memo_hi hl

/-- A success of a memoized pattern. -/
theorem evals_memo_ok {p : Pat} {id : Int} {pos' : Nat} {cs : List CTree} {f : Nat} {w' : World σ}
    (h : Evals c env (.memo p id) pos w (.ok pos' cs, f, w')) : ∃ f', Evals c env p pos w (.ok pos' cs, f', w') := by
  obtain ⟨⟨r, f1, w1⟩, h1, h2⟩ := evals_memo.1 h
  rw [Ev.veil_mk] at h2
  cases h2
  exact ⟨_, h1⟩

theorem evals_inl {p : Pat} {n : String} : Evals c env (.inl n p) pos w e ↔
    Evals c env p pos w e := evals_sub fun _ => rfl

theorem evals_errRec {p : Pat} {m : String} : Evals c env (.errRec m p) pos w e ↔
    Evals c env p pos { w with errs := w.errs ++ [⟨m, pos⟩] } e := evals_sub fun _ => rfl

theorem evals_err {m : String} : Evals c env (.err m) pos w e ↔
    e = (.abort pos, 0, { w with errs := w.errs ++ [⟨m, pos⟩] }) := Evals.leaf fun _ => rfl

theorem evals_empty : Evals c env .empty pos w e ↔ e = (.ok pos [], 0, w) :=
  Evals.leaf fun _ => rfl

/-- Result of a literal. -/
def litEv (c : Ctx σ) (s : List UInt8) (pos : Nat) (w : World σ) : Ev σ :=
  match evalLit c.data pos s with
  | (some pos', f) => (.ok pos' [], f, w)
  | (none, f) => (.fail, f, w)

/-- Result of a class. -/
def clsEv (c : Ctx σ) (cs : CSet) (pos : Nat) (w : World σ) : Ev σ :=
  if inSet c.data pos cs then (.ok (pos + 1) [], pos + 1, w) else (.fail, pos + 1, w)

/-- Result of `Any`. -/
def dotEv (c : Ctx σ) (k : UInt8) (pos : Nat) (w : World σ) : Ev σ :=
  if pos + k.toNat ≤ c.data.length then (.ok (pos + k.toNat) [], 0, w)
  else (.fail, 0, w)

/-- Result of a zero-width assertion. -/
def opEv (c : Ctx σ) (op : UInt8) (pos : Nat) (w : World σ) : Ev σ :=
  if assertAt c.data pos op then (.ok pos [], pos + 1, w) else (.fail, pos + 1, w)

theorem eval_lit (n : Nat) (s : List UInt8) :
    eval (n + 1) c env (.lit s) pos w = some (litEv c s pos w) := by
  unfold litEv
  show (match evalLit c.data pos s with
      | (some pos', f) => some (Res.ok pos' [], f, w)
      | (none, f) => some (.fail, f, w)) = _
  rcases evalLit c.data pos s with ⟨_ | p, f⟩ <;> rfl

theorem eval_cls (n : Nat) (cs : CSet) :
    eval (n + 1) c env (.cls cs) pos w = some (clsEv c cs pos w) := by
  unfold clsEv
  show (if inSet c.data pos cs then some (Res.ok (pos + 1) [], pos + 1, w)
      else some (.fail, pos + 1, w)) = _
  split <;> rfl

theorem eval_dot (n : Nat) (k : UInt8) :
    eval (n + 1) c env (.dot k) pos w = some (dotEv c k pos w) := by
  unfold dotEv
  show (if pos + k.toNat ≤ c.data.length then
      some (Res.ok (pos + k.toNat) [], 0, w)
      else some (.fail, 0, w)) = _
  split <;> rfl

theorem eval_emptyOp (n : Nat) (op : UInt8) :
    eval (n + 1) c env (.emptyOp op) pos w = some (opEv c op pos w) := by
  unfold opEv
  show (if assertAt c.data pos op then some (Res.ok pos [], pos + 1, w)
      else some (.fail, pos + 1, w)) = _
  split <;> rfl

theorem evals_lit {s : List UInt8} : Evals c env (.lit s) pos w e ↔ e = litEv c s pos w :=
  Evals.leaf fun n => eval_lit n s
theorem evals_cls {cs : CSet} : Evals c env (.cls cs) pos w e ↔ e = clsEv c cs pos w :=
  Evals.leaf fun n => eval_cls n cs
theorem evals_dot {k : UInt8} : Evals c env (.dot k) pos w e ↔ e = dotEv c k pos w :=
  Evals.leaf fun n => eval_dot n k
theorem evals_emptyOp {op : UInt8} : Evals c env (.emptyOp op) pos w e ↔ e = opEv c op pos w :=
  Evals.leaf fun n => eval_emptyOp n op

theorem evals_search_iff {p : Pat} : Evals c env (.search p) pos w e ↔
    ∃ e', (∃ n, searchLoop (eval n c env p) (c.data.length - pos) pos w = some e') ∧ e = e'.unnoted := by
  constructor
  · rintro ⟨n, hn⟩
    cases n with
    | zero => cases hn
    | succ n =>
      obtain ⟨y, hy, rfl⟩ := Option.map_eq_some_iff.1 hn
      exact ⟨y, ⟨n, hy⟩, rfl⟩
  · rintro ⟨y, ⟨n, hn⟩, rfl⟩; exact ⟨n + 1, Option.map_eq_some_iff.2 ⟨y, hn, rfl⟩⟩

theorem searchLoop_iff {p : Pat} {k : Nat} :
    (∃ n, searchLoop (eval n c env p) k pos w = some e) ↔
    ∃ x, Evals c env p pos w x ∧ OrElseR x (fun w' y => match k with
      | 0 => y = (.fail, pos + 1, w')
      | k + 1 => ∃ n, searchLoop (eval n c env p) k (pos + 1) w' = some y) e := by
  constructor
  · rintro ⟨n, hn⟩
    cases k with
    | zero =>
      simp only [searchLoop, Option.bind_eq_some_iff] at hn
      obtain ⟨x, hx, h⟩ := hn
      refine ⟨x, ⟨n, hx⟩, ?_⟩
      have := (orElse_iff (K := fun _ w' => some (Res.fail, pos + 1, w'))).1 ⟨0, h⟩
      obtain ⟨res, f, w'⟩ := x
      cases res with
      | fail =>
        obtain ⟨y, ⟨_, hy⟩, rfl⟩ := this
        exact ⟨y, (Option.some.inj hy).symm, rfl⟩
      | ok => exact this
      | abort => exact this
    | succ k =>
      simp only [searchLoop, Option.bind_eq_some_iff] at hn
      obtain ⟨x, hx, h⟩ := hn
      exact ⟨x, ⟨n, hx⟩, (orElse_iff (K := fun n w' =>
        searchLoop (eval n c env p) k (pos + 1) w')).1 ⟨n, h⟩⟩
  · rintro ⟨x, ⟨n, hx⟩, h⟩
    cases k with
    | zero =>
      refine ⟨n, ?_⟩
      simp only [searchLoop, hx, Option.bind_some]
      obtain ⟨res, f, w'⟩ := x
      cases res with
      | fail => obtain ⟨y, rfl, rfl⟩ := h; rfl
      | ok => exact congrArg some h.symm
      | abort => exact congrArg some h.symm
    | succ k =>
      obtain ⟨m, hm⟩ := (orElse_iff (K := fun n w' =>
        searchLoop (eval n c env p) k (pos + 1) w')).2 h
      refine ⟨max n m, ?_⟩
      simp only [searchLoop, eval_mono (Nat.le_max_left n m) hx, Option.bind_some]
      exact orElse_mono (fun w y => searchLoop_mono
        (fun pos w e he => eval_mono (Nat.le_max_right n m) he) _ _ _ _) hm

theorem evals_nonterm {name : String} : Evals c env (.nonterm name) pos w e ↔
    ∃ b env', lookupNT name env = some (b, env') ∧ Evals c env' b pos w e := by
  have hn : ∀ n, eval (n + 1) c env (.nonterm name) pos w = (match lookupNT name env with
      | some (b, env') => eval n c env' b pos w
      | none => none) := fun n => rfl
  cases hl : lookupNT name env with
  | none =>
    constructor
    · rintro ⟨n, h⟩
      cases n with
      | zero => cases h
      | succ n => rw [hn, hl] at h; cases h
    · rintro ⟨b, env', h, _⟩; cases h
  | some be =>
    obtain ⟨b, env'⟩ := be
    rw [evals_sub (q := b) (env' := env') (w' := w) (fun n => by rw [hn, hl])]
    constructor
    · intro h; exact ⟨b, env', rfl, h⟩
    · rintro ⟨_, _, h1, h⟩; cases h1; exact h

theorem evals_grammar {start : String} {defs : Defs} :
    Evals c env (.grammar start defs) pos w e ↔
    ∃ b, defs.find start = some b ∧ Evals c (defs :: env) b pos w e := by
  have hn : ∀ n, eval (n + 1) c env (.grammar start defs) pos w = (match defs.find start with
      | some b => eval n c (defs :: env) b pos w
      | none => none) := fun n => rfl
  cases hl : defs.find start with
  | none =>
    constructor
    · rintro ⟨n, h⟩
      cases n with
      | zero => cases h
      | succ n => rw [hn, hl] at h; cases h
    · rintro ⟨b, h, _⟩; cases h
  | some b =>
    rw [evals_sub (q := b) (env' := defs :: env) (w' := w) (fun n => by rw [hn, hl])]
    constructor
    · intro h; exact ⟨b, rfl, h⟩
    · rintro ⟨_, h1, h⟩; cases h1; exact h

end Gpeg
