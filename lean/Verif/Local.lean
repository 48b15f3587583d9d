import Verif.MemoIds
/-!
# Evaluation only depends on what was looked at

For patterns that look at bytes with literals, classes and zero-width assertions, and in which `.` only stands behind
a lookahead that has looked at the byte.
-/
namespace Gpeg
variable {σ : Type}

mutual
/-- A capture tree moved from `a` to `b`. -/
def CTree.move (a b : Nat) : CTree → CTree
  | .node id s n ch => .node id (s + b - a) n (CTree.moveL a b ch)
/-- The same for lists. -/
def CTree.moveL (a b : Nat) : List CTree → List CTree
  | [] => []
  | t :: ts => t.move a b :: CTree.moveL a b ts
end

theorem CTree.moveL_append (a b : Nat) (x y : List CTree) :
    CTree.moveL a b (x ++ y) = CTree.moveL a b x ++ CTree.moveL a b y := by
  induction x with
  | nil => rfl
  | cons t x ih => simp only [List.cons_append, CTree.moveL, ih]

mutual
theorem Capture.trees_shift (a b : Nat) : ∀ c : Capture, (c.shift a b).trees = CTree.moveL a b c.trees
  | .node id s n ch => by
    have := Capture.treesL_shift a b ch
    simp only [Capture.shift, Capture.trees, CTree.moveL, CTree.move, this]
  | .dummy s n ch => by
    have := Capture.treesL_shift a b ch
    simp only [Capture.shift, Capture.trees, this]
theorem Capture.treesL_shift (a b : Nat) : ∀ cs : List Capture,
    Capture.treesL (Capture.shiftL a b cs) = CTree.moveL a b (Capture.treesL cs)
  | [] => rfl
  | c :: cs => by
    simp only [Capture.shiftL, Capture.treesL, Capture.trees_shift a b c, Capture.treesL_shift a b cs, CTree.moveL_append]
end

/-- A result moved from `a` to `b`. -/
def Res.move (a b : Nat) : Res → Res
  | .ok pos cs => .ok (pos + b - a) (CTree.moveL a b cs)
  | .fail => .fail
  | .abort pos => .abort (pos + b - a)

/-- From `a` on in `d`, and from `b` on in `d'`, there are the same `L` bytes (or the end of the text is equally far),
and what stands before is the same byte. -/
structure Agree (d d' : List UInt8) (a b L : Nat) : Prop where
  at' : ∀ i, i < L → d[a + i]? = d'[b + i]?
  before : (a = 0 ∧ b = 0) ∨ (0 < a ∧ 0 < b ∧ d[a - 1]? = d'[b - 1]?)

theorem Agree.trans {d d' d'' : List UInt8} {a b c L : Nat} (h : Agree d d' a b L) (h' : Agree d' d'' b c L) :
    Agree d d'' a c L where
  at' i hi := (h.at' i hi).trans (h'.at' i hi)
  before := by
    rcases h.before with ⟨h1, h2⟩ | ⟨h1, h2, h3⟩ <;> rcases h'.before with ⟨h1', h2'⟩ | ⟨h1', h2', h3'⟩
    · exact Or.inl ⟨h1, h2'⟩
    · omega
    · omega
    · exact Or.inr ⟨h1, h2', h3.trans h3'⟩

theorem Agree.refl (d : List UInt8) (a L : Nat) : Agree d d a a L :=
  ⟨fun _ _ => rfl, by rcases Nat.eq_zero_or_pos a with h | h; exacts [Or.inl ⟨h, h⟩, Or.inr ⟨h, h, rfl⟩]⟩

section
variable {d d' : List UInt8} {a b L : Nat}

theorem evalLit_local (h : Agree d d' a b L) : ∀ (s : List UInt8) (i : Nat) {r : Option Nat} {f : Nat},
    evalLit d (a + i) s = (r, f) → f ≤ a + L →
    ∃ f', evalLit d' (b + i) s = (r.map (· + b - a), f') ∧ ∀ x, r = some x → a ≤ x := by
  intro s
  induction s with
  | nil =>
    intro i r f he _
    cases he
    refine ⟨0, ?_, fun x hx => ?_⟩
    · simp only [evalLit, Option.map_some]
      rw [show a + i + b - a = b + i by omega]
    · cases hx; omega
  | cons c s ih =>
    intro i r f he hf
    unfold evalLit at he
    split at he
    · rename_i hc
      have he : (evalLit d (a + i + 1) s).1 = r ∧ max (a + i + 1) (evalLit d (a + i + 1) s).2 = f :=
        ⟨congrArg Prod.fst he, congrArg Prod.snd he⟩
      obtain ⟨f', h1, h2⟩ := ih (i + 1) (r := r) (f := (evalLit d (a + i + 1) s).2) (by
        rw [← he.1]; rfl) (by omega)
      refine ⟨max (b + i + 1) f', ?_, h2⟩
      unfold evalLit
      rw [← h.at' i (by omega), if_pos hc]
      show ((evalLit d' (b + (i + 1)) s).1, _) = _
      rw [h1]
      show (_, max (b + i + 1) (evalLit d' (b + (i + 1)) s).2) = _
      rw [h1]
    · rename_i hc
      cases he
      refine ⟨b + i + 1, ?_, fun x hx => by cases hx⟩
      unfold evalLit
      rw [← h.at' i (by omega), if_neg hc]
      rfl

theorem assert_local (h : Agree d d' a b L) {i : Nat} (hi : i < L) (op : UInt8) :
    assertAt d' (b + i) op = assertAt d (a + i) op := by
  unfold assertAt
  rw [← h.at' i hi]
  have : (if b + i = 0 then none else d'[b + i - 1]?) = if a + i = 0 then none else d[a + i - 1]? := by
    cases i with
    | zero =>
      rcases h.before with ⟨h1, h2⟩ | ⟨h1, h2, h3⟩
      · rw [if_pos (by omega), if_pos (by omega)]
      · rw [if_neg (by omega), if_neg (by omega)]; exact h3.symm
    | succ i =>
      rw [if_neg (by omega), if_neg (by omega)]
      exact (h.at' i (by omega)).symm
  rw [this]

theorem Res.move_prepend (cs : List CTree) (r : Res) : (r.prepend cs).move a b = (r.move a b).prepend (CTree.moveL a b cs) := by
  cases r <;> simp [Res.prepend, Res.move, CTree.moveL_append]

/-- The environment has no leaves. -/
def Env.leafless (env : Env) : Prop := ∀ ds ∈ env, ds.leaves = []

theorem Defs.leafless_find {n : String} {q : Pat} {ds : Defs} (h : ds.leaves = []) (hf : ds.find n = some q) :
    q.leaves = [] := by
  refine List.eq_nil_iff_forall_not_mem.2 fun m hm => ?_
  have := Defs.find_leaves hf m hm
  rw [h] at this
  cases this

theorem Env.leafless.lookup {n : String} {q : Pat} {env' : Env} : ∀ {env : Env}, env.leafless →
    lookupNT n env = some (q, env') → q.leaves = [] ∧ env'.leafless
  | [], _, h => by simp [lookupNT] at h
  | ds :: rest, hp, h => by
    simp only [lookupNT] at h
    split at h
    · rename_i b' hb
      cases h
      exact ⟨Defs.leafless_find (hp ds List.mem_cons_self) hb, hp⟩
    · exact Env.leafless.lookup (env := rest) (fun e he => hp e (List.mem_cons_of_mem _ he)) h

/-- What the first parts of a pattern have to satisfy for the pattern to look at the byte it starts from. -/
def PeekStep (Y : Env → Pat → Prop) (env : Env) : Pat → Prop
  | .cls _ | .emptyOp _ => True
  | .lit s => s ≠ []
  | .seq p _ | .alt p _ | .star p | .plus p | .opt p | .not p | .and p | .cap p _ | .memo p _ | .inl _ p | .check p _ _ _ => Y env p
  | .grammar start ds => ∀ q, ds.find start = some q → Y (ds :: env) q
  | .nonterm n => ∀ q env', lookupNT n env = some (q, env') → Y env' q
  | .dot _ | .errRec _ _ | .err _ | .search _ | .empty => False

/-- Patterns that look at the byte they start from (or find that there is none), whatever happens. -/
def Peeks (env : Env) (p : Pat) : Prop := ∃ Y : Env → Pat → Prop, (∀ env p, Y env p → PeekStep Y env p) ∧ Y env p

/-- The answer of a checker depends on the matched bytes only, it does not move the input, and leaves its state alone. -/
def Textual (chk : CheckFn σ) (k : Nat) (id flag : Int) : Prop :=
  ∃ f : List UInt8 → Bool, ∀ st m d pos, chk k st m d pos id flag = (if f m then some 0 else none, st)

/-- Lookaheads. -/
def Pat.isLook : Pat → Bool
  | .not _ | .and _ => true
  | _ => false

/-- What the parts of a pattern have to satisfy for the pattern to look at all bytes it depends on; with `b`, the byte where the
pattern starts has been looked at. A `.` only stands where the byte has been looked at, by a lookahead or an alternative before,
and checkers only go by the matched bytes. Searches and errors are left out. -/
def CovStep (chk : CheckFn σ) (X : Bool → Env → Pat → Prop) (b : Bool) (env : Env) : Pat → Prop
  | .empty | .lit _ | .cls _ | .emptyOp _ => True
  | .dot k => k = 1 ∧ b = true
  | .alt l r => X b env l ∧ ∃ b', (b' = true → b = true ∨ Peeks env l) ∧ X b' env r
  | .seq l r => X b env l ∧ ∃ b', (b' = true → l.isLook = true ∧ (b = true ∨ Peeks env l)) ∧ X b' env r
  | .plus p | .star p => X b env p ∧ X false env (.star p)
  | .opt p | .not p | .and p | .cap p _ | .memo p _ | .inl _ p => X b env p
  | .check p k id flag => X b env p ∧ Textual chk k id flag
  | .grammar start ds => ∀ q, ds.find start = some q → X false (ds :: env) q
  | .nonterm n => ∀ q env', lookupNT n env = some (q, env') → X false env' q
  | .errRec _ _ | .err _ | .search _ => False

/-- Every `.` that a match of the pattern may come to stands behind a look at the same byte. -/
def Covered (chk : CheckFn σ) (env : Env) (p : Pat) : Prop :=
  ∃ X : Bool → Env → Pat → Prop, (∀ b env p, X b env p → CovStep chk X b env p) ∧ X false env p

/-- What locality says about one evaluation. -/
def LocalAt (a b : Nat) (e : Ev σ) (o : Option (Ev σ)) : Prop :=
  (∃ f, o = some (e.1.move a b, f, e.2.2)) ∧ ∀ x cs, e.1 = .ok x cs → a ≤ x

theorem evalLit_far {d : List UInt8} {pos : Nat} {s : List UInt8} (h : s ≠ []) : pos + 1 ≤ (evalLit d pos s).2 := by
  cases s with
  | nil => exact absurd rfl h
  | cons c s =>
    unfold evalLit
    split
    · exact Nat.le_max_left _ _
    · exact Nat.le_refl _

theorem peekStep_far {c : Ctx σ} (hl : c.lo = false) {Y : Env → Pat → Prop} (hY : ∀ env p, Y env p → PeekStep Y env p) :
    ∀ (n : Nat) (env : Env) (p : Pat) (pos : Nat) (w : World σ) (e : Ev σ), Y env p →
    eval n c env p pos w = some e → pos + 1 ≤ e.2.1 := by
  intro n
  induction n with
  | zero => intro env p pos w e _ he; cases he
  | succ n ih =>
    intro env p pos w e hp he
    have hp := hY _ _ hp
    cases p with
    | dot | errRec | err | search | empty => exact hp.elim
    | grammar start ds =>
      simp only [eval] at he
      cases hfd : ds.find start with
      | none => rw [hfd] at he; cases he
      | some q =>
        rw [hfd] at he
        exact ih (ds :: env) q pos w e (hp q hfd) he
    | nonterm name =>
      simp only [eval] at he
      cases hfd : lookupNT name env with
      | none => rw [hfd] at he; cases he
      | some be =>
        rw [hfd] at he
        obtain ⟨q, env'⟩ := be
        exact ih env' q pos w e (hp q env' hfd) he
    | check p k id fl =>
      simp only [eval] at he
      obtain ⟨⟨res, f, w1⟩, h1, rfl⟩ := Option.map_eq_some_iff.1 he
      have := ih env _ pos w _ hp h1
      cases res with
      | ok x cs => simp only []; split <;> exact this
      | fail => exact this
      | abort x => exact this
    | cls cs => simp only [eval] at he; split at he <;> cases he <;> exact Nat.le_refl _
    | emptyOp op => simp only [eval] at he; split at he <;> cases he <;> exact Nat.le_refl _
    | lit s =>
      have hs : s ≠ [] := hp
      have hf := evalLit_far (d := c.data) (pos := pos) hs
      simp only [eval] at he
      generalize evalLit c.data pos s = l at he hf
      obtain ⟨r, f⟩ := l
      cases r <;> cases he <;> exact hf
    | memo p id => exact ih env p pos w e hp ((eval_memo_hi hl).symm.trans he)
    | inl m p => exact ih env p pos w e hp he
    | seq l r | plus l =>
      simp only [eval] at he
      obtain ⟨⟨res, f, w1⟩, h1, h2⟩ := Option.bind_eq_some_iff.1 he
      have := ih env _ pos w _ hp h1
      cases res with
      | ok x cs =>
        simp only [Ev.andThen, Option.map_map, Option.map_eq_some_iff] at h2
        obtain ⟨y, _, rfl⟩ := h2
        simp only [Function.comp] at this ⊢
        omega
      | fail => cases h2; exact this
      | abort x => cases h2; exact this
    | star p =>
      simp only [eval] at he
      obtain ⟨⟨res, f, w1⟩, h1, h2⟩ := Option.bind_eq_some_iff.1 he
      have := ih env _ pos w _ hp h1
      cases res with
      | ok x cs =>
        simp only [Option.map_eq_some_iff] at h2
        obtain ⟨y, _, rfl⟩ := h2
        simp only [] at this ⊢
        omega
      | fail => cases h2; exact this
      | abort x => cases h2; exact this
    | alt l r | opt l =>
      simp only [eval] at he
      obtain ⟨⟨res, f, w1⟩, h1, h2⟩ := Option.bind_eq_some_iff.1 he
      have := ih env _ pos w _ hp h1
      cases res with
      | ok x cs => cases h2; exact this
      | fail =>
        simp only [Ev.orElse, Option.map_eq_some_iff] at h2
        obtain ⟨y, _, rfl⟩ := h2
        simp only [] at this ⊢
        omega
      | abort x => cases h2; exact this
    | not p | and p | cap p id =>
      simp only [eval] at he
      obtain ⟨⟨res, f, w1⟩, h1, rfl⟩ := Option.map_eq_some_iff.1 he
      have := ih env _ pos w _ hp h1
      cases res <;> exact this

theorem peeks_far {c : Ctx σ} (hl : c.lo = false) {n : Nat} {env : Env} {p : Pat} {pos : Nat} {w : World σ} {e : Ev σ} (hp : Peeks env p)
    (he : eval n c env p pos w = some e) : pos + 1 ≤ e.2.1 := by
  obtain ⟨Y, hY, hp⟩ := hp
  exact peekStep_far hl hY n env p pos w e hp he

theorem look_pos {c : Ctx σ} {n : Nat} {env : Env} {p : Pat} {pos x f : Nat} {w w' : World σ} {cs : List CTree}
    (hp : p.isLook = true) (he : eval n c env p pos w = some (.ok x cs, f, w')) : x = pos := by
  cases n with
  | zero => cases he
  | succ n =>
    cases p <;> simp only [Pat.isLook, Bool.false_eq_true] at hp
    · simp only [eval] at he
      obtain ⟨⟨res, f, w1⟩, h1, h2⟩ := Option.map_eq_some_iff.1 he
      cases res <;> simp only [Prod.mk.injEq, Res.ok.injEq, reduceCtorEq, false_and] at h2
      exact h2.1.1.symm
    · simp only [eval] at he
      obtain ⟨⟨res, f, w1⟩, h1, h2⟩ := Option.map_eq_some_iff.1 he
      cases res <;> simp only [Prod.mk.injEq, Res.ok.injEq, reduceCtorEq, false_and] at h2
      exact h2.1.1.symm

theorem dot_local {j n : Nat} {chk : CheckFn σ} {env : Env} {w : World σ} {e : Ev σ} (hat : d[a + j]? = d'[b + j]?)
    (he : eval n ⟨d, chk, false⟩ env (.dot 1) (a + j) w = some e) : LocalAt a b e (eval n ⟨d', chk, false⟩ env (.dot 1) (b + j) w) := by
  cases n with
  | zero => cases he
  | succ n =>
    have hiff : a + j + 1 ≤ d.length ↔ b + j + 1 ≤ d'.length := by
      have h1 := @List.getElem?_eq_none_iff _ d (a + j)
      have h2 := @List.getElem?_eq_none_iff _ d' (b + j)
      rw [hat] at h1
      have := h1.symm.trans h2
      omega
    rw [eval_dot] at he ⊢
    unfold dotEv at he ⊢
    simp only [show (1 : UInt8).toNat = 1 from rfl] at he ⊢
    by_cases hlt : a + j + 1 ≤ d.length
    · rw [if_pos hlt] at he
      rw [if_pos (hiff.1 hlt)]
      cases he
      refine ⟨⟨0, ?_⟩, fun x cs hx => by cases hx; omega⟩
      simp only [Res.move, CTree.moveL]
      rw [show a + j + 1 + b - a = b + j + 1 by omega]
    · rw [if_neg hlt] at he
      rw [if_neg (fun h => hlt (hiff.2 h))]
      cases he
      exact ⟨⟨0, rfl⟩, fun x cs hx => by cases hx⟩

theorem evalLit_le {d : List UInt8} : ∀ {s : List UInt8} {pos x f : Nat}, evalLit d pos s = (some x, f) → x ≤ max pos f
  | [], pos, x, f, h => by cases h; omega
  | c :: s, pos, x, f, h => by
    unfold evalLit at h
    split at h
    · have h1 : (evalLit d (pos + 1) s).1 = some x ∧ max (pos + 1) (evalLit d (pos + 1) s).2 = f :=
        ⟨congrArg Prod.fst h, congrArg Prod.snd h⟩
      have := evalLit_le (s := s) (pos := pos + 1) (x := x) (f := (evalLit d (pos + 1) s).2) (by rw [← h1.1])
      omega
    · cases h

theorem dot_end {c : Ctx σ} {n : Nat} {env : Env} {pos x f : Nat} {w w' : World σ} {cs : List CTree}
    (he : eval n c env (.dot 1) pos w = some (.ok x cs, f, w')) : x = pos + 1 := by
  cases n with
  | zero => cases he
  | succ n =>
    simp only [eval, show (1 : UInt8).toNat = 1 from rfl] at he
    split at he <;> cases he
    rfl

/-- A match does not end further than it looked. -/
theorem eval_far {X : Bool → Env → Pat → Prop} {chk : CheckFn σ} (hX : ∀ b env p, X b env p → CovStep chk X b env p) :
    ∀ (n : Nat) (b : Bool) (env : Env) (p : Pat) (pos x f : Nat) (w w' : World σ) (cs : List CTree), X b env p →
    eval n ⟨d, chk, false⟩ env p pos w = some (.ok x cs, f, w') → x ≤ max (pos + b.toNat) f := by
  intro n
  induction n with
  | zero => intro b env p pos x f w w' cs _ he; cases he
  | succ n ih =>
    intro b env p pos x f w w' cs hp he
    have hst := hX _ _ _ hp
    have hseq : ∀ l r : Pat, X b env l → (∃ b', (b' = true → l.isLook = true ∧ (b = true ∨ Peeks env l)) ∧ X b' env r) →
        ((eval n ⟨d, chk, false⟩ env l pos w).bind fun e => e.andThen fun pos' cs w' =>
          (eval n ⟨d, chk, false⟩ env r pos' w').map fun (r, f) => (r.prepend cs, f)) = some (.ok x cs, f, w') →
        x ≤ max (pos + b.toNat) f := by
      intro l r hl ⟨b', hb, hr⟩ he
      obtain ⟨⟨res, f1, w1⟩, h1, h2⟩ := Option.bind_eq_some_iff.1 he
      cases res with
      | fail => cases h2
      | abort y => cases h2
      | ok y cs1 =>
        simp only [Ev.andThen, Option.map_map, Option.map_eq_some_iff] at h2
        obtain ⟨⟨r2, f2, w2⟩, h3, h4⟩ := h2
        simp only [Function.comp] at h4
        cases r2 with
        | fail => cases h4
        | abort z => cases h4
        | ok z cs2 =>
          simp only [Res.prepend, Prod.mk.injEq, Res.ok.injEq] at h4
          obtain ⟨⟨rfl, rfl⟩, rfl, rfl⟩ := h4
          have k1 := ih b env l pos y f1 w w1 cs1 hl h1
          have k2 := ih b' env r y z f2 w1 w2 cs2 hr h3
          cases b' with
          | false => simp only [Bool.toNat_false] at k2; omega
          | true =>
            obtain ⟨hz, hpk⟩ := hb rfl
            have k3 := look_pos hz h1
            simp only [Bool.toNat_true] at k2
            rcases hpk with rfl | hpk
            · simp only [Bool.toNat_true] at k1 ⊢; omega
            · have k4 := peeks_far rfl hpk h1
              simp only [] at k4
              omega
    cases p with
    | empty => cases he; omega
    | lit s =>
      simp only [eval] at he
      generalize hl : evalLit d pos s = l at he
      obtain ⟨r, f'⟩ := l
      cases r with
      | none => cases he
      | some y =>
        cases he
        have := evalLit_le hl
        omega
    | cls cs => simp only [eval] at he; split at he <;> cases he; omega
    | dot k =>
      obtain ⟨rfl, rfl⟩ := hst
      have := dot_end he
      simp only [Bool.toNat_true]
      omega
    | emptyOp op => simp only [eval] at he; split at he <;> cases he; omega
    | err m => exact hst.elim
    | errRec m p => exact hst.elim
    | search p => exact hst.elim
    | inl m p => exact ih b env p pos x f w w' cs hst he
    | memo p id =>
      rw [eval_memo_hi rfl] at he
      exact ih b env p pos x f w w' cs hst he
    | seq l r => exact hseq l r hst.1 hst.2 he
    | plus l => exact hseq l (.star l) hst.1 ⟨false, (fun h => by cases h), hst.2⟩ he
    | alt l r =>
      simp only [eval] at he
      obtain ⟨⟨res, f1, w1⟩, h1, h2⟩ := Option.bind_eq_some_iff.1 he
      cases res with
      | ok y cs1 => cases h2; exact ih b env l pos x f w w' cs hst.1 h1
      | abort y => cases h2
      | fail =>
        simp only [Ev.orElse, Option.map_eq_some_iff] at h2
        obtain ⟨⟨r2, f2, w2⟩, h3, h4⟩ := h2
        simp only [Prod.mk.injEq] at h4
        obtain ⟨rfl, rfl, rfl⟩ := h4
        obtain ⟨b', hb, hr⟩ := hst.2
        have k2 := ih b' env r pos x f2 w1 w2 cs hr h3
        cases b' with
        | false => simp only [Bool.toNat_false] at k2; omega
        | true =>
          simp only [Bool.toNat_true] at k2
          rcases hb rfl with rfl | hpk
          · simp only [Bool.toNat_true]; omega
          · have k4 := peeks_far rfl hpk h1
            simp only [] at k4
            omega
    | star p =>
      simp only [eval] at he
      obtain ⟨⟨res, f1, w1⟩, h1, h2⟩ := Option.bind_eq_some_iff.1 he
      cases res with
      | ok y cs1 =>
        simp only [Option.map_eq_some_iff] at h2
        obtain ⟨⟨r2, f2, w2⟩, h3, h4⟩ := h2
        cases r2 with
        | fail => cases h4
        | abort z => cases h4
        | ok z cs2 =>
          simp only [Res.prepend, Prod.mk.injEq, Res.ok.injEq] at h4
          obtain ⟨⟨rfl, rfl⟩, rfl, rfl⟩ := h4
          have k1 := ih b env p pos y f1 w w1 cs1 hst.1 h1
          have k2 := ih false env (.star p) y z f2 w1 w2 cs2 hst.2 h3
          simp only [Bool.toNat_false] at k2
          omega
      | fail => cases h2; omega
      | abort y => cases h2
    | opt p =>
      simp only [eval] at he
      obtain ⟨⟨res, f1, w1⟩, h1, h2⟩ := Option.bind_eq_some_iff.1 he
      cases res with
      | ok y cs1 => cases h2; exact ih b env p pos x f w w' cs hst h1
      | abort y => cases h2
      | fail => cases h2; omega
    | not p =>
      simp only [eval] at he
      obtain ⟨⟨res, f1, w1⟩, h1, h2⟩ := Option.map_eq_some_iff.1 he
      cases res <;> cases h2
      omega
    | and p =>
      simp only [eval] at he
      obtain ⟨⟨res, f1, w1⟩, h1, h2⟩ := Option.map_eq_some_iff.1 he
      cases res <;> cases h2
      omega
    | cap p id =>
      simp only [eval] at he
      obtain ⟨⟨res, f1, w1⟩, h1, h2⟩ := Option.map_eq_some_iff.1 he
      cases res <;> cases h2
      exact ih b env p pos x f w w' _ hst h1
    | check p k id fl =>
      obtain ⟨hp', g, hg⟩ := hst
      simp only [eval, hg] at he
      obtain ⟨⟨res, f1, w1⟩, h1, h2⟩ := Option.map_eq_some_iff.1 he
      cases res with
      | ok y cs1 =>
        simp only [] at h2
        by_cases hm : g (List.take (y - pos) (List.drop pos d)) = true
        · rw [if_pos hm] at h2
          cases h2
          exact ih b env p pos _ f w w1 cs hp' h1
        · rw [if_neg hm] at h2
          cases h2
      | fail => cases h2
      | abort y => cases h2
    | grammar start ds =>
      simp only [eval] at he
      cases hfd : ds.find start with
      | none => rw [hfd] at he; cases he
      | some q =>
        rw [hfd] at he
        have := ih false (ds :: env) q pos x f w w' cs (hst q hfd) he
        simp only [Bool.toNat_false] at this
        omega
    | nonterm name =>
      simp only [eval] at he
      cases hfd : lookupNT name env with
      | none => rw [hfd] at he; cases he
      | some be =>
        rw [hfd] at he
        obtain ⟨q, env'⟩ := be
        have := ih false env' q pos x f w w' cs (hst q env' hfd) he
        simp only [Bool.toNat_false] at this
        omega

theorem Agree.slice (h : Agree d d' a b L) {i j : Nat} (hj : j ≤ L) :
    (d'.drop (b + i)).take (j - i) = (d.drop (a + i)).take (j - i) := by
  apply List.ext_getElem?
  intro m
  rw [List.getElem?_take, List.getElem?_take]
  split
  · rw [List.getElem?_drop, List.getElem?_drop, Nat.add_assoc, Nat.add_assoc]
    exact (h.at' (i + m) (by omega)).symm
  · rfl

theorem eval_local {X : Bool → Env → Pat → Prop} {chk : CheckFn σ} (hX : ∀ b env p, X b env p → CovStep chk X b env p)
    (h : Agree d d' a b L) : ∀ (n : Nat) (β : Bool) (env : Env) (p : Pat) (i : Nat) (w : World σ)
    (e : Ev σ), X β env p → (β = true → i < L) → eval n ⟨d, chk, false⟩ env p (a + i) w = some e → e.2.1 ≤ a + L →
    LocalAt a b e (eval n ⟨d', chk, false⟩ env p (b + i) w) := by
  intro n
  induction n with
  | zero => intro β env p i w e _ _ he; cases he
  | succ n ih =>
    intro β env p i w e hp hβ he hf
    have hst := hX _ _ _ hp
    have hab : a + i + b - a = b + i := by omega
    cases p with
    | empty =>
      cases he
      exact ⟨⟨0, by simp only [eval, Res.move, CTree.moveL, hab]⟩, fun x cs hx => by cases hx; omega⟩
    | lit s =>
      simp only [eval] at he ⊢
      generalize hl : evalLit d (a + i) s = l at he
      obtain ⟨r, f⟩ := l
      have hf' : f ≤ a + L := by
        cases r <;> cases he <;> exact hf
      obtain ⟨f', h1, h2⟩ := evalLit_local h s i hl hf'
      rw [h1]
      cases r with
      | none => cases he; exact ⟨⟨_, rfl⟩, fun x cs hx => by cases hx⟩
      | some x => cases he; exact ⟨⟨_, rfl⟩, fun x cs hx => by cases hx; exact h2 _ rfl⟩
    | cls cs =>
      simp only [eval] at he ⊢
      have hi : i < L := by
        split at he <;> cases he <;> simp only [] at hf <;> omega
      have hin : inSet d' (b + i) cs = inSet d (a + i) cs := by
        unfold inSet; rw [h.at' i hi]
      rw [hin]
      split at he
      · rename_i hc
        cases he
        rw [if_pos hc]
        refine ⟨⟨b + i + 1, ?_⟩, fun x cs hx => by cases hx; omega⟩
        simp only [Res.move, CTree.moveL]
        rw [show a + i + 1 + b - a = b + i + 1 by omega]
      · rename_i hc
        cases he
        rw [if_neg hc]
        exact ⟨⟨b + i + 1, rfl⟩, fun x cs hx => by cases hx⟩
    | dot k =>
      obtain ⟨rfl, rfl⟩ := hst
      exact dot_local (h.at' i (hβ rfl)) he
    | emptyOp op =>
      simp only [eval] at he ⊢
      have hi : i < L := by
        split at he <;> cases he <;> simp only [] at hf <;> omega
      rw [assert_local h hi]
      split at he
      · rename_i hc
        cases he
        rw [if_pos hc]
        refine ⟨⟨b + i + 1, ?_⟩, fun x cs hx => by cases hx; omega⟩
        simp only [Res.move, CTree.moveL, hab]
      · rename_i hc
        cases he
        rw [if_neg hc]
        exact ⟨⟨b + i + 1, rfl⟩, fun x cs hx => by cases hx⟩
    | err m => exact hst.elim
    | errRec m p => exact hst.elim
    | check p k id fl =>
      obtain ⟨hp', g, hg⟩ := hst
      simp only [eval, hg] at he ⊢
      obtain ⟨⟨res, f, w1⟩, h1, h2⟩ := Option.map_eq_some_iff.1 he
      have hf1 : f ≤ a + L := by
        cases res with
        | ok x cs => simp only [] at h2; split at h2 <;> subst h2 <;> exact hf
        | fail => subst h2; exact hf
        | abort x => subst h2; exact hf
      obtain ⟨⟨f', g1⟩, g2⟩ := ih β env p i w _ hp' hβ h1 hf1
      rw [g1]
      cases res with
      | ok x cs =>
        have hx := g2 x cs rfl
        have hfar := eval_far hX _ _ _ _ _ _ _ _ _ _ hp' h1
        obtain ⟨j, rfl⟩ := Nat.exists_eq_add_of_le hx
        have hsl : (d'.drop (b + i)).take (b + j - (b + i)) = (d.drop (a + i)).take (a + j - (a + i)) := by
          rw [show b + j - (b + i) = j - i by omega, show a + j - (a + i) = j - i by omega]
          by_cases hj : j ≤ L
          · exact h.slice hj
          · rw [show j - i = 0 by
              cases β with
              | false => simp only [Bool.toNat_false] at hfar; omega
              | true =>
                have := hβ rfl
                simp only [Bool.toNat_true] at hfar
                omega, List.take_zero, List.take_zero]
        simp only [Res.move, Option.map_some]
        rw [show a + j + b - a = b + j by omega, hsl]
        simp only [] at h2
        by_cases hm : g ((d.drop (a + i)).take (a + j - (a + i))) = true
        · rw [if_pos hm] at h2
          rw [if_pos hm]
          subst h2
          refine ⟨⟨f', ?_⟩, fun x cs hx => by cases hx; omega⟩
          simp only [Res.move]
          rw [show a + j + 0 + b - a = b + j + 0 by omega]
        · rw [if_neg hm] at h2
          rw [if_neg hm]
          subst h2
          exact ⟨⟨f', rfl⟩, fun x cs hx => by cases hx⟩
      | fail => subst h2; exact ⟨⟨f', rfl⟩, fun x cs hx => by cases hx⟩
      | abort x => subst h2; exact ⟨⟨f', rfl⟩, fun x cs hx => by cases hx⟩
    | search p => exact hst.elim
    | inl m p => exact ih β env p i w e hst hβ he hf
    | memo p id =>
      rw [eval_memo_hi rfl] at he ⊢
      exact ih β env p i w e hst hβ he hf
    | seq l r =>
      simp only [eval] at he ⊢
      obtain ⟨⟨res, f, w1⟩, h1, h2⟩ := Option.bind_eq_some_iff.1 he
      have hf1 : f ≤ a + L := by
        cases res with
        | ok x cs =>
          simp only [Ev.andThen, Option.map_map, Option.map_eq_some_iff] at h2
          obtain ⟨y, _, rfl⟩ := h2
          simp only [Function.comp] at hf
          omega
        | fail => cases h2; exact hf
        | abort x => cases h2; exact hf
      obtain ⟨⟨f', g1⟩, g2⟩ := ih β env l i w _ hst.1 hβ h1 hf1
      rw [g1]
      cases res with
      | ok x cs =>
        obtain ⟨j, rfl⟩ := Nat.exists_eq_add_of_le (g2 x cs rfl)
        simp only [Ev.andThen, Option.map_map, Option.map_eq_some_iff] at h2
        obtain ⟨⟨r2, f2, w2⟩, h3, rfl⟩ := h2
        simp only [Function.comp] at hf
        have hr : LocalAt a b (r2, f2, w2) (eval n ⟨d', chk, false⟩ env r (b + j) w1) := by
          obtain ⟨β', hb, hr⟩ := hst.2
          refine ih β' env r j w1 _ hr (fun h0 => ?_) h3 (by simp only []; omega)
          obtain ⟨hz, hpk⟩ := hb h0
          have hx := look_pos hz h1
          rcases hpk with hpk | hpk
          · have := hβ hpk
            omega
          · have hfar := peeks_far rfl hpk h1
            simp only [] at hfar
            omega
        obtain ⟨⟨f2', k1⟩, k2⟩ := hr
        refine ⟨⟨max f' f2', ?_⟩, ?_⟩
        · simp only [Res.move, Option.bind_some, Ev.andThen, Function.comp]
          rw [show a + j + b - a = b + j by omega, k1]
          simp only [Option.map_some]
          exact congrArg (fun r => some (r, max f' f2', w2)) (Res.move_prepend cs r2).symm
        · intro x cs' hx
          simp only [Function.comp] at hx
          cases r2 with
          | ok y cs2 => cases hx; exact k2 _ _ rfl
          | fail => cases hx
          | abort y => cases hx
      | fail => cases h2; exact ⟨⟨f', rfl⟩, fun x cs hx => by cases hx⟩
      | abort x => cases h2; exact ⟨⟨f', rfl⟩, fun x cs hx => by cases hx⟩
    | alt l r =>
      simp only [eval] at he ⊢
      obtain ⟨⟨res, f, w1⟩, h1, h2⟩ := Option.bind_eq_some_iff.1 he
      have hf1 : f ≤ a + L := by
        cases res with
        | ok x cs => cases h2; exact hf
        | fail =>
          simp only [Ev.orElse, Option.map_eq_some_iff] at h2
          obtain ⟨y, _, rfl⟩ := h2
          simp only [] at hf
          omega
        | abort x => cases h2; exact hf
      obtain ⟨⟨f', g1⟩, g2⟩ := ih β env l i w _ hst.1 hβ h1 hf1
      rw [g1]
      cases res with
      | ok x cs => cases h2; exact ⟨⟨f', rfl⟩, g2⟩
      | abort x => cases h2; exact ⟨⟨f', rfl⟩, fun x cs hx => by cases hx⟩
      | fail =>
        simp only [Ev.orElse, Option.map_eq_some_iff] at h2
        obtain ⟨⟨r2, f2, w2⟩, h3, rfl⟩ := h2
        simp only [] at hf
        have hr : LocalAt a b (r2, f2, w2) (eval n ⟨d', chk, false⟩ env r (b + i) w1) := by
          obtain ⟨β', hb, hr⟩ := hst.2
          refine ih β' env r i w1 _ hr (fun h0 => ?_) h3 (by simp only []; omega)
          rcases hb h0 with hpk | hpk
          · exact hβ hpk
          · have hfar := peeks_far rfl hpk h1
            simp only [] at hfar
            omega
        obtain ⟨⟨f2', k1⟩, k2⟩ := hr
        refine ⟨⟨max f' f2', ?_⟩, k2⟩
        simp only [Res.move, Option.bind_some, Ev.orElse, k1, Option.map_some]
    | star p =>
      simp only [eval] at he ⊢
      obtain ⟨⟨res, f, w1⟩, h1, h2⟩ := Option.bind_eq_some_iff.1 he
      have hf1 : f ≤ a + L := by
        cases res with
        | ok x cs =>
          simp only [Option.map_eq_some_iff] at h2
          obtain ⟨y, _, rfl⟩ := h2
          simp only [] at hf
          omega
        | fail => cases h2; exact hf
        | abort x => cases h2; exact hf
      obtain ⟨⟨f', g1⟩, g2⟩ := ih β env p i w _ hst.1 hβ h1 hf1
      rw [g1]
      cases res with
      | ok x cs =>
        obtain ⟨j, rfl⟩ := Nat.exists_eq_add_of_le (g2 x cs rfl)
        simp only [Option.map_eq_some_iff] at h2
        obtain ⟨⟨r2, f2, w2⟩, h3, rfl⟩ := h2
        simp only [] at hf
        obtain ⟨⟨f2', k1⟩, k2⟩ := ih false env (.star p) j w1 _ hst.2 (fun h => by cases h) h3 (by simp only []; omega)
        refine ⟨⟨max f' f2', ?_⟩, ?_⟩
        · simp only [Res.move, Option.bind_some]
          rw [show a + j + b - a = b + j by omega, k1]
          simp only [Option.map_some]
          exact congrArg (fun r => some (r, max f' f2', w2)) (Res.move_prepend cs r2).symm
        · intro x cs' hx
          cases r2 with
          | ok y cs2 => cases hx; exact k2 _ _ rfl
          | fail => cases hx
          | abort y => cases hx
      | fail =>
        cases h2
        refine ⟨⟨f', ?_⟩, fun x cs hx => by cases hx; omega⟩
        simp only [Res.move, Option.bind_some, CTree.moveL, hab]
      | abort x => cases h2; exact ⟨⟨f', rfl⟩, fun x cs hx => by cases hx⟩
    | plus p =>
      simp only [eval] at he ⊢
      obtain ⟨⟨res, f, w1⟩, h1, h2⟩ := Option.bind_eq_some_iff.1 he
      have hf1 : f ≤ a + L := by
        cases res with
        | ok x cs =>
          simp only [Ev.andThen, Option.map_map, Option.map_eq_some_iff] at h2
          obtain ⟨y, _, rfl⟩ := h2
          simp only [Function.comp] at hf
          omega
        | fail => cases h2; exact hf
        | abort x => cases h2; exact hf
      obtain ⟨⟨f', g1⟩, g2⟩ := ih β env p i w _ hst.1 hβ h1 hf1
      rw [g1]
      cases res with
      | ok x cs =>
        obtain ⟨j, rfl⟩ := Nat.exists_eq_add_of_le (g2 x cs rfl)
        simp only [Ev.andThen, Option.map_map, Option.map_eq_some_iff] at h2
        obtain ⟨⟨r2, f2, w2⟩, h3, rfl⟩ := h2
        simp only [Function.comp] at hf
        obtain ⟨⟨f2', k1⟩, k2⟩ := ih false env (.star p) j w1 _ hst.2 (fun h => by cases h) h3 (by simp only []; omega)
        refine ⟨⟨max f' f2', ?_⟩, ?_⟩
        · simp only [Res.move, Option.bind_some, Ev.andThen, Function.comp]
          rw [show a + j + b - a = b + j by omega, k1]
          simp only [Option.map_some]
          exact congrArg (fun r => some (r, max f' f2', w2)) (Res.move_prepend cs r2).symm
        · intro x cs' hx
          simp only [Function.comp] at hx
          cases r2 with
          | ok y cs2 => cases hx; exact k2 _ _ rfl
          | fail => cases hx
          | abort y => cases hx
      | fail => cases h2; exact ⟨⟨f', rfl⟩, fun x cs hx => by cases hx⟩
      | abort x => cases h2; exact ⟨⟨f', rfl⟩, fun x cs hx => by cases hx⟩
    | opt p =>
      simp only [eval] at he ⊢
      obtain ⟨⟨res, f, w1⟩, h1, h2⟩ := Option.bind_eq_some_iff.1 he
      have hf1 : f ≤ a + L := by
        cases res with
        | ok x cs => cases h2; exact hf
        | fail =>
          simp only [Ev.orElse, Option.map_some, Option.some.injEq] at h2
          subst h2
          simp only [] at hf
          omega
        | abort x => cases h2; exact hf
      obtain ⟨⟨f', g1⟩, g2⟩ := ih β env p i w _ hst hβ h1 hf1
      rw [g1]
      cases res with
      | ok x cs => cases h2; exact ⟨⟨f', rfl⟩, g2⟩
      | abort x => cases h2; exact ⟨⟨f', rfl⟩, fun x cs hx => by cases hx⟩
      | fail =>
        simp only [Ev.orElse, Option.map_some, Option.some.injEq] at h2
        subst h2
        refine ⟨⟨max f' 0, ?_⟩, fun x cs hx => by cases hx; omega⟩
        simp only [Res.move, Option.bind_some, Ev.orElse, Option.map_some, CTree.moveL, hab]
    | not p =>
      simp only [eval] at he ⊢
      obtain ⟨⟨res, f, w1⟩, h1, rfl⟩ := Option.map_eq_some_iff.1 he
      obtain ⟨⟨f', g1⟩, g2⟩ := ih β env p i w _ hst hβ h1 (by cases res <;> exact hf)
      rw [g1]
      cases res with
      | ok x cs => exact ⟨⟨f', rfl⟩, fun x cs hx => by cases hx⟩
      | fail =>
        refine ⟨⟨f', ?_⟩, fun x cs hx => by cases hx; omega⟩
        simp only [Res.move, Option.map_some, CTree.moveL, hab]
      | abort x => exact ⟨⟨f', rfl⟩, fun x cs hx => by cases hx⟩
    | and p =>
      simp only [eval] at he ⊢
      obtain ⟨⟨res, f, w1⟩, h1, rfl⟩ := Option.map_eq_some_iff.1 he
      obtain ⟨⟨f', g1⟩, g2⟩ := ih β env p i w _ hst hβ h1 (by cases res <;> exact hf)
      rw [g1]
      cases res with
      | ok x cs =>
        refine ⟨⟨f', ?_⟩, fun x cs hx => by cases hx; omega⟩
        simp only [Res.move, Option.map_some, hab]
      | fail => exact ⟨⟨f', rfl⟩, fun x cs hx => by cases hx⟩
      | abort x => exact ⟨⟨f', rfl⟩, fun x cs hx => by cases hx⟩
    | cap p id =>
      simp only [eval] at he ⊢
      obtain ⟨⟨res, f, w1⟩, h1, rfl⟩ := Option.map_eq_some_iff.1 he
      obtain ⟨⟨f', g1⟩, g2⟩ := ih β env p i w _ hst hβ h1 (by cases res <;> exact hf)
      rw [g1]
      cases res with
      | ok x cs =>
        have hx := g2 x cs rfl
        refine ⟨⟨f', ?_⟩, fun x cs hx => by cases hx; exact g2 _ _ rfl⟩
        simp only [Res.move, Option.map_some, CTree.moveL, CTree.move, hab]
        rw [show x + b - a - (b + i) = x - (a + i) by omega]
      | fail => exact ⟨⟨f', rfl⟩, fun x cs hx => by cases hx⟩
      | abort x => exact ⟨⟨f', rfl⟩, fun x cs hx => by cases hx⟩
    | grammar start ds =>
      simp only [eval] at he ⊢
      cases hfd : ds.find start with
      | none => rw [hfd] at he; cases he
      | some q =>
        rw [hfd] at he
        exact ih false (ds :: env) q i w e (hst q hfd) (fun h => by cases h) he hf
    | nonterm name =>
      simp only [eval] at he ⊢
      cases hfd : lookupNT name env with
      | none => rw [hfd] at he; cases he
      | some be =>
        rw [hfd] at he
        obtain ⟨q, env'⟩ := be
        exact ih false env' q i w e (hst q env' hfd) (fun h => by cases h) he hf

/-- Without leaves there is nothing to cover. -/
theorem covered_leafless {env : Env} {p : Pat} (hp : p.leaves = []) (he : env.leafless) {chk : CheckFn σ} : Covered chk env p := by
  refine ⟨fun _ env p => p.leaves = [] ∧ env.leafless, ?_, hp, he⟩
  intro b env p ⟨hp, he⟩
  cases p <;> simp only [Pat.leaves, List.append_eq_nil_iff, reduceCtorEq] at hp <;>
    simp only [CovStep, Pat.leaves, hp, he, and_self, true_and, and_true]
  case seq l r => exact ⟨false, fun h => by cases h⟩
  case alt l r => exact ⟨false, fun h => by cases h⟩
  case grammar start ds =>
    intro q hq
    refine ⟨Defs.leafless_find hp hq, fun x hx => ?_⟩
    rcases List.mem_cons.1 hx with rfl | hx
    · exact hp
    · exact he x hx
  case nonterm m => exact fun q env' hq => he.lookup hq

end

/-! ## Tests -/

/-- A test for `Peeks` in a grammar whose definitions with names in `P` look at the byte they start from. -/
def Pat.peeks (P : String → Bool) : Pat → Bool
  | .cls _ | .emptyOp _ => true
  | .lit s => !s.isEmpty
  | .seq p _ | .alt p _ | .star p | .plus p | .opt p | .not p | .and p | .cap p _ | .memo p _ | .inl _ p | .check p _ _ _ => p.peeks P
  | .nonterm n => P n
  | .dot _ | .errRec _ _ | .err _ | .search _ | .grammar _ _ | .empty => false

/-- The definitions with names in `S` pass the test. -/
def Defs.allB (S : String → Bool) (t : Pat → Bool) : Defs → Bool
  | .nil => true
  | .cons n p rest => (!S n || t p) && rest.allB S t

theorem Defs.allB_find {S : String → Bool} {t : Pat → Bool} {n : String} {q : Pat} (hn : S n = true) : ∀ {ds : Defs}, ds.allB S t = true →
    ds.find n = some q → t q = true
  | .nil, _, h => by cases h
  | .cons m p rest, hd, h => by
    simp only [Defs.allB, Bool.and_eq_true, Bool.or_eq_true, Bool.not_eq_true'] at hd
    simp only [Defs.find] at h
    split at h
    · rename_i hm
      cases h
      rcases hd.1 with h1 | h1
      · subst hm
        rw [hn] at h1; cases h1
      · exact h1
    · exact Defs.allB_find hn hd.2 h

theorem lookup_one {n : String} {ds : Defs} {q : Pat} {env' : Env} (h : lookupNT n [ds] = some (q, env')) :
    ds.find n = some q ∧ env' = [ds] := by
  simp only [lookupNT] at h
  split at h
  · rename_i b hb
    cases h
    exact ⟨hb, rfl⟩
  · cases h

theorem peeks_of_test {P : String → Bool} {ds : Defs} (hP : ds.allB P (Pat.peeks P) = true) {p : Pat} (hp : p.peeks P = true) :
    Peeks [ds] p := by
  refine ⟨fun env p => env = [ds] ∧ p.peeks P = true, ?_, rfl, hp⟩
  rintro env p ⟨rfl, hp⟩
  cases p <;> simp only [Pat.peeks, Bool.false_eq_true] at hp <;> simp only [PeekStep, hp, and_self]
  case lit s => simpa using hp
  case nonterm n =>
    intro q env' hq
    obtain ⟨h1, rfl⟩ := lookup_one hq
    exact ⟨rfl, Defs.allB_find hp hP h1⟩

/-- A test for `Covered` in a grammar whose definitions with names in `S` are covered, those with names in `P` look at the
byte they start from, and the checks that `K` says are `Textual`. -/
def Pat.covB (S P : String → Bool) (K : Nat → Int → Int → Bool) : Bool → Pat → Bool
  | _, .empty | _, .lit _ | _, .cls _ | _, .emptyOp _ => true
  | b, .dot k => k == 1 && b
  | b, .alt l r => l.covB S P K b && r.covB S P K (b || l.peeks P)
  | b, .seq l r => l.covB S P K b && r.covB S P K (l.isLook && (b || l.peeks P))
  | b, .star p | b, .plus p => p.covB S P K b && p.covB S P K false
  | b, .opt p | b, .not p | b, .and p | b, .cap p _ | b, .memo p _ | b, .inl _ p => p.covB S P K b
  | b, .check p k id flag => p.covB S P K b && K k id flag
  | _, .nonterm n => S n
  | _, .grammar _ _ | _, .errRec _ _ | _, .err _ | _, .search _ => false

theorem covered_of_test {chk : CheckFn σ} {S P : String → Bool} {K : Nat → Int → Int → Bool} {ds : Defs} (hP : ds.allB P (Pat.peeks P) = true)
    (hK : ∀ k id flag, K k id flag = true → Textual chk k id flag) (hS : ds.allB S (Pat.covB S P K false) = true) {p : Pat}
    (hp : p.covB S P K false = true) : Covered chk [ds] p := by
  refine ⟨fun b env p => env = [ds] ∧ p.covB S P K b = true, ?_, rfl, hp⟩
  rintro b env p ⟨rfl, hp⟩
  cases p <;> simp only [Pat.covB, Bool.and_eq_true, Bool.false_eq_true, beq_iff_eq] at hp <;>
    simp only [CovStep, Pat.covB, hp, true_and, and_self, Bool.and_true]
  case seq l r =>
    refine ⟨_, fun h => ?_, hp.2⟩
    simp only [Bool.and_eq_true, Bool.or_eq_true] at h
    exact ⟨h.1, h.2.imp id (peeks_of_test hP)⟩
  case alt l r =>
    refine ⟨_, fun h => ?_, hp.2⟩
    simp only [Bool.or_eq_true] at h
    exact h.imp id (peeks_of_test hP)
  case check p k id flag => exact hK _ _ _ hp.2
  case nonterm n =>
    intro q env' hq
    obtain ⟨h1, rfl⟩ := lookup_one hq
    exact ⟨rfl, Defs.allB_find hp hS h1⟩

end Gpeg
