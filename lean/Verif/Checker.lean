import Verif.Ford
import Verif.Correct
/-!
# The two checkers that come with the library (`isa/checker.go`)

`pattern.Check`/`CheckFlags` take an `isa.Checker` value; the model of patterns (`Verif/Pattern.lean`) numbers the
checkers, and the functions here say what the numbers stand for. The `Symbols` maps of the `BackReference` objects
are the state that a run threads through (`CheckFn`).
-/
namespace Gpeg

/-- `isa/checker.go:15-31`: a `MapChecker` holding `strs` answers 0 or -1. -/
def mapCheck (strs : List (List UInt8)) (b : List UInt8) : Option Nat :=
  if strs.contains b then some 0 else none

/-- `isa/checker.go:41-43`: `map[int]string`, the newest binding first. -/
abbrev Symbols := List (Int × List UInt8)

/-- `r.Symbols[id]`: the empty string if there is none. -/
def Symbols.get (m : Symbols) (id : Int) : List UInt8 :=
  match m.find? (fun x => x.1 == id) with
  | some x => x.2
  | none => []

/-- `r.Symbols[id] = s`. -/
def Symbols.set (m : Symbols) (id : Int) (s : List UInt8) : Symbols := (id, s) :: m

/-- `isa/checker.go:51-66` `(*BackReference).Check`. `RefKind(flag)` keeps the low eight bits of `flag`; `src.ReadAt`
(`input/input.go:106-108`) reads what there is of the `len(back)` bytes from the position on, and the rest of `buf`
stays zero. -/
def backRefCheck (m : Symbols) (b data : List UInt8) (pos : Nat) (id flag : Int) : Option Nat × Symbols :=
  if flag % 256 = 0 then (some 0, m.set id b)
  else if flag % 256 = 1 then
    let back := m.get id
    let rd := (data.drop pos).take back.length
    let n := rd.length
    let buf := rd ++ List.replicate (back.length - n) 0
    if n = buf.length ∧ buf = back then (some n, m) else (none, m)
  else (some 0, m)

/-- What the number of a checker stands for: a `MapChecker` with the given strings, or the `BackReference` object
with the given address. -/
inductive Checker
  | map (strs : List (List UInt8))
  | backRef (r : Nat)

/-- The checkers of a program; the state holds `Symbols` of every `BackReference` object. -/
def checkers (tbl : Nat → Checker) : CheckFn (Nat → Symbols) := fun k st b data pos id flag =>
  match tbl k with
  | .map strs => (mapCheck strs b, st)
  | .backRef r =>
    ((backRefCheck (st r) b data pos id flag).1,
      fun r' => if r' = r then (backRefCheck (st r) b data pos id flag).2 else st r')

theorem Symbols.get_set (m : Symbols) (id id' : Int) (s : List UInt8) :
    (m.set id s).get id' = if id = id' then s else m.get id' := by
  simp only [Symbols.get, Symbols.set, List.find?_cons]
  by_cases h : id = id'
  · simp [h]
  · have hb : (id == id') = false := by simpa using h
    simp only [hb, if_neg h]

/-- A use reads the stored text or fails. -/
theorem backRefCheck_use (m : Symbols) (b data : List UInt8) (pos : Nat) (id : Int) :
    backRefCheck m b data pos id 1 =
      if (data.drop pos).take (m.get id).length = m.get id then (some (m.get id).length, m) else (none, m) := by
  have h1 : (1 : Int) % 256 = 1 := rfl
  simp only [backRefCheck, h1]
  rw [if_neg (by decide), if_pos trivial]
  by_cases h : (data.drop pos).take (m.get id).length = m.get id
  · have hl : ((data.drop pos).take (m.get id).length).length = (m.get id).length := by rw [h]
    simp [h]
  · rw [if_neg h]
    by_cases hl : ((data.drop pos).take (m.get id).length).length = (m.get id).length
    · rw [if_neg]
      rintro ⟨_, h2⟩
      rw [hl, Nat.sub_self, List.replicate_zero, List.append_nil] at h2
      exact h h2
    · rw [if_neg]
      rintro ⟨h2, _⟩
      have : ((data.drop pos).take (m.get id).length).length ≤ (m.get id).length := List.length_take_le _ _
      rw [List.length_append, List.length_replicate] at h2
      omega

theorem checkers_ok (tbl : Nat → Checker) : CheckOK (checkers tbl) := by
  intro k st m d pos id flag n st' hp h
  simp only [checkers] at h
  split at h
  · rename_i strs _
    simp only [mapCheck, Prod.mk.injEq] at h
    obtain ⟨h, _⟩ := h
    split at h <;> cases h
    exact hp
  · rename_i r _
    simp only [Prod.mk.injEq] at h
    obtain ⟨h, _⟩ := h
    simp only [backRefCheck] at h
    split at h
    · cases h; exact hp
    · split at h
      · split at h
        · cases h
          simp only [List.length_take, List.length_drop]
          omega
        · cases h
      · cases h; exact hp

/-! ## What a pattern can do to the state of the checkers -/

mutual
/-- The check nodes of a pattern: checker, id and flag. -/
def Pat.checks : Pat → List (Nat × Int × Int)
  | .alt l r | .seq l r => l.checks ++ r.checks
  | .star p | .plus p | .opt p | .not p | .and p | .cap p _ | .memo p _ | .inl _ p | .errRec _ p | .search p => p.checks
  | .check p k id flag => (k, id, flag) :: p.checks
  | .grammar _ ds => ds.checks
  | .dot _ | .err _ | .nonterm _ | .cls _ | .lit _ | .emptyOp _ | .empty => []
/-- The same over the definitions of a grammar. -/
def Defs.checks : Defs → List (Nat × Int × Int)
  | .nil => []
  | .cons _ p rest => p.checks ++ rest.checks
end

theorem Defs.find_checks {n : String} {b : Pat} : ∀ {ds : Defs}, ds.find n = some b → ∀ a ∈ b.checks, a ∈ ds.checks
  | .nil, h => by simp [Defs.find] at h
  | .cons m p rest, h => by
    intro a ha
    simp only [Defs.find] at h
    rw [Defs.checks, List.mem_append]
    split at h
    · cases h; exact .inl ha
    · exact .inr (Defs.find_checks h a ha)

theorem lookup_checks {n : String} {b : Pat} {env' : Env} {A : List (Nat × Int × Int)} : ∀ {env : Env},
    (∀ ds ∈ env, ∀ a ∈ ds.checks, a ∈ A) → lookupNT n env = some (b, env') →
    (∀ a ∈ b.checks, a ∈ A) ∧ ∀ ds ∈ env', ∀ a ∈ ds.checks, a ∈ A
  | [], _, h => by simp [lookupNT] at h
  | ds :: rest, hp, h => by
    simp only [lookupNT] at h
    split at h
    · rename_i hb
      cases h
      exact ⟨fun a ha => hp ds (.head _) a (Defs.find_checks hb a ha), hp⟩
    · exact lookup_checks (fun d hd => hp d (.tail _ hd)) h

section
variable {σ : Type} {c : Ctx σ} {A : List (Nat × Int × Int)} {I : σ → Prop}

theorem searchLoop_inv {ev : Nat → World σ → Option (Ev σ)}
    (hev : ∀ pos w e, ev pos w = some e → I w.cst → I e.2.2.cst) : ∀ k pos w e,
    searchLoop ev k pos w = some e → I w.cst → I e.2.2.cst := by
  intro k
  induction k with
  | zero =>
    intro pos w e h hw
    simp only [searchLoop, Option.bind_eq_some_iff] at h
    obtain ⟨⟨r, f, w'⟩, h1, h2⟩ := h
    have := hev _ _ _ h1 hw
    cases r <;> simp only [Ev.orElse, Option.map_some, Option.some.injEq] at h2 <;> subst h2 <;> exact this
  | succ k ih =>
    intro pos w e h hw
    simp only [searchLoop, Option.bind_eq_some_iff] at h
    obtain ⟨⟨r, f, w'⟩, h1, h2⟩ := h
    have := hev _ _ _ h1 hw
    cases r with
    | fail =>
      simp only [Ev.orElse, Option.map_eq_some_iff] at h2
      obtain ⟨⟨r2, f2, w2⟩, h2, rfl⟩ := h2
      exact (ih _ _ _ h2 this :)
    | _ => simp only [Ev.orElse, Option.some.injEq] at h2; subst h2; exact this

/-- What the check nodes of a pattern preserve, its evaluation preserves. -/
theorem eval_inv (hA : ∀ a ∈ A, ∀ st m d pos, I st → I (c.chk a.1 st m d pos a.2.1 a.2.2).2) : ∀ n env p pos w e,
    (∀ a ∈ p.checks, a ∈ A) → (∀ ds ∈ env, ∀ a ∈ ds.checks, a ∈ A) → eval n c env p pos w = some e →
    I w.cst → I e.2.2.cst := by
  intro n
  induction n with
  | zero => intro env p pos w e _ _ h; cases h
  | succ n ih =>
    intro env p pos w e hp henv h hw
    have hseq : ∀ l r : Pat, (∀ a ∈ l.checks, a ∈ A) → (∀ a ∈ r.checks, a ∈ A) →
        ((eval n c env l pos w).bind fun e => e.andThen fun pos' cs w' =>
          (eval n c env r pos' w').map fun (r, f) => (r.prepend cs, f)) = some e → I e.2.2.cst := by
      intro l r hl hr h
      rw [Option.bind_eq_some_iff] at h
      obtain ⟨⟨r1, f, w'⟩, h1, h2⟩ := h
      have := ih _ _ _ _ _ hl henv h1 hw
      cases r1 with
      | ok pos' cs =>
        simp only [Ev.andThen, Option.map_eq_some_iff] at h2
        obtain ⟨_, ⟨⟨r2, f2, w2⟩, h2, rfl⟩, rfl⟩ := h2
        exact (ih _ _ _ _ _ hr henv h2 this :)
      | _ => simp only [Ev.andThen, Option.some.injEq] at h2; subst h2; exact this
    cases p with
    | empty => simp only [eval, Option.some.injEq] at h; subst h; exact hw
    | lit s =>
      simp only [eval] at h
      split at h <;> cases h <;> exact hw
    | cls s =>
      simp only [eval] at h
      split at h <;> cases h <;> exact hw
    | dot k =>
      simp only [eval] at h
      split at h <;> cases h <;> exact hw
    | emptyOp k =>
      simp only [eval] at h
      split at h <;> cases h <;> exact hw
    | seq l r =>
      simp only [Pat.checks, List.mem_append] at hp
      exact hseq l r (fun a ha => hp a (.inl ha)) (fun a ha => hp a (.inr ha)) h
    | plus q => exact hseq q (.star q) hp hp h
    | alt l r =>
      simp only [Pat.checks, List.mem_append] at hp
      simp only [eval, Option.bind_eq_some_iff] at h
      obtain ⟨⟨r1, f, w'⟩, h1, h2⟩ := h
      have := ih _ _ _ _ _ (fun a ha => hp a (.inl ha)) henv h1 hw
      cases r1 with
      | fail =>
        simp only [Ev.orElse, Option.map_eq_some_iff] at h2
        obtain ⟨⟨r2, f2, w2⟩, h2, rfl⟩ := h2
        exact (ih _ _ _ _ _ (fun a ha => hp a (.inr ha)) henv h2 this :)
      | _ => simp only [Ev.orElse, Option.some.injEq] at h2; subst h2; exact this
    | opt q =>
      simp only [eval, Option.bind_eq_some_iff] at h
      obtain ⟨⟨r1, f, w'⟩, h1, h2⟩ := h
      have := ih _ q _ _ _ hp henv h1 hw
      cases r1 <;> simp only [Ev.orElse, Option.map_some, Option.some.injEq] at h2 <;> subst h2 <;> exact this
    | star q =>
      simp only [eval, Option.bind_eq_some_iff] at h
      obtain ⟨⟨r1, f, w'⟩, h1, h2⟩ := h
      have := ih _ q _ _ _ hp henv h1 hw
      cases r1 with
      | ok pos' cs =>
        simp only [Option.map_eq_some_iff] at h2
        obtain ⟨⟨r2, f2, w2⟩, h2, rfl⟩ := h2
        exact (ih _ (.star q) _ _ _ hp henv h2 this :)
      | _ => simp only [Option.some.injEq] at h2; subst h2; exact this
    | not q =>
      simp only [eval, Option.map_eq_some_iff] at h
      obtain ⟨⟨r1, f, w'⟩, h1, rfl⟩ := h
      have := ih _ q _ _ _ hp henv h1 hw
      cases r1 <;> exact this
    | and q =>
      simp only [eval, Option.map_eq_some_iff] at h
      obtain ⟨⟨r1, f, w'⟩, h1, rfl⟩ := h
      have := ih _ q _ _ _ hp henv h1 hw
      cases r1 <;> exact this
    | cap q id =>
      simp only [eval, Option.map_eq_some_iff] at h
      obtain ⟨⟨r1, f, w'⟩, h1, rfl⟩ := h
      have := ih _ q _ _ _ hp henv h1 hw
      cases r1 <;> exact this
    | memo q id =>
      simp only [eval, Option.map_eq_some_iff] at h
      obtain ⟨⟨r1, f, w'⟩, h1, rfl⟩ := h
      have := ih _ q _ _ _ hp henv h1 hw
      rw [Ev.veil_mk]
      exact this
    | inl m q => exact ih _ q _ _ _ hp henv h hw
    | errRec m q => exact ih _ q _ _ _ hp henv h hw
    | err m => simp only [eval, Option.some.injEq] at h; subst h; exact hw
    | check q k id flag =>
      simp only [Pat.checks, List.mem_cons] at hp
      simp only [eval, Option.map_eq_some_iff] at h
      obtain ⟨⟨r1, f, w'⟩, h1, rfl⟩ := h
      have := ih _ q _ _ _ (fun a ha => hp a (.inr ha)) henv h1 hw
      cases r1 with
      | ok pos' cs =>
        have h2 := hA (k, id, flag) (hp _ (.inl rfl)) w'.cst ((c.data.drop pos).take (pos' - pos)) c.data pos' this
        simp only
        split <;> rename_i hk <;> rw [hk] at h2 <;> exact h2
      | _ => exact this
    | grammar start ds =>
      simp only [eval] at h
      split at h
      · rename_i b hb
        refine ih _ b _ _ _ (fun a ha => hp a (Defs.find_checks hb a ha)) ?_ h hw
        intro d hd
        cases hd with
        | head => exact hp
        | tail _ hd => exact henv d hd
      · cases h
    | search q =>
      simp only [eval] at h
      obtain ⟨y, hy, rfl⟩ := Option.map_eq_some_iff.1 h
      have := searchLoop_inv (fun pos w e h hw => ih _ q _ _ _ hp henv h hw) _ _ _ _ hy hw
      exact this
    | nonterm m =>
      simp only [eval] at h
      split at h
      · rename_i b env' hb
        obtain ⟨h1, h2⟩ := lookup_checks henv hb
        exact ih _ b _ _ _ h1 h2 h hw
      · cases h
end

end Gpeg
