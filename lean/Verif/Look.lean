import Verif.Lo
/-!
# How far a pattern looks

A test that bounds, without running a pattern, what it looks at beyond the end of a match, what it looks at when it
fails, and the length of a match.
-/
namespace Gpeg
variable {σ : Type}

/-- Bounds on what a pattern looks at; `none` if nothing is known. -/
structure Look where
  /-- How far a match looks beyond its end. -/
  over : Option Nat
  /-- How far a failure looks from where the match was tried. -/
  fl : Option Nat
  /-- How long a match is. -/
  mx : Option Nat

/-- The larger bound. -/
def omax : Option Nat → Option Nat → Option Nat
  | some a, some b => some (max a b)
  | _, _ => none

/-- The sum of two bounds. -/
def oadd : Option Nat → Option Nat → Option Nat
  | some a, some b => some (a + b)
  | _, _ => none

/-- The first bound is known and not larger than the second, if that is known. -/
def ole : Option Nat → Option Nat → Bool
  | some a, some b => decide (a ≤ b)
  | none, some _ => false
  | _, none => true

theorem omax_some {a b : Option Nat} {k : Nat} (h : omax a b = some k) : ∃ x y, a = some x ∧ b = some y ∧ x ≤ k ∧ y ≤ k := by
  cases a <;> cases b <;> cases h
  exact ⟨_, _, rfl, rfl, Nat.le_max_left _ _, Nat.le_max_right _ _⟩

theorem oadd_some {a b : Option Nat} {k : Nat} (h : oadd a b = some k) : ∃ x y, a = some x ∧ b = some y ∧ k = x + y := by
  cases a <;> cases b <;> cases h
  exact ⟨_, _, rfl, rfl, rfl⟩

theorem ole_some {a : Option Nat} {k : Nat} (h : ole a (some k) = true) : ∃ x, a = some x ∧ x ≤ k := by
  cases a with
  | none => cases h
  | some x => exact ⟨x, rfl, by simpa [ole] using h⟩

/-- Nothing is known. -/
def Look.none : Look := ⟨Option.none, Option.none, Option.none⟩

/-- The bounds of a pattern, `S` giving those of the definitions. -/
def Pat.look (S : String → Look) : Pat → Look
  | .empty | .err _ => ⟨some 0, some 0, some 0⟩
  | .lit s => ⟨some 0, some s.length, some s.length⟩
  | .cls _ => ⟨some 0, some 1, some 1⟩
  | .dot k => ⟨some 0, some 0, some k.toNat⟩
  | .emptyOp _ => ⟨some 1, some 1, some 0⟩
  | .seq l r => ⟨omax (l.look S).over (r.look S).over,
      omax (l.look S).fl (oadd (l.look S).mx (omax (l.look S).over (r.look S).fl)), oadd (l.look S).mx (r.look S).mx⟩
  | .alt l r => ⟨omax (l.look S).over (omax (l.look S).fl (r.look S).over), omax (l.look S).fl (r.look S).fl,
      omax (l.look S).mx (r.look S).mx⟩
  | .star p => ⟨omax (p.look S).over (p.look S).fl, some 0, Option.none⟩
  | .plus p => ⟨omax (p.look S).over (p.look S).fl, (p.look S).fl, Option.none⟩
  | .opt p => ⟨omax (p.look S).over (p.look S).fl, some 0, (p.look S).mx⟩
  | .not p => ⟨(p.look S).fl, oadd (p.look S).mx (p.look S).over, some 0⟩
  | .and p => ⟨oadd (p.look S).mx (p.look S).over, (p.look S).fl, some 0⟩
  | .cap p _ | .memo p _ | .inl _ p | .errRec _ p => p.look S
  | .nonterm n => S n
  | .check _ _ _ _ | .search _ | .grammar _ _ => Look.none

/-- The definitions keep to the bounds that `S` gives. -/
def Defs.lookB (S : String → Look) : Defs → Bool
  | .nil => true
  | .cons n p rest => ole (p.look S).over (S n).over && ole (p.look S).fl (S n).fl && ole (p.look S).mx (S n).mx && rest.lookB S

/-- What the bounds say of an outcome at `pos`. -/
def Look.Holds (l : Look) (pos : Nat) (e : Ev σ) : Prop :=
  match e with
  | (.ok pos' _, f, _) => (∀ k, l.over = some k → pos ≤ pos' ∧ f ≤ pos' + k) ∧ ∀ k, l.mx = some k → pos' ≤ pos + k
  | (.fail, f, _) => ∀ k, l.fl = some k → f ≤ pos + k
  | (.abort _, _, _) => True

theorem Look.Holds.mono {l l' : Look} {pos : Nat} {e : Ev σ} (h : l.Holds pos e) (h1 : ole l.over l'.over = true)
    (h2 : ole l.fl l'.fl = true) (h3 : ole l.mx l'.mx = true) : l'.Holds pos e := by
  obtain ⟨r, f, w⟩ := e
  cases r with
  | ok pos' cs =>
    refine ⟨fun k hk => ?_, fun k hk => ?_⟩
    · rw [hk] at h1
      obtain ⟨x, hx, hle⟩ := ole_some h1
      have := h.1 x hx
      omega
    · rw [hk] at h3
      obtain ⟨x, hx, hle⟩ := ole_some h3
      have := h.2 x hx
      omega
  | fail =>
    intro k hk
    rw [hk] at h2
    obtain ⟨x, hx, hle⟩ := ole_some h2
    have := h x hx
    omega
  | abort p => trivial

theorem Defs.lookB_find {S : String → Look} {n : String} {b : Pat} : ∀ {ds : Defs}, ds.lookB S = true → ds.find n = some b →
    ole (b.look S).over (S n).over = true ∧ ole (b.look S).fl (S n).fl = true ∧ ole (b.look S).mx (S n).mx = true
  | .nil, _, hf => by cases hf
  | .cons m p rest, h, hf => by
    simp only [Defs.lookB, Bool.and_eq_true] at h
    simp only [Defs.find] at hf
    split at hf
    · rename_i e
      subst e
      cases hf
      exact ⟨h.1.1.1, h.1.1.2, h.1.2⟩
    · exact Defs.lookB_find h.2 hf

theorem lookup_lookB {S : String → Look} {n : String} {b : Pat} {env' : Env} : ∀ {env : Env},
    (∀ d ∈ env, d.lookB S = true) → lookupNT n env = some (b, env') →
    (ole (b.look S).over (S n).over = true ∧ ole (b.look S).fl (S n).fl = true ∧ ole (b.look S).mx (S n).mx = true) ∧
      ∀ d ∈ env', d.lookB S = true
  | [], _, h => by cases h
  | d :: ds, he, h => by
    simp only [lookupNT] at h
    split at h
    · rename_i hf
      cases h
      exact ⟨Defs.lookB_find (he d (by simp)) hf, he⟩
    · exact lookup_lookB (fun d hd => he d (by simp [hd])) h

theorem evalLit_look (d : List UInt8) : ∀ (s : List UInt8) (pos : Nat),
    (∀ pos' f, evalLit d pos s = (some pos', f) → pos' = pos + s.length ∧ f ≤ pos') ∧
    ∀ f, evalLit d pos s = (none, f) → f ≤ pos + s.length := by
  intro s
  induction s with
  | nil => intro pos; exact ⟨(fun pos' f h => by cases h; exact ⟨rfl, Nat.zero_le _⟩), (fun f h => by cases h)⟩
  | cons c s ih =>
    intro pos
    unfold evalLit
    split
    · obtain ⟨h1, h2⟩ := ih (pos + 1)
      cases hl : evalLit d (pos + 1) s with
      | mk r f0 =>
        rw [hl] at h1 h2
        simp only [List.length_cons]
        refine ⟨fun pos' f h => ?_, fun f h => ?_⟩
        · cases h
          have := h1 _ _ rfl
          omega
        · cases h
          have := h2 _ rfl
          omega
    · refine ⟨(fun pos' f h => by cases h), fun f h => ?_⟩
      cases h
      simp only [List.length_cons]
      omega

/-- The bounds hold. -/
theorem look_sound {S : String → Look} {d : List UInt8} {chk : CheckFn σ} (n : Nat) : ∀ (env : Env) (p : Pat) (pos : Nat)
    (w : World σ) (e : Ev σ), (∀ d ∈ env, d.lookB S = true) → eval n ⟨d, chk, false⟩ env p pos w = some e →
    (p.look S).Holds pos e := by
  induction n with
  | zero => intro env p pos w e _ h; cases h
  | succ n ih =>
    intro env p pos w e henv h
    cases p with
    | empty => cases h; exact ⟨fun k hk => by cases hk; omega, fun k hk => by cases hk; omega⟩
    | err m => cases h; trivial
    | lit s =>
      simp only [eval] at h
      obtain ⟨h1, h2⟩ := evalLit_look d s pos
      cases hl : evalLit d pos s with
      | mk r f =>
        rw [hl] at h1 h2 h
        cases r with
        | none =>
          cases h
          intro k hk
          cases hk
          exact h2 _ rfl
        | some pos' =>
          cases h
          have := h1 _ _ rfl
          exact ⟨fun k hk => by cases hk; omega, fun k hk => by cases hk; omega⟩
    | cls cs =>
      simp only [eval] at h
      split at h <;> cases h
      · exact ⟨fun k hk => by cases hk; omega, fun k hk => by cases hk; omega⟩
      · intro k hk; cases hk; omega
    | dot m =>
      simp only [eval] at h
      split at h <;> cases h
      · exact ⟨fun k hk => by cases hk; omega, fun k hk => by cases hk; omega⟩
      · intro k hk; cases hk; omega
    | emptyOp op =>
      simp only [eval] at h
      split at h <;> cases h
      · exact ⟨fun k hk => by cases hk; omega, fun k hk => by cases hk; omega⟩
      · intro k hk; cases hk; omega
    | seq l r =>
      simp only [eval] at h
      obtain ⟨⟨r1, f1, w1⟩, hx, h⟩ := Option.bind_eq_some_iff.1 h
      have hl := ih env l pos w _ henv hx
      cases r1 with
      | ok p1 c1 =>
        simp only [Ev.andThen, Option.map_map, Option.map_eq_some_iff] at h
        obtain ⟨⟨r2, f2, w2⟩, hy, rfl⟩ := h
        have hr := ih env r p1 w1 _ henv hy
        cases r2 with
        | ok p2 c2 =>
          refine ⟨fun k hk => ?_, fun k hk => ?_⟩
          · obtain ⟨x, y, hx, hy, hxk, hyk⟩ := omax_some hk
            have := hl.1 _ hx
            have := hr.1 _ hy
            show pos ≤ p2 ∧ max f1 f2 ≤ p2 + k
            omega
          · obtain ⟨x, y, hx, hy, rfl⟩ := oadd_some hk
            have := hl.2 _ hx
            have := hr.2 _ hy
            omega
        | fail =>
          intro k hk
          obtain ⟨x, y, hx, hy, hxk, hyk⟩ := omax_some hk
          obtain ⟨u, v, hu, hv, rfl⟩ := oadd_some hy
          obtain ⟨s, t, hs, ht, hsk, htk⟩ := omax_some hv
          have := hl.1 _ hs
          have := hl.2 _ hu
          have := hr _ ht
          simp only []
          omega
        | abort p2 => trivial
      | fail =>
        cases h
        intro k hk
        obtain ⟨x, y, hx, hy, hxk, hyk⟩ := omax_some hk
        have := hl _ hx
        omega
      | abort p1 => cases h; trivial
    | alt l r =>
      simp only [eval] at h
      obtain ⟨⟨r1, f1, w1⟩, hx, h⟩ := Option.bind_eq_some_iff.1 h
      have hl := ih env l pos w _ henv hx
      cases r1 with
      | ok p1 c1 =>
        cases h
        refine ⟨fun k hk => ?_, fun k hk => ?_⟩
        · obtain ⟨x, y, hx, hy, hxk, hyk⟩ := omax_some hk
          have := hl.1 _ hx
          omega
        · obtain ⟨x, y, hx, hy, hxk, hyk⟩ := omax_some hk
          have := hl.2 _ hx
          omega
      | fail =>
        simp only [Ev.orElse, Option.map_eq_some_iff] at h
        obtain ⟨⟨r2, f2, w2⟩, hy, rfl⟩ := h
        have hr := ih env r pos w1 _ henv hy
        cases r2 with
        | ok p2 c2 =>
          refine ⟨fun k hk => ?_, fun k hk => ?_⟩
          · obtain ⟨x, y, hx, hy, hxk, hyk⟩ := omax_some hk
            obtain ⟨s, t, hs, ht, hsk, htk⟩ := omax_some hy
            have := hl _ hs
            have := hr.1 _ ht
            show pos ≤ p2 ∧ max f1 f2 ≤ p2 + k
            omega
          · obtain ⟨x, y, hx, hy, hxk, hyk⟩ := omax_some hk
            have := hr.2 _ hy
            omega
        | fail =>
          intro k hk
          obtain ⟨x, y, hx, hy, hxk, hyk⟩ := omax_some hk
          have := hl _ hx
          have := hr _ hy
          simp only []
          omega
        | abort p2 => trivial
      | abort p1 => cases h; trivial
    | star q =>
      simp only [eval] at h
      obtain ⟨⟨r1, f1, w1⟩, hx, h⟩ := Option.bind_eq_some_iff.1 h
      have hl := ih env q pos w _ henv hx
      cases r1 with
      | ok p1 c1 =>
        obtain ⟨⟨r2, f2, w2⟩, hy, rfl⟩ := Option.map_eq_some_iff.1 h
        have hr := ih env (.star q) p1 w1 _ henv hy
        cases r2 with
        | ok p2 c2 =>
          refine ⟨fun k hk => ?_, (fun k hk => by cases hk)⟩
          have h2 := hr.1 k hk
          obtain ⟨x, y, hx, hy, hxk, hyk⟩ := omax_some hk
          have := hl.1 _ hx
          show pos ≤ p2 ∧ max f1 f2 ≤ p2 + k
          omega
        | fail => exact (star_not_fail hy).elim
        | abort p2 => trivial
      | fail =>
        cases h
        refine ⟨fun k hk => ?_, (fun k hk => by cases hk)⟩
        obtain ⟨x, y, hx, hy, hxk, hyk⟩ := omax_some hk
        have := hl _ hy
        omega
      | abort p1 => cases h; trivial
    | plus q =>
      simp only [eval] at h
      obtain ⟨⟨r1, f1, w1⟩, hx, h⟩ := Option.bind_eq_some_iff.1 h
      have hl := ih env q pos w _ henv hx
      cases r1 with
      | ok p1 c1 =>
        simp only [Ev.andThen, Option.map_map, Option.map_eq_some_iff] at h
        obtain ⟨⟨r2, f2, w2⟩, hy, rfl⟩ := h
        have hr := ih env (.star q) p1 w1 _ henv hy
        cases r2 with
        | ok p2 c2 =>
          refine ⟨fun k hk => ?_, (fun k hk => by cases hk)⟩
          have h2 := hr.1 k hk
          obtain ⟨x, y, hx, hy, hxk, hyk⟩ := omax_some hk
          have := hl.1 _ hx
          show pos ≤ p2 ∧ max f1 f2 ≤ p2 + k
          omega
        | fail => exact (star_not_fail hy).elim
        | abort p2 => trivial
      | fail => cases h; exact hl
      | abort p1 => cases h; trivial
    | opt q =>
      simp only [eval] at h
      obtain ⟨⟨r1, f1, w1⟩, hx, h⟩ := Option.bind_eq_some_iff.1 h
      have hl := ih env q pos w _ henv hx
      cases r1 with
      | ok p1 c1 =>
        cases h
        refine ⟨fun k hk => ?_, fun k hk => hl.2 k hk⟩
        obtain ⟨x, y, hx, hy, hxk, hyk⟩ := omax_some hk
        have := hl.1 _ hx
        omega
      | fail =>
        cases h
        refine ⟨fun k hk => ?_, fun k hk => Nat.le_add_right _ _⟩
        obtain ⟨x, y, hx, hy, hxk, hyk⟩ := omax_some hk
        have := hl _ hy
        omega
      | abort p1 => cases h; trivial
    | not q =>
      simp only [eval] at h
      obtain ⟨⟨r1, f1, w1⟩, hx, rfl⟩ := Option.map_eq_some_iff.1 h
      have hl := ih env q pos w _ henv hx
      cases r1 with
      | ok p1 c1 =>
        intro k hk
        obtain ⟨x, y, hx, hy, rfl⟩ := oadd_some hk
        have := hl.1 _ hy
        have := hl.2 _ hx
        omega
      | fail => exact ⟨fun k hk => ⟨Nat.le_refl _, hl k hk⟩, fun k hk => Nat.le_add_right _ _⟩
      | abort p1 => trivial
    | and q =>
      simp only [eval] at h
      obtain ⟨⟨r1, f1, w1⟩, hx, rfl⟩ := Option.map_eq_some_iff.1 h
      have hl := ih env q pos w _ henv hx
      cases r1 with
      | ok p1 c1 =>
        refine ⟨fun k hk => ?_, fun k hk => Nat.le_add_right _ _⟩
        obtain ⟨x, y, hx, hy, rfl⟩ := oadd_some hk
        have := hl.1 _ hy
        have := hl.2 _ hx
        omega
      | fail => exact hl
      | abort p1 => trivial
    | cap q id =>
      simp only [eval] at h
      obtain ⟨⟨r1, f1, w1⟩, hx, rfl⟩ := Option.map_eq_some_iff.1 h
      have hl := ih env q pos w _ henv hx
      cases r1 <;> exact hl
    | memo q id => exact ih env q pos w e henv ((eval_memo_hi rfl).symm.trans h)
    | inl m q => exact ih env q pos w e henv h
    | errRec m q => exact ih env q pos _ e henv h
    | check q k id flag =>
      obtain ⟨r, f, w'⟩ := e
      cases r with
      | ok => exact ⟨(fun k hk => by cases hk), (fun k hk => by cases hk)⟩
      | fail => intro k hk; cases hk
      | abort => trivial
    | grammar start defs =>
      obtain ⟨r, f, w'⟩ := e
      cases r with
      | ok => exact ⟨(fun k hk => by cases hk), (fun k hk => by cases hk)⟩
      | fail => intro k hk; cases hk
      | abort => trivial
    | search q =>
      obtain ⟨r, f, w'⟩ := e
      cases r with
      | ok => exact ⟨(fun k hk => by cases hk), (fun k hk => by cases hk)⟩
      | fail => intro k hk; cases hk
      | abort => trivial
    | nonterm name =>
      simp only [eval] at h
      cases hb : lookupNT name env with
      | none => rw [hb] at h; cases h
      | some x =>
        obtain ⟨b, env'⟩ := x
        rw [hb] at h
        obtain ⟨⟨h1, h2, h3⟩, h4⟩ := lookup_lookB henv hb
        exact (ih env' b pos w e h4 h).mono h1 h2 h3

end Gpeg
