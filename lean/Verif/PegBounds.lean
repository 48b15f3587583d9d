import Verif.GetLemmas
/-! # Positions stay within the data -/
namespace Gpeg
variable {σ : Type}

/-- The checkers never claim bytes past the end of the data. -/
def ChkOK (c : Ctx σ) : Prop :=
  ∀ k st m pos id flag n st', pos ≤ c.data.length →
    c.chk k st m c.data pos id flag = (some n, st') → pos + n ≤ c.data.length

theorem evalLit_bounds (data : List UInt8) (s : List UInt8) : ∀ {pos pos' f : Nat},
    pos ≤ data.length → evalLit data pos s = (some pos', f) →
    pos' = pos + s.length ∧ pos' ≤ data.length := by
  induction s with
  | nil => intro pos pos' f hp h; cases h; exact ⟨rfl, hp⟩
  | cons b s ih =>
    intro pos pos' f hp h
    unfold evalLit at h
    split at h
    · rename_i hb
      have hlt : pos < data.length := by
        rcases Nat.lt_or_ge pos data.length with hlt | hge
        · exact hlt
        · rw [List.getElem?_eq_none hge] at hb; cases hb
      cases hr : evalLit data (pos + 1) s with
      | mk r f' =>
        rw [hr] at h
        simp only [Prod.mk.injEq] at h
        obtain ⟨rfl, _⟩ := h
        obtain ⟨h1, h2⟩ := ih hlt hr
        exact ⟨by rw [h1, List.length_cons]; omega, h2⟩
    · cases h

theorem searchLoop_bounds {data : List UInt8} {ev : Nat → World σ → Option (Ev σ)}
    (hev : ∀ pos w pos' cs f w', pos ≤ data.length → ev pos w = some (.ok pos' cs, f, w') →
      pos ≤ pos' ∧ pos' ≤ data.length) (k : Nat) : ∀ {pos w pos' cs f w'},
    pos + k ≤ data.length → searchLoop ev k pos w = some (.ok pos' cs, f, w') →
    pos ≤ pos' ∧ pos' ≤ data.length := by
  induction k with
  | zero =>
    intro pos w pos' cs f w' hp h
    simp only [searchLoop, Option.bind_eq_some_iff] at h
    obtain ⟨⟨res, f1, w1⟩, h1, h2⟩ := h
    cases res with
    | ok p c =>
      cases h2
      exact hev _ _ _ _ _ _ hp h1
    | fail => cases h2
    | abort q => cases h2
  | succ k ih =>
    intro pos w pos' cs f w' hp h
    simp only [searchLoop, Option.bind_eq_some_iff] at h
    obtain ⟨⟨res, f1, w1⟩, h1, h2⟩ := h
    cases res with
    | ok p c =>
      cases h2
      exact hev _ _ _ _ _ _ (by omega) h1
    | fail =>
      simp only [Ev.orElse, Option.map_eq_some_iff] at h2
      obtain ⟨⟨r, f2, w2⟩, h3, h4⟩ := h2
      cases h4
      obtain ⟨h5, h6⟩ := ih (by omega) h3
      exact ⟨by omega, h6⟩
    | abort q => cases h2

theorem eval_bounds {c : Ctx σ} (hc : ChkOK c) (n : Nat) :
    ∀ {env : Env} {p : Pat} {pos : Nat} {w : World σ} {pos' : Nat} {cs : List CTree} {f : Nat}
      {w' : World σ}, pos ≤ c.data.length → eval n c env p pos w = some (.ok pos' cs, f, w') →
      pos ≤ pos' ∧ pos' ≤ c.data.length := by
  induction n with
  | zero => intro env p pos w pos' cs f w' _ h; cases h
  | succ n ih =>
    intro env p pos w pos' cs f w' hp h
    cases p with
    | empty => cases h; exact ⟨Nat.le_refl _, hp⟩
    | lit s =>
      rw [eval_lit] at h
      unfold litEv at h
      cases hl : evalLit c.data pos s with
      | mk r f' =>
        rw [hl] at h
        cases r with
        | none => cases h
        | some q =>
          cases h
          obtain ⟨h1, h2⟩ := evalLit_bounds _ _ hp hl
          exact ⟨by omega, h2⟩
    | cls s =>
      rw [eval_cls] at h
      unfold clsEv at h
      split at h
      · rename_i hb
        cases h
        exact ⟨by omega, lt_of_inSet hb⟩
      · cases h
    | dot k =>
      rw [eval_dot] at h
      unfold dotEv at h
      split at h
      · cases h; exact ⟨by omega, by assumption⟩
      · cases h
    | emptyOp op =>
      rw [eval_emptyOp] at h
      unfold opEv at h
      split at h
      · cases h; exact ⟨Nat.le_refl _, hp⟩
      · cases h
    | seq l r =>
      simp only [eval, Option.bind_eq_some_iff] at h
      obtain ⟨⟨res, f1, w1⟩, h1, h2⟩ := h
      cases res with
      | ok p1 c1 =>
        simp only [Ev.andThen, Option.map_map, Option.map_eq_some_iff] at h2
        obtain ⟨⟨r2, f2, w2⟩, h3, h4⟩ := h2
        obtain ⟨h5, h6⟩ := ih hp h1
        cases r2 with
        | ok p2 c2 =>
          cases h4
          obtain ⟨h7, h8⟩ := ih h6 h3
          exact ⟨by omega, h8⟩
        | fail => cases h4
        | abort => cases h4
      | fail => cases h2
      | abort => cases h2
    | alt l r =>
      simp only [eval, Option.bind_eq_some_iff] at h
      obtain ⟨⟨res, f1, w1⟩, h1, h2⟩ := h
      cases res with
      | ok p1 c1 => cases h2; exact ih hp h1
      | fail =>
        simp only [Ev.orElse, Option.map_eq_some_iff] at h2
        obtain ⟨⟨r2, f2, w2⟩, h3, h4⟩ := h2
        cases h4
        exact ih hp h3
      | abort => cases h2
    | star p =>
      simp only [eval, Option.bind_eq_some_iff] at h
      obtain ⟨⟨res, f1, w1⟩, h1, h2⟩ := h
      cases res with
      | ok p1 c1 =>
        simp only [Option.map_eq_some_iff] at h2
        obtain ⟨⟨r2, f2, w2⟩, h3, h4⟩ := h2
        obtain ⟨h5, h6⟩ := ih hp h1
        cases r2 with
        | ok p2 c2 =>
          cases h4
          obtain ⟨h7, h8⟩ := ih h6 h3
          exact ⟨by omega, h8⟩
        | fail => cases h4
        | abort => cases h4
      | fail => cases h2; exact ⟨Nat.le_refl _, hp⟩
      | abort => cases h2
    | plus p =>
      simp only [eval, Option.bind_eq_some_iff] at h
      obtain ⟨⟨res, f1, w1⟩, h1, h2⟩ := h
      cases res with
      | ok p1 c1 =>
        simp only [Ev.andThen, Option.map_map, Option.map_eq_some_iff] at h2
        obtain ⟨⟨r2, f2, w2⟩, h3, h4⟩ := h2
        obtain ⟨h5, h6⟩ := ih hp h1
        cases r2 with
        | ok p2 c2 =>
          cases h4
          obtain ⟨h7, h8⟩ := ih h6 h3
          exact ⟨by omega, h8⟩
        | fail => cases h4
        | abort => cases h4
      | fail => cases h2
      | abort => cases h2
    | opt p =>
      simp only [eval, Option.bind_eq_some_iff] at h
      obtain ⟨⟨res, f1, w1⟩, h1, h2⟩ := h
      cases res with
      | ok p1 c1 => cases h2; exact ih hp h1
      | fail => cases h2; exact ⟨Nat.le_refl _, hp⟩
      | abort => cases h2
    | not p =>
      simp only [eval, Option.map_eq_some_iff] at h
      obtain ⟨⟨res, f1, w1⟩, h1, h2⟩ := h
      cases res with
      | ok p1 c1 => cases h2
      | fail => cases h2; exact ⟨Nat.le_refl _, hp⟩
      | abort => cases h2
    | and p =>
      simp only [eval, Option.map_eq_some_iff] at h
      obtain ⟨⟨res, f1, w1⟩, h1, h2⟩ := h
      cases res with
      | ok p1 c1 => cases h2; exact ⟨Nat.le_refl _, hp⟩
      | fail => cases h2
      | abort => cases h2
    | cap p id =>
      simp only [eval, Option.map_eq_some_iff] at h
      obtain ⟨⟨res, f1, w1⟩, h1, h2⟩ := h
      cases res with
      | ok p1 c1 => cases h2; exact ih hp h1
      | fail => cases h2
      | abort => cases h2
    | memo p id =>
      simp only [eval, Option.map_eq_some_iff] at h
      obtain ⟨⟨res, f1, w1⟩, h1, h2⟩ := h
      rw [Ev.veil_mk] at h2
      cases h2
      exact ih hp h1
    | check p k id flag =>
      simp only [eval, Option.map_eq_some_iff] at h
      obtain ⟨⟨res, f1, w1⟩, h1, h2⟩ := h
      cases res with
      | ok p1 c1 =>
        simp only at h2
        obtain ⟨h5, h6⟩ := ih hp h1
        split at h2
        · cases h2
        · rename_i m st hchk
          cases h2
          have := hc _ _ _ _ _ _ _ _ h6 hchk
          exact ⟨by omega, this⟩
      | fail => cases h2
      | abort => cases h2
    | grammar s ds =>
      simp only [eval] at h
      split at h
      · exact ih hp h
      · cases h
    | search p =>
      obtain ⟨⟨r, f', w1⟩, hy, he⟩ := Option.map_eq_some_iff.1 h
      cases he
      exact searchLoop_bounds (data := c.data) (fun pos w pos' cs f w' hp h => ih hp h) _
        (by omega) hy
    | nonterm nm =>
      simp only [eval] at h
      split at h
      · exact ih hp h
      · cases h
    | inl nm b => exact ih hp h
    | err m => cases h
    | errRec m p => exact ih hp h

theorem Evals.bounds {c : Ctx σ} (hc : ChkOK c) {env : Env} {p : Pat} {pos : Nat} {w : World σ}
    {pos' : Nat} {cs : List CTree} {f : Nat} {w' : World σ} (hp : pos ≤ c.data.length)
    (h : Evals c env p pos w (.ok pos' cs, f, w')) : pos ≤ pos' ∧ pos' ≤ c.data.length := by
  obtain ⟨n, hn⟩ := h
  exact eval_bounds hc n hp hn

end Gpeg
