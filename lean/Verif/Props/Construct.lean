import Verif.Ford
/-! # Property C43: pattern constructors -/
namespace Gpeg

/-- Put captures in front of those of a match. -/
def fcons (cs : List CTree) : Option (Nat × List CTree) → Option (Nat × List CTree)
  | some (j, cs') => some (j, cs ++ cs')
  | none => none

/-- Specification of sequencing: match the patterns one after the other, each where the previous one ended;
fail with the first one that fails. -/
inductive FSeq (d : List UInt8) (env : Env) : List Pat → Nat → Option (Nat × List CTree) → Prop
  | nil {i} : FSeq d env [] i (some (i, []))
  | fail {p ps i} : Ford d env p i none → FSeq d env (p :: ps) i none
  | cons {p ps i j cs x} : Ford d env p i (some (j, cs)) → FSeq d env ps j x → FSeq d env (p :: ps) i (fcons cs x)

/-- Specification of ordered choice: the result of the first pattern that matches, failure if none does. -/
inductive FAlt (d : List UInt8) (env : Env) : List Pat → Nat → Option (Nat × List CTree) → Prop
  | nil {i} : FAlt d env [] i none
  | here {p ps i x} : Ford d env p i (some x) → FAlt d env (p :: ps) i (some x)
  | next {p ps i x} : Ford d env p i none → FAlt d env ps i x → FAlt d env (p :: ps) i x

variable {d : List UInt8} {env : Env}

theorem fcons_fcons (a b : List CTree) (x : Option (Nat × List CTree)) : fcons a (fcons b x) = fcons (a ++ b) x := by
  cases x with
  | none => rfl
  | some x => simp [fcons]

theorem ford_seq {l r : Pat} {i : Nat} {x : Option (Nat × List CTree)} : Ford d env (.seq l r) i x ↔
    (x = none ∧ Ford d env l i none) ∨ ∃ j cs y, Ford d env l i (some (j, cs)) ∧ Ford d env r j y ∧ x = fcons cs y := by
  constructor
  · intro h
    cases h with
    | seqOk h1 h2 => exact .inr ⟨_, _, _, h1, h2, rfl⟩
    | seqFail1 h1 => exact .inl ⟨rfl, h1⟩
    | seqFail2 h1 h2 => exact .inr ⟨_, _, _, h1, h2, rfl⟩
  · rintro (⟨rfl, h⟩ | ⟨j, cs, y, h1, h2, rfl⟩)
    · exact .seqFail1 h
    · cases y with
      | none => exact .seqFail2 h1 h2
      | some y => exact .seqOk h1 h2

theorem fseq_cons {p : Pat} {ps : List Pat} {i : Nat} {x : Option (Nat × List CTree)} : FSeq d env (p :: ps) i x ↔
    (x = none ∧ Ford d env p i none) ∨ ∃ j cs y, Ford d env p i (some (j, cs)) ∧ FSeq d env ps j y ∧ x = fcons cs y := by
  constructor
  · intro h
    cases h with
    | fail h => exact .inl ⟨rfl, h⟩
    | cons h1 h2 => exact .inr ⟨_, _, _, h1, h2, rfl⟩
  · rintro (⟨rfl, h⟩ | ⟨j, cs, y, h1, h2, rfl⟩)
    · exact .fail h
    · exact .cons h1 h2

theorem foldl_seq (ps : List Pat) : ∀ (p : Pat) (i : Nat) (x : Option (Nat × List CTree)),
    Ford d env (ps.foldl .seq p) i x ↔ FSeq d env (p :: ps) i x := by
  induction ps with
  | nil =>
    intro p i x
    rw [fseq_cons]
    constructor
    · intro h
      cases x with
      | none => exact .inl ⟨rfl, h⟩
      | some x => exact .inr ⟨x.1, x.2, _, h, .nil, by simp [fcons]⟩
    · rintro (⟨rfl, h⟩ | ⟨j, cs, y, h1, h2, rfl⟩)
      · exact h
      · cases h2; simpa [fcons] using h1
  | cons q ps ih =>
    intro p i x
    rw [List.foldl_cons, ih, fseq_cons, fseq_cons]
    constructor
    · rintro (⟨rfl, h⟩ | ⟨j, cs, y, h1, h2, rfl⟩)
      · rcases ford_seq.1 h with ⟨_, h⟩ | ⟨j, cs, y, h1, h2, h3⟩
        · exact .inl ⟨rfl, h⟩
        · cases y with
          | none => exact .inr ⟨j, cs, none, h1, .fail h2, rfl⟩
          | some y => cases h3
      · rcases ford_seq.1 h1 with ⟨h, _⟩ | ⟨k, cs', z, h3, h4, h5⟩
        · cases h
        · cases z with
          | none => cases h5
          | some z =>
            cases h5
            exact .inr ⟨k, cs', _, h3, .cons h4 h2, (fcons_fcons _ _ _).symm⟩
    · rintro (⟨rfl, h⟩ | ⟨j, cs, y, h1, h2, rfl⟩)
      · exact .inl ⟨rfl, .seqFail1 h⟩
      · rcases fseq_cons.1 h2 with ⟨rfl, h⟩ | ⟨k, cs', z, h3, h4, rfl⟩
        · exact .inl ⟨rfl, .seqFail2 h1 h⟩
        · exact .inr ⟨k, cs ++ cs', z, .seqOk h1 h3, h4, fcons_fcons _ _ _⟩

/-- **C43** for `Concat`: sequencing of any number of patterns, none included. -/
theorem C43_concat (ps : List Pat) (i : Nat) (x : Option (Nat × List CTree)) :
    Ford d env (concatPat ps) i x ↔ FSeq d env ps i x := by
  cases ps with
  | nil =>
    constructor
    · intro h; cases h; exact .nil
    · intro h; cases h; exact .empty
  | cons p ps => exact foldl_seq ps p i x

/-- **C43** for `Repeat`: exactly `n` matches one after the other, the empty match if `n <= 0`. -/
theorem C43_repeat (p : Pat) (n : Int) (i : Nat) (x : Option (Nat × List CTree)) :
    Ford d env (repeatPat p n) i x ↔ FSeq d env (List.replicate n.toNat p) i x := by
  unfold repeatPat
  split
  · rename_i hn
    rw [show n.toNat = 0 by omega]
    exact C43_concat [] i x
  · rename_i hn
    obtain ⟨m, hm⟩ : ∃ m, n.toNat = m + 1 := ⟨n.toNat - 1, by omega⟩
    rw [hm, Nat.add_sub_cancel, List.replicate_succ]
    exact foldl_seq _ _ _ _

theorem orPat_cons (p q : Pat) (ps : List Pat) : orPat (p :: q :: ps) = .alt p (orPat (q :: ps)) := by
  have hrev : ∃ a as, (q :: ps).reverse = a :: as := by
    cases h : (q :: ps).reverse with
    | nil => simp at h
    | cons a as => exact ⟨a, as, rfl⟩
  obtain ⟨a, as, h⟩ := hrev
  unfold orPat
  rw [List.reverse_cons, h]
  simp [List.foldl_append]

/-- **C43** for `Or`: ordered choice among one or more patterns. -/
theorem C43_or (p : Pat) (ps : List Pat) (i : Nat) (x : Option (Nat × List CTree)) :
    Ford d env (orPat (p :: ps)) i x ↔ FAlt d env (p :: ps) i x := by
  induction ps generalizing p with
  | nil =>
    constructor
    · intro h
      cases x with
      | none => exact .next h .nil
      | some x => exact .here h
    · intro h
      cases h with
      | here h => exact h
      | next h h' => cases h'; exact h
  | cons q ps ih =>
    rw [orPat_cons]
    constructor
    · intro h
      cases h with
      | altL h => exact .here h
      | altR h h' => exact .next h ((ih q).1 h')
    · intro h
      cases h with
      | here h => exact .altL h
      | next h h' => exact .altR h ((ih q).2 h')

/-- **C43** for `Or()`: without arguments `Or` matches the empty string (it does not fail, as the empty
choice would). -/
theorem C43_or_none (i : Nat) (x : Option (Nat × List CTree)) :
    Ford d env (orPat []) i x ↔ x = some (i, []) :=
  ⟨fun h => by cases h; rfl, fun h => by subst h; exact .empty⟩

example : Ford [97, 97, 97] [] (repeatPat (.cap (.lit [97]) 1) 2) 0
    (some (2, [.node 1 0 1 [], .node 1 1 1 []])) := by
  have h0 : Ford [97, 97, 97] [] (.cap (.lit [97]) 1) 0 (some (1, [.node 1 0 1 []])) :=
    .capOk (.litOk (s := [97]) (i := 0) (by decide))
  have h1 : Ford [97, 97, 97] [] (.cap (.lit [97]) 1) 1 (some (2, [.node 1 1 1 []])) :=
    .capOk (.litOk (s := [97]) (i := 1) (by decide))
  exact (C43_repeat _ _ _ _).2 (.cons h0 (.cons h1 .nil))

/-- The documentation of `And` (`pattern/pattern.go:168-176`, "equivalent to `!!p`"), for patterns without
captures. -/
theorem C43_and_not_not (p : Pat) (i : Nat) (x : Option (Nat × List CTree))
    (hc : ∀ j cs, Ford d env p i (some (j, cs)) → cs = []) :
    Ford d env (.and p) i x ↔ Ford d env (.not (.not p)) i x := by
  constructor
  · intro h
    cases h with
    | andOk h => rw [hc _ _ h]; exact .notOk (.notFail h)
    | andFail h => exact .notFail (.notOk h)
  · intro h
    cases h with
    | notOk h =>
      cases h with
      | @notFail env p i x h =>
        obtain ⟨j, cs⟩ := x
        have h' := Ford.andOk h
        rw [hc j cs h] at h'
        exact h'
    | notFail h => cases h with
      | notOk h => exact .andFail h

end Gpeg
