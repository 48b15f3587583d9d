import Verif.Pattern
/-! # The recursion bound in `get` is never reached -/
namespace Gpeg

theorem Pat.count_pos (p : Pat) : 0 < p.count := by
  cases p <;> simp [Pat.count]

theorem getF_count (k : Nat) : ∀ p : Pat, (getF k p).count ≤ p.count := by
  induction k with
  | zero => intro p; exact Nat.le_refl _
  | succ k ih =>
    intro p
    cases p with
    | inl n b => simp [getF, Pat.count]
    | alt l r =>
      have hl := ih l
      have hr := ih r
      show (altGet (.alt l r) (getF k l) (getF k r) (getF k)).count ≤ l.count + r.count + 1
      unfold altGet
      split
      · omega
      · split
        · unfold optGet
          split
          · have := ih (getF k l); omega
          · simp only [Pat.count]; omega
        · split
          · simp [Pat.count]
          · simp [Pat.count]
    | opt q =>
      show (optGet (.opt q) (getF k q)).count ≤ q.count + 1
      unfold optGet
      split
      · have := ih q; omega
      · simp [Pat.count]
    | seq l r =>
      have hl := ih l
      have hr := ih r
      show (seqGet (.seq l r) (getF k l) (getF k r) (getF k)).count ≤ l.count + r.count + 1
      unfold seqGet
      split
      · omega
      · split
        · omega
        · split
          · split
            · rename_i set _
              cases h : negSeq set (getF k r) with
              | none => simp [Pat.count]
              | some x =>
                show x.count ≤ _
                unfold negSeq at h
                split at h <;> first | (cases h; simp [Pat.count]) | cases h
            · simp [Pat.count]
          · simp [Pat.count]
    | _ => exact Nat.le_refl _

theorem getF_succ (k : Nat) : ∀ p : Pat, p.count ≤ k → getF (k + 1) p = getF k p := by
  induction k with
  | zero => intro p h; have := p.count_pos; omega
  | succ k ih =>
    intro p hp
    cases p with
    | alt l r =>
      simp only [Pat.count] at hp
      have hl := ih l (by omega)
      have hr := ih r (by omega)
      show altGet (.alt l r) (getF (k + 1) l) (getF (k + 1) r) (getF (k + 1)) =
        altGet (.alt l r) (getF k l) (getF k r) (getF k)
      rw [hl, hr]
      unfold altGet
      rw [ih (getF k l) (by have := getF_count k l; omega)]
    | opt q =>
      simp only [Pat.count] at hp
      show optGet (.opt q) (getF (k + 1) q) = optGet (.opt q) (getF k q)
      rw [ih q (by omega)]
    | seq l r =>
      simp only [Pat.count] at hp
      have hl := ih l (by omega)
      have hr := ih r (by omega)
      have hlc := getF_count k l
      show seqGet (.seq l r) (getF (k + 1) l) (getF (k + 1) r) (getF (k + 1)) =
        seqGet (.seq l r) (getF k l) (getF k r) (getF k)
      rw [hl, hr]
      unfold seqGet
      cases h : getF k l with
      | not q =>
        have : q.count ≤ k := by rw [h] at hlc; simp only [Pat.count] at hlc; omega
        simp only [ih q this]
      | _ => rfl
    | _ => rfl

/-- Any bound from the size on gives the same result, so `get` is the unbounded recursion. -/
theorem get_fuel (p : Pat) (k : Nat) (h : p.count ≤ k) : getF k p = get p := by
  induction h with
  | refl => rfl
  | step h ih => rw [getF_succ _ _ h, ih]

end Gpeg
