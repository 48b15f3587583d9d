import Verif.GetLemmas
import Verif.GetFuel
/-! # Property C14: rewriting patterns with `Get` -/
namespace Gpeg
variable {σ : Type}

/-- **C14**. A pattern and its rewriting by `Get` have exactly the same evaluations: from every
position, in every environment and for every state of the world they yield the same result (match
end, captures, failure or abort), look at the same bytes, report the same errors and leave the
checkers in the same state; one diverges iff the other does. -/
theorem C14_get_preserves_meaning (p : Pat) (c : Ctx σ) (env : Env) (pos : Nat) (w : World σ)
    (e : Ev σ) : Evals c env p pos w e ↔ Evals c env (get p) pos w e :=
  (refP_get p).iff

/-- **C14** (the recursion bound used to define `Get` in the model is immaterial). -/
theorem C14_get_unbounded (p : Pat) (k : Nat) (h : p.count ≤ k) : getF k p = get p :=
  get_fuel p k h

/-- `!'a' .` becomes the class of all bytes but `a`; on "ba" both match the `b` and on "ab" both
fail. -/
example : get (.seq (.not (.lit [97])) (.dot 1)) = .cls (CSet.new [97]).complement := by rfl
example : Evals (σ := Unit) ⟨[98, 97], fun _ s _ _ _ _ _ => (none, s), false⟩ []
    (get (.seq (.not (.lit [97])) (.dot 1))) 0 ⟨[], ()⟩ (.ok 1 [], 1, ⟨[], ()⟩) :=
  (C14_get_preserves_meaning _ _ _ _ _ _).1 ⟨3, by rfl⟩
/-- `(x* / ε)` is rewritten to `x*`, keeping the captures of `x`. -/
example : get (.alt (.star (.cap (.lit [97]) 7)) .empty) = .star (.cap (.lit [97]) 7) := by rfl

end Gpeg
