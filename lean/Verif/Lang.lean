import Verif.Eats
import Verif.WellFormed
import Verif.ReTree
/-!
# Languages of patterns

Lemmas for showing which texts a pattern matches (`Verif/Props/Arith.lean`, `Verif/Props/Json.lean`).
-/
namespace Gpeg

/-- There are only 256 bytes. -/
theorem forall_byte {P : UInt8 → Prop} (h : ∀ n : Fin 256, P (UInt8.ofFin n)) (x : UInt8) : P x := h x.toFin

/-- The text does not begin with a byte of the set. -/
def NotIn (f : UInt8 → Bool) (r : List UInt8) : Prop := ∀ b, r.head? = some b → f b = false

theorem notIn_nil {f : UInt8 → Bool} : NotIn f [] := fun _ h => by cases h
theorem notIn_cons {f : UInt8 → Bool} {b : UInt8} {r : List UInt8} (h : f b = false) : NotIn f (b :: r) := by
  intro x hx
  cases hx
  exact h

/-- Texts of a language one after the other. -/
inductive Many (L : List UInt8 → Prop) : List UInt8 → Prop
  | nil : Many L []
  | cons {w v} : L w → Many L v → Many L (w ++ v)

theorem Eats.litF {env : Env} {b : UInt8} {w s : List UInt8} (h : s.head? ≠ some b) : Eats env (.lit (b :: w)) s none := by
  refine .litFail fun ⟨t, ht⟩ => h ?_
  rw [← ht]
  rfl

theorem lit_inv {env : Env} {w s r : List UInt8} (h : Eats env (.lit w) s (some r)) : s = w ++ r := by cases h; rfl
theorem cls_inv {env : Env} {cs : CSet} {s r : List UInt8} (h : Eats env (.cls cs) s (some r)) : ∃ b, s = b :: r ∧ cs.has b = true := by
  cases h with | clsOk h => exact ⟨_, rfl, h⟩
theorem seq_inv {env : Env} {p q : Pat} {s r : List UInt8} (h : Eats env (.seq p q) s (some r)) :
    ∃ s', Eats env p s (some s') ∧ Eats env q s' (some r) := by
  cases h with | seqOk h1 h2 => exact ⟨_, h1, h2⟩
theorem alt_inv {env : Env} {p q : Pat} {s r : List UInt8} (h : Eats env (.alt p q) s (some r)) :
    Eats env p s (some r) ∨ (Eats env p s none ∧ Eats env q s (some r)) := by
  cases h with
  | altL h => exact .inl h
  | altR h1 h2 => exact .inr ⟨h1, h2⟩
theorem opt_inv {env : Env} {p : Pat} {s r : List UInt8} (h : Eats env (.opt p) s (some r)) :
    Eats env p s (some r) ∨ r = s := by
  cases h with
  | optSome h => exact .inl h
  | optNone h => exact .inr rfl
theorem plus_inv {env : Env} {p : Pat} {s r : List UInt8} (h : Eats env (.plus p) s (some r)) :
    ∃ s', Eats env p s (some s') ∧ Eats env (.star p) s' (some r) := by
  cases h with | plusOk h1 h2 => exact ⟨_, h1, h2⟩
theorem nonterm_inv {env env' : Env} {n : String} {b : Pat} {s : List UInt8} {x : Option (List UInt8)}
    (hl : lookupNT n env = some (b, env')) (h : Eats env (.nonterm n) s x) : Eats env' b s x := by
  cases h with
  | nonterm h1 h2 =>
    rw [hl] at h1
    cases h1
    exact h2

theorem star_many {env : Env} {p : Pat} {L : List UInt8 → Prop} {q : Pat} {s : List UInt8} {x : Option (List UInt8)} (h : Eats env q s x) :
    q = .star p → ∀ r, x = some r → (∀ s' r', (∃ u, s = u ++ s') → Eats env p s' (some r') → ∃ w, s' = w ++ r' ∧ L w) →
    ∃ w, s = w ++ r ∧ Many L w := by
  induction h with
  | starEnd => rintro _ r ⟨⟩ _; exact ⟨[], rfl, .nil⟩
  | @starStep env p s s' x h1 _ _ ih2 =>
    intro e r hr hL
    cases e
    obtain ⟨w, rfl, hw⟩ := hL s s' ⟨[], rfl⟩ h1
    obtain ⟨v, rfl, hv⟩ := ih2 rfl r hr fun s' r' ⟨u, hu⟩ h => hL s' r' ⟨w ++ u, by rw [hu]; simp⟩ h
    exact ⟨w ++ v, by simp, .cons hw hv⟩
  | _ => intro e; cases e

/-- A repetition matches only texts of the language of what is repeated. -/
theorem star_sound {env : Env} {p : Pat} {L : List UInt8 → Prop} {s r : List UInt8} (h : Eats env (.star p) s (some r))
    (hL : ∀ s' r', (∃ u, s = u ++ s') → Eats env p s' (some r') → ∃ w, s' = w ++ r' ∧ L w) : ∃ w, s = w ++ r ∧ Many L w :=
  star_many h rfl r rfl hL

/-- A repetition matches all of a sequence of texts, if each is matched before what may follow. -/
theorem star_complete {env : Env} {p : Pat} {L : List UInt8 → Prop} {w r : List UInt8} (hr : Eats env p r none)
    (h : Many L w) (hL : ∀ w v, L w → Many L v → Eats env p (w ++ (v ++ r)) (some (v ++ r))) : Eats env (.star p) (w ++ r) (some r) := by
  induction h with
  | nil => exact .starEnd hr
  | cons h1 h2 ih =>
    rw [List.append_assoc]
    exact .starStep (hL _ _ h1 h2) ih

/-- A repeated class. -/
theorem star_cls {env : Env} {cs : CSet} {w r : List UInt8} (hw : ∀ b ∈ w, cs.has b = true) (hr : NotIn cs.has r) :
    Eats env (.star (.cls cs)) (w ++ r) (some r) := by
  induction w with
  | nil => exact .starEnd (.clsFail hr)
  | cons b w ih => exact .starStep (.clsOk (hw b (by simp))) (ih fun x hx => hw x (by simp [hx]))

theorem star_cls_inv {env : Env} {cs : CSet} {s r : List UInt8} (h : Eats env (.star (.cls cs)) s (some r)) :
    ∃ w, s = w ++ r ∧ (∀ b ∈ w, cs.has b = true) := by
  obtain ⟨w, hw, hm⟩ := star_sound (L := fun w => ∃ b, w = [b] ∧ cs.has b = true) h fun s' r' _ h' => by
    obtain ⟨b, rfl, hb⟩ := cls_inv h'
    exact ⟨[b], rfl, b, rfl, hb⟩
  refine ⟨w, hw, ?_⟩
  clear hw h
  induction hm with
  | nil => simp
  | cons h1 _ ih =>
    obtain ⟨b, rfl, hb⟩ := h1
    intro x hx
    rcases List.mem_cons.1 hx with rfl | hx
    · exact hb
    · exact ih x hx

theorem star_cls_stop {env : Env} {cs : CSet} {q : Pat} {s : List UInt8} {x : Option (List UInt8)} (h : Eats env q s x) :
    q = .star (.cls cs) → ∀ r, x = some r → NotIn cs.has r := by
  induction h with
  | starEnd h1 =>
    rintro e r ⟨⟩
    cases e
    cases h1 with | clsFail h => exact h
  | starStep _ _ _ ih => exact fun e r hr => ih e r hr
  | _ => intro e; cases e

/-- What a pattern makes of a text exists. -/
theorem eats_total {env : Env} {p : Pat} (he : EnvWF env) (hw : p.WellFormed env) (hp : p.Pure) (hpe : Env.Pure env)
    (hq : p.Plain) (hqe : Env.Plain env) (s : List UInt8) : ∃ x, Eats env p s x := by
  have hchk : ChkOK (⟨s, fun _ st _ _ _ _ _ => (none, st), false⟩ : Ctx Unit) := fun _ _ _ _ _ _ _ _ _ h => by cases h
  obtain ⟨e, h⟩ := Pat.WellFormed.ends hchk s.length 0 rfl (Nat.zero_le _) env p he hw ⟨[], ()⟩
  obtain ⟨x, _, _, hf⟩ := evals_pure hp hpe h
  have := eats_aux hf (.inl hq) hqe (Nat.zero_le _)
  cases x with
  | none => exact ⟨_, this.2 rfl⟩
  | some y => exact ⟨_, (this.1 y.1 y.2 rfl).2⟩

theorem star_some_aux {env : Env} {q : Pat} {s : List UInt8} {x : Option (List UInt8)} (h : Eats env q s x) :
    ∀ p, q = .star p → ∃ r, x = some r := by
  induction h with
  | starEnd => exact fun _ _ => ⟨_, rfl⟩
  | starStep _ _ _ ih => exact ih
  | _ => intro p e; cases e

theorem star_some {env : Env} {p : Pat} {s : List UInt8} {x : Option (List UInt8)} (h : Eats env (.star p) s x) : ∃ r, x = some r :=
  star_some_aux h p rfl

namespace Re

/-- A class. -/
def cset (its : List Item) : CSet := setOf fun x => (its.any fun y => y.mem x) != false

theorem has_cset (its : List Item) (x : UInt8) : (cset its).has x = its.any fun y => y.mem x := by
  rw [cset, has_setOf, Bool.bne_false]

end Re
end Gpeg
