import Verif.ReSpec
import Verif.Ford
import Verif.Inline
import Verif.Top
/-!
# What the patterns written in the `re` syntax are made of
-/
namespace Gpeg

/-- Literals, classes, single bytes, calls, and what is made of them by the operators. -/
def Pat.Plain : Pat → Prop
  | .alt l r | .seq l r => l.Plain ∧ r.Plain
  | .star p | .plus p | .opt p | .not p | .and p | .cap p _ | .memo p _ => p.Plain
  | .dot n => n = 1
  | .cls _ | .lit _ | .nonterm _ | .empty => True
  | .check _ _ _ _ | .errRec _ _ | .search _ | .grammar _ _ | .err _ | .emptyOp _ | .inl _ _ => False

/-- All definitions are plain. -/
def Defs.Plain : Defs → Prop
  | .nil => True
  | .cons _ p rest => p.Plain ∧ rest.Plain

theorem Defs.Plain.find {n : String} {b : Pat} : ∀ {ds : Defs}, ds.Plain → ds.find n = some b → b.Plain
  | .nil, _, h => by simp [Defs.find] at h
  | .cons m p rest, hp, h => by
    simp only [Defs.find] at h
    split at h
    · cases h; exact hp.1
    · exact Defs.Plain.find (ds := rest) hp.2 h

theorem Pat.Plain.leaves : ∀ {p : Pat}, p.Plain → ∀ l ∈ p.leaves, l = .dot 1
  | .alt a b, h, l, hl | .seq a b, h, l, hl => by
    simp only [Pat.leaves, List.mem_append] at hl
    exact hl.elim (Pat.Plain.leaves (p := a) h.1 l) (Pat.Plain.leaves (p := b) h.2 l)
  | .star p, h, l, hl | .plus p, h, l, hl | .opt p, h, l, hl | .not p, h, l, hl | .and p, h, l, hl | .cap p _, h, l, hl
  | .memo p _, h, l, hl => Pat.Plain.leaves (p := p) h l hl
  | .dot n, h, l, hl => by
    simp only [Pat.leaves, List.mem_singleton] at hl
    rw [hl, show n = 1 from h]
  | .cls _, _, _, hl | .lit _, _, _, hl | .nonterm _, _, _, hl | .empty, _, _, hl => by simp [Pat.leaves] at hl

theorem Pat.Plain.noCap (ns : List String) : ∀ {p : Pat}, p.Plain → p.noCap ns
  | .alt a b, h | .seq a b, h => ⟨Pat.Plain.noCap ns (p := a) h.1, Pat.Plain.noCap ns (p := b) h.2⟩
  | .star p, h | .plus p, h | .opt p, h | .not p, h | .and p, h | .cap p _, h
  | .memo p _, h => Pat.Plain.noCap ns (p := p) h
  | .dot _, _ | .cls _, _ | .lit _, _ | .nonterm _, _ | .empty, _ => trivial

theorem Pat.Plain.scoped : ∀ {p : Pat}, p.Plain → p.Scoped
  | .alt a b, h | .seq a b, h => ⟨Pat.Plain.scoped (p := a) h.1, Pat.Plain.scoped (p := b) h.2⟩
  | .star p, h | .plus p, h | .opt p, h | .not p, h | .and p, h | .cap p _, h
  | .memo p _, h => Pat.Plain.scoped (p := p) h
  | .dot _, _ | .cls _, _ | .lit _, _ | .nonterm _, _ | .empty, _ => trivial

theorem Defs.Plain.all : ∀ {ds : Defs}, ds.Plain → (∀ l ∈ ds.leaves, l = .dot 1) ∧ (∀ ns, ds.noCap ns) ∧ ds.Scoped
  | .nil, _ => ⟨fun l h => by simp [Defs.leaves] at h, fun _ => trivial, trivial⟩
  | .cons _ p rest, h => by
    obtain ⟨h1, h2, h3⟩ := Defs.Plain.all (ds := rest) h.2
    refine ⟨fun l hl => ?_, fun ns => ⟨h.1.noCap ns, h2 ns⟩, ⟨h.1.scoped, h3⟩⟩
    simp only [Defs.leaves, List.mem_append] at hl
    exact hl.elim (h.1.leaves l) (h1 l)

namespace Re

theorem concat_plain : ∀ {ps : List Pat}, (∀ p ∈ ps, p.Plain) → (concatPat ps).Plain := by
  have key : ∀ (ps : List Pat) (p : Pat), p.Plain → (∀ q ∈ ps, q.Plain) → (ps.foldl .seq p).Plain := by
    intro ps
    induction ps with
    | nil => intro p hp _; exact hp
    | cons q ps ih => intro p hp h; exact ih _ ⟨hp, h q (by simp)⟩ fun x hx => h x (by simp [hx])
  intro ps h
  cases ps with
  | nil => trivial
  | cons p ps => exact key ps p (h p (by simp)) fun q hq => h q (by simp [hq])

theorem or_plain {ps : List Pat} (h : ∀ p ∈ ps, p.Plain) : (orPat ps).Plain := by
  have key : ∀ (ps : List Pat) (p : Pat), p.Plain → (∀ q ∈ ps, q.Plain) → (ps.foldl (fun acc q => .alt q acc) p).Plain := by
    intro ps
    induction ps with
    | nil => intro p hp _; exact hp
    | cons q ps ih => intro p hp h; exact ih _ ⟨h q (by simp), hp⟩ fun x hx => h x (by simp [hx])
  unfold orPat
  have h : ∀ p ∈ ps.reverse, p.Plain := fun p hp => h p (List.mem_reverse.1 hp)
  split
  · trivial
  · rename_i p rest e
    rw [e] at h
    exact key rest p (h p (by simp)) fun q hq => h q (by simp [hq])

theorem pre_plain {p : Pat} (pre : Pre) (h : p.Plain) : (pre.apply p).Plain := by cases pre <;> exact h
theorem suf_plain {p : Pat} (suf : Suf) (h : p.Plain) : (suf.apply p).Plain := by cases suf <;> exact h

mutual
theorem prim_plain : ∀ (p : Prim) (m : Nat), (p.pat m).1.Plain
  | .ident _, _ => trivial
  | .paren e, m => expr_plain e m
  | .memo e, m => expr_plain e m
  | .lit _, _ => trivial
  | .cls _ _, _ => trivial
  | .dot, _ => rfl
theorem seqn_plain : ∀ (s : Seqn) (m : Nat), ∀ p ∈ (s.pats m).1, p.Plain
  | .nil, _, p, h => by simp [Seqn.pats] at h
  | .cons pre q suf rest, m, p, h => by
    simp only [Seqn.pats, List.mem_cons] at h
    rcases h with rfl | h
    · exact pre_plain _ (suf_plain _ (prim_plain q m))
    · exact seqn_plain rest _ p h
theorem alts_plain : ∀ (e : Expr) (m : Nat), ∀ p ∈ (e.alts m).1, p.Plain
  | .one s, m, p, h => by
    simp only [Expr.alts, List.mem_singleton] at h
    subst h
    exact concat_plain (seqn_plain s m)
  | .alt s rest, m, p, h => by
    simp only [Expr.alts, List.mem_cons] at h
    rcases h with rfl | h
    · exact concat_plain (seqn_plain s m)
    · exact alts_plain rest _ p h
theorem expr_plain : ∀ (e : Expr) (m : Nat), (e.pat m).1.Plain
  | .one s, m => by
    simp only [Expr.pat]
    exact or_plain fun p h => by
      simp only [List.mem_singleton] at h
      subst h
      exact concat_plain (seqn_plain s m)
  | .alt s rest, m => by
    simp only [Expr.pat]
    exact or_plain fun p h => by
      rcases List.mem_cons.1 h with rfl | h
      · exact concat_plain (seqn_plain s m)
      · exact alts_plain rest _ p h
end

theorem gram_plain : ∀ (g : Gram) (m : Nat), (g.pats m).1.Plain
  | [], _ => trivial
  | (_, e) :: g, m => ⟨expr_plain e m, gram_plain g _⟩

/-- The patterns of the syntax satisfy the conditions of the theorems on compiled patterns. -/
theorem top_plain (top : Top) (m : Nat) : (top.pat m).1.Pure ∧ (top.pat m).1.Dots1 ∧ (top.pat m).1.Scoped := by
  have key : ∀ {p : Pat}, (∀ l ∈ p.leaves, l = .dot 1) → p.Scoped → p.Pure ∧ p.Dots1 ∧ p.Scoped := by
    intro p h hs
    refine ⟨⟨fun h' => ?_, fun h' => ?_⟩, fun n hn => ?_, hs⟩
    · cases h _ h'
    · cases h _ h'
    · cases h _ hn; rfl
  match top with
  | .expr e => exact key (expr_plain e m).leaves (expr_plain e m).scoped
  | .gram [] => exact key (p := .empty) (fun l h => by simp [Pat.leaves] at h) trivial
  | .gram ((n, e) :: g) =>
    obtain ⟨h1, h2, h3⟩ := (gram_plain ((n, e) :: g) m).all
    exact key (p := .grammar _ _) h1 ⟨h2 _, h3⟩


end Re
end Gpeg
