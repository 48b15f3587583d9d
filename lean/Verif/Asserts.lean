import Verif.Leaves
/-!
# Which assertions a compiled pattern contains
-/
namespace Gpeg

mutual
/-- All assertions of a pattern (`EmptyOpNode`, `pattern/nodes.go:117-120`). -/
def Pat.asserts : Pat → List UInt8
  | .alt l r | .seq l r => l.asserts ++ r.asserts
  | .star p | .plus p | .opt p | .not p | .and p | .cap p _ | .memo p _ | .inl _ p | .check p _ _ _ | .errRec _ p | .search p => p.asserts
  | .grammar _ ds => ds.asserts
  | .emptyOp op => [op]
  | .nonterm _ | .cls _ | .lit _ | .dot _ | .err _ | .empty => []
/-- The same over the definitions of a grammar. -/
def Defs.asserts : Defs → List UInt8
  | .nil => []
  | .cons _ p rest => p.asserts ++ rest.asserts
end

/-- The assertion an instruction stems from. -/
def Insn.assert? : Insn → Option UInt8
  | .emptyOp op => some op
  | _ => none

theorem getF_asserts (k : Nat) : ∀ p : Pat, ∀ m ∈ (getF k p).asserts, m ∈ p.asserts := by
  induction k with
  | zero => intro p _ h; exact h
  | succ k ih =>
    intro p
    have hopt : ∀ q x : Pat, (∀ m ∈ x.asserts, m ∈ q.asserts) →
        (∀ m ∈ (optGet (.opt q) x).asserts, m ∈ q.asserts) := by
      intro q x h1
      unfold optGet
      split
      · exact h1
      · exact fun _ h => h
    cases p with
    | inl n b => exact fun _ h => h
    | alt l r =>
      have hl1 := ih l
      have hr1 := ih r
      show (∀ m ∈ (altGet (.alt l r) (getF k l) (getF k r) (getF k)).asserts, m ∈ l.asserts ++ r.asserts)
      unfold altGet
      split
      · exact fun m h => List.mem_append_left _ (hl1 m h)
      · split
        · have h1 := hopt (getF k l) (getF k (getF k l)) (ih _)
          exact fun m h => List.mem_append_left _ (hl1 m (h1 m h))
        · split
          · exact (fun m h => by cases h)
          · exact fun _ h => h
    | opt q =>
      exact hopt q (getF k q) (ih q)
    | seq l r =>
      have hl1 := ih l
      have hr1 := ih r
      show (∀ m ∈ (seqGet (.seq l r) (getF k l) (getF k r) (getF k)).asserts, m ∈ l.asserts ++ r.asserts)
      unfold seqGet
      split
      · exact fun m h => List.mem_append_left _ (hl1 m h)
      · split
        · exact fun m h => List.mem_append_right _ (hr1 m h)
        · split
          · split
            · rename_i set _
              cases hn : negSeq set (getF k r) with
              | none => exact fun _ h => h
              | some x =>
                have : ∃ cs, x = .cls cs := by
                  unfold negSeq at hn
                  split at hn <;> cases hn <;> exact ⟨_, rfl⟩
                obtain ⟨cs, rfl⟩ := this
                exact (fun m h => by cases h)
            · exact fun _ h => h
          · exact fun _ h => h
    | _ => exact fun _ h => h

theorem get_asserts {p : Pat} {m : UInt8} (h : m ∈ (get p).asserts) : m ∈ p.asserts := getF_asserts _ p m h

theorem Defs.find_asserts {ds : Defs} {n : String} {b : Pat} (h : ds.find n = some b) :
    ∀ m ∈ b.asserts, m ∈ ds.asserts := by
  induction ds using Defs.rec (motive_1 := fun _ => True) with
  | nil => cases h
  | cons m p rest _ ih =>
    unfold Defs.find at h
    unfold Defs.asserts
    intro x hx
    split at h
    · cases h; exact List.mem_append_left _ hx
    · exact List.mem_append_right _ (ih h x hx)
  | _ => trivial

section
variable {f : String → Option Pat} {A : List UInt8} (hf : ∀ n b, f n = some b → ∀ m ∈ b.asserts, m ∈ A)
include hf

mutual
theorem Pat.asserts_inlineWith : ∀ (p : Pat), ∀ m ∈ (p.inlineWith f).asserts, m ∈ p.asserts ∨ m ∈ A
  | .alt l r, m, h | .seq l r, m, h => by
    rcases List.mem_append.1 h with h | h
    · exact (Pat.asserts_inlineWith l m h).imp_left (List.mem_append_left _)
    · exact (Pat.asserts_inlineWith r m h).imp_left (List.mem_append_right _)
  | .star p, m, h | .plus p, m, h | .opt p, m, h | .not p, m, h | .and p, m, h | .cap p _, m, h
  | .memo p _, m, h | .inl _ p, m, h | .check p _ _ _, m, h | .errRec _ p, m, h | .search p, m, h => Pat.asserts_inlineWith p m h
  | .grammar _ ds, m, h => Defs.asserts_inlineWith ds m h
  | .nonterm n, m, h => by
    unfold Pat.inlineWith at h
    split at h
    · rename_i b hb; exact Or.inr (hf n b hb m h)
    · exact Or.inl h
  | .cls _, m, h | .lit _, m, h | .dot _, m, h | .err _, m, h | .emptyOp _, m, h | .empty, m, h => Or.inl h
theorem Defs.asserts_inlineWith : ∀ (ds : Defs), ∀ m ∈ (ds.inlineWith f).asserts, m ∈ ds.asserts ∨ m ∈ A
  | .nil, m, h => Or.inl h
  | .cons _ p rest, m, h => by
    rcases List.mem_append.1 h with h | h
    · exact (Pat.asserts_inlineWith p m h).imp_left (List.mem_append_left _)
    · exact (Defs.asserts_inlineWith rest m h).imp_left (List.mem_append_right _)
end
end

theorem Defs.asserts_inlineLoop (k : Nat) : ∀ (ds : Defs), ∀ m ∈ (Defs.inlineLoop k ds).asserts, m ∈ ds.asserts := by
  induction k with
  | zero => intro ds m h; exact h
  | succ k ih =>
    intro ds m h
    unfold Defs.inlineLoop Defs.inlineStep at h
    split at h
    · rename_i ds' hds
      split at hds
      · cases hds
        refine (Defs.asserts_inlineWith ?_ ds m (ih _ m h)).elim id id
        intro n b hb
        unfold Defs.eligible at hb
        split at hb
        · rename_i b' hb'
          split at hb
          · cases hb; exact Defs.find_asserts hb'
          · cases hb
        · cases hb
      · cases hds
    · exact h

theorem Defs.asserts_inline {ds : Defs} {m : UInt8} (h : m ∈ ds.inline.asserts) : m ∈ ds.asserts :=
  Defs.asserts_inlineLoop _ ds m h

theorem altCode_assert {l r : Program} {l1 l2 : Nat} {i : Insn} {m : UInt8} (hi : i ∈ altCode l r l1 l2)
    (hm : i.assert? = some m) : i ∈ l ∨ i ∈ r := by
  unfold altCode at hi
  split at hi
  · rename_i t ht
    simp only [List.mem_append, List.mem_singleton] at hi
    rcases hi with ((((rfl | hi) | rfl) | rfl) | hi) | rfl
    · unfold altTest at ht
      split at ht <;> first | (split at ht <;> cases ht <;> cases hm) | cases ht
    · exact Or.inl (List.mem_of_mem_drop hi)
    · cases hm
    · cases hm
    · exact Or.inr hi
    · cases hm
  · simp only [List.mem_append, List.mem_singleton] at hi
    rcases hi with ((((rfl | hi) | rfl) | rfl) | hi) | rfl
    · cases hm
    · exact Or.inl hi
    · cases hm
    · cases hm
    · exact Or.inr hi
    · cases hm

theorem compDefs_assert {comp : Pat → CM Program} {m : UInt8} {i : Insn} (hm : i.assert? = some m)
    (hcomp : ∀ v s raw s', CM.Ok (comp v) s raw s' → i ∈ raw → m ∈ v.asserts)
    {start : String} {used : List String} (ds : Defs) : ∀ {s s' : CState} {ls : List (String × Nat)} {code : Program},
    CM.Ok (compileDefs comp start used ds) s (ls, code) s' → i ∈ code → m ∈ ds.asserts := by
  induction ds using Defs.rec (motive_1 := fun _ => True) with
  | nil =>
    intro s s' ls code h hi
    obtain ⟨rfl, rfl, rfl⟩ := compDefs_nil h
    cases hi
  | cons nm v rest _ ih =>
    intro s s' ls code h hi
    by_cases hn : nm ≠ start ∧ nm ∉ used
    · exact List.mem_append_right _ (ih (compDefs_skip hn h) hi)
    · obtain ⟨fn, s1, ls', code', h1, h2, rfl, rfl⟩ := compDefs_cons hn h
      simp only [List.mem_append, List.mem_singleton] at hi
      rcases hi with ((rfl | hi) | rfl) | hi
      · cases hm
      · exact List.mem_append_left _ (hcomp _ _ _ _ h1 hi)
      · cases hm
      · exact List.mem_append_right _ (ih h2 hi)
  | _ => trivial

theorem searchRest_asserts (sub : Program) : (searchRest sub).asserts = [] := by
  unfold searchRest
  split
  · rfl
  · split <;> rfl
  · rfl

theorem compile_assert {i : Insn} {m : UInt8} (hm : i.assert? = some m) (k : Nat) :
    ∀ {p : Pat} {s s' : CState} {raw : Program},
    CM.Ok (compileF k p) s raw s' → i ∈ raw → m ∈ p.asserts := by
  induction k with
  | zero => intro p s s' raw h; exact (comp_zero h).elim
  | succ k ih =>
    intro p s s' raw h hi
    cases p with
    | alt l r =>
      cases hc : combine (get l) (get r) with
      | some cs =>
        obtain ⟨rfl, rfl⟩ := comp_alt_some hc h
        rw [List.mem_singleton] at hi; subst hi; cases hm
      | none =>
        obtain ⟨lc, s1, rc, s2, h1, h2, rfl, rfl⟩ := comp_alt_none hc h
        rcases altCode_assert hi hm with hi | hi
        · exact List.mem_append_left _ (get_asserts (ih h1 hi))
        · exact List.mem_append_right _ (get_asserts (ih h2 hi))
    | seq l r =>
      obtain ⟨lc, s1, rc, h1, h2, rfl⟩ := comp_seq h
      rcases List.mem_append.1 hi with hi | hi
      · exact List.mem_append_left _ (get_asserts (ih h1 hi))
      · exact List.mem_append_right _ (get_asserts (ih h2 hi))
    | star p =>
      rcases comp_star h with ⟨cs, hg, rfl, rfl⟩ | ⟨q, id, hg, sub, s1, h1, rfl, rfl⟩ |
        ⟨hme, hcl, sub, s1, h1, rfl, rfl⟩
      · rw [List.mem_singleton] at hi; subst hi; cases hm
      · simp only [List.mem_append, List.mem_cons, List.not_mem_nil, or_false] at hi
        rcases hi with ((rfl | rfl | rfl) | hi) | rfl | rfl | rfl | rfl | rfl | rfl | rfl | rfl
        all_goals first
          | (cases hm; done)
          | (have := get_asserts (ih h1 hi)
             refine get_asserts (p := p) ?_
             rw [hg]; exact this)
      · simp only [List.mem_append, List.mem_cons, List.not_mem_nil, or_false] at hi
        rcases hi with ((rfl | rfl) | hi) | rfl | rfl
        all_goals first
          | (cases hm; done)
          | exact get_asserts (p := p) (ih h1 hi)
    | plus p =>
      obtain ⟨st, s1, sub, h1, h2, rfl⟩ := comp_plus h
      rcases List.mem_append.1 hi with hi | hi
      · exact get_asserts (p := p) (ih h2 hi)
      · exact get_asserts (p := p) (ih (p := .star (get p)) h1 hi)
    | opt p =>
      rcases comp_opt h with ⟨b, hg, rfl, rfl⟩ | ⟨cs, hg, rfl, rfl⟩ | ⟨hl, hc, h1⟩
      · simp only [List.mem_cons, List.not_mem_nil, or_false] at hi
        rcases hi with rfl | rfl <;> cases hm
      · simp only [List.mem_cons, List.not_mem_nil, or_false] at hi
        rcases hi with rfl | rfl <;> cases hm
      · have := ih h1 hi
        simp only [Pat.asserts, List.append_nil] at this
        exact get_asserts (p := p) this
    | not p =>
      obtain ⟨sub, s1, h1, rfl, rfl⟩ := comp_not h
      simp only [List.mem_append, List.mem_cons, List.not_mem_nil, or_false] at hi
      rcases hi with (rfl | hi) | rfl | rfl
      all_goals first
        | (cases hm; done)
        | exact get_asserts (p := p) (ih h1 hi)
    | and p =>
      obtain ⟨sub, s1, h1, rfl, rfl⟩ := comp_and h
      simp only [List.mem_append, List.mem_cons, List.not_mem_nil, or_false] at hi
      rcases hi with (rfl | hi) | rfl | rfl | rfl | rfl
      all_goals first
        | (cases hm; done)
        | exact get_asserts (p := p) (ih h1 hi)
    | cap p id =>
      obtain ⟨sub, h1, rfl⟩ := comp_cap h
      rcases mem_capCode hi with h | ⟨_, rfl⟩ | rfl | ⟨_, _, rfl⟩ | ⟨_, _, rfl⟩
      · exact get_asserts (p := p) (ih h1 h)
      all_goals cases hm
    | memo p id =>
      obtain ⟨sub, h1, rfl⟩ := comp_memo h
      simp only [List.mem_append, List.mem_cons, List.not_mem_nil, or_false] at hi
      rcases hi with (rfl | hi) | rfl | rfl
      all_goals first
        | (cases hm; done)
        | exact get_asserts (p := p) (ih h1 hi)
    | check p c id flag =>
      obtain ⟨sub, h1, rfl⟩ := comp_check h
      simp only [List.mem_append, List.mem_cons, List.not_mem_nil, or_false] at hi
      rcases hi with (rfl | hi) | rfl | rfl
      all_goals first
        | (cases hm; done)
        | exact get_asserts (p := p) (ih h1 hi)
    | search p =>
      obtain ⟨sub, s1, h1, h2⟩ := comp_search h
      have := ih h2 hi
      simp only [Pat.asserts, Defs.asserts, List.mem_append, searchRest_asserts,
        List.not_mem_nil, or_false] at this
      exact get_asserts (p := p) this
    | emptyOp op =>
      obtain ⟨rfl, rfl⟩ := comp_emptyOp h; rw [List.mem_singleton] at hi; subst hi; cases hm; exact List.mem_cons_self
    | grammar start ds =>
      rcases comp_grammar h with ⟨hu, b, hb, h1⟩ | ⟨hu, labels, fns, code, h1, hr, rfl⟩
      · exact Defs.asserts_inline (Defs.find_asserts hb m (ih h1 hi))
      · rcases List.mem_append.1 hi with hi | hi
        · rcases mem_resolve hr hi with hi | rfl | ⟨n, L, hL, hi⟩
          · simp only [List.cons_append, List.nil_append, List.mem_cons] at hi
            rcases hi with rfl | rfl | hi
            · cases hm
            · cases hm
            · exact Defs.asserts_inline (compDefs_assert hm (fun v s raw s' h hi => ih h hi) _ h1 hi)
          · cases hm
          · rcases hi with rfl | rfl <;> cases hm
        · rw [List.mem_singleton] at hi; subst hi; cases hm
    | cls cs => obtain ⟨rfl, rfl⟩ := comp_cls h; rw [List.mem_singleton] at hi; subst hi; cases hm
    | lit l =>
      obtain ⟨rfl, rfl⟩ := comp_lit h
      obtain ⟨b, _, rfl⟩ := List.mem_map.1 hi
      cases hm
    | nonterm n => obtain ⟨rfl, rfl⟩ := comp_nonterm h; rw [List.mem_singleton] at hi; subst hi; cases hm
    | inl n b => exact ih (p := b) (comp_inl h) hi
    | dot n =>
      obtain ⟨rfl, rfl⟩ := comp_dot h; rw [List.mem_singleton] at hi; subst hi; cases hm
    | err m =>
      obtain ⟨rfl, rfl⟩ := comp_err h
      simp only [List.mem_cons, List.not_mem_nil, or_false] at hi
      rcases hi with rfl | rfl <;> cases hm
    | errRec m p =>
      obtain ⟨sub, h1, rfl⟩ := comp_errRec h
      rcases List.mem_append.1 hi with hi | hi
      · rw [List.mem_singleton] at hi; subst hi; cases hm
      · exact get_asserts (p := p) (ih h1 hi)
    | empty => obtain ⟨rfl, rfl⟩ := comp_empty h; cases hi

end Gpeg
