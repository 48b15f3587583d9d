import Verif.Labels
/-!
# Which instructions a pattern can compile to
-/
namespace Gpeg

/-- Parts of a pattern that decide which instructions it compiles to. -/
inductive Leaf
  | dot (n : UInt8)
  | chk
  | err
deriving DecidableEq

mutual
/-- All `Leaf`s of a pattern. A search skips single bytes, like `dot 1`. -/
def Pat.leaves : Pat → List Leaf
  | .alt l r | .seq l r => l.leaves ++ r.leaves
  | .star p | .plus p | .opt p | .not p | .and p | .cap p _ | .memo p _ | .inl _ p => p.leaves
  | .check p _ _ _ => .chk :: p.leaves
  | .errRec _ p => .err :: p.leaves
  | .search p => .dot 1 :: p.leaves
  | .grammar _ ds => ds.leaves
  | .dot n => [.dot n]
  | .err _ => [.err]
  | .nonterm _ | .cls _ | .lit _ | .emptyOp _ | .empty => []
/-- The same over the definitions of a grammar. -/
def Defs.leaves : Defs → List Leaf
  | .nil => []
  | .cons _ p rest => p.leaves ++ rest.leaves
end

/-- The leaf an instruction stems from. -/
def Insn.leaf? : Insn → Option Leaf
  | .any n => some (.dot n)
  | .testAny n _ => some (.dot n)
  | .checkBegin _ _ => some .chk
  | .checkEnd _ => some .chk
  | .error _ => some .err
  | _ => none

theorem getF_leaves (k : Nat) : ∀ p : Pat, ∀ m ∈ (getF k p).leaves, m ∈ p.leaves := by
  induction k with
  | zero => intro p _ h; exact h
  | succ k ih =>
    intro p
    have hopt : ∀ q x : Pat, (∀ m ∈ x.leaves, m ∈ q.leaves) →
        (∀ m ∈ (optGet (.opt q) x).leaves, m ∈ q.leaves) := by
      intro q x h1
      unfold optGet
      split
      · exact h1
      · exact fun _ h => h
    cases p with
    | inl n b => exact fun _ h => h
    | alt l r =>
      have hl1 := ih l
      have hr1 := ih r
      show (∀ m ∈ (altGet (.alt l r) (getF k l) (getF k r) (getF k)).leaves, m ∈ l.leaves ++ r.leaves)
      unfold altGet
      split
      · exact fun m h => List.mem_append_left _ (hl1 m h)
      · split
        · have h1 := hopt (getF k l) (getF k (getF k l)) (ih _)
          exact fun m h => List.mem_append_left _ (hl1 m (h1 m h))
        · split
          · exact (fun m h => by cases h)
          · exact fun _ h => h
    | opt q =>
      exact hopt q (getF k q) (ih q)
    | seq l r =>
      have hl1 := ih l
      have hr1 := ih r
      show (∀ m ∈ (seqGet (.seq l r) (getF k l) (getF k r) (getF k)).leaves, m ∈ l.leaves ++ r.leaves)
      unfold seqGet
      split
      · exact fun m h => List.mem_append_left _ (hl1 m h)
      · split
        · exact fun m h => List.mem_append_right _ (hr1 m h)
        · split
          · split
            · rename_i set _
              cases hn : negSeq set (getF k r) with
              | none => exact fun _ h => h
              | some x =>
                have : ∃ cs, x = .cls cs := by
                  unfold negSeq at hn
                  split at hn <;> cases hn <;> exact ⟨_, rfl⟩
                obtain ⟨cs, rfl⟩ := this
                exact (fun m h => by cases h)
            · exact fun _ h => h
          · exact fun _ h => h
    | _ => exact fun _ h => h

theorem get_leaves {p : Pat} {m : Leaf} (h : m ∈ (get p).leaves) : m ∈ p.leaves := getF_leaves _ p m h

theorem Defs.find_leaves {ds : Defs} {n : String} {b : Pat} (h : ds.find n = some b) :
    ∀ m ∈ b.leaves, m ∈ ds.leaves := by
  induction ds using Defs.rec (motive_1 := fun _ => True) with
  | nil => cases h
  | cons m p rest _ ih =>
    unfold Defs.find at h
    unfold Defs.leaves
    intro x hx
    split at h
    · cases h; exact List.mem_append_left _ hx
    · exact List.mem_append_right _ (ih h x hx)
  | _ => trivial

section
variable {f : String → Option Pat} {A : List Leaf} (hf : ∀ n b, f n = some b → ∀ m ∈ b.leaves, m ∈ A)
include hf

mutual
theorem Pat.leaves_inlineWith : ∀ (p : Pat), ∀ m ∈ (p.inlineWith f).leaves, m ∈ p.leaves ∨ m ∈ A
  | .alt l r, m, h | .seq l r, m, h => by
    rcases List.mem_append.1 h with h | h
    · exact (Pat.leaves_inlineWith l m h).imp_left (List.mem_append_left _)
    · exact (Pat.leaves_inlineWith r m h).imp_left (List.mem_append_right _)
  | .star p, m, h | .plus p, m, h | .opt p, m, h | .not p, m, h | .and p, m, h | .cap p _, m, h
  | .memo p _, m, h | .inl _ p, m, h => Pat.leaves_inlineWith p m h
  | .check p _ _ _, m, h | .errRec _ p, m, h | .search p, m, h => by
    rcases List.mem_cons.1 h with rfl | h
    · exact Or.inl List.mem_cons_self
    · exact (Pat.leaves_inlineWith p m h).imp_left (List.mem_cons_of_mem _)
  | .grammar _ ds, m, h => Defs.leaves_inlineWith ds m h
  | .nonterm n, m, h => by
    unfold Pat.inlineWith at h
    split at h
    · rename_i b hb; exact Or.inr (hf n b hb m h)
    · exact Or.inl h
  | .cls _, m, h | .lit _, m, h | .dot _, m, h | .err _, m, h | .emptyOp _, m, h | .empty, m, h => Or.inl h
theorem Defs.leaves_inlineWith : ∀ (ds : Defs), ∀ m ∈ (ds.inlineWith f).leaves, m ∈ ds.leaves ∨ m ∈ A
  | .nil, m, h => Or.inl h
  | .cons _ p rest, m, h => by
    rcases List.mem_append.1 h with h | h
    · exact (Pat.leaves_inlineWith p m h).imp_left (List.mem_append_left _)
    · exact (Defs.leaves_inlineWith rest m h).imp_left (List.mem_append_right _)
end
end

theorem Defs.leaves_inlineLoop (k : Nat) : ∀ (ds : Defs), ∀ m ∈ (Defs.inlineLoop k ds).leaves, m ∈ ds.leaves := by
  induction k with
  | zero => intro ds m h; exact h
  | succ k ih =>
    intro ds m h
    unfold Defs.inlineLoop Defs.inlineStep at h
    split at h
    · rename_i ds' hds
      split at hds
      · cases hds
        refine (Defs.leaves_inlineWith ?_ ds m (ih _ m h)).elim id id
        intro n b hb
        unfold Defs.eligible at hb
        split at hb
        · rename_i b' hb'
          split at hb
          · cases hb; exact Defs.find_leaves hb'
          · cases hb
        · cases hb
      · cases hds
    · exact h

theorem Defs.leaves_inline {ds : Defs} {m : Leaf} (h : m ∈ ds.inline.leaves) : m ∈ ds.leaves :=
  Defs.leaves_inlineLoop _ ds m h

theorem altCode_leaf {l r : Program} {l1 l2 : Nat} {i : Insn} {m : Leaf} (hi : i ∈ altCode l r l1 l2)
    (hm : i.leaf? = some m) : i ∈ l ∨ i ∈ r := by
  unfold altCode at hi
  split at hi
  · rename_i t ht
    simp only [List.mem_append, List.mem_singleton] at hi
    rcases hi with ((((rfl | hi) | rfl) | rfl) | hi) | rfl
    · unfold altTest at ht
      split at ht <;> first | (split at ht <;> cases ht <;> cases hm) | cases ht
    · exact Or.inl (List.mem_of_mem_drop hi)
    · cases hm
    · cases hm
    · exact Or.inr hi
    · cases hm
  · simp only [List.mem_append, List.mem_singleton] at hi
    rcases hi with ((((rfl | hi) | rfl) | rfl) | hi) | rfl
    · cases hm
    · exact Or.inl hi
    · cases hm
    · cases hm
    · exact Or.inr hi
    · cases hm

theorem compDefs_leaf {comp : Pat → CM Program} {m : Leaf} {i : Insn} (hm : i.leaf? = some m)
    (hcomp : ∀ v s raw s', CM.Ok (comp v) s raw s' → i ∈ raw → m ∈ v.leaves)
    {start : String} {used : List String} (ds : Defs) : ∀ {s s' : CState} {ls : List (String × Nat)} {code : Program},
    CM.Ok (compileDefs comp start used ds) s (ls, code) s' → i ∈ code → m ∈ ds.leaves := by
  induction ds using Defs.rec (motive_1 := fun _ => True) with
  | nil =>
    intro s s' ls code h hi
    obtain ⟨rfl, rfl, rfl⟩ := compDefs_nil h
    cases hi
  | cons nm v rest _ ih =>
    intro s s' ls code h hi
    by_cases hn : nm ≠ start ∧ nm ∉ used
    · exact List.mem_append_right _ (ih (compDefs_skip hn h) hi)
    · obtain ⟨fn, s1, ls', code', h1, h2, rfl, rfl⟩ := compDefs_cons hn h
      simp only [List.mem_append, List.mem_singleton] at hi
      rcases hi with ((rfl | hi) | rfl) | hi
      · cases hm
      · exact List.mem_append_left _ (hcomp _ _ _ _ h1 hi)
      · cases hm
      · exact List.mem_append_right _ (ih h2 hi)
  | _ => trivial

theorem searchRest_leaves (sub : Program) : (searchRest sub).leaves = [] := by
  unfold searchRest
  split
  · rfl
  · split <;> rfl
  · rfl

theorem compile_leaf {i : Insn} {m : Leaf} (hm : i.leaf? = some m) (k : Nat) :
    ∀ {p : Pat} {s s' : CState} {raw : Program},
    CM.Ok (compileF k p) s raw s' → i ∈ raw → m ∈ p.leaves := by
  induction k with
  | zero => intro p s s' raw h; exact (comp_zero h).elim
  | succ k ih =>
    intro p s s' raw h hi
    cases p with
    | alt l r =>
      cases hc : combine (get l) (get r) with
      | some cs =>
        obtain ⟨rfl, rfl⟩ := comp_alt_some hc h
        rw [List.mem_singleton] at hi; subst hi; cases hm
      | none =>
        obtain ⟨lc, s1, rc, s2, h1, h2, rfl, rfl⟩ := comp_alt_none hc h
        rcases altCode_leaf hi hm with hi | hi
        · exact List.mem_append_left _ (get_leaves (ih h1 hi))
        · exact List.mem_append_right _ (get_leaves (ih h2 hi))
    | seq l r =>
      obtain ⟨lc, s1, rc, h1, h2, rfl⟩ := comp_seq h
      rcases List.mem_append.1 hi with hi | hi
      · exact List.mem_append_left _ (get_leaves (ih h1 hi))
      · exact List.mem_append_right _ (get_leaves (ih h2 hi))
    | star p =>
      rcases comp_star h with ⟨cs, hg, rfl, rfl⟩ | ⟨q, id, hg, sub, s1, h1, rfl, rfl⟩ |
        ⟨hme, hcl, sub, s1, h1, rfl, rfl⟩
      · rw [List.mem_singleton] at hi; subst hi; cases hm
      · simp only [List.mem_append, List.mem_cons, List.not_mem_nil, or_false] at hi
        rcases hi with ((rfl | rfl | rfl) | hi) | rfl | rfl | rfl | rfl | rfl | rfl | rfl | rfl
        all_goals first
          | (cases hm; done)
          | (have := get_leaves (ih h1 hi)
             refine get_leaves (p := p) ?_
             rw [hg]; exact this)
      · simp only [List.mem_append, List.mem_cons, List.not_mem_nil, or_false] at hi
        rcases hi with ((rfl | rfl) | hi) | rfl | rfl
        all_goals first
          | (cases hm; done)
          | exact get_leaves (p := p) (ih h1 hi)
    | plus p =>
      obtain ⟨st, s1, sub, h1, h2, rfl⟩ := comp_plus h
      rcases List.mem_append.1 hi with hi | hi
      · exact get_leaves (p := p) (ih h2 hi)
      · exact get_leaves (p := p) (ih (p := .star (get p)) h1 hi)
    | opt p =>
      rcases comp_opt h with ⟨b, hg, rfl, rfl⟩ | ⟨cs, hg, rfl, rfl⟩ | ⟨hl, hc, h1⟩
      · simp only [List.mem_cons, List.not_mem_nil, or_false] at hi
        rcases hi with rfl | rfl <;> cases hm
      · simp only [List.mem_cons, List.not_mem_nil, or_false] at hi
        rcases hi with rfl | rfl <;> cases hm
      · have := ih h1 hi
        simp only [Pat.leaves, List.append_nil] at this
        exact get_leaves (p := p) this
    | not p =>
      obtain ⟨sub, s1, h1, rfl, rfl⟩ := comp_not h
      simp only [List.mem_append, List.mem_cons, List.not_mem_nil, or_false] at hi
      rcases hi with (rfl | hi) | rfl | rfl
      all_goals first
        | (cases hm; done)
        | exact get_leaves (p := p) (ih h1 hi)
    | and p =>
      obtain ⟨sub, s1, h1, rfl, rfl⟩ := comp_and h
      simp only [List.mem_append, List.mem_cons, List.not_mem_nil, or_false] at hi
      rcases hi with (rfl | hi) | rfl | rfl | rfl | rfl
      all_goals first
        | (cases hm; done)
        | exact get_leaves (p := p) (ih h1 hi)
    | cap p id =>
      obtain ⟨sub, h1, rfl⟩ := comp_cap h
      rcases mem_capCode hi with h | ⟨_, rfl⟩ | rfl | ⟨_, _, rfl⟩ | ⟨_, _, rfl⟩
      · exact get_leaves (p := p) (ih h1 h)
      all_goals cases hm
    | memo p id =>
      obtain ⟨sub, h1, rfl⟩ := comp_memo h
      simp only [List.mem_append, List.mem_cons, List.not_mem_nil, or_false] at hi
      rcases hi with (rfl | hi) | rfl | rfl
      all_goals first
        | (cases hm; done)
        | exact get_leaves (p := p) (ih h1 hi)
    | check p c id flag =>
      obtain ⟨sub, h1, rfl⟩ := comp_check h
      simp only [List.mem_append, List.mem_cons, List.not_mem_nil, or_false] at hi
      rcases hi with (rfl | hi) | rfl | rfl
      all_goals first
        | exact List.mem_cons_of_mem _ (get_leaves (ih h1 hi))
        | (cases hm; done)
        | (cases hm; exact List.mem_cons_self)
    | search p =>
      obtain ⟨sub, s1, h1, h2⟩ := comp_search h
      have := ih h2 hi
      simp only [Pat.leaves, Defs.leaves, List.mem_append, List.mem_singleton, searchRest_leaves,
        List.not_mem_nil, or_false] at this
      rcases this with h | rfl
      · exact List.mem_cons_of_mem _ (get_leaves h)
      · exact List.mem_cons_self
    | emptyOp op =>
      obtain ⟨rfl, rfl⟩ := comp_emptyOp h; rw [List.mem_singleton] at hi; subst hi; cases hm
    | grammar start ds =>
      rcases comp_grammar h with ⟨hu, b, hb, h1⟩ | ⟨hu, labels, fns, code, h1, hr, rfl⟩
      · exact Defs.leaves_inline (Defs.find_leaves hb m (ih h1 hi))
      · rcases List.mem_append.1 hi with hi | hi
        · rcases mem_resolve hr hi with hi | rfl | ⟨n, L, hL, hi⟩
          · simp only [List.cons_append, List.nil_append, List.mem_cons] at hi
            rcases hi with rfl | rfl | hi
            · cases hm
            · cases hm
            · exact Defs.leaves_inline (compDefs_leaf hm (fun v s raw s' h hi => ih h hi) _ h1 hi)
          · cases hm
          · rcases hi with rfl | rfl <;> cases hm
        · rw [List.mem_singleton] at hi; subst hi; cases hm
    | cls cs => obtain ⟨rfl, rfl⟩ := comp_cls h; rw [List.mem_singleton] at hi; subst hi; cases hm
    | lit l =>
      obtain ⟨rfl, rfl⟩ := comp_lit h
      obtain ⟨b, _, rfl⟩ := List.mem_map.1 hi
      cases hm
    | nonterm n => obtain ⟨rfl, rfl⟩ := comp_nonterm h; rw [List.mem_singleton] at hi; subst hi; cases hm
    | inl n b => exact ih (p := b) (comp_inl h) hi
    | dot n =>
      obtain ⟨rfl, rfl⟩ := comp_dot h; rw [List.mem_singleton] at hi; subst hi; cases hm
      exact List.mem_cons_self
    | err m =>
      obtain ⟨rfl, rfl⟩ := comp_err h
      simp only [List.mem_cons, List.not_mem_nil, or_false] at hi
      rcases hi with rfl | rfl <;> cases hm
      exact List.mem_cons_self
    | errRec m p =>
      obtain ⟨sub, h1, rfl⟩ := comp_errRec h
      rcases List.mem_append.1 hi with hi | hi
      · rw [List.mem_singleton] at hi; subst hi; cases hm; exact List.mem_cons_self
      · exact List.mem_cons_of_mem _ (get_leaves (ih h1 hi))
    | empty => obtain ⟨rfl, rfl⟩ := comp_empty h; cases hi

/-! ## Positions of labels -/

theorem labelIdxFrom_zero {l : Nat} (p : Program) (i d : Nat) (h : lcnt l p = 0) : labelIdxFrom l p i d = d := by
  induction p generalizing i with
  | nil => rfl
  | cons x p ih =>
    by_cases hx : ∃ l', x = .label l'
    · obtain ⟨l', rfl⟩ := hx
      rw [lcnt_cons_label] at h
      have : l' ≠ l := by intro hl; rw [if_pos hl] at h; omega
      unfold labelIdxFrom
      rw [if_neg this]
      exact ih _ (by omega)
    · rw [lcnt_cons _ fun l h => hx ⟨l, h⟩] at h
      cases x <;> first | exact ih _ h | exact absurd ⟨_, rfl⟩ hx

theorem labelIdxFrom_one {l : Nat} (p : Program) (i d j : Nat) (h : lcnt l p ≤ 1) (hj : p[j]? = some (.label l)) :
    labelIdxFrom l p i d = i + j := by
  induction p generalizing i d j with
  | nil => cases hj
  | cons x p ih =>
    cases j with
    | zero =>
      cases hj
      rw [lcnt_cons_label, if_pos rfl] at h
      unfold labelIdxFrom
      rw [labelIdxFrom_zero _ _ _ (by omega), if_pos rfl]; rfl
    | succ j =>
      have hj : p[j]? = some (.label l) := hj
      by_cases hx : ∃ l', x = .label l'
      · obtain ⟨l', rfl⟩ := hx
        rw [lcnt_cons_label] at h
        unfold labelIdxFrom
        rw [ih _ _ j (by omega) hj]; omega
      · rw [lcnt_cons _ fun l h => hx ⟨l, h⟩] at h
        have := fun i d => ih i d j h hj
        cases x <;> first
          | (show labelIdxFrom l p (i + 1) d = _; rw [this]; omega)
          | exact absurd ⟨_, rfl⟩ hx

theorem labelIdx_eq {p : Program} {l j : Nat} (h : lcnt l p ≤ 1) (hj : p[j]? = some (.label l)) :
    labelIdx p l = j := by
  unfold labelIdx
  rw [labelIdxFrom_one p 0 0 j h hj, Nat.zero_add]

end Gpeg
