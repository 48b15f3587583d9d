import Verif.EncTotal
import Verif.GetFuel
/-!
# `Compile` terminates, and fails only on undefined names
-/
namespace Gpeg

/-- What can be wrong with a pattern: a non-terminal without definition, a grammar without its start. -/
inductive Flaw
  | undefined (name : String)
  | noStart (name : String)
deriving DecidableEq

mutual
/-- The non-terminals of a pattern outside its grammars and searches. -/
def Pat.free : Pat → List String
  | .alt l r | .seq l r => l.free ++ r.free
  | .star p | .plus p | .opt p | .not p | .and p | .cap p _ | .memo p _ | .check p _ _ _ | .errRec _ p | .inl _ p => p.free
  | .nonterm n => [n]
  | .grammar _ _ | .search _ | .cls _ | .lit _ | .dot _ | .err _ | .emptyOp _ | .empty => []
/-- The same over the definitions of a grammar. -/
def Defs.free : Defs → List String
  | .nil => []
  | .cons _ p rest => p.free ++ rest.free
end

mutual
/-- The flaws of the grammars and searches in a pattern. A search is compiled to a grammar with the only name
`S` (`pattern/compile.go:329-351`). -/
def Pat.flaws : Pat → List Flaw
  | .alt l r | .seq l r => l.flaws ++ r.flaws
  | .star p | .plus p | .opt p | .not p | .and p | .cap p _ | .memo p _ | .check p _ _ _ | .errRec _ p | .inl _ p => p.flaws
  | .search p => p.flaws ++ (p.free.filter (· ≠ "S")).map .undefined
  | .grammar s ds => ds.flaws ++ (ds.free.filter (· ∉ ds.names)).map .undefined ++ (if s ∈ ds.names then [] else [.noStart s])
  | .nonterm _ | .cls _ | .lit _ | .dot _ | .err _ | .emptyOp _ | .empty => []
/-- The same over the definitions of a grammar. -/
def Defs.flaws : Defs → List Flaw
  | .nil => []
  | .cons _ p rest => p.flaws ++ rest.flaws
end

mutual
/-- Nesting of grammars and searches, where a non-terminal may stand for anything that can be inlined. -/
def Pat.gd : Pat → Nat
  | .alt l r | .seq l r => max l.gd r.gd
  | .star p | .plus p | .opt p | .not p | .and p | .cap p _ | .memo p _ | .check p _ _ _ | .errRec _ p | .inl _ p => p.gd
  | .search p => p.gd + 1
  | .grammar _ ds => ds.gd + 1
  | .nonterm _ => inlineThreshold
  | .cls _ | .lit _ | .dot _ | .err _ | .emptyOp _ | .empty => 0
/-- The same over the definitions of a grammar. -/
def Defs.gd : Defs → Nat
  | .nil => 0
  | .cons _ p rest => max p.gd rest.gd
end

/-! ## What `Get` and inlining do to these -/

/-- `q` has no more non-terminals, flaws or nesting than `p`. -/
structure Sub (q p : Pat) : Prop where
  free : ∀ n ∈ q.free, n ∈ p.free
  flaws : ∀ n ∈ q.flaws, n ∈ p.flaws
  gd : q.gd ≤ p.gd

theorem Sub.refl (p : Pat) : Sub p p := ⟨fun _ h => h, fun _ h => h, Nat.le_refl _⟩
theorem Sub.trans {p q r : Pat} (h : Sub p q) (h' : Sub q r) : Sub p r :=
  ⟨fun n hn => h'.free n (h.free n hn), fun n hn => h'.flaws n (h.flaws n hn), Nat.le_trans h.gd h'.gd⟩
theorem sub_altL (l r : Pat) : Sub l (.alt l r) :=
  ⟨fun _ h => List.mem_append_left _ h, fun _ h => List.mem_append_left _ h, Nat.le_max_left _ _⟩
theorem sub_altR (l r : Pat) : Sub r (.alt l r) :=
  ⟨fun _ h => List.mem_append_right _ h, fun _ h => List.mem_append_right _ h, Nat.le_max_right _ _⟩
theorem sub_seqL (l r : Pat) : Sub l (.seq l r) :=
  ⟨fun _ h => List.mem_append_left _ h, fun _ h => List.mem_append_left _ h, Nat.le_max_left _ _⟩
theorem sub_seqR (l r : Pat) : Sub r (.seq l r) :=
  ⟨fun _ h => List.mem_append_right _ h, fun _ h => List.mem_append_right _ h, Nat.le_max_right _ _⟩
theorem sub_cls (c : CSet) (p : Pat) : Sub (.cls c) p :=
  ⟨(by intro _ h; cases h), (by intro _ h; cases h), Nat.zero_le _⟩

theorem getF_sub (k : Nat) : ∀ p : Pat, Sub (getF k p) p := by
  induction k with
  | zero => intro p; exact .refl p
  | succ k ih =>
    intro p
    have hopt : ∀ q x : Pat, Sub x q → Sub (optGet (.opt q) x) q := by
      intro q x h1
      unfold optGet
      split
      · exact h1
      · exact ⟨fun _ h => h, fun _ h => h, Nat.le_refl _⟩
    cases p with
    | inl n b => exact ⟨fun _ h => h, fun _ h => h, Nat.le_refl _⟩
    | alt l r =>
      show Sub (altGet (.alt l r) (getF k l) (getF k r) (getF k)) _
      unfold altGet
      split
      · exact (ih l).trans (sub_altL l r)
      · split
        · exact ((hopt (getF k l) (getF k (getF k l)) (ih _)).trans (ih l)).trans (sub_altL l r)
        · split
          · exact sub_cls _ _
          · exact .refl _
    | opt q =>
      have := hopt q (getF k q) (ih q)
      exact ⟨this.free, this.flaws, this.gd⟩
    | seq l r =>
      show Sub (seqGet (.seq l r) (getF k l) (getF k r) (getF k)) _
      unfold seqGet
      split
      · exact (ih l).trans (sub_seqL l r)
      · split
        · exact (ih r).trans (sub_seqR l r)
        · split
          · split
            · rename_i set _
              cases hn : negSeq set (getF k r) with
              | none => exact .refl _
              | some x =>
                have : ∃ cs, x = .cls cs := by
                  unfold negSeq at hn
                  split at hn <;> cases hn <;> exact ⟨_, rfl⟩
                obtain ⟨cs, rfl⟩ := this
                exact sub_cls _ _
            · exact .refl _
          · exact .refl _
    | _ => exact .refl _

theorem get_sub (p : Pat) : Sub (get p) p := getF_sub _ p

mutual
theorem Pat.free_nts : ∀ (p : Pat) (n : String), n ∈ p.free → n ∈ p.nts
  | .alt l r, n, h | .seq l r, n, h => by
    rcases List.mem_append.1 h with h | h
    · exact List.mem_append_left _ (l.free_nts n h)
    · exact List.mem_append_right _ (r.free_nts n h)
  | .star p, n, h | .plus p, n, h | .opt p, n, h | .not p, n, h | .and p, n, h | .cap p _, n, h
  | .memo p _, n, h | .inl _ p, n, h | .check p _ _ _, n, h | .errRec _ p, n, h => p.free_nts n h
  | .nonterm _, _, h => h
  | .grammar _ _, _, h | .search _, _, h | .cls _, _, h | .lit _, _, h | .dot _, _, h | .err _, _, h
  | .emptyOp _, _, h | .empty, _, h => by cases h
theorem Defs.free_nts : ∀ (ds : Defs) (n : String), n ∈ ds.free → n ∈ ds.nts
  | .nil, _, h => by cases h
  | .cons _ p rest, n, h => by
    rcases List.mem_append.1 h with h | h
    · exact List.mem_append_left _ (p.free_nts n h)
    · exact List.mem_append_right _ (rest.free_nts n h)
end

mutual
theorem Pat.gd_count : ∀ (p : Pat), p.nts = [] → p.gd ≤ p.count
  | .alt l r, h | .seq l r, h => by
    obtain ⟨h1, h2⟩ := List.append_eq_nil_iff.1 h
    have := l.gd_count h1
    have := r.gd_count h2
    show max _ _ ≤ _ + _ + 1
    omega
  | .star p, h | .plus p, h | .opt p, h | .not p, h | .and p, h | .cap p _, h
  | .memo p _, h | .inl _ p, h | .check p _ _ _, h | .errRec _ p, h => Nat.le_succ_of_le (p.gd_count h)
  | .search p, h => Nat.succ_le_succ (p.gd_count h)
  | .grammar _ ds, h => Nat.succ_le_succ (ds.gd_count h)
  | .nonterm _, h => by cases h
  | .cls _, _ | .lit _, _ | .dot _, _ | .err _, _ | .emptyOp _, _ | .empty, _ => Nat.zero_le _
theorem Defs.gd_count : ∀ (ds : Defs), ds.nts = [] → ds.gd ≤ ds.count
  | .nil, _ => Nat.zero_le _
  | .cons _ p rest, h => by
    obtain ⟨h1, h2⟩ := List.append_eq_nil_iff.1 h
    have := p.gd_count h1
    have := rest.gd_count h2
    show max _ _ ≤ _ + _
    omega
end

section
variable {f : String → Option Pat} {A : List Flaw} (hf : ∀ n b, f n = some b → b.count < inlineThreshold ∧ b.nts = [] ∧ ∀ x ∈ b.flaws, x ∈ A)
include hf

mutual
theorem Pat.gd_inlineWith : ∀ p : Pat, (p.inlineWith f).gd ≤ p.gd
  | .alt l r | .seq l r => by
    have := l.gd_inlineWith
    have := r.gd_inlineWith
    show max _ _ ≤ max _ _
    omega
  | .star p | .plus p | .opt p | .not p | .and p | .cap p _ | .memo p _ | .inl _ p | .check p _ _ _
  | .errRec _ p => p.gd_inlineWith
  | .search p => Nat.succ_le_succ p.gd_inlineWith
  | .grammar _ ds => Nat.succ_le_succ ds.gd_inlineWith
  | .nonterm n => by
    unfold Pat.inlineWith
    split
    · rename_i b hb
      obtain ⟨h1, h2, _⟩ := hf n b hb
      have := b.gd_count h2
      show b.gd ≤ inlineThreshold
      omega
    · exact Nat.le_refl _
  | .cls _ | .lit _ | .dot _ | .err _ | .emptyOp _ | .empty => Nat.zero_le _
theorem Defs.gd_inlineWith : ∀ ds : Defs, (ds.inlineWith f).gd ≤ ds.gd
  | .nil => Nat.zero_le _
  | .cons _ p rest => by
    have := p.gd_inlineWith
    have := rest.gd_inlineWith
    show max _ _ ≤ max _ _
    omega
end

mutual
theorem Pat.free_inlineWith : ∀ (p : Pat) (n : String), n ∈ (p.inlineWith f).free → n ∈ p.free
  | .alt l r, n, h | .seq l r, n, h => by
    rcases List.mem_append.1 h with h | h
    · exact List.mem_append_left _ (l.free_inlineWith n h)
    · exact List.mem_append_right _ (r.free_inlineWith n h)
  | .star p, n, h | .plus p, n, h | .opt p, n, h | .not p, n, h | .and p, n, h | .cap p _, n, h
  | .memo p _, n, h | .inl _ p, n, h | .check p _ _ _, n, h | .errRec _ p, n, h => p.free_inlineWith n h
  | .nonterm m, n, h => by
    unfold Pat.inlineWith at h
    split at h
    · rename_i b hb
      have := b.free_nts n h
      rw [(hf m b hb).2.1] at this
      cases this
    · exact h
  | .grammar _ _, _, h | .search _, _, h | .cls _, _, h | .lit _, _, h | .dot _, _, h | .err _, _, h
  | .emptyOp _, _, h | .empty, _, h => by cases h
theorem Defs.free_inlineWith : ∀ (ds : Defs) (n : String), n ∈ (ds.inlineWith f).free → n ∈ ds.free
  | .nil, _, h => by cases h
  | .cons _ p rest, n, h => by
    rcases List.mem_append.1 h with h | h
    · exact List.mem_append_left _ (p.free_inlineWith n h)
    · exact List.mem_append_right _ (rest.free_inlineWith n h)
end

mutual
theorem Pat.flaws_inlineWith : ∀ (p : Pat) (x : Flaw), x ∈ (p.inlineWith f).flaws → x ∈ p.flaws ∨ x ∈ A
  | .alt l r, n, h | .seq l r, n, h => by
    rcases List.mem_append.1 h with h | h
    · exact (l.flaws_inlineWith n h).imp_left (List.mem_append_left _)
    · exact (r.flaws_inlineWith n h).imp_left (List.mem_append_right _)
  | .star p, n, h | .plus p, n, h | .opt p, n, h | .not p, n, h | .and p, n, h | .cap p _, n, h
  | .memo p _, n, h | .inl _ p, n, h | .check p _ _ _, n, h | .errRec _ p, n, h => p.flaws_inlineWith n h
  | .nonterm m, n, h => by
    unfold Pat.inlineWith at h
    split at h
    · rename_i b hb
      exact .inr ((hf m b hb).2.2 n h)
    · exact .inl h
  | .search p, n, h => by
    rcases List.mem_append.1 h with h | h
    · exact (p.flaws_inlineWith n h).imp_left (List.mem_append_left _)
    · simp only [List.mem_map, List.mem_filter] at h
      obtain ⟨a, ⟨h1, h2⟩, rfl⟩ := h
      left
      refine List.mem_append_right _ ?_
      simp only [List.mem_map, List.mem_filter]
      exact ⟨a, ⟨p.free_inlineWith hf a h1, h2⟩, rfl⟩
  | .grammar s ds, n, h => by
    simp only [Pat.inlineWith, Pat.flaws, Defs.names_inlineWith] at h
    rcases List.mem_append.1 h with h | h
    · rcases List.mem_append.1 h with h | h
      · exact (ds.flaws_inlineWith n h).imp_left fun h => List.mem_append_left _ (List.mem_append_left _ h)
      · simp only [List.mem_map, List.mem_filter] at h
        obtain ⟨a, ⟨h1, h2⟩, rfl⟩ := h
        left
        refine List.mem_append_left _ (List.mem_append_right _ ?_)
        simp only [List.mem_map, List.mem_filter]
        exact ⟨a, ⟨ds.free_inlineWith hf a h1, h2⟩, rfl⟩
    · exact .inl (List.mem_append_right _ h)
  | .cls _, _, h | .lit _, _, h | .dot _, _, h | .err _, _, h | .emptyOp _, _, h | .empty, _, h => by cases h
theorem Defs.flaws_inlineWith : ∀ (ds : Defs) (x : Flaw), x ∈ (ds.inlineWith f).flaws → x ∈ ds.flaws ∨ x ∈ A
  | .nil, _, h => by cases h
  | .cons _ p rest, n, h => by
    rcases List.mem_append.1 h with h | h
    · exact (p.flaws_inlineWith n h).imp_left (List.mem_append_left _)
    · exact (rest.flaws_inlineWith n h).imp_left (List.mem_append_right _)
end
end

/-- The same for definitions. -/
structure DSub (ds' ds : Defs) : Prop where
  names : ds'.names = ds.names
  free : ∀ n ∈ ds'.free, n ∈ ds.free
  flaws : ∀ n ∈ ds'.flaws, n ∈ ds.flaws
  gd : ds'.gd ≤ ds.gd

theorem Defs.find_flaws {ds : Defs} {n : String} {b : Pat} (h : ds.find n = some b) : ∀ m ∈ b.flaws, m ∈ ds.flaws := by
  induction ds using Defs.rec (motive_1 := fun _ => True) with
  | nil => cases h
  | cons m p rest _ ih =>
    unfold Defs.find at h
    intro x hx
    split at h
    · cases h; exact List.mem_append_left _ hx
    · exact List.mem_append_right _ (ih h x hx)
  | _ => trivial

theorem inlineLoop_sub (k : Nat) : ∀ ds : Defs, DSub (Defs.inlineLoop k ds) ds := by
  induction k with
  | zero => intro ds; exact ⟨rfl, fun _ h => h, fun _ h => h, Nat.le_refl _⟩
  | succ k ih =>
    intro ds
    unfold Defs.inlineLoop Defs.inlineStep
    split
    · rename_i ds' hds
      split at hds
      · cases hds
        have hf : ∀ n b, ds.eligible n = some b → b.count < inlineThreshold ∧ b.nts = [] ∧ ∀ x ∈ b.flaws, x ∈ ds.flaws := by
          intro n b hb
          unfold Defs.eligible at hb
          split at hb
          · rename_i b' hb'
            split at hb
            · rename_i hc
              cases hb; exact ⟨hc.1, hc.2, Defs.find_flaws hb'⟩
            · cases hb
          · cases hb
        have h1 := ih (ds.inlineWith ds.eligible)
        exact ⟨h1.names.trans (Defs.names_inlineWith _ _), fun n hn => Defs.free_inlineWith hf ds n (h1.free n hn),
          fun n hn => (Defs.flaws_inlineWith hf ds n (h1.flaws n hn)).elim id id,
          Nat.le_trans h1.gd (Defs.gd_inlineWith hf ds)⟩
      · cases hds
    · exact ⟨rfl, fun _ h => h, fun _ h => h, Nat.le_refl _⟩

theorem inline_sub (ds : Defs) : DSub ds.inline ds := inlineLoop_sub _ ds

/-! ## Computations that end -/

/-- Given enough recursion depth, `x` ends in every state, always in the same way, with a result in `P` or an
error in `E`. -/
def Ends {α : Type} (x : Nat → CM α) (P : α → Prop) (E : CErr → Prop) : Prop :=
  ∀ s, ∃ k0 r, (∀ k, k0 ≤ k → x k s = r) ∧ (∀ a s', r = .ok (a, s') → P a) ∧ ∀ e, r = .error e → E e

theorem Ends.bind {α β : Type} {x : Nat → CM α} {f : Nat → α → CM β} {P : α → Prop} {Q : β → Prop} {E : CErr → Prop}
    (hx : Ends x P E) (hf : ∀ a, P a → Ends (fun k => f k a) Q E) : Ends (fun k => x k >>= f k) Q E := by
  intro s
  obtain ⟨k0, r, h1, h2, h3⟩ := hx s
  have hb : ∀ k, (x k >>= f k) s = (match x k s with | .ok (a, s1) => f k a s1 | .error e => .error e) := by
    intro k
    show StateT.bind (x k) (f k) s = _
    unfold StateT.bind
    cases x k s <;> rfl
  cases r with
  | error e =>
    refine ⟨k0, .error e, fun k hk => ?_, by simp, fun e' he => h3 e' ?_⟩
    · exact (hb k).trans (by rw [h1 k hk])
    · cases he; rfl
  | ok as =>
    obtain ⟨a, s1⟩ := as
    obtain ⟨k1, r, g1, g2, g3⟩ := hf a (h2 a s1 rfl) s1
    refine ⟨max k0 k1, r, fun k hk => ?_, g2, g3⟩
    refine (hb k).trans ?_
    rw [h1 k (by omega)]
    exact g1 k (by omega)

theorem Ends.pure {α : Type} {a : α} {P : α → Prop} {E : CErr → Prop} (h : P a) : Ends (fun _ => (Pure.pure a : CM α)) P E :=
  fun s => ⟨0, .ok (a, s), fun _ _ => rfl, (by intro a' s' he; cases he; exact h), by intro e he; cases he⟩

theorem Ends.tco {E : CErr → Prop} : Ends (fun _ => useTco) (fun _ => True) E :=
  fun s => ⟨0, .ok (s.tco, s), fun _ _ => rfl, fun _ _ _ => trivial, fun e h => by cases h⟩

theorem Ends.label {E : CErr → Prop} : Ends (fun _ => newLabel) (fun _ => True) E :=
  fun s => ⟨0, _, fun _ _ => rfl, fun _ _ _ => trivial, by intro e he; cases he⟩

theorem Ends.memoId {E : CErr → Prop} : Ends (fun _ => newMemoId) (fun _ => True) E :=
  fun s => ⟨0, _, fun _ _ => rfl, fun _ _ _ => trivial, by intro e he; cases he⟩

theorem Ends.throw {α : Type} {e : CErr} {P : α → Prop} {E : CErr → Prop} (h : E e) : Ends (fun _ => (cthrow e : CM α)) P E :=
  fun s => ⟨0, _, fun _ _ => rfl, (by intro a' s' he; cases he), by intro e' he; cases he; exact h⟩

theorem Ends.mono {α : Type} {x : Nat → CM α} {P Q : α → Prop} {E F : CErr → Prop} (h : Ends x P E) (hp : ∀ a, P a → Q a)
    (he : ∀ e, E e → F e) : Ends x Q F := by
  intro s
  obtain ⟨k0, r, h1, h2, h3⟩ := h s
  exact ⟨k0, r, h1, fun a s' h => hp a (h2 a s' h), fun e h => he e (h3 e h)⟩

theorem Ends.succ {α : Type} {x : Nat → CM α} {P : α → Prop} {E : CErr → Prop} (h : Ends (fun k => x (k + 1)) P E) : Ends x P E := by
  intro s
  obtain ⟨k0, r, h1, h2, h3⟩ := h s
  refine ⟨k0 + 1, r, fun k hk => ?_, h2, h3⟩
  obtain ⟨k, rfl⟩ : ∃ j, k = j + 1 := ⟨k - 1, by omega⟩
  exact h1 k (by omega)

/-- The errors that flaws explain. -/
def Blamed (L : List Flaw) : CErr → Prop
  | .notFound n => .undefined n ∈ L ∨ .noStart n ∈ L
  | .panic => ∃ n, .noStart n ∈ L
  | .fuel => False

theorem Blamed.mono {L M : List Flaw} (h : ∀ x ∈ L, x ∈ M) {e : CErr} (hb : Blamed L e) : Blamed M e := by
  cases e with
  | notFound n => exact hb.imp (h _) (h _)
  | panic => exact hb.imp fun _ => h _
  | fuel => exact hb

/-- The only calls left open are those of the names in `F`. -/
def OpenIn (F : List String) (raw : Program) : Prop := ∀ n, .openCall n ∈ raw → n ∈ F

/-- Compilation of `p` ends as described. -/
def Tot (F : List String) (L : List Flaw) (p : Pat) : Prop := Ends (fun k => compileF k p) (OpenIn F) (Blamed L)

theorem Tot.mono {F F' : List String} {L L' : List Flaw} {p : Pat} (h : Tot F L p) (hf : ∀ n ∈ F, n ∈ F')
    (hl : ∀ n ∈ L, n ∈ L') : Tot F' L' p :=
  Ends.mono h (fun _ h n hn => hf n (h n hn)) fun _ => Blamed.mono hl

variable {F : List String} {L : List Flaw}

/-- Close a goal about the open calls of a piece of code. -/
macro "openin" : tactic => `(tactic| (intro n hn; simp at hn))

theorem tot_alt {l r : Pat} (hl : Tot F L (get l)) (hr : Tot F L (get r)) : Tot F L (.alt l r) := by
  refine Ends.succ ?_
  simp only [compileF]
  cases combine (get l) (get r) with
  | some set => exact .pure (by openin)
  | none =>
    refine Ends.bind hl fun lc h1 => Ends.bind hr fun rc h2 => Ends.bind .label fun _ _ => Ends.bind .label fun _ _ => .pure ?_
    intro n hn
    exact (altCode_open hn).elim (h1 n) (h2 n)

theorem tot_seq {l r : Pat} (hl : Tot F L (get l)) (hr : Tot F L (get r)) : Tot F L (.seq l r) := by
  refine Ends.succ ?_
  simp only [compileF]
  refine Ends.bind hl fun lc h1 => Ends.bind hr fun rc h2 => .pure ?_
  intro n hn
  exact (List.mem_append.1 hn).elim (h1 n) (h2 n)

theorem tot_star {p : Pat} (h : Tot F L (get p)) (hm : ∀ q id, get p = .memo q id → Tot F L (get q)) : Tot F L (.star p) := by
  refine Ends.succ ?_
  simp only [compileF]
  split
  · exact .pure (by openin)
  · rename_i q id hg
    refine Ends.bind (hm q id hg) fun sub h1 => Ends.bind .label fun _ _ => Ends.bind .label fun _ _ => Ends.bind .label fun _ _ =>
      Ends.bind .label fun _ _ => Ends.bind .memoId fun _ _ => .pure ?_
    intro n hn
    exact h1 n (by simpa using hn)
  · refine Ends.bind h fun sub h1 => Ends.bind .label fun _ _ => Ends.bind .label fun _ _ => .pure ?_
    intro n hn
    exact h1 n (by simpa using hn)

theorem tot_plus {p : Pat} (hs : Tot F L (.star (get p))) (h : Tot F L (get p)) : Tot F L (.plus p) := by
  refine Ends.succ ?_
  simp only [compileF]
  refine Ends.bind hs fun st h1 => Ends.bind h fun sub h2 => .pure ?_
  intro n hn
  exact (List.mem_append.1 hn).elim (h2 n) (h1 n)

theorem tot_opt {p : Pat} (h : Tot F L (.alt (get p) .empty)) : Tot F L (.opt p) := by
  refine Ends.succ ?_
  simp only [compileF]
  split
  · exact Ends.bind .label fun _ _ => .pure (by openin)
  · exact Ends.bind .label fun _ _ => .pure (by openin)
  · exact h

theorem tot_not {p : Pat} (h : Tot F L (get p)) : Tot F L (.not p) := by
  refine Ends.succ ?_
  simp only [compileF]
  refine Ends.bind h fun sub h1 => Ends.bind .label fun _ _ => .pure ?_
  intro n hn
  exact h1 n (by simpa using hn)

theorem tot_and {p : Pat} (h : Tot F L (get p)) : Tot F L (.and p) := by
  refine Ends.succ ?_
  simp only [compileF]
  refine Ends.bind h fun sub h1 => Ends.bind .label fun _ _ => Ends.bind .label fun _ _ => .pure ?_
  intro n hn
  exact h1 n (by simpa using hn)

theorem tot_cap {p : Pat} {id : Int} (h : Tot F L (get p)) : Tot F L (.cap p id) := by
  refine Ends.succ ?_
  simp only [compileF]
  refine Ends.bind h fun sub h1 => .pure ?_
  intro n hn
  exact h1 n (capCode_open hn)

theorem tot_memo {p : Pat} {id : Int} (h : Tot F L (get p)) : Tot F L (.memo p id) := by
  refine Ends.succ ?_
  simp only [compileF]
  refine Ends.bind .label fun _ _ => Ends.bind h fun sub h1 => .pure ?_
  intro n hn
  exact h1 n (by simpa using hn)

theorem tot_check {p : Pat} {c : Nat} {id flag : Int} (h : Tot F L (get p)) : Tot F L (.check p c id flag) := by
  refine Ends.succ ?_
  simp only [compileF]
  refine Ends.bind .label fun _ _ => Ends.bind h fun sub h1 => .pure ?_
  intro n hn
  exact h1 n (by simpa using hn)

theorem tot_errRec {p : Pat} {m : String} (h : Tot F L (get p)) : Tot F L (.errRec m p) := by
  refine Ends.succ ?_
  simp only [compileF]
  refine Ends.bind h fun sub h1 => .pure ?_
  intro n hn
  exact h1 n (by simpa using hn)

theorem tot_inl {p : Pat} {m : String} (h : Tot F L p) : Tot F L (.inl m p) := by
  refine Ends.succ ?_
  simp only [compileF]
  exact h

theorem tot_nonterm {m : String} (h : m ∈ F) : Tot F L (.nonterm m) := by
  refine Ends.succ ?_
  simp only [compileF]
  refine .pure ?_
  intro n hn
  simp only [List.mem_singleton, Insn.openCall.injEq] at hn
  subst hn; exact h

/-- Patterns without parts. -/
theorem tot_leaf {p : Pat} (h : (∃ cs, p = .cls cs) ∨ (∃ l, p = .lit l) ∨ (∃ n, p = .dot n) ∨ (∃ m, p = .err m) ∨
    (∃ op, p = .emptyOp op) ∨ p = .empty) : Tot F L p := by
  refine Ends.succ ?_
  rcases h with ⟨_, rfl⟩ | ⟨_, rfl⟩ | ⟨_, rfl⟩ | ⟨_, rfl⟩ | ⟨_, rfl⟩ | rfl <;> simp only [compileF] <;>
    exact .pure (by openin)

/-! ## Grammars -/

theorem compileDefs_tot {start : String} {used : List String} : ∀ ds : Defs,
    (∀ q, q.gd ≤ ds.gd → Tot q.free q.flaws q) →
    (∀ n ∈ ds.free, n ∈ F) → (∀ x ∈ ds.flaws, x ∈ L) →
    Ends (fun k => compileDefs (compileF k) start used ds)
      (fun r => OpenIn F r.2 ∧ ∀ n ∈ ds.names, n = start ∨ n ∈ used → ∃ l, r.1.lookup n = some l) (Blamed L)
  | .nil, _, _, _ => .pure ⟨by openin, by intro n hn; cases hn⟩
  | .cons m v rest, hq, hF, hL => by
    have hrest := compileDefs_tot (start := start) (used := used) rest
      (fun q h => hq q (Nat.le_trans h (Nat.le_max_right _ _)))
      (fun n hn => hF n (List.mem_append_right _ hn)) (fun n hn => hL n (List.mem_append_right _ hn))
    have hv : Tot F L v := (hq v (Nat.le_max_left _ _)).mono (fun n hn => hF n (List.mem_append_left _ hn))
      (fun n hn => hL n (List.mem_append_left _ hn))
    simp only [compileDefs]
    split
    · rename_i hno
      refine hrest.mono (fun r hr => ⟨hr.1, fun n hn hu => ?_⟩) fun _ h => h
      rcases List.mem_cons.1 hn with rfl | hn
      · rcases hu with h | h
        · exact absurd h hno.1
        · exact absurd h hno.2
      · exact hr.2 n hn hu
    · refine Ends.bind .label fun l _ => Ends.bind hv fun fn h1 => Ends.bind hrest fun r h2 => .pure ⟨?_, ?_⟩
      · intro n hn
        simp only [List.mem_append, List.mem_singleton, reduceCtorEq, false_or, or_false] at hn
        exact hn.elim (h1 n) (h2.1 n)
      · intro n hn hu
        by_cases hnm : n = m
        · subst hnm; exact ⟨l, by simp [List.lookup]⟩
        · rcases List.mem_cons.1 hn with rfl | hn
          · exact absurd rfl hnm
          · obtain ⟨l', hl'⟩ := h2.2 n hn hu
            refine ⟨l', ?_⟩
            simp only [List.lookup]
            rw [beq_eq_false_iff_ne.2 hnm]
            exact hl'

theorem resolve_tot {tco : Bool} {labels : List (String × Nat)} : ∀ (p : Program),
    (∃ c, resolve tco labels p = .ok c) ∨ ∃ n, .openCall n ∈ p ∧ labels.lookup n = none ∧ resolve tco labels p = .error (.notFound n)
  | [] => .inl ⟨_, rfl⟩
  | i :: p => by
    by_cases ho : ∃ n, i = .openCall n
    · obtain ⟨n, rfl⟩ := ho
      cases hl : labels.lookup n with
      | none => exact .inr ⟨n, List.mem_cons_self, hl, by simp only [resolve, hl]⟩
      | some l =>
        rcases resolve_tot p with ⟨c, hc⟩ | ⟨m, h1, h2, h3⟩
        · left
          simp only [resolve, hl]
          rw [hc]
          simp only
          split <;> exact ⟨_, rfl⟩
        · exact .inr ⟨m, List.mem_cons_of_mem _ h1, h2, by simp only [resolve, hl]; rw [h3]⟩
    · have e : resolve tco labels (i :: p) = (match resolve tco labels p with | .error e => .error e | .ok r => .ok (i :: r)) := by
        cases i <;> first | rfl | exact absurd ⟨_, rfl⟩ ho
      rcases resolve_tot p with ⟨c, hc⟩ | ⟨m, h1, h2, h3⟩
      · exact .inl ⟨_, by rw [e, hc]⟩
      · exact .inr ⟨m, List.mem_cons_of_mem _ h1, h2, by rw [e, h3]⟩

theorem Defs.find_of_mem {ds : Defs} {n : String} (h : n ∈ ds.names) : ∃ b, ds.find n = some b := by
  induction ds using Defs.rec (motive_1 := fun _ => True) with
  | nil => cases h
  | cons m p rest _ ih =>
    unfold Defs.find
    split
    · exact ⟨_, rfl⟩
    · rcases List.mem_cons.1 h with rfl | h
      · contradiction
      · exact ih h
  | _ => trivial

theorem Defs.find_gd {ds : Defs} {n : String} {b : Pat} (h : ds.find n = some b) : b.gd ≤ ds.gd := by
  induction ds using Defs.rec (motive_1 := fun _ => True) with
  | nil => cases h
  | cons m p rest _ ih =>
    unfold Defs.find at h
    split at h
    · cases h; exact Nat.le_max_left _ _
    · exact Nat.le_trans (ih h) (Nat.le_max_right _ _)
  | _ => trivial

theorem Defs.find_free {ds : Defs} {n : String} {b : Pat} (h : ds.find n = some b) : ∀ m ∈ b.free, m ∈ ds.free := by
  induction ds using Defs.rec (motive_1 := fun _ => True) with
  | nil => cases h
  | cons m p rest _ ih =>
    unfold Defs.find at h
    intro x hx
    split at h
    · cases h; exact List.mem_append_left _ hx
    · exact List.mem_append_right _ (ih h x hx)
  | _ => trivial

/-- A grammar whose definitions, after inlining, compile. -/
theorem tot_grammar {start : String} {ds0 : Defs}
    (hdef : ∀ used, Ends (fun k => compileDefs (compileF k) start used ds0.inline)
      (fun r => OpenIn ds0.inline.free r.2 ∧ ∀ n ∈ ds0.inline.names, n = start ∨ n ∈ used → ∃ l, r.1.lookup n = some l)
      (Blamed ds0.inline.flaws))
    (hone : ∀ b, ds0.inline.find start = some b → Tot b.free b.flaws b) :
    Tot [] (Pat.grammar start ds0).flaws (.grammar start ds0) := by
  have hs := inline_sub ds0
  have hfl : ∀ x ∈ ds0.inline.flaws, x ∈ (Pat.grammar start ds0).flaws := fun x hx =>
    List.mem_append_left _ (List.mem_append_left _ (hs.flaws x hx))
  have hst : start ∉ ds0.inline.names → Flaw.noStart start ∈ (Pat.grammar start ds0).flaws := by
    intro h
    rw [hs.names] at h
    refine List.mem_append_right _ ?_
    rw [if_neg h]; exact List.mem_singleton.2 rfl
  refine Ends.succ ?_
  simp only [compileF]
  split
  · rename_i hu
    split
    · rename_i b hb
      refine (hone b hb).mono ?_ fun x hx => hfl x (Defs.find_flaws hb x hx)
      intro n hn
      have := Defs.free_nts _ n (Defs.find_free hb n hn)
      rw [hu] at this; exact this
    · rename_i hb
      refine .throw ⟨start, hst fun h => ?_⟩
      obtain ⟨b, hb'⟩ := Defs.find_of_mem h
      rw [hb] at hb'; cases hb'
  · refine Ends.bind .tco fun tco _ => Ends.bind .label fun lend _ => Ends.bind ((hdef ds0.inline.nts).mono (fun _ h => h) fun _ => Blamed.mono hfl) fun r hr => ?_
    refine Ends.bind (P := OpenIn []) ?_ fun code hc => .pure ?_
    · intro s
      rcases resolve_tot (tco := tco) (labels := r.1) ([.openCall start, .jump lend] ++ r.2) with ⟨c, hc⟩ | ⟨n, h1, h2, h3⟩
      · refine ⟨0, .ok (c, s), fun _ _ => by simp only [hc]; rfl, ?_, by simp⟩
        intro a s' h
        cases h
        intro n hn
        exact absurd hn (resolve_noOpen hc n)
      · refine ⟨0, .error (.notFound n), fun _ _ => by simp only [h3]; rfl, by simp, ?_⟩
        intro e he
        cases he
        simp only [List.mem_append, List.mem_cons, Insn.openCall.injEq, reduceCtorEq, List.not_mem_nil, or_false] at h1
        rcases h1 with rfl | h1
        · right
          refine hst fun h => ?_
          obtain ⟨l, hl⟩ := hr.2 n h (.inl rfl)
          rw [h2] at hl; cases hl
        · left
          have hfr := hr.1 n h1
          have hnn : n ∉ ds0.names := by
            intro h
            rw [← hs.names] at h
            obtain ⟨l, hl⟩ := hr.2 n h (.inr (Defs.free_nts _ n hfr))
            rw [h2] at hl; cases hl
          refine List.mem_append_left _ (List.mem_append_right _ ?_)
          simp only [List.mem_map, List.mem_filter]
          exact ⟨n, ⟨hs.free n hfr, by simpa using hnn⟩, rfl⟩
    · intro n hn
      simp only [List.mem_append, List.mem_singleton, reduceCtorEq, or_false] at hn
      exact hc n hn

/-! ## All patterns -/

theorem get_searchRest (sub : Program) : get (searchRest sub) = searchRest sub := by
  unfold searchRest
  split
  · rfl
  · split <;> rfl
  · rfl

theorem get_searchSeq (sub : Program) : get (.seq (.dot 1) (searchRest sub)) = .seq (.dot 1) (searchRest sub) := by
  unfold searchRest
  split
  · rfl
  · split <;> rfl
  · rfl

theorem searchRest_tot (sub : Program) : Tot ["S"] L (searchRest sub) := by
  have hS : Tot ["S"] L (.nonterm "S") := tot_nonterm (List.mem_singleton.2 rfl)
  have hq : ∀ cs : CSet, Tot ["S"] L (.seq (.star (.cls cs)) (.nonterm "S")) := fun cs =>
    tot_seq (tot_star (tot_leaf (.inl ⟨cs, rfl⟩)) (by intro q id h; cases h)) hS
  unfold searchRest
  split
  · exact hq _
  · split
    · exact hq _
    · exact hS
  · exact hS

theorem searchRest_free (sub : Program) : (searchRest sub).free = ["S"] := by
  unfold searchRest
  split
  · rfl
  · split <;> rfl
  · rfl

theorem searchRest_flaws (sub : Program) : (searchRest sub).flaws = [] := by
  unfold searchRest
  split
  · rfl
  · split <;> rfl
  · rfl

theorem get_count (p : Pat) : (get p).count ≤ p.count := getF_count _ p

/-- Compilation of every pattern ends; the calls left open are the free non-terminals, and errors have
a cause. -/
theorem compile_tot (d : Nat) : ∀ (m : Nat) (p : Pat), p.gd ≤ d → p.count ≤ m → Tot p.free p.flaws p := by
  induction d using Nat.strongRecOn with
  | ind d ihd =>
  intro m
  induction m using Nat.strongRecOn with
  | ind m ihm =>
  intro p hd hm
  -- smaller patterns with the same nesting
  have small : ∀ q : Pat, Sub q p → q.count < p.count → Tot p.free p.flaws q := by
    intro q hs hc
    exact (ihm q.count (by omega) q (Nat.le_trans hs.gd hd) (Nat.le_refl _)).mono hs.free hs.flaws
  have small' : ∀ q : Pat, Sub q p → q.count < p.count → Tot p.free p.flaws (get q) := by
    intro q hs hc
    exact small (get q) ((get_sub q).trans hs) (Nat.lt_of_le_of_lt (get_count q) hc)
  have hmemo : ∀ q : Pat, Sub q p → q.count < p.count → ∀ r id, q = .memo r id → Tot p.free p.flaws (get r) := by
    rintro _ hs hc r id rfl
    exact small' r (Sub.trans (q := .memo r id) ⟨fun _ h => h, fun _ h => h, Nat.le_refl _⟩ hs) (by simp only [Pat.count] at hc ⊢; omega)
  have deep : ∀ q : Pat, q.gd < d → Tot q.free q.flaws q := fun q h => ihd _ h _ q (Nat.le_refl _) (Nat.le_refl _)
  have hstar : ∀ q : Pat, Sub q p → q.count < p.count → Tot p.free p.flaws (.star q) := by
    intro q hs hc
    exact tot_star (small' q hs hc) fun r id h =>
      hmemo (get q) ((get_sub q).trans hs) (Nat.lt_of_le_of_lt (get_count q) hc) r id h
  cases p with
  | alt l r =>
    exact tot_alt (small' l (sub_altL l r) (by simp only [Pat.count]; omega)) (small' r (sub_altR l r) (by simp only [Pat.count]; omega))
  | seq l r =>
    exact tot_seq (small' l (sub_seqL l r) (by simp only [Pat.count]; omega)) (small' r (sub_seqR l r) (by simp only [Pat.count]; omega))
  | star q => exact hstar q ⟨fun _ h => h, fun _ h => h, Nat.le_refl _⟩ (Nat.lt_succ_self _)
  | plus q =>
    have hs : Sub q (.plus q) := ⟨fun _ h => h, fun _ h => h, Nat.le_refl _⟩
    exact tot_plus (hstar (get q) ((get_sub q).trans hs) (Nat.lt_succ_of_le (get_count q))) (small' q hs (Nat.lt_succ_self _))
  | opt q =>
    have hs : Sub q (.opt q) := ⟨fun _ h => h, fun _ h => h, Nat.le_refl _⟩
    exact tot_opt (tot_alt (small' (get q) ((get_sub q).trans hs) (Nat.lt_succ_of_le (get_count q)))
      (tot_leaf (.inr (.inr (.inr (.inr (.inr rfl)))))))
  | not q => exact tot_not (small' q ⟨fun _ h => h, fun _ h => h, Nat.le_refl _⟩ (Nat.lt_succ_self _))
  | and q => exact tot_and (small' q ⟨fun _ h => h, fun _ h => h, Nat.le_refl _⟩ (Nat.lt_succ_self _))
  | cap q id => exact tot_cap (small' q ⟨fun _ h => h, fun _ h => h, Nat.le_refl _⟩ (Nat.lt_succ_self _))
  | memo q id => exact tot_memo (small' q ⟨fun _ h => h, fun _ h => h, Nat.le_refl _⟩ (Nat.lt_succ_self _))
  | check q c id fl => exact tot_check (small' q ⟨fun _ h => h, fun _ h => h, Nat.le_refl _⟩ (Nat.lt_succ_self _))
  | errRec msg q => exact tot_errRec (small' q ⟨fun _ h => h, fun _ h => h, Nat.le_refl _⟩ (Nat.lt_succ_self _))
  | inl n q => exact tot_inl (small q ⟨fun _ h => h, fun _ h => h, Nat.le_refl _⟩ (Nat.lt_succ_self _))
  | nonterm n => exact tot_nonterm (List.mem_singleton.2 rfl)
  | cls cs => exact tot_leaf (.inl ⟨_, rfl⟩)
  | lit l => exact tot_leaf (.inr (.inl ⟨_, rfl⟩))
  | dot n => exact tot_leaf (.inr (.inr (.inl ⟨_, rfl⟩)))
  | err msg => exact tot_leaf (.inr (.inr (.inr (.inl ⟨_, rfl⟩))))
  | emptyOp op => exact tot_leaf (.inr (.inr (.inr (.inr (.inl ⟨_, rfl⟩)))))
  | empty => exact tot_leaf (.inr (.inr (.inr (.inr (.inr rfl)))))
  | grammar start ds =>
    have hlt : ds.inline.gd < d := Nat.lt_of_lt_of_le (Nat.lt_succ_of_le (inline_sub ds).gd) hd
    refine tot_grammar (fun used => ?_) fun b hb => deep b (Nat.lt_of_le_of_lt (Defs.find_gd hb) hlt)
    exact compileDefs_tot _ (fun q hq => deep q (Nat.lt_of_le_of_lt hq hlt)) (fun _ h => h) fun _ h => h
  | search q =>
    have hlt : q.gd < d := hd
    have hg : Tot (get q).free (get q).flaws (get q) := deep _ (Nat.lt_of_le_of_lt (get_sub q).gd hlt)
    have hgg : Tot (get q).free (get q).flaws (get (get q)) :=
      (deep (get (get q)) (Nat.lt_of_le_of_lt (Nat.le_trans (get_sub _).gd (get_sub q).gd) hlt)).mono
        (get_sub _).free (get_sub _).flaws
    refine Ends.succ ?_
    simp only [compileF]
    refine Ends.bind (P := fun _ => True) (Ends.mono hg (fun _ _ => trivial) fun _ => Blamed.mono fun x hx =>
      List.mem_append_left _ ((get_sub q).flaws x hx)) fun sub _ => ?_
    have hbody : Tot ((get q).free ++ ["S"]) (get q).flaws (.alt (get q) (.seq (.dot 1) (searchRest sub))) := by
      refine tot_alt (hgg.mono (fun _ h => List.mem_append_left _ h) fun _ h => h) ?_
      rw [get_searchSeq]
      refine tot_seq (tot_leaf (.inr (.inr (.inl ⟨1, rfl⟩)))) ?_
      rw [get_searchRest]
      exact (searchRest_tot sub).mono (fun _ h => List.mem_append_right _ h) fun _ h => h
    have hG := tot_grammar (start := "S") (ds0 := Defs.cons "S" (.alt (get q) (.seq (.dot 1) (searchRest sub))) .nil) ?_ ?_
    · refine Ends.mono hG (fun _ h => h) fun _ => Blamed.mono fun x hx => ?_
      simp only [Pat.flaws, Defs.flaws, Defs.free, Pat.free, Defs.names, searchRest_flaws, searchRest_free, List.append_nil,
        List.mem_singleton, if_true, List.nil_append, List.filter_append, List.mem_append, List.mem_map, List.mem_filter] at hx ⊢
      rcases hx with hx | ⟨a, hx, rfl⟩
      · exact .inl ((get_sub q).flaws x hx)
      · rcases hx with hx | hx
        · exact .inr ⟨a, ⟨(get_sub q).free a hx.1, by simpa using hx.2⟩, rfl⟩
        · simp at hx
    · intro used
      rw [search_inline]
      simp only [Defs.free, Defs.flaws, Pat.free, Pat.flaws, searchRest_flaws, searchRest_free, List.append_nil, List.nil_append]
      simp only [compileDefs, ne_eq, not_true_eq_false, false_and, if_false]
      refine Ends.bind .label fun l _ => Ends.bind hbody fun fn h1 => Ends.bind (.pure (P := fun r => r = ([], [])) rfl) fun r hr => .pure ⟨?_, ?_⟩
      · subst hr
        intro n hn
        simp only [List.mem_append, List.mem_singleton, reduceCtorEq, false_or, or_false, List.not_mem_nil] at hn
        exact h1 n hn
      · intro n hn _
        simp only [Defs.names, List.mem_singleton] at hn
        subst hn
        exact ⟨l, by simp [List.lookup]⟩
    · intro b hb
      rw [search_inline] at hb
      simp only [Defs.find, if_true, Option.some.injEq] at hb
      subst hb
      simp only [Pat.free, Pat.flaws, searchRest_flaws, searchRest_free, List.append_nil, List.nil_append]
      exact hbody

end Gpeg
