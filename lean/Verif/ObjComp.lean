import Verif.ObjNestRun
import Verif.Leaves
import Verif.EncodeSim
/-!
# Patterns without positive lookahead have a certificate

The bytecode of a pattern in which there is no `&p` has an `NCert`: the addresses of all instructions, each with the bytes read by
the `Char`, `Set`, `Any` and test instructions in a row before it.
-/
namespace Gpeg

mutual
/-- There is no positive lookahead in the pattern. -/
def Pat.NoAnd : Pat → Prop
  | .alt l r | .seq l r => l.NoAnd ∧ r.NoAnd
  | .and _ => False
  | .star p | .plus p | .opt p | .not p | .cap p _ | .memo p _ | .inl _ p | .check p _ _ _ | .errRec _ p | .search p => p.NoAnd
  | .grammar _ ds => ds.NoAnd
  | .dot _ | .err _ | .nonterm _ | .cls _ | .lit _ | .emptyOp _ | .empty => True
/-- There is none in the definitions. -/
def Defs.NoAnd : Defs → Prop
  | .nil => True
  | .cons _ p rest => p.NoAnd ∧ rest.NoAnd
end

mutual
/-- `NoAnd` as a test. -/
def Pat.noAndTest : Pat → Bool
  | .alt l r | .seq l r => l.noAndTest && r.noAndTest
  | .and _ => false
  | .star p | .plus p | .opt p | .not p | .cap p _ | .memo p _ | .inl _ p | .check p _ _ _ | .errRec _ p | .search p => p.noAndTest
  | .grammar _ ds => ds.noAndTest
  | .dot _ | .err _ | .nonterm _ | .cls _ | .lit _ | .emptyOp _ | .empty => true
/-- The same for definitions. -/
def Defs.noAndTest : Defs → Bool
  | .nil => true
  | .cons _ p rest => p.noAndTest && rest.noAndTest
end

mutual
theorem Pat.noAnd_of_test : ∀ p : Pat, p.noAndTest = true → p.NoAnd
  | .alt l r, h | .seq l r, h => by
    have h : (l.noAndTest && r.noAndTest) = true := h
    rw [Bool.and_eq_true] at h
    exact ⟨Pat.noAnd_of_test l h.1, Pat.noAnd_of_test r h.2⟩
  | .and _, h => by cases h
  | .star p, h | .plus p, h | .opt p, h | .not p, h | .cap p _, h | .memo p _, h | .inl _ p, h | .check p _ _ _, h | .errRec _ p, h
  | .search p, h => Pat.noAnd_of_test p h
  | .grammar _ ds, h => Defs.noAnd_of_test ds h
  | .dot _, _ | .err _, _ | .nonterm _, _ | .cls _, _ | .lit _, _ | .emptyOp _, _ | .empty, _ => trivial
theorem Defs.noAnd_of_test : ∀ ds : Defs, ds.noAndTest = true → ds.NoAnd
  | .nil, _ => trivial
  | .cons _ p rest, h => by
    have h : (p.noAndTest && rest.noAndTest) = true := h
    rw [Bool.and_eq_true] at h
    exact ⟨Pat.noAnd_of_test p h.1, Defs.noAnd_of_test rest h.2⟩
end

/-! ## The rewriting done before compilation adds no lookahead -/

theorem getF_noAnd (k : Nat) : ∀ p : Pat, p.NoAnd → (getF k p).NoAnd := by
  induction k with
  | zero => intro p h; exact h
  | succ k ih =>
    intro p hp
    have hopt : ∀ q x : Pat, x.NoAnd → q.NoAnd → (optGet (.opt q) x).NoAnd := by
      intro q x h1 h2
      unfold optGet
      split
      · exact h1
      · exact h2
    cases p with
    | inl n b => exact hp
    | alt l r =>
      show (altGet (.alt l r) (getF k l) (getF k r) (getF k)).NoAnd
      unfold altGet
      split
      · exact ih _ hp.1
      · split
        · exact hopt _ _ (ih _ (ih _ hp.1)) (ih _ hp.1)
        · split
          · trivial
          · exact hp
    | opt q => exact hopt q (getF k q) (ih q hp) hp
    | seq l r =>
      show (seqGet (.seq l r) (getF k l) (getF k r) (getF k)).NoAnd
      unfold seqGet
      split
      · exact ih _ hp.1
      · split
        · exact ih _ hp.2
        · split
          · split
            · rename_i set _
              cases hn : negSeq set (getF k r) with
              | none => exact hp
              | some x =>
                have : ∃ cs, x = .cls cs := by
                  unfold negSeq at hn
                  split at hn <;> cases hn <;> exact ⟨_, rfl⟩
                obtain ⟨cs, rfl⟩ := this
                trivial
            · exact hp
          · exact hp
    | _ => exact hp

theorem get_noAnd {p : Pat} (h : p.NoAnd) : (get p).NoAnd := getF_noAnd _ p h

theorem Defs.find_noAnd {ds : Defs} {n : String} {b : Pat} (h : ds.find n = some b) (hd : ds.NoAnd) : b.NoAnd := by
  induction ds using Defs.rec (motive_1 := fun _ => True) with
  | nil => cases h
  | cons m p rest _ ih =>
    unfold Defs.find at h
    split at h
    · cases h; exact hd.1
    · exact ih h hd.2
  | _ => trivial

section
variable {f : String → Option Pat} (hf : ∀ n b, f n = some b → b.NoAnd)
include hf

mutual
theorem Pat.noAnd_inlineWith : ∀ (p : Pat), p.NoAnd → (p.inlineWith f).NoAnd
  | .alt l r, h | .seq l r, h => ⟨Pat.noAnd_inlineWith l h.1, Pat.noAnd_inlineWith r h.2⟩
  | .star p, h | .plus p, h | .opt p, h | .not p, h | .cap p _, h
  | .memo p _, h | .inl _ p, h | .check p _ _ _, h | .errRec _ p, h | .search p, h => Pat.noAnd_inlineWith p h
  | .and p, h => h.elim
  | .grammar _ ds, h => Defs.noAnd_inlineWith ds h
  | .nonterm n, h => by
    unfold Pat.inlineWith
    split
    · rename_i b hb; exact hf n b hb
    · exact h
  | .cls _, h | .lit _, h | .dot _, h | .err _, h | .emptyOp _, h | .empty, h => h
theorem Defs.noAnd_inlineWith : ∀ (ds : Defs), ds.NoAnd → (ds.inlineWith f).NoAnd
  | .nil, h => h
  | .cons _ p rest, h => ⟨Pat.noAnd_inlineWith p h.1, Defs.noAnd_inlineWith rest h.2⟩
end
end

theorem Defs.noAnd_inlineLoop (k : Nat) : ∀ (ds : Defs), ds.NoAnd → (Defs.inlineLoop k ds).NoAnd := by
  induction k with
  | zero => intro ds h; exact h
  | succ k ih =>
    intro ds h
    unfold Defs.inlineLoop Defs.inlineStep
    split
    · rename_i ds' hds
      split at hds
      · cases hds
        refine ih _ (Defs.noAnd_inlineWith ?_ ds h)
        intro n b hb
        unfold Defs.eligible at hb
        split at hb
        · rename_i b' hb'
          split at hb
          · cases hb; exact Defs.find_noAnd hb' h
          · cases hb
        · cases hb
      · cases hds
    · exact h

theorem Defs.noAnd_inline {ds : Defs} (h : ds.NoAnd) : ds.inline.NoAnd := Defs.noAnd_inlineLoop _ ds h

theorem searchRest_noAnd (sub : Program) : (searchRest sub).NoAnd := by
  unfold searchRest
  split
  · exact ⟨trivial, trivial⟩
  · split
    · exact ⟨trivial, trivial⟩
    · trivial
  · trivial

/-! ## Bytes read in a row -/

namespace Row

/-- Bytes read in a row after an instruction. -/
def next (d : Nat) : Insn → Nat
  | .char _ | .set _ | .testChar _ _ | .testCharNC _ _ | .testSet _ _ | .testSetNC _ _ => d + 1
  | .any n | .testAny n _ => d + n.toNat
  | .nop | .captureLate _ _ | .captureFull _ _ => d
  | _ => 0

/-- A capture that begins before the position begins among the bytes read in a row; there is no `BackCommit`. -/
def okI (d : Nat) : Insn → Bool
  | .backCommit _ => false
  | .captureLate n _ | .captureFull n _ => decide (n.toNat ≤ d)
  | _ => true

/-- The same for all instructions. -/
def ok : Nat → Program → Bool
  | _, [] => true
  | d, x :: p => okI d x && ok (next d x) p

/-- Bytes read in a row before the instruction at `j`. -/
def at_ : Nat → Program → Nat → Nat
  | d, x :: p, j + 1 => at_ (next d x) p j
  | d, _, _ => d

theorem next_mono {d d' : Nat} (h : d ≤ d') (x : Insn) : next d x ≤ next d' x := by
  cases x <;> simp only [next] <;> omega

theorem okI_mono {d d' : Nat} (h : d ≤ d') {x : Insn} (hx : okI d x = true) : okI d' x = true := by
  cases x <;> simp only [okI, decide_eq_true_eq] at hx ⊢ <;> first | omega | (cases hx; done)

theorem ok_mono {p : Program} : ∀ {d d' : Nat}, d ≤ d' → ok d p = true → ok d' p = true := by
  induction p with
  | nil => intro _ _ _ _; rfl
  | cons x p ih =>
    intro d d' h hp
    simp only [ok, Bool.and_eq_true] at hp ⊢
    exact ⟨okI_mono h hp.1, ih (next_mono h x) hp.2⟩

theorem ok_append {r : Program} (hr : ok 0 r = true) {l : Program} : ∀ {d : Nat}, ok d l = true → ok d (l ++ r) = true := by
  induction l with
  | nil => intro d _; exact ok_mono (Nat.zero_le d) hr
  | cons x l ih =>
    intro d h
    simp only [ok, Bool.and_eq_true, List.cons_append] at h ⊢
    exact ⟨h.1, ih h.2⟩

theorem ok_at {p : Program} : ∀ {d j : Nat} {x : Insn}, ok d p = true → p[j]? = some x → okI (at_ d p j) x = true := by
  induction p with
  | nil => intro d j x _ h; cases h
  | cons y p ih =>
    intro d j x h hj
    simp only [ok, Bool.and_eq_true] at h
    cases j with
    | zero => cases hj; exact h.1
    | succ j => exact ih h.2 hj

theorem at_succ {p : Program} : ∀ {d j : Nat} {x : Insn}, p[j]? = some x → at_ d p (j + 1) = next (at_ d p j) x := by
  induction p with
  | nil => intro d j x h; cases h
  | cons y p ih =>
    intro d j x hj
    cases j with
    | zero => cases hj; simp [at_]
    | succ j => exact ih (d := next d y) (j := j) hj

theorem at_zero (d : Nat) (p : Program) : at_ d p 0 = d := by cases p <;> rfl

/-! ## Compilation -/

theorem altCode_ok {l r : Program} (hl : ok 0 l = true) (hr : ok 0 r = true) (l1 l2 : Nat) : ok 0 (altCode l r l1 l2) = true := by
  have hr' : ok 0 (r ++ [.label l2]) = true := ok_append rfl hr
  unfold altCode
  split
  · rename_i t ht
    have key : (∃ b, nextInsn l = some (.char b)) ∨ ∃ cs, nextInsn l = some (.set cs) := by
      unfold altTest at ht
      split at ht <;> first | cases ht | (rename_i h _; first | exact Or.inl ⟨_, h⟩ | exact Or.inr ⟨_, h⟩)
    have hd : ok 1 (l.drop 1) = true := by
      cases l with
      | nil => rfl
      | cons x l =>
        simp only [ok, Bool.and_eq_true] at hl
        refine ok_mono ?_ hl.2
        have : ∀ y, nextInsn (x :: l) = some y → x.isSkip = true ∨ x = y := by
          intro y hy
          unfold nextInsn at hy
          split at hy
          · rename_i h; exact Or.inl h
          · cases hy; exact Or.inr rfl
        rcases key with ⟨b, hb⟩ | ⟨b, hb⟩
        · rcases this _ hb with h | rfl
          · cases x <;> first | (simp [next]; done) | (cases h; done)
          · simp [next]
        · rcases this _ hb with h | rfl
          · cases x <;> first | (simp [next]; done) | (cases h; done)
          · simp [next]
    have ht1 : okI 0 t = true ∧ next 0 t = 1 := by
      unfold altTest at ht
      split at ht <;> first | cases ht | (split at ht <;> cases ht <;> exact ⟨rfl, rfl⟩)
    have : ok 1 (l.drop 1 ++ ([.jump l2] ++ ([.label l1] ++ (r ++ [.label l2])))) = true :=
      ok_append (by simpa [ok, okI, next] using hr') hd
    simp only [List.append_assoc] at this ⊢
    simp only [List.cons_append, List.nil_append, ok, ht1.1, ht1.2, Bool.true_and] at this ⊢
    exact this
  · have : ok 0 (l ++ ([.commit l2] ++ ([.label l1] ++ (r ++ [.label l2])))) = true :=
      ok_append (by simpa [ok, okI, next] using hr') hl
    simp only [List.append_assoc] at this ⊢
    simp only [List.cons_append, List.nil_append, ok, okI, next, Bool.true_and] at this ⊢
    exact this

theorem ok_prefix {X : Program} {sub : Program} : ∀ {d : Nat}, ok d sub = true →
    ok (d + (capPrefix sub).2) (sub.drop (capPrefix sub).1) = true ∧
    (ok (d + (capPrefix sub).2) X = true → ok d (sub.take (capPrefix sub).1 ++ X) = true) := by
  induction sub with
  | nil => intro d _; exact ⟨rfl, by simp [capPrefix]⟩
  | cons x p ih =>
    intro d h
    have h' := h
    simp only [ok, Bool.and_eq_true] at h
    cases x with
    | char b | set b =>
      obtain ⟨h1, h2⟩ := ih h.2
      simp only [next] at h1 h2
      simp only [capPrefix, List.drop_succ_cons, List.take_succ_cons, List.cons_append, ok, okI, next, Bool.true_and]
      rw [show d + ((capPrefix p).2 + 1) = d + 1 + (capPrefix p).2 by omega]
      exact ⟨h1, h2⟩
    | any n =>
      obtain ⟨h1, h2⟩ := ih h.2
      simp only [next] at h1 h2
      simp only [capPrefix, List.drop_succ_cons, List.take_succ_cons, List.cons_append, ok, okI, next, Bool.true_and]
      rw [show d + ((capPrefix p).2 + n.toNat) = d + n.toNat + (capPrefix p).2 by omega]
      exact ⟨h1, h2⟩
    | _ => exact ⟨h', fun h => h⟩

theorem capCode_ok {sub : Program} (h : ok 0 sub = true) (id : Int) : ok 0 (capCode sub id) = true := by
  unfold capCode
  show ok 0 (if (capPrefix sub).1 = 0 ∨ (capPrefix sub).2 ≥ 256 then _ else _) = true
  split
  · have : ok 0 (sub ++ [.captureEnd]) = true := ok_append rfl h
    simpa [ok, okI, next] using this
  · rename_i hb
    have hlt : (UInt8.ofNat (capPrefix sub).2).toNat = (capPrefix sub).2 := by
      rw [UInt8.toNat_ofNat']
      exact Nat.mod_eq_of_lt (by omega)
    split
    · rename_i hl
      have := (ok_prefix (X := [.captureFull (UInt8.ofNat (capPrefix sub).2) id]) h).2
        (by simp [ok, okI, hlt])
      rw [hl, List.take_length] at this
      exact this
    · obtain ⟨h1, h2⟩ := ok_prefix (X := [.captureLate (UInt8.ofNat (capPrefix sub).2) id] ++ (sub.drop (capPrefix sub).1 ++ [.captureEnd])) h
      have := h2 (by
        simp only [List.cons_append, List.nil_append, ok, okI, next, hlt, Bool.and_eq_true, decide_eq_true_eq]
        exact ⟨by omega, ok_append rfl h1⟩)
      simpa only [List.append_assoc] using this

theorem nopNext_ok {p : Program} : ∀ {d : Nat}, nextInsn p = some .ret → ok d p = true → ok d (nopNext p) = true := by
  induction p with
  | nil => intro d h; cases h
  | cons x p ih =>
    intro d h hp
    simp only [ok, Bool.and_eq_true] at hp
    by_cases hx : x = .nop
    · subst hx
      exact ih (d := d) h hp.2
    · have h0 : next d x = 0 := by
        unfold nextInsn at h
        split at h
        · rename_i hs
          cases x <;> first | rfl | exact absurd rfl hx | (cases hs; done)
        · cases h; rfl
      have e : nopNext (x :: p) = .nop :: p := by
        cases x <;> first | rfl | exact absurd rfl hx
      rw [e]
      have := hp.2
      rw [h0] at this
      simp only [ok, okI, next, Bool.true_and]
      exact ok_mono (Nat.zero_le _) this

theorem resolve_nextRet {tco : Bool} {labels : List (String × Nat)} {p : Program} : ∀ {code : Program}, resolve tco labels p = .ok code →
    nextInsn p = some .ret → nextInsn code = some .ret := by
  induction p with
  | nil => intro code _ h; cases h
  | cons j p ih =>
    intro code h hn
    by_cases ho : ∃ n, j = .openCall n
    · obtain ⟨n, rfl⟩ := ho
      cases hn
    · obtain ⟨rest', hr, rfl⟩ := resolve_cons (fun n hn => ho ⟨n, hn⟩) h
      unfold nextInsn at hn ⊢
      split
      · rename_i hs
        rw [if_pos hs] at hn
        exact ih hr hn
      · rename_i hs
        rw [if_neg hs] at hn
        exact hn

theorem resolve_ok {tco : Bool} {labels : List (String × Nat)} {p : Program} : ∀ {d : Nat} {code : Program}, resolve tco labels p = .ok code →
    ok d p = true → ok d code = true := by
  induction p with
  | nil => intro d code h _; cases h; rfl
  | cons j p ih =>
    intro d code h hp
    simp only [ok, Bool.and_eq_true] at hp
    by_cases ho : ∃ n, j = .openCall n
    · obtain ⟨n, rfl⟩ := ho
      obtain ⟨L, rest', hL, hr, rfl⟩ := resolve_open h
      have h1 : ok 0 rest' = true := ih hr hp.2
      split
      · rename_i hn
        simp only [ok, okI, next, Bool.true_and]
        split
        · exact h1
        · exact nopNext_ok (resolve_nextRet hr hn.2) h1
      · exact h1
    · obtain ⟨rest', hr, rfl⟩ := resolve_cons (fun n hn => ho ⟨n, hn⟩) h
      simp only [ok, Bool.and_eq_true]
      exact ⟨hp.1, ih hr hp.2⟩

theorem compDefs_ok {comp : Pat → CM Program} (hcomp : ∀ v s raw s', v.NoAnd → CM.Ok (comp v) s raw s' → ok 0 raw = true)
    {start : String} {used : List String} (ds : Defs) : ∀ {s s' : CState} {ls : List (String × Nat)} {code : Program}, ds.NoAnd →
    CM.Ok (compileDefs comp start used ds) s (ls, code) s' → ok 0 code = true := by
  induction ds using Defs.rec (motive_1 := fun _ => True) with
  | nil =>
    intro s s' ls code _ h
    obtain ⟨rfl, rfl, rfl⟩ := compDefs_nil h
    rfl
  | cons nm v rest _ ih =>
    intro s s' ls code hd h
    by_cases hn : nm ≠ start ∧ nm ∉ used
    · exact ih hd.2 (compDefs_skip hn h)
    · obtain ⟨fn, s1, ls', code', h1, h2, rfl, rfl⟩ := compDefs_cons hn h
      have h3 : ok 0 (fn ++ ([.ret] ++ code')) = true :=
        ok_append (by simpa [ok, okI, next] using ih hd.2 h2) (hcomp _ _ _ _ hd.1 h1)
      simp only [List.append_assoc] at h3 ⊢
      simpa [ok, okI, next] using h3
  | _ => trivial

theorem lit_ok (l : List UInt8) : ∀ d, ok d (l.map .char) = true := by
  induction l with
  | nil => intro d; rfl
  | cons b l ih => intro d; exact ih _

theorem compile_ok (k : Nat) : ∀ {p : Pat} {s s' : CState} {raw : Program}, p.NoAnd → CM.Ok (compileF k p) s raw s' → ok 0 raw = true := by
  induction k with
  | zero => intro p s s' raw _ h; exact (comp_zero h).elim
  | succ k ih =>
    intro p s s' raw hp h
    have wrap : ∀ {sub : Program} (a b : Program), ok 0 sub = true → (∀ x ∈ a, okI 0 x = true ∧ next 0 x = 0) → ok 0 b = true →
        ok 0 (a ++ sub ++ b) = true := by
      intro sub a b hs ha hb
      rw [List.append_assoc]
      have h1 : ok 0 (sub ++ b) = true := ok_append hb hs
      induction a with
      | nil => exact h1
      | cons x a ih =>
        simp only [List.cons_append, ok, (ha x List.mem_cons_self).1, (ha x List.mem_cons_self).2, Bool.true_and]
        exact ih fun y hy => ha y (List.mem_cons_of_mem _ hy)
    cases p with
    | alt l r =>
      cases hc : combine (get l) (get r) with
      | some cs => obtain ⟨rfl, rfl⟩ := comp_alt_some hc h; rfl
      | none =>
        obtain ⟨lc, s1, rc, s2, h1, h2, rfl, rfl⟩ := comp_alt_none hc h
        exact altCode_ok (ih (get_noAnd hp.1) h1) (ih (get_noAnd hp.2) h2) _ _
    | seq l r =>
      obtain ⟨lc, s1, rc, h1, h2, rfl⟩ := comp_seq h
      exact ok_append (ih (get_noAnd hp.2) h2) (ih (get_noAnd hp.1) h1)
    | star p =>
      have hg' : (get p).NoAnd := get_noAnd hp
      rcases comp_star h with ⟨cs, hg, rfl, rfl⟩ | ⟨q, id, hg, sub, s1, h1, rfl, rfl⟩ |
        ⟨hme, hcl, sub, s1, h1, rfl, rfl⟩
      · rfl
      · rw [hg] at hg'
        exact wrap _ _ (ih (get_noAnd (p := q) hg') h1) (by simp [okI, next]) rfl
      · exact wrap _ _ (ih hg' h1) (by simp [okI, next]) rfl
    | plus p =>
      obtain ⟨st, s1, sub, h1, h2, rfl⟩ := comp_plus h
      exact ok_append (ih (p := .star (get p)) (get_noAnd (p := p) hp) h1) (ih (get_noAnd (p := p) hp) h2)
    | opt p =>
      rcases comp_opt h with ⟨b, hg, rfl, rfl⟩ | ⟨cs, hg, rfl, rfl⟩ | ⟨hl, hc, h1⟩
      · rfl
      · rfl
      · exact ih (p := .alt (get p) .empty) ⟨get_noAnd (p := p) hp, trivial⟩ h1
    | not p =>
      obtain ⟨sub, s1, h1, rfl, rfl⟩ := comp_not h
      exact wrap _ _ (ih (get_noAnd (p := p) hp) h1) (by simp [okI, next]) rfl
    | and p => exact hp.elim
    | cap p id =>
      obtain ⟨sub, h1, rfl⟩ := comp_cap h
      exact capCode_ok (ih (get_noAnd (p := p) hp) h1) id
    | memo p id =>
      obtain ⟨sub, h1, rfl⟩ := comp_memo h
      exact wrap _ _ (ih (get_noAnd (p := p) hp) h1) (by simp [okI, next]) rfl
    | check p c id flag =>
      obtain ⟨sub, h1, rfl⟩ := comp_check h
      exact wrap _ _ (ih (get_noAnd (p := p) hp) h1) (by simp [okI, next]) rfl
    | search p =>
      obtain ⟨sub, s1, h1, h2⟩ := comp_search h
      refine ih ?_ h2
      exact ⟨⟨get_noAnd (p := p) hp, trivial, searchRest_noAnd sub⟩, trivial⟩
    | emptyOp op => obtain ⟨rfl, rfl⟩ := comp_emptyOp h; rfl
    | grammar start ds =>
      have hp : ds.NoAnd := hp
      rcases comp_grammar h with ⟨hu, b, hb, h1⟩ | ⟨hu, labels, fns, code, h1, hr, rfl⟩
      · exact ih (Defs.find_noAnd hb (Defs.noAnd_inline hp)) h1
      · refine ok_append rfl (resolve_ok hr ?_)
        have := compDefs_ok (fun v s raw s' hv h => ih hv h) _ (Defs.noAnd_inline hp) h1
        simpa [ok, okI, next] using this
    | cls cs => obtain ⟨rfl, rfl⟩ := comp_cls h; rfl
    | lit l => obtain ⟨rfl, rfl⟩ := comp_lit h; exact lit_ok l 0
    | nonterm n => obtain ⟨rfl, rfl⟩ := comp_nonterm h; rfl
    | inl n b => exact ih (p := b) hp (comp_inl h)
    | dot n => obtain ⟨rfl, rfl⟩ := comp_dot h; rfl
    | err m => obtain ⟨rfl, rfl⟩ := comp_err h; rfl
    | errRec m p =>
      obtain ⟨sub, h1, rfl⟩ := comp_errRec h
      have hp : p.NoAnd := hp
      simpa [ok, okI, next] using ih (get_noAnd (p := p) hp) h1
    | empty => obtain ⟨rfl, rfl⟩ := comp_empty h; rfl

/-! ## Optimization -/

theorem fuse_ok {p : Program} : ∀ {d i l : Nat} {x y : Insn}, ok d p = true → p[i]? = some (.choice l) → p[i + 1]? = some x →
    okI 0 y = true → (∀ e, next 0 x ≤ next e y) → ok d ((p.set i y).set (i + 1) .nop) = true := by
  induction p with
  | nil => intro d i l x y _ h; cases h
  | cons z p ih =>
    intro d i l x y hp hi hi1 hy hxy
    simp only [ok, Bool.and_eq_true] at hp
    cases i with
    | zero =>
      cases hi
      cases p with
      | nil => cases hi1
      | cons w p =>
        cases hi1
        have h2 := hp.2
        simp only [ok, Bool.and_eq_true] at h2
        simp only [List.set_cons_zero, List.set_cons_succ, ok, okI, Bool.true_and, Bool.and_eq_true]
        exact ⟨okI_mono (Nat.zero_le _) hy, ok_mono (hxy d) h2.2⟩
    | succ i =>
      simp only [List.set_cons_succ, ok, Bool.and_eq_true]
      exact ⟨hp.1, ih hp.2 hi hi1 hy hxy⟩

theorem set_ok {p : Program} : ∀ {d i l : Nat} {y : Insn}, ok d p = true → p[i]? = some (.jump l) → okI 0 y = true → ok d (p.set i y) = true := by
  induction p with
  | nil => intro d i l y _ h; cases h
  | cons z p ih =>
    intro d i l y hp hi hy
    simp only [ok, Bool.and_eq_true] at hp
    cases i with
    | zero =>
      cases hi
      simp only [List.set_cons_zero, ok, Bool.and_eq_true]
      exact ⟨okI_mono (Nat.zero_le _) hy, ok_mono (Nat.zero_le _) hp.2⟩
    | succ i =>
      simp only [List.set_cons_succ, ok, Bool.and_eq_true]
      exact ⟨hp.1, ih hp.2 hi hy⟩

theorem nextInsn_mem {p : Program} {x : Insn} (h : nextInsn p = some x) : x ∈ p := by
  induction p with
  | nil => cases h
  | cons y p ih =>
    unfold nextInsn at h
    split at h
    · exact List.mem_cons_of_mem _ (ih h)
    · cases h; exact List.mem_cons_self

theorem optStep_ok {p : Program} (h : ok 0 p = true) (lbls : Nat → Nat) (i : Nat) : ok 0 (optStep lbls p i) = true := by
  unfold optStep
  split
  · rename_i l hi
    split
    · rename_i b hi1; exact fuse_ok h hi hi1 rfl (fun e => by simp [next])
    · rename_i b hi1; exact fuse_ok h hi hi1 rfl (fun e => by simp [next])
    · rename_i b hi1; exact fuse_ok h hi hi1 rfl (fun e => by simp [next])
    · exact h
  · rename_i l hi
    split
    · rename_i x hx
      split
      · rename_i hc
        refine set_ok h hi ?_
        obtain ⟨j, hj⟩ := List.mem_iff_getElem?.1 (List.mem_of_mem_drop (nextInsn_mem hx))
        have := ok_at h hj
        cases x <;> first | rfl | (cases hc; done) | (cases this; done)
      · exact h
    · exact h
  · exact h

theorem optimize_ok {p : Program} (h : ok 0 p = true) : ok 0 (optimize p) = true := by
  unfold optimize
  have gen : ∀ (f : Nat → Nat) (is : List Nat) (q : Program), ok 0 q = true → ok 0 (is.foldl (optStep f) q) = true := by
    intro f is
    induction is with
    | nil => intro q h; exact h
    | cons i is ih => intro q h; exact ih _ (optStep_ok h _ i)
  exact gen _ _ p h

/-! ## The certificate -/

/-- All addresses with the bytes read in a row. -/
def cert (p : Program) : Obj.NCert := (List.range (p.length + 1)).map fun j => (addr p j, at_ 0 p j)

theorem cert_mem {p : Program} {j : Nat} (h : j ≤ p.length) {d : Nat} (hd : at_ 0 p j ≤ d) : (cert p).atMost (addr p j) d = true :=
  Obj.NCert.atMost_iff.2 ⟨_, hd, List.mem_map.2 ⟨j, List.mem_range.2 (by omega), rfl⟩⟩

theorem labelIdxFrom_at (l : Nat) (P : Program) : ∀ (p : Program) (i d : Nat), P.drop i = p →
    labelIdxFrom l p i d = d ∨ P[labelIdxFrom l p i d]? = some (.label l) := by
  intro p
  induction p with
  | nil => intro i d _; exact Or.inl rfl
  | cons x p ih =>
    intro i d hp
    have hx : P[i]? = some x := by
      have := congrArg List.head? hp
      rw [List.head?_drop] at this; exact this
    have hp' : P.drop (i + 1) = p := by
      rw [← List.drop_drop, hp]; rfl
    by_cases hl : ∃ l', x = .label l'
    · obtain ⟨l', rfl⟩ := hl
      unfold labelIdxFrom
      by_cases he : l' = l
      · subst he
        rw [if_pos rfl]
        rcases ih (i + 1) i hp' with h | h
        · rw [h]; exact Or.inr hx
        · exact Or.inr h
      · rw [if_neg he]; exact ih (i + 1) d hp'
    · have := ih (i + 1) d hp'
      cases x <;> first | exact this | exact absurd ⟨_, rfl⟩ hl

theorem cert_label (p : Program) (l d : Nat) : (cert p).atMost (labelOffs l p 0 0) d = true := by
  rw [labelOffs_addr]
  rcases labelIdxFrom_at l p p 0 0 rfl with h | h
  · rw [show labelIdx p l = 0 from h]
    exact cert_mem (Nat.zero_le _) (by rw [at_zero]; exact Nat.zero_le _)
  · have h : p[labelIdx p l]? = some (.label l) := h
    have h1 : addr p (labelIdx p l + 1) = addr p (labelIdx p l) := addr_succ h
    rw [← h1]
    refine cert_mem ?_ ?_
    · have := (List.getElem?_eq_some_iff.1 h).1
      omega
    · rw [at_succ h]; exact Nat.zero_le _

theorem certOkI_mono {C : Obj.NCert} {d d' nxt : Nat} (h : d ≤ d') {i : Insn} (hi : C.okI d nxt i = true) : C.okI d' nxt i = true := by
  have mono : ∀ {a e e' : Nat}, e ≤ e' → C.atMost a e = true → C.atMost a e' = true := by
    intro a e e' he h
    obtain ⟨x, hx, hm⟩ := Obj.NCert.atMost_iff.1 h
    exact Obj.NCert.atMost_iff.2 ⟨x, by omega, hm⟩
  cases i <;> simp only [Obj.NCert.okI, Bool.and_eq_true, decide_eq_true_eq] at hi ⊢ <;>
    first
    | exact hi
    | exact mono (by omega) hi
    | exact ⟨mono (by omega) hi.1, by omega⟩
    | exact ⟨mono (by omega) hi.1, mono (by omega) hi.2⟩

theorem cert_okI {p : Program} (h : ok 0 p = true) {j : Nat} {x : Insn} (hj : p[j]? = some x) :
    (cert p).okI (at_ 0 p j) (addr p j + x.size) (x.retarget fun l => labelOffs l p 0 0) = true := by
  have hlt : j + 1 ≤ p.length := (List.getElem?_eq_some_iff.1 hj).1
  have hx := ok_at h hj
  have hn : ∀ e, next (at_ 0 p j) x ≤ e → (cert p).atMost (addr p j + x.size) e = true := by
    intro e he
    rw [← addr_succ hj]
    exact cert_mem hlt (by rw [at_succ hj]; exact he)
  have hlab := cert_label p
  cases x <;> simp only [Insn.retarget, Obj.NCert.okI, Bool.and_eq_true, decide_eq_true_eq] <;>
    first
    | exact hn _ (by simp only [next]; omega)
    | exact hlab _ _
    | exact ⟨hn _ (by simp only [next]; omega), hlab _ _⟩
    | exact ⟨hlab _ _, hn _ (by simp only [next]; omega)⟩
    | exact ⟨hn _ (by simp only [next]; omega), by simpa [okI] using hx⟩
    | cases hx

/-- The first instruction from `a` on that has bytes, or the end. -/
theorem next_exec {p : Program} (n : Nat) : ∀ (a : Nat), a ≤ p.length → p.length - a = n → ∃ j, a ≤ j ∧ j ≤ p.length ∧ addr p j = addr p a ∧
    at_ 0 p j ≤ at_ 0 p a ∧ (j = p.length ∨ ∃ x, p[j]? = some x ∧ x.isSkip = false) := by
  induction n with
  | zero => intro a h1 h2; exact ⟨a, Nat.le_refl _, h1, rfl, Nat.le_refl _, Or.inl (by omega)⟩
  | succ n ih =>
    intro a h1 h2
    have hlt : a < p.length := by omega
    obtain ⟨x, hx⟩ : ∃ x, p[a]? = some x := ⟨_, List.getElem?_eq_getElem hlt⟩
    by_cases hs : x.isSkip = true
    · obtain ⟨j, h3, h4, h5, h6, h7⟩ := ih (a + 1) (by omega) (by omega)
      have hz : x.size = 0 := by cases x <;> first | rfl | cases hs
      have hn : next (at_ 0 p a) x ≤ at_ 0 p a := by cases x <;> first | (simp [next]; done) | (cases hs; done)
      rw [addr_succ hx, hz] at h5
      rw [at_succ hx] at h6
      exact ⟨j, by omega, h4, h5, by omega, h7⟩
    · exact ⟨a, Nat.le_refl _, h1, rfl, Nat.le_refl _, Or.inr ⟨x, hx, by simpa using hs⟩⟩

theorem cert_ok {p : Program} {code : Code} (h : ok 0 p = true) (he : encode p = some code) : (cert p).ok code = true := by
  have hE := encode_spec he
  unfold Obj.NCert.ok
  rw [Bool.and_eq_true]
  refine ⟨?_, ?_⟩
  · have := cert_mem (p := p) (j := 0) (Nat.zero_le _) (d := 0) (by rw [at_zero]; exact Nat.le_refl _)
    rwa [addr_zero] at this
  · rw [List.all_eq_true]
    intro x hx
    obtain ⟨a, ha, rfl⟩ := List.mem_map.1 hx
    have ha := List.mem_range.1 ha
    obtain ⟨j, h1, h2, h3, h4, h5⟩ := next_exec (p := p) _ a (by omega) rfl
    show (match decode code (addr p a) with
      | none => true
      | some (i, sz) => (cert p).okI (at_ 0 p a) (addr p a + sz) i) = true
    rw [← h3]
    rcases h5 with rfl | ⟨x, hx, hs⟩
    · rw [hE.end_]; rfl
    · rw [hE.at_ j x hx hs]
      exact certOkI_mono h4 (cert_okI h hx)

end Row
end Gpeg
