import Verif.Impl
import Verif.PegBounds
/-! # Static facts about compiled code -/
namespace Gpeg
variable {σ : Type}

/-! ## Resolving calls -/

theorem nopNext_length (p : Program) : (nopNext p).length = p.length := by
  induction p with
  | nil => rfl
  | cons i p ih => cases i <;> simp [nopNext, ih]

theorem resolve_cons {tco : Bool} {labels : List (String × Nat)} {i : Insn} {rest code : Program}
    (ho : ∀ n, i ≠ .openCall n) (h : resolve tco labels (i :: rest) = .ok code) :
    ∃ rest', resolve tco labels rest = .ok rest' ∧ code = i :: rest' := by
  unfold resolve at h
  split at h
  · cases ‹i :: rest = []›
  · rename_i n r heq; cases heq; exact absurd rfl (ho n)
  · rename_i i' r _ heq
    cases heq
    cases hr : resolve tco labels rest with
    | error e => rw [hr] at h; cases h
    | ok rest' => rw [hr] at h; cases h; exact ⟨rest', rfl, rfl⟩

theorem resolve_open {tco : Bool} {labels : List (String × Nat)} {n : String} {rest code : Program}
    (h : resolve tco labels (.openCall n :: rest) = .ok code) :
    ∃ l rest', labels.lookup n = some l ∧ resolve tco labels rest = .ok rest' ∧
      code = (if tco = true ∧ nextInsn rest = some .ret then
          .jump l :: (if labelBefore rest then rest' else nopNext rest')
        else .call l :: rest') := by
  unfold resolve at h
  cases hl : labels.lookup n with
  | none => rw [hl] at h; cases h
  | some l =>
    rw [hl] at h
    simp only at h
    cases hr : resolve tco labels rest with
    | error e => rw [hr] at h; cases h
    | ok rest' =>
      rw [hr] at h
      simp only at h
      refine ⟨l, rest', rfl, rfl, ?_⟩
      split at h
      · rename_i hn
        rw [if_pos hn]; cases h; rfl
      · rename_i hn
        rw [if_neg hn]; cases h; rfl

theorem resolve_length {tco : Bool} {labels : List (String × Nat)} (p : Program) : ∀ {code : Program},
    resolve tco labels p = .ok code → code.length = p.length := by
  induction p with
  | nil => intro code h; cases h; rfl
  | cons i p ih =>
    intro code h
    by_cases ho : ∃ n, i = .openCall n
    · obtain ⟨n, rfl⟩ := ho
      obtain ⟨l, rest', _, hr, rfl⟩ := resolve_open h
      have := ih hr
      split
      · split
        · simp [this]
        · simp [nopNext_length, this]
      · simp [this]
    · obtain ⟨rest', hr, rfl⟩ := resolve_cons (fun n hn => ho ⟨n, hn⟩) h
      simp [ih hr]

/-- If a `ret` follows directly (up to `nop`s), overwriting it only changes it. -/
theorem nopNext_spec {tco : Bool} {labels : List (String × Nat)} (rest : Program) : ∀ {rest' : Program},
    nextInsn rest = some .ret → labelBefore rest = false → resolve tco labels rest = .ok rest' →
    ∃ k, (∀ i < k, rest[i]? = some .nop) ∧ rest[k]? = some .ret ∧ rest'[k]? = some .ret ∧
      nopNext rest' = rest'.set k .nop := by
  induction rest with
  | nil => intro rest' h; cases h
  | cons i rest ih =>
    intro rest' hn hl hr
    cases i with
    | nop =>
      obtain ⟨r', hr', rfl⟩ := resolve_cons (fun n h => by cases h) hr
      obtain ⟨k, h1, h2, h3, h4⟩ := ih hn hl hr'
      refine ⟨k + 1, ?_, h2, h3, ?_⟩
      · intro i hi
        cases i with
        | zero => rfl
        | succ i => exact h1 i (by omega)
      · show Insn.nop :: nopNext r' = _
        rw [h4]; rfl
    | label l => cases hl
    | ret =>
      obtain ⟨r', hr', rfl⟩ := resolve_cons (fun n h => by cases h) hr
      exact ⟨0, fun i hi => by omega, rfl, rfl, rfl⟩
    | _ => cases hn

/-- What resolution does with each instruction. -/
def ResolvedAt (tco : Bool) (labels : List (String × Nat)) (code code' : Program) (i : Nat) : Insn → Prop
  | .openCall n => ∃ l, labels.lookup n = some l ∧
      code'[i]? = some (if tco = true ∧ nextInsn (code.drop (i + 1)) = some .ret then .jump l else .call l)
  | .ret => code'[i]? = some .ret ∨ (tco = true ∧ EndsOpen (code.take i))
  | insn => code'[i]? = some insn

theorem ResolvedAt.cons {tco : Bool} {labels : List (String × Nat)} {code code' : Program} {i : Nat}
    {x x' insn : Insn} (h : ResolvedAt tco labels code code' i insn) :
    ResolvedAt tco labels (x :: code) (x' :: code') (i + 1) insn := by
  cases insn <;> try exact h
  rcases h with h | ⟨ht, y, n, z, h1, h2⟩
  · exact Or.inl h
  · refine Or.inr ⟨ht, x :: y, n, z, ?_, h2⟩
    rw [List.take_succ_cons, h1]; rfl

theorem resolve_spec {tco : Bool} {labels : List (String × Nat)} (code : Program) : ∀ {code' : Program},
    resolve tco labels code = .ok code' → ∀ i insn, code[i]? = some insn →
    ResolvedAt tco labels code code' i insn := by
  induction code with
  | nil => intro code' _ i insn hi; cases hi
  | cons x code ih =>
    intro code' h i insn hi
    by_cases ho : ∃ n, x = .openCall n
    · obtain ⟨n, rfl⟩ := ho
      obtain ⟨l, rest', hl, hr, rfl⟩ := resolve_open h
      cases i with
      | zero =>
        cases hi
        refine ⟨l, hl, ?_⟩
        rw [List.drop_succ_cons, List.drop_zero]
        split <;> rfl
      | succ i =>
        have hi : code[i]? = some insn := hi
        have := ih hr i insn hi
        split
        · rename_i hn
          obtain ⟨htco, hn⟩ := hn
          cases hlb : labelBefore code with
          | true => rw [if_pos rfl]; exact this.cons
          | false =>
            rw [if_neg (by decide)]
            obtain ⟨k, h1, h2, h3, h4⟩ := nopNext_spec code hn hlb hr
            rw [h4]
            have hk : k < rest'.length := by
              rcases Nat.lt_or_ge k rest'.length with hlt | hge
              · exact hlt
              · rw [List.getElem?_eq_none hge] at h3; cases h3
            have key : k = i ∨ ResolvedAt tco labels code (rest'.set k .nop) i insn := by
              by_cases hki : k = i
              · exact Or.inl hki
              · right
                have hne : (rest'.set k Insn.nop)[i]? = rest'[i]? := List.getElem?_set_ne hki
                cases insn <;> (unfold ResolvedAt at this ⊢; rw [hne]; exact this)
            rcases key with rfl | key
            · rw [h2] at hi
              cases hi
              right
              refine ⟨htco, [], n, code.take k, by rw [List.take_succ_cons]; rfl, ?_⟩
              intro y hy
              obtain ⟨i, hi, rfl⟩ := List.mem_iff_getElem.1 hy
              have hik : i < k := by
                rw [List.length_take] at hi; omega
              have := h1 i hik
              rw [List.getElem_take]
              exact Option.some.inj ((List.getElem?_eq_getElem _).symm.trans this)
            · exact key.cons
        · exact this.cons
    · obtain ⟨rest', hr, rfl⟩ := resolve_cons (fun n hn => ho ⟨n, hn⟩) h
      cases i with
      | zero =>
        cases hi
        have ho : ∀ n, x ≠ .openCall n := fun n hn => ho ⟨n, hn⟩
        cases x with
        | openCall n => exact absurd rfl (ho n)
        | ret => exact Or.inl rfl
        | _ => exact (rfl : (_ :: rest')[0]? = some _)
      | succ i => exact (ih hr i insn hi).cons

theorem resolve_noOpen {tco : Bool} {labels : List (String × Nat)} {code code' : Program}
    (h : resolve tco labels code = .ok code') (n : String) : Insn.openCall n ∉ code' := by
  have key : ∀ (p q : Program), Insn.openCall n ∉ p → nopNext p = q → Insn.openCall n ∉ q := by
    intro p
    induction p with
    | nil => intro q hp hq; subst hq; exact hp
    | cons i p ih =>
      intro q hp hq
      subst hq
      simp only [List.mem_cons, not_or] at hp
      cases i <;> simp only [nopNext, List.mem_cons, not_or] <;>
        first | exact ⟨by simp, ih _ hp.2 rfl⟩ | exact ⟨by simp, hp.2⟩
  induction code generalizing code' with
  | nil => cases h; simp
  | cons x code ih =>
    by_cases ho : ∃ n, x = .openCall n
    · obtain ⟨m, rfl⟩ := ho
      obtain ⟨l, rest', hl, hr, rfl⟩ := resolve_open h
      have := ih hr
      split
      · split
        · simp [this]
        · simp [key _ _ this rfl]
      · simp [this]
    · obtain ⟨rest', hr, rfl⟩ := resolve_cons (fun n hn => ho ⟨n, hn⟩) h
      have := ih hr
      simp only [List.mem_cons, not_or]
      exact ⟨fun hx => ho ⟨n, hx.symm⟩, this⟩

/-! ## No `ret` behind a call placeholder -/

/-- No call placeholder is followed (up to labels and `nop`s) by a `ret`. -/
def OkRet : Program → Prop
  | [] => True
  | .openCall _ :: r => nextInsn r ≠ some .ret ∧ OkRet r
  | _ :: r => OkRet r

theorem OkRet.cons {i : Insn} {r : Program} (ho : ∀ n, i ≠ .openCall n) (h : OkRet r) :
    OkRet (i :: r) := by
  cases i <;> first | exact h | exact absurd rfl (ho _)

theorem OkRet.tail {i : Insn} {r : Program} (h : OkRet (i :: r)) : OkRet r := by
  cases i <;> first | exact h | exact h.2

theorem OkRet.app {x y : Program} (hx : OkRet x) (hy : OkRet y) (hn : nextInsn y ≠ some .ret) :
    OkRet (x ++ y) := by
  induction x with
  | nil => exact hy
  | cons i x ih =>
    by_cases ho : ∃ n, i = .openCall n
    · obtain ⟨n, rfl⟩ := ho
      refine ⟨?_, ih hx.2⟩
      show nextInsn (x ++ y) ≠ some .ret
      rw [nextInsn_app]
      cases hx' : nextInsn x with
      | none => simpa using hn
      | some z =>
        have := hx.1
        rw [hx'] at this
        simpa using this
    · exact OkRet.cons (fun n hn => ho ⟨n, hn⟩) (ih hx.tail)

theorem OkRet.of_noOpen {x : Program} (h : ∀ n, Insn.openCall n ∉ x) : OkRet x := by
  induction x with
  | nil => trivial
  | cons i x ih =>
    exact OkRet.cons (fun n hn => h n (by rw [hn]; exact List.mem_cons_self))
      (ih fun n hn => h n (List.mem_cons_of_mem _ hn))

theorem OkRet.drop {x : Program} (h : OkRet x) (k : Nat) : OkRet (x.drop k) := by
  induction k generalizing x with
  | zero => exact h
  | succ k ih =>
    cases x with
    | nil => trivial
    | cons i x => exact ih h.tail

theorem OkRet.take {x : Program} (h : OkRet x) (k : Nat) : OkRet (x.take k) := by
  induction k generalizing x with
  | zero => trivial
  | succ k ih =>
    cases x with
    | nil => trivial
    | cons i x =>
      by_cases ho : ∃ n, i = .openCall n
      · obtain ⟨n, rfl⟩ := ho
        refine ⟨?_, ih h.2⟩
        intro hn
        have := h.1
        rw [← List.take_append_drop k x, nextInsn_app, hn] at this
        exact this rfl
      · rw [List.take_succ_cons]
        exact OkRet.cons (fun n hn => ho ⟨n, hn⟩) (ih h.tail)

theorem OkRet.at {x y : Program} {n : String} (h : OkRet (x ++ .openCall n :: y)) :
    nextInsn y ≠ some .ret := by
  have := h.drop x.length
  rw [List.drop_left] at this
  exact this.1

/-! ## How code begins -/

/-- Code begins with a proper instruction other than `ret`, or with the label of a memoized
repetition. -/
def Head (raw : Program) : Prop :=
  raw = [] ∨ (∃ x r, raw = x :: r ∧ x.isSkip = false ∧ x ≠ .ret) ∨
    ∃ l l' id r, raw = .label l :: .memoTreeOpen l' id :: r

theorem Head.app {x y : Program} (hx : Head x) (hy : Head y) : Head (x ++ y) := by
  rcases hx with rfl | ⟨i, r, rfl, h1, h2⟩ | ⟨l, l', id, r, rfl⟩
  · exact hy
  · exact Or.inr (Or.inl ⟨i, r ++ y, rfl, h1, h2⟩)
  · exact Or.inr (Or.inr ⟨l, l', id, r ++ y, rfl⟩)

theorem Head.cons {i : Insn} {r : Program} (h1 : i.isSkip = false) (h2 : i ≠ .ret) : Head (i :: r) :=
  Or.inr (Or.inl ⟨i, r, rfl, h1, h2⟩)

theorem Head.nextRet {x : Program} (h : Head x) : nextInsn x ≠ some .ret := by
  rcases h with rfl | ⟨i, r, rfl, h1, h2⟩ | ⟨l, l', id, r, rfl⟩
  · intro h; cases h
  · simp only [nextInsn, h1, Bool.false_eq_true, if_false]
    intro h; cases h; exact h2 rfl
  · intro h; cases h

theorem Head.none {x : Program} (h : Head x) (hn : nextInsn x = none) : x = [] := by
  rcases h with rfl | ⟨i, r, rfl, h1, h2⟩ | ⟨l, l', id, r, rfl⟩
  · rfl
  · simp only [nextInsn, h1, Bool.false_eq_true, if_false] at hn; cases hn
  · cases hn

/-- A simple first instruction comes first. -/
theorem Head.first {x : Program} (h : Head x) {i : Insn} (hn : nextInsn x = some i)
    (hi : ∀ l id, i ≠ .memoTreeOpen l id) : ∃ r, x = i :: r := by
  rcases h with rfl | ⟨i', r, rfl, h1, h2⟩ | ⟨l, l', id, r, rfl⟩
  · cases hn
  · simp only [nextInsn, h1, Bool.false_eq_true, if_false] at hn
    cases hn; exact ⟨r, rfl⟩
  · cases hn; exact absurd rfl (hi _ _)

/-- All static facts about the code of a pattern. -/
structure Stat (raw : Program) : Prop where
  head : Head raw
  okRet : OkRet raw

theorem Stat.app {x y : Program} (hx : Stat x) (hy : Stat y) : Stat (x ++ y) :=
  ⟨hx.head.app hy.head, hx.okRet.app hy.okRet hy.head.nextRet⟩

theorem Stat.cons {i : Insn} {y : Program} (h1 : i.isSkip = false) (h2 : i ≠ .ret)
    (ho : ∀ n, i ≠ .openCall n) (hy : OkRet y) : Stat (i :: y) :=
  ⟨Head.cons h1 h2, hy.cons ho⟩

theorem Stat.one {i : Insn} (h1 : i.isSkip = false) (h2 : i ≠ .ret) : Stat [i] := by
  refine ⟨Head.cons h1 h2, ?_⟩
  cases i <;> first | trivial | exact ⟨by simp [nextInsn], trivial⟩

theorem okRet_app_no {x y : Program} (hx : OkRet x) (hy : ∀ n, Insn.openCall n ∉ y)
    (hn : nextInsn y ≠ some .ret) : OkRet (x ++ y) := hx.app (OkRet.of_noOpen hy) hn

theorem altCode_stat {l r : Program} (l1 l2 : Nat) (hl : Stat l) (hr : Stat r) :
    Stat (altCode l r l1 l2) := by
  have h2 : OkRet (r ++ [Insn.label l2]) :=
    okRet_app_no hr.okRet (by simp) (by simp [nextInsn, Insn.isSkip])
  have h3 : OkRet (Insn.label l1 :: (r ++ [Insn.label l2])) := h2.cons (by simp)
  unfold altCode
  cases ht : altTest l r l1 with
  | some t =>
    have htt : t.isSkip = false ∧ t ≠ .ret ∧ ∀ n, t ≠ .openCall n := by
      unfold altTest at ht
      split at ht
      all_goals first
        | (split at ht <;> cases ht <;> exact ⟨rfl, by simp, by simp⟩)
        | cases ht
    have h4 : OkRet (Insn.jump l2 :: Insn.label l1 :: (r ++ [Insn.label l2])) := h3.cons (by simp)
    have h5 := (hl.okRet.drop 1).app h4 (by simp [nextInsn, Insn.isSkip])
    simpa using Stat.cons htt.1 htt.2.1 htt.2.2 h5
  | none =>
    have h4 : OkRet (Insn.commit l2 :: Insn.label l1 :: (r ++ [Insn.label l2])) :=
      h3.cons (by simp)
    have h5 := hl.okRet.app h4 (by simp [nextInsn, Insn.isSkip])
    simpa using Stat.cons (i := .choice l1) rfl (by simp) (by simp) h5

theorem capPrefix_pos {sub : Program} (h : (capPrefix sub).1 ≠ 0) :
    ∃ x r, sub = x :: r ∧ x.isSkip = false ∧ x ≠ .ret ∧ ∀ n, x ≠ .openCall n := by
  cases sub with
  | nil => exact absurd rfl h
  | cons x r =>
    refine ⟨x, r, rfl, ?_⟩
    cases x <;> first | exact absurd rfl h | exact ⟨rfl, by simp, by simp⟩

theorem capCode_stat {sub : Program} (id : Int) (h : Stat sub) : Stat (capCode sub id) := by
  unfold capCode
  simp only
  split
  · have := okRet_app_no (y := [.captureEnd]) h.okRet (by simp) (by simp [nextInsn, Insn.isSkip])
    simpa using Stat.cons (i := .captureBegin id) rfl (by simp) (by simp) this
  · rename_i hne
    split
    · exact h.app (Stat.one rfl (by simp))
    · obtain ⟨x, r, hx, h1, h2, _⟩ := capPrefix_pos fun h0 => hne (Or.inl h0)
      have h3 : OkRet (sub.drop (capPrefix sub).1 ++ [.captureEnd]) :=
        okRet_app_no (h.okRet.drop _) (by simp) (by simp [nextInsn, Insn.isSkip])
      have h4 : OkRet (.captureLate (UInt8.ofNat (capPrefix sub).2) id ::
        (sub.drop (capPrefix sub).1 ++ [.captureEnd])) := h3.cons (by simp)
      have h5 := (h.okRet.take (capPrefix sub).1).app h4 (by simp [nextInsn, Insn.isSkip])
      have h6 : Head (sub.take (capPrefix sub).1 ++ (.captureLate (UInt8.ofNat (capPrefix sub).2) id ::
        (sub.drop (capPrefix sub).1 ++ [.captureEnd]))) := by
        cases hc : (capPrefix sub).1 with
        | zero => exact absurd (Or.inl hc) hne
        | succ i => rw [hx]; exact Head.cons h1 h2
      simpa using (⟨h6, h5⟩ : Stat _)

theorem resolve_head {tco : Bool} {labels : List (String × Nat)} {n : String} {rest code : Program}
    (h : resolve tco labels (.openCall n :: rest) = .ok code) :
    ∃ l r, code = .jump l :: r ∨ code = .call l :: r := by
  obtain ⟨l, rest', _, _, rfl⟩ := resolve_open h
  split
  · exact ⟨l, _, Or.inl rfl⟩
  · exact ⟨l, _, Or.inr rfl⟩

theorem grammar_stat {tco : Bool} {labels : List (String × Nat)} {n : String} {rest code : Program} (le : Nat)
    (h : resolve tco labels (.openCall n :: rest) = .ok code) : Stat (code ++ [.label le]) := by
  have hno := resolve_noOpen h
  refine ⟨?_, OkRet.of_noOpen fun m hm => ?_⟩
  · obtain ⟨l, r, rfl | rfl⟩ := resolve_head h <;> exact Head.cons rfl (by simp)
  · simp only [List.mem_append, List.mem_singleton, reduceCtorEq, or_false] at hm
    exact hno m hm

theorem lit_noOpen (l : List UInt8) (n : String) : Insn.openCall n ∉ l.map Insn.char := by
  simp

theorem compile_stat (k : Nat) : ∀ {p : Pat} {s s' : CState} {raw : Program},
    CM.Ok (compileF k p) s raw s' → Stat raw := by
  induction k with
  | zero => intro p s s' raw h; exact (comp_zero h).elim
  | succ k ih =>
    intro p s s' raw h
    have halt : ∀ {l r : Pat} {s s' raw}, CM.Ok (compileF (k + 1) (.alt l r)) s raw s' →
        Stat raw := by
      intro l r s s' raw h
      cases hc : combine (get l) (get r) with
      | some cs =>
        obtain ⟨rfl, _⟩ := comp_alt_some hc h
        exact Stat.one rfl (by simp)
      | none =>
        obtain ⟨lc, s1, rc, s2, h1, h2, rfl, _⟩ := comp_alt_none hc h
        exact altCode_stat _ _ (ih h1) (ih h2)
    cases p with
    | alt l r => exact halt h
    | seq l r =>
      obtain ⟨lc, s1, rc, h1, h2, rfl⟩ := comp_seq h
      exact (ih h1).app (ih h2)
    | star p =>
      rcases comp_star h with ⟨cs, hg, rfl, rfl⟩ | ⟨q, id, hg, sub, s1, h1, rfl, rfl⟩ |
        ⟨hm, hcl, sub, s1, h1, rfl, rfl⟩
      · exact Stat.one rfl (by simp)
      · have := okRet_app_no (y := [.commit (s1.lbl + 4), .label (s1.lbl + 4), .memoTreeInsert,
          .label (s1.lbl + 3), .memoTree, .jump (s1.lbl + 1), .label (s1.lbl + 2),
          .memoTreeClose (s1.memo + 1)]) (ih h1).okRet (by simp) (by simp [nextInsn, Insn.isSkip])
        refine ⟨Or.inr (Or.inr ⟨_, _, _, _, rfl⟩), ?_⟩
        rw [List.append_assoc]
        exact ((this.cons (by simp)).cons (by simp)).cons (by simp)
      · have := okRet_app_no (y := [.partialCommit (s1.lbl + 1), .label (s1.lbl + 2)])
          (ih h1).okRet (by simp) (by simp [nextInsn, Insn.isSkip])
        refine ⟨Head.cons rfl (by simp), ?_⟩
        rw [List.append_assoc]
        exact (this.cons (by simp)).cons (by simp)
    | plus p =>
      obtain ⟨st, s1, sub, h1, h2, rfl⟩ := comp_plus h
      exact (ih h2).app (ih h1)
    | opt p =>
      rcases comp_opt h with ⟨b, hg, rfl, rfl⟩ | ⟨cs, hg, rfl, rfl⟩ | ⟨hl, hc, h1⟩
      · exact Stat.cons rfl (by simp) (by simp) trivial
      · exact Stat.cons rfl (by simp) (by simp) trivial
      · exact ih h1
    | not p =>
      obtain ⟨sub, s1, h1, rfl, _⟩ := comp_not h
      have := okRet_app_no (y := [.failTwice, .label (s1.lbl + 1)]) (ih h1).okRet (by simp)
        (by simp [nextInsn, Insn.isSkip])
      rw [List.append_assoc]
      exact Stat.cons rfl (by simp) (by simp) this
    | and p =>
      obtain ⟨sub, s1, h1, rfl, _⟩ := comp_and h
      have := okRet_app_no (y := [.backCommit (s1.lbl + 2), .label (s1.lbl + 1), .fail,
        .label (s1.lbl + 2)]) (ih h1).okRet (by simp) (by simp [nextInsn, Insn.isSkip])
      rw [List.append_assoc]
      exact Stat.cons rfl (by simp) (by simp) this
    | cap p id =>
      obtain ⟨sub, h1, rfl⟩ := comp_cap h
      exact capCode_stat id (ih h1)
    | memo p id =>
      obtain ⟨sub, h1, rfl⟩ := comp_memo h
      have := okRet_app_no (y := [.memoClose, .label (s.lbl + 1)]) (ih h1).okRet (by simp)
        (by simp [nextInsn, Insn.isSkip])
      rw [List.append_assoc]
      exact Stat.cons rfl (by simp) (by simp) this
    | check p c id flag =>
      obtain ⟨sub, h1, rfl⟩ := comp_check h
      have := okRet_app_no (y := [.checkEnd c, .label (s.lbl + 1)]) (ih h1).okRet (by simp)
        (by simp [nextInsn, Insn.isSkip])
      rw [List.append_assoc]
      exact Stat.cons rfl (by simp) (by simp) this
    | search p =>
      obtain ⟨sub, s1, h1, h2⟩ := comp_search h
      exact ih h2
    | emptyOp op => obtain ⟨rfl, _⟩ := comp_emptyOp h; exact Stat.one rfl (by simp)
    | grammar start ds =>
      rcases comp_grammar h with ⟨hu, b, hb, h1⟩ | ⟨hu, labels, fns, code, h1, hr, rfl⟩
      · exact ih h1
      · exact grammar_stat _ hr
    | cls cs => obtain ⟨rfl, _⟩ := comp_cls h; exact Stat.one rfl (by simp)
    | lit l =>
      obtain ⟨rfl, _⟩ := comp_lit h
      refine ⟨?_, OkRet.of_noOpen (lit_noOpen l)⟩
      cases l with
      | nil => exact Or.inl rfl
      | cons b l => exact Head.cons rfl (by simp)
    | nonterm n => obtain ⟨rfl, _⟩ := comp_nonterm h; exact Stat.one rfl (by simp)
    | inl n b => exact ih (comp_inl h)
    | dot n => obtain ⟨rfl, _⟩ := comp_dot h; exact Stat.one rfl (by simp)
    | err m =>
      obtain ⟨rfl, _⟩ := comp_err h
      exact Stat.cons rfl (by simp) (by simp) trivial
    | errRec m p =>
      obtain ⟨sub, h1, rfl⟩ := comp_errRec h
      exact Stat.cons rfl (by simp) (by simp) (ih h1).okRet
    | empty => obtain ⟨rfl, _⟩ := comp_empty h; exact ⟨Or.inl rfl, trivial⟩

end Gpeg
