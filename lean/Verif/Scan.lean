import Verif.Static
/-! # The simple instructions at the start of compiled code -/
namespace Gpeg
variable {σ : Type}

/-! ## `Get` keeps names and scoping -/

theorem get_static (k : Nat) : ∀ p : Pat, (∀ m ∈ (getF k p).nts, m ∈ p.nts) ∧
    (p.Scoped → (getF k p).Scoped) := by
  induction k with
  | zero => intro p; exact ⟨fun _ h => h, fun h => h⟩
  | succ k ih =>
    intro p
    have hopt : ∀ q x : Pat, (∀ m ∈ x.nts, m ∈ q.nts) → (q.Scoped → x.Scoped) →
        (∀ m ∈ (optGet (.opt q) x).nts, m ∈ q.nts) ∧ (q.Scoped → (optGet (.opt q) x).Scoped) := by
      intro q x h1 h2
      unfold optGet
      split
      · exact ⟨h1, h2⟩
      · exact ⟨fun _ h => h, fun h => h⟩
    cases p with
    | inl n b => exact ⟨fun _ h => h, fun h => h⟩
    | alt l r =>
      obtain ⟨hl1, hl2⟩ := ih l
      obtain ⟨hr1, hr2⟩ := ih r
      show (∀ m ∈ (altGet (.alt l r) (getF k l) (getF k r) (getF k)).nts, m ∈ l.nts ++ r.nts) ∧
        (l.Scoped ∧ r.Scoped → (altGet (.alt l r) (getF k l) (getF k r) (getF k)).Scoped)
      unfold altGet
      split
      · exact ⟨fun m h => List.mem_append_left _ (hl1 m h), fun h => hl2 h.1⟩
      · split
        · obtain ⟨h1, h2⟩ := hopt (getF k l) (getF k (getF k l)) (ih _).1 (ih _).2
          exact ⟨fun m h => List.mem_append_left _ (hl1 m (h1 m h)), fun h => h2 (hl2 h.1)⟩
        · split
          · exact ⟨(fun m h => by cases h), fun _ => trivial⟩
          · exact ⟨fun _ h => h, fun h => h⟩
    | opt q =>
      exact hopt q (getF k q) (ih q).1 (ih q).2
    | seq l r =>
      obtain ⟨hl1, hl2⟩ := ih l
      obtain ⟨hr1, hr2⟩ := ih r
      show (∀ m ∈ (seqGet (.seq l r) (getF k l) (getF k r) (getF k)).nts, m ∈ l.nts ++ r.nts) ∧
        (l.Scoped ∧ r.Scoped → (seqGet (.seq l r) (getF k l) (getF k r) (getF k)).Scoped)
      unfold seqGet
      split
      · exact ⟨fun m h => List.mem_append_left _ (hl1 m h), fun h => hl2 h.1⟩
      · split
        · exact ⟨fun m h => List.mem_append_right _ (hr1 m h), fun h => hr2 h.2⟩
        · split
          · split
            · rename_i set _
              cases hn : negSeq set (getF k r) with
              | none => exact ⟨fun _ h => h, fun h => h⟩
              | some x =>
                have : ∃ cs, x = .cls cs := by
                  unfold negSeq at hn
                  split at hn <;> cases hn <;> exact ⟨_, rfl⟩
                obtain ⟨cs, rfl⟩ := this
                exact ⟨(fun m h => by cases h), fun _ => trivial⟩
            · exact ⟨fun _ h => h, fun h => h⟩
          · exact ⟨fun _ h => h, fun h => h⟩
    | _ => exact ⟨fun _ h => h, fun h => h⟩

theorem get_nts {p : Pat} {m : String} (h : m ∈ (get p).nts) : m ∈ p.nts := (get_static _ p).1 m h
theorem get_Scoped {p : Pat} (h : p.Scoped) : (get p).Scoped := (get_static _ p).2 h

/-! ## Call placeholders come from non-terminals -/

theorem capCode_open {sub : Program} {id : Int} {n : String} (h : Insn.openCall n ∈ capCode sub id) :
    Insn.openCall n ∈ sub := by
  unfold capCode at h
  simp only at h
  split at h
  · simpa using h
  · split at h
    · simpa using h
    · simp only [List.mem_append, List.mem_singleton, reduceCtorEq, or_false] at h
      rcases h with h | h
      · exact List.mem_of_mem_take h
      · exact List.mem_of_mem_drop h

theorem altCode_open {l r : Program} {l1 l2 : Nat} {n : String}
    (h : Insn.openCall n ∈ altCode l r l1 l2) : Insn.openCall n ∈ l ∨ Insn.openCall n ∈ r := by
  unfold altCode at h
  cases ht : altTest l r l1 with
  | some t =>
    rw [ht] at h
    have htt : Insn.openCall n ≠ t := by
      unfold altTest at ht
      split at ht
      all_goals first
        | (split at ht <;> cases ht <;> simp)
        | cases ht
    simp only [List.mem_append, List.mem_singleton, reduceCtorEq, or_false, htt, false_or] at h
    rcases h with h | h
    · exact Or.inl (List.mem_of_mem_drop h)
    · exact Or.inr h
  | none =>
    rw [ht] at h
    simpa using h

/-- The code of a pattern calls its non-terminals only; the code of a grammar calls nothing. -/
theorem compile_open' (k : Nat) : ∀ {p : Pat} {s s' : CState} {raw : Program} {n : String},
    CM.Ok (compileF k p) s raw s' → Insn.openCall n ∈ raw →
    n ∈ p.nts ∧ ∀ st ds, p ≠ .grammar st ds := by
  induction k with
  | zero => intro p s s' raw n h; exact (comp_zero h).elim
  | succ k ih =>
    intro p s s' raw n h hm
    have sub1 : ∀ {q : Pat} {s s' raw}, CM.Ok (compileF k (get q)) s raw s' →
        Insn.openCall n ∈ raw → n ∈ q.nts := fun h hm => get_nts (ih h hm).1
    cases p with
    | alt l r =>
      refine ⟨?_, by simp⟩
      cases hc : combine (get l) (get r) with
      | some cs =>
        obtain ⟨rfl, _⟩ := comp_alt_some hc h
        simp at hm
      | none =>
        obtain ⟨lc, s1, rc, s2, h1, h2, rfl, _⟩ := comp_alt_none hc h
        rcases altCode_open hm with hm | hm
        · exact List.mem_append_left _ (sub1 h1 hm)
        · exact List.mem_append_right _ (sub1 h2 hm)
    | seq l r =>
      refine ⟨?_, by simp⟩
      obtain ⟨lc, s1, rc, h1, h2, rfl⟩ := comp_seq h
      rcases List.mem_append.1 hm with hm | hm
      · exact List.mem_append_left _ (sub1 h1 hm)
      · exact List.mem_append_right _ (sub1 h2 hm)
    | star p =>
      refine ⟨?_, by simp⟩
      rcases comp_star h with ⟨cs, hg, rfl, rfl⟩ | ⟨q, id, hg, sub, s1, h1, rfl, rfl⟩ |
        ⟨hm', hcl, sub, s1, h1, rfl, rfl⟩
      · simp at hm
      · have := sub1 h1 (by simpa using hm)
        refine get_nts (p := p) ?_
        rw [hg]; exact this
      · exact sub1 (q := p) h1 (by simpa using hm)
    | plus p =>
      refine ⟨?_, by simp⟩
      obtain ⟨st, s1, sub, h1, h2, rfl⟩ := comp_plus h
      rcases List.mem_append.1 hm with hm | hm
      · exact sub1 (q := p) h2 hm
      · exact get_nts (p := p) (ih h1 hm).1
    | opt p =>
      refine ⟨?_, by simp⟩
      rcases comp_opt h with ⟨b, hg, rfl, rfl⟩ | ⟨cs, hg, rfl, rfl⟩ | ⟨hl, hc, h1⟩
      · simp at hm
      · simp at hm
      · have := (ih h1 hm).1
        simp only [Pat.nts, List.append_nil] at this
        exact get_nts (p := p) this
    | not p =>
      obtain ⟨sub, s1, h1, rfl, _⟩ := comp_not h
      exact ⟨sub1 (q := p) h1 (by simpa using hm), by simp⟩
    | and p =>
      obtain ⟨sub, s1, h1, rfl, _⟩ := comp_and h
      exact ⟨sub1 (q := p) h1 (by simpa using hm), by simp⟩
    | cap p id =>
      obtain ⟨sub, h1, rfl⟩ := comp_cap h
      exact ⟨sub1 (q := p) h1 (capCode_open hm), by simp⟩
    | memo p id =>
      obtain ⟨sub, h1, rfl⟩ := comp_memo h
      exact ⟨sub1 (q := p) h1 (by simpa using hm), by simp⟩
    | check p c id flag =>
      obtain ⟨sub, h1, rfl⟩ := comp_check h
      exact ⟨sub1 (q := p) h1 (by simpa using hm), by simp⟩
    | search p =>
      obtain ⟨sub, s1, h1, h2⟩ := comp_search h
      exact absurd rfl ((ih h2 hm).2 _ _)
    | emptyOp op => obtain ⟨rfl, _⟩ := comp_emptyOp h; simp at hm
    | grammar start ds =>
      rcases comp_grammar h with ⟨hu, b, hb, h1⟩ | ⟨hu, labels, fns, code, h1, hr, rfl⟩
      · have := Defs.find_nts hb n (ih h1 hm).1
        rw [hu] at this; cases this
      · simp only [List.mem_append, List.mem_singleton, reduceCtorEq, or_false] at hm
        exact absurd hm (resolve_noOpen hr n)
    | cls cs => obtain ⟨rfl, _⟩ := comp_cls h; simp at hm
    | lit l => obtain ⟨rfl, _⟩ := comp_lit h; exact absurd hm (lit_noOpen l n)
    | nonterm m =>
      obtain ⟨rfl, _⟩ := comp_nonterm h
      exact ⟨by simpa [Pat.nts] using hm, by simp⟩
    | inl m b => exact ⟨(ih (comp_inl h) hm).1, by simp⟩
    | dot m => obtain ⟨rfl, _⟩ := comp_dot h; simp at hm
    | err m => obtain ⟨rfl, _⟩ := comp_err h; simp at hm
    | errRec m p =>
      obtain ⟨sub, h1, rfl⟩ := comp_errRec h
      exact ⟨sub1 (q := p) h1 (by simpa using hm), by simp⟩
    | empty => obtain ⟨rfl, _⟩ := comp_empty h; simp at hm

theorem compile_open {k : Nat} {p : Pat} {s s' : CState} {raw : Program} {n : String}
    (h : CM.Ok (compileF k p) s raw s') (hm : Insn.openCall n ∈ raw) : n ∈ p.nts :=
  (compile_open' k h hm).1

theorem grammar_noOpen {k : Nat} {st : String} {ds : Defs} {s s' : CState} {raw : Program}
    (n : String) (h : CM.Ok (compileF k (.grammar st ds)) s raw s') : Insn.openCall n ∉ raw :=
  fun hm => (compile_open' k h hm).2 _ _ rfl

/-! ## Running over simple instructions -/

/-- The first `i` instructions are simple and accept the input; then the code ends (`b`), or a
simple instruction rejects the input. -/
def Stop (data : List UInt8) (i : Nat) (raw : Program) (pos : Nat) (b : Bool) : Prop :=
  Matched data i raw pos ∧
    if b then i = raw.length
    else ∃ insn, raw[i]? = some insn ∧ simpleAt data (pos + i) insn = some false

theorem Matched.head {data : List UInt8} {i : Nat} {x : Insn} {r : Program} {pos : Nat}
    (h : Matched data i (x :: r) pos) (hx : ∀ q, simpleAt data q x = none) : i = 0 := by
  cases i with
  | zero => rfl
  | succ i =>
    obtain ⟨insn, h1, h2⟩ := h.2 0 (by omega)
    cases h1
    rw [hx] at h2; cases h2

theorem Stop.head {data : List UInt8} {i : Nat} {x : Insn} {r : Program} {pos : Nat} {b : Bool}
    (h : Stop data i (x :: r) pos b) (hx : ∀ q, simpleAt data q x = none) : False := by
  have h0 := h.1.head hx
  subst h0
  have := h.2
  cases b with
  | true => simp at this
  | false =>
    simp only [Bool.false_eq_true, if_false] at this
    obtain ⟨insn, h1, h2⟩ := this
    cases h1
    rw [hx] at h2; cases h2

theorem Matched.left {data : List UInt8} {i : Nat} {x y : Program} {pos : Nat}
    (h : Matched data i (x ++ y) pos) (hi : i ≤ x.length) : Matched data i x pos := by
  refine ⟨hi, fun j hj => ?_⟩
  obtain ⟨insn, h1, h2⟩ := h.2 j hj
  rw [List.getElem?_append_left (by omega)] at h1
  exact ⟨insn, h1, h2⟩

theorem Matched.le {data : List UInt8} {i j : Nat} {x : Program} {pos : Nat}
    (h : Matched data i x pos) (hj : j ≤ i) : Matched data j x pos :=
  ⟨Nat.le_trans hj h.1, fun k hk => h.2 k (by omega)⟩

theorem Matched.right {data : List UInt8} {i : Nat} {x y : Program} {pos : Nat}
    (h : Matched data i (x ++ y) pos) (hi : x.length ≤ i) :
    Matched data (i - x.length) y (pos + x.length) := by
  refine ⟨by have := h.1; rw [List.length_append] at this; omega, fun j hj => ?_⟩
  obtain ⟨insn, h1, h2⟩ := h.2 (x.length + j) (by omega)
  rw [List.getElem?_append_right (by omega), Nat.add_sub_cancel_left] at h1
  exact ⟨insn, h1, by rw [Nat.add_assoc]; exact h2⟩

theorem Matched.app {data : List UInt8} {i : Nat} {x : Program} {pos : Nat}
    (h : Matched data i x pos) (y : Program) : Matched data i (x ++ y) pos := by
  refine ⟨by rw [List.length_append]; have := h.1; omega, fun j hj => ?_⟩
  obtain ⟨insn, h1, h2⟩ := h.2 j hj
  exact ⟨insn, by rw [List.getElem?_append_left (by have := h.1; omega)]; exact h1, h2⟩

theorem Stop.split {data : List UInt8} {i : Nat} {x y : Program} {pos : Nat} {b : Bool}
    (h : Stop data i (x ++ y) pos b) :
    (b = false ∧ Stop data i x pos false) ∨
    (x.length ≤ i ∧ Stop data x.length x pos true ∧
      Stop data (i - x.length) y (pos + x.length) b) := by
  obtain ⟨hm, hs⟩ := h
  rcases Nat.lt_or_ge i x.length with hlt | hge
  · left
    cases b with
    | true => simp at hs; omega
    | false =>
      simp only [Bool.false_eq_true, if_false] at hs
      obtain ⟨insn, h1, h2⟩ := hs
      rw [List.getElem?_append_left hlt] at h1
      exact ⟨rfl, hm.left (by omega), by simpa using ⟨insn, h1, h2⟩⟩
  · right
    refine ⟨hge, ⟨(hm.le hge).left (Nat.le_refl _), by simp⟩, hm.right hge, ?_⟩
    cases b with
    | true => simp at hs ⊢; omega
    | false =>
      simp only [Bool.false_eq_true, if_false] at hs ⊢
      obtain ⟨insn, h1, h2⟩ := hs
      rw [List.getElem?_append_right hge] at h1
      refine ⟨insn, h1, ?_⟩
      rw [show pos + x.length + (i - x.length) = pos + i by omega]
      exact h2

/-- Code that begins with an instruction that is not simple. -/
def Complex (raw : Program) : Prop := ∃ x r, raw = x :: r ∧ ∀ data q, simpleAt data q x = none

theorem Complex.stop {raw : Program} (h : Complex raw) {data : List UInt8} {i pos : Nat} {b : Bool}
    (hs : Stop data i raw pos b) : False := by
  obtain ⟨x, r, rfl, hx⟩ := h
  exact hs.head (hx data)

theorem Complex.matched {raw : Program} (h : Complex raw) {data : List UInt8} {i pos : Nat}
    (hs : Matched data i raw pos) : i = 0 := by
  obtain ⟨x, r, rfl, hx⟩ := h
  exact hs.head (hx data)

theorem altCode_complex (l r : Program) (l1 l2 : Nat) : Complex (altCode l r l1 l2) := by
  unfold altCode
  cases ht : altTest l r l1 with
  | some t =>
    refine ⟨t, _, rfl, ?_⟩
    unfold altTest at ht
    split at ht
    all_goals first
      | (split at ht <;> cases ht <;> intros <;> rfl)
      | cases ht
  | none => exact ⟨_, _, rfl, fun _ _ => rfl⟩

theorem star_complex {k : Nat} {p : Pat} {s s' : CState} {raw : Program}
    (h : CM.Ok (compileF k (.star p)) s raw s') : Complex raw := by
  cases k with
  | zero => exact (comp_zero h).elim
  | succ k =>
    rcases comp_star h with ⟨cs, hg, rfl, rfl⟩ | ⟨q, id, hg, sub, s1, h1, rfl, rfl⟩ |
      ⟨hm', hcl, sub, s1, h1, rfl, rfl⟩ <;> exact ⟨_, _, rfl, fun _ _ => rfl⟩

theorem resolve_complex {tco : Bool} {labels : List (String × Nat)} {n : String} {rest code x : Program}
    (h : resolve tco labels (.openCall n :: rest) = .ok code) : Complex (code ++ x) := by
  obtain ⟨l, r, rfl | rfl⟩ := resolve_head h <;> exact ⟨_, _, rfl, fun _ _ => rfl⟩

/-- The grammar a search is compiled to is not changed by inlining. -/
theorem search_inline (q : Pat) (sub : Program) :
    (Defs.cons "S" (.alt q (.seq (.dot 1) (searchRest sub))) .nil).inline =
      Defs.cons "S" (.alt q (.seq (.dot 1) (searchRest sub))) .nil := by
  have hS : "S" ∈ (searchRest sub).nts := by
    unfold searchRest
    split
    · simp [Pat.nts]
    · split <;> simp [Pat.nts]
    · simp [Pat.nts]
  have hel : ∀ n, (Defs.cons "S" (.alt q (.seq (.dot 1) (searchRest sub))) .nil).eligible n =
      none := by
    intro n
    unfold Defs.eligible Defs.find
    by_cases hn : "S" = n
    · rw [if_pos hn]
      simp only
      rw [if_neg]
      rintro ⟨_, h⟩
      simp only [Pat.nts, List.append_eq_nil_iff] at h
      rw [h.2.2] at hS; cases hS
    · rw [if_neg hn]; rfl
  have hst : (Defs.cons "S" (.alt q (.seq (.dot 1) (searchRest sub))) .nil).inlineStep = none := by
    unfold Defs.inlineStep
    rw [if_neg]
    simp [hel]
  unfold Defs.inline
  generalize (Defs.cons "S" (.alt q (.seq (.dot 1) (searchRest sub))) .nil).nts.length = k
  cases k with
  | zero => rfl
  | succ k => unfold Defs.inlineLoop; rw [hst]

theorem search_nts (q : Pat) (sub : Program) :
    (Defs.cons "S" (.alt q (.seq (.dot 1) (searchRest sub))) .nil).nts ≠ [] := by
  simp only [Defs.nts, Pat.nts, List.append_nil, List.nil_append]
  intro h
  have h := (List.append_eq_nil_iff.1 h).2
  unfold searchRest at h
  split at h
  · simp [Pat.nts] at h
  · split at h <;> simp [Pat.nts] at h
  · simp [Pat.nts] at h

theorem search_complex {k : Nat} {q : Pat} {sub : Program} {s s' : CState} {raw : Program}
    (h : CM.Ok (compileF k (.grammar "S"
      (.cons "S" (.alt q (.seq (.dot 1) (searchRest sub))) .nil))) s raw s') : Complex raw := by
  cases k with
  | zero => exact (comp_zero h).elim
  | succ k =>
    rcases comp_grammar h with ⟨hu, bd, hb, h1⟩ | ⟨hu, labels, fns, code, h1, hr, rfl⟩
    · rw [search_inline] at hu
      exact absurd hu (search_nts q sub)
    · exact resolve_complex hr

theorem capPrefix_le (sub : Program) : (capPrefix sub).1 ≤ sub.length := by
  induction sub with
  | nil => exact Nat.zero_le _
  | cons x r ih =>
    cases x <;> first | exact Nat.zero_le _ | exact Nat.succ_le_succ ih

/-- How far simple code that stops at `i` is known to have looked. -/
def farB (raw : Program) (pos i : Nat) (b : Bool) : Nat := noted raw pos (if b then i else i + 1)

theorem farB_ok {raw : Program} {pos i : Nat} : farB raw pos i true = noted raw pos i := rfl
theorem farB_fail {raw : Program} {pos i : Nat} : farB raw pos i false = noted raw pos (i + 1) := rfl
theorem farB_zero {raw : Program} {pos : Nat} : farB raw pos 0 true = 0 := noted_zero _ _

theorem farB_one {x : Insn} (pos : Nat) (b : Bool) : farB [x] pos (if b then 1 else 0) b = x.note pos := by
  cases b <;> simp [farB, noted_cons, noted]

theorem farB_app {x y : Program} {pos i : Nat} {b : Bool} (h : x.length ≤ i) :
    max (farB x pos x.length true) (farB y (pos + x.length) (i - x.length) b) ≤ farB (x ++ y) pos i b := by
  cases b with
  | true => rw [farB_ok, farB_ok, farB_ok, noted_app x y pos i h]; exact Nat.le_refl _
  | false =>
    rw [farB_ok, farB_fail, farB_fail, noted_app x y pos (i + 1) (by omega), show i + 1 - x.length = i - x.length + 1 by omega]
    exact Nat.le_refl _

theorem farB_left {x y : Program} {pos i : Nat} {b : Bool} (h : i < x.length) : farB (x ++ y) pos i b = farB x pos i b := by
  cases b with
  | true => rw [farB_ok, farB_ok, noted_le_app _ _ _ _ (by omega)]
  | false => rw [farB_fail, farB_fail, noted_le_app _ _ _ _ (by omega)]

theorem Stop.lt {data : List UInt8} {i : Nat} {x : Program} {pos : Nat} (h : Stop data i x pos false) : i < x.length := by
  obtain ⟨_, insn, h1, _⟩ := h
  exact (List.getElem?_eq_some_iff.1 h1).1

theorem capCode_stop {data : List UInt8} {i : Nat} {sub : Program} {id : Int} {pos : Nat} {b : Bool}
    (h : Stop data i (capCode sub id) pos b) : b = false ∧ Stop data i sub pos false ∧
      noted (capCode sub id) pos (i + 1) = noted sub pos (i + 1) := by
  unfold capCode at h ⊢
  simp only at h ⊢
  split at h
  · exact (Complex.stop ⟨_, _, rfl, fun _ _ => rfl⟩ h).elim
  · split at h
    · rename_i h1 h2
      rw [if_neg h1, if_pos h2]
      rcases h.split with ⟨hb, h⟩ | ⟨_, _, h⟩
      · exact ⟨hb, h, noted_le_app _ _ _ _ h.lt⟩
      · exact (Complex.stop ⟨_, _, rfl, fun _ _ => rfl⟩ h).elim
    · rename_i h1 h2
      rw [if_neg h1, if_neg h2]
      rw [List.append_assoc, List.append_assoc] at h ⊢
      rcases h.split with ⟨hb, h⟩ | ⟨_, _, h⟩
      · have hlt := h.lt
        refine ⟨hb, ?_, by
          rw [noted_le_app _ _ _ _ hlt, noted_take _ _ _ _ (by simp at hlt; omega) (capPrefix_le sub)]⟩
        obtain ⟨hm, hs⟩ := h
        have happ := hm.app (sub.drop (capPrefix sub).1)
        rw [List.take_append_drop] at happ
        refine ⟨happ, ?_⟩
        simp only [Bool.false_eq_true, if_false] at hs ⊢
        obtain ⟨insn, h1, h2⟩ := hs
        refine ⟨insn, ?_, h2⟩
        rw [List.getElem?_take] at h1
        split at h1
        · exact h1
        · cases h1
      · exact (Complex.stop ⟨_, _, rfl, fun _ _ => rfl⟩ h).elim

/-- One simple instruction. -/
theorem Stop.one {data : List UInt8} {i : Nat} {x : Insn} {pos : Nat} {b : Bool}
    (h : Stop data i [x] pos b) : simpleAt data pos x = some b ∧ i = if b then 1 else 0 := by
  obtain ⟨hm, hs⟩ := h
  cases b with
  | true =>
    simp at hs
    subst hs
    obtain ⟨insn, h1, h2⟩ := hm.2 0 (by omega)
    cases h1
    exact ⟨h2, rfl⟩
  | false =>
    simp only [Bool.false_eq_true, if_false] at hs
    obtain ⟨insn, h1, h2⟩ := hs
    have : i = 0 := by
      cases i with
      | zero => rfl
      | succ i => simp at h1
    subst this
    cases h1
    exact ⟨h2, rfl⟩

theorem lit_stop {data : List UInt8} (l : List UInt8) : ∀ {i pos : Nat} {b : Bool},
    Stop data i (l.map Insn.char) pos b →
    ∃ far, evalLit data pos l = (if b then some (pos + i) else none, far) ∧
      far ≤ farB (l.map Insn.char) pos i b := by
  induction l with
  | nil =>
    intro i pos b h
    cases b with
    | true =>
      have : i = 0 := h.2
      subst this
      exact ⟨0, rfl, Nat.zero_le _⟩
    | false =>
      obtain ⟨insn, h1, _⟩ := h.2
      cases h1
  | cons c l ih =>
    intro i pos b h
    rcases (show Stop data i ([Insn.char c] ++ l.map Insn.char) pos b from h).split with
      ⟨rfl, h'⟩ | ⟨hi, h1, h2⟩
    · obtain ⟨h1, h2⟩ := Stop.one (x := .char c) h'
      simp at h2
      subst h2
      simp only [simpleAt, Option.some.injEq, decide_eq_false_iff_not] at h1
      exact ⟨pos + 1, by simp [evalLit, h1], by simp [farB, noted_cons, Insn.note]; omega⟩
    · obtain ⟨h3, _⟩ := h1.one
      simp only [simpleAt, Option.some.injEq, decide_eq_true_eq] at h3
      obtain ⟨far, h4, h5⟩ := ih h2
      simp only [List.length_singleton] at h4 h5 hi
      refine ⟨max (pos + 1) far, ?_, ?_⟩
      · simp only [evalLit, h3, if_true, h4, Prod.mk.injEq, and_true]
        cases b
        · rfl
        · simp only [if_true, Option.some.injEq]; omega
      · have h6 := farB_app (x := [Insn.char c]) (y := l.map Insn.char) (pos := pos) (b := b) hi
        have h7 : farB [Insn.char c] pos 1 true = pos + 1 := by simp [farB, noted]
        simp only [List.length_singleton, h7] at h6
        rw [List.map_cons, show Insn.char c :: l.map Insn.char = [Insn.char c] ++ l.map Insn.char from rfl]
        omega

theorem scan_cls {c : Ctx σ} {env : Env} {w : World σ} {p : Pat} {cs : CSet} {i pos : Nat} {b : Bool}
    (hp : RefP σ p (.cls cs)) (h : Stop c.data i [Insn.set cs] pos b) :
    ∃ far, Evals c env p pos w (if b then .ok (pos + i) [] else .fail, far, w) ∧
      far ≤ farB [Insn.set cs] pos i b := by
  obtain ⟨h1, rfl⟩ := h.one
  simp only [simpleAt, Option.some.injEq] at h1
  refine ⟨pos + 1, hp.ge _ _ _ _ _ (evals_cls.2 ?_), ?_⟩
  · unfold clsEv
    rw [h1]
    cases b <;> rfl
  · rw [farB_one]; exact Nat.le_refl _

/-- If the code runs through simple instructions only, that decides the pattern. -/
theorem scan {c : Ctx σ} (k : Nat) : ∀ {p : Pat} {s s' : CState} {raw : Program} {env : Env}
    {pos i : Nat} {w : World σ} {b : Bool}, CM.Ok (compileF k p) s raw s' → p.Scoped →
    Stop c.data i raw pos b →
    ∃ far, Evals c env p pos w (if b then .ok (pos + i) [] else .fail, far, w) ∧
      far ≤ farB raw pos i b := by
  induction k with
  | zero => intro p s s' raw env pos i w b h; exact (comp_zero h).elim
  | succ k ih =>
    intro p s s' raw env pos i w b h hsc hst
    have nostop : ∀ {x r}, (∀ q, simpleAt c.data q x = none) → raw = x :: r → False :=
      fun hx hr => by rw [hr] at hst; exact hst.head hx
    have sub1 : ∀ {q : Pat} {s s' raw pos i w b}, CM.Ok (compileF k (get q)) s raw s' → q.Scoped →
        Stop c.data i raw pos b →
        ∃ far, Evals c env q pos w (if b then .ok (pos + i) [] else .fail, far, w) ∧
          far ≤ farB raw pos i b := by
      intro q s s' raw pos i w b h hsc hst
      obtain ⟨far, h1, h2⟩ := ih (env := env) (w := w) h (get_Scoped hsc) hst
      exact ⟨far, (refP_get q).ge _ _ _ _ _ h1, h2⟩
    cases p with
    | alt l r =>
      cases hc : combine (get l) (get r) with
      | some cs =>
        obtain ⟨rfl, _⟩ := comp_alt_some hc h
        exact scan_cls ((refP_alt (refP_get l) (refP_get r)).trans (refP_combine hc)) hst
      | none =>
        obtain ⟨lc, s1, rc, s2, h1, h2, rfl, _⟩ := comp_alt_none hc h
        exact ((altCode_complex _ _ _ _).stop hst).elim
    | seq l r =>
      obtain ⟨lc, s1, rc, h1, h2, rfl⟩ := comp_seq h
      rcases hst.split with ⟨rfl, h3⟩ | ⟨hi, h3, h4⟩
      · obtain ⟨far, h5, h6⟩ := sub1 (w := w) h1 hsc.1 h3
        refine ⟨far, evals_seq.2 ⟨_, h5, rfl⟩, by rw [farB_left h3.lt]; exact h6⟩
      · obtain ⟨far, h5, h6⟩ := sub1 (w := w) h1 hsc.1 h3
        obtain ⟨far', h7, h8⟩ := sub1 (w := w) h2 hsc.2 h4
        refine ⟨max far far', evals_seq.2 ⟨_, h5, ?_⟩, ?_⟩
        · refine ⟨_, ⟨_, h7, rfl⟩, ?_⟩
          cases b
          · rfl
          · simp only [if_true, Res.prepend, List.nil_append]
            rw [show pos + lc.length + (i - lc.length) = pos + i by omega]
        · have := farB_app (x := lc) (y := rc) (pos := pos) (b := b) hi
          omega
    | star p => exact ((star_complex h).stop hst).elim
    | plus p =>
      obtain ⟨st, s1, sub, h1, h2, rfl⟩ := comp_plus h
      rcases hst.split with ⟨rfl, h3⟩ | ⟨hi, h3, h4⟩
      · obtain ⟨far, h5, h6⟩ := sub1 (q := p) (w := w) h2 hsc h3
        refine ⟨far, evals_plus.2 ⟨_, h5, rfl⟩, by rw [farB_left h3.lt]; exact h6⟩
      · exact ((star_complex h1).stop h4).elim
    | opt p =>
      rcases comp_opt h with ⟨b, hg, rfl, rfl⟩ | ⟨cs, hg, rfl, rfl⟩ | ⟨hl, hc, h1⟩
      · exact (nostop (fun _ => rfl) rfl).elim
      · exact (nostop (fun _ => rfl) rfl).elim
      · cases k with
        | zero => exact (comp_zero h1).elim
        | succ k =>
          have hcn : combine (get (get p)) (get .empty) = none := by
            have : get .empty = .empty := rfl
            rw [this]
            cases get (get p) <;> first | rfl | (rename_i l; cases l <;> first | rfl | (rename_i l; cases l <;> rfl))
          obtain ⟨lc, s1, rc, s2, h2, h3, rfl, _⟩ := comp_alt_none hcn h1
          exact ((altCode_complex _ _ _ _).stop hst).elim
    | not p =>
      obtain ⟨sub, s1, h1, rfl, _⟩ := comp_not h
      exact (nostop (fun _ => rfl) rfl).elim
    | and p =>
      obtain ⟨sub, s1, h1, rfl, _⟩ := comp_and h
      exact (nostop (fun _ => rfl) rfl).elim
    | cap p id =>
      obtain ⟨sub, h1, rfl⟩ := comp_cap h
      obtain ⟨rfl, h2, h3⟩ := capCode_stop hst
      obtain ⟨far, h5, h6⟩ := sub1 (q := p) (w := w) h1 hsc h2
      exact ⟨far, evals_cap.2 ⟨_, h5, rfl⟩, by rw [farB_fail, h3]; exact h6⟩
    | memo p id =>
      obtain ⟨sub, h1, rfl⟩ := comp_memo h
      exact (nostop (fun _ => rfl) rfl).elim
    | check p ck id flag =>
      obtain ⟨sub, h1, rfl⟩ := comp_check h
      exact (nostop (fun _ => rfl) rfl).elim
    | search p =>
      obtain ⟨sub, s1, h1, h2⟩ := comp_search h
      exact ((search_complex h2).stop hst).elim
    | emptyOp op => obtain ⟨rfl, _⟩ := comp_emptyOp h; exact (nostop (fun _ => rfl) rfl).elim
    | grammar start ds =>
      rcases comp_grammar h with ⟨hu, bd, hb, h1⟩ | ⟨hu, labels, fns, code, h1, hr, rfl⟩
      · have hrel := inlRel_inline ds
        obtain ⟨far, h2, h3⟩ := ih (env := ds.inline :: env) (w := w) h1
          (Defs.find_Scoped hb (hrel.scp hsc.2)) hst
        refine ⟨far, ?_, h3⟩
        obtain ⟨n, hn⟩ := evals_grammar.2 ⟨bd, hb, h2⟩
        exact ⟨n, by rw [← eval_inline c hsc.1]; exact hn⟩
      · exact ((resolve_complex hr).stop hst).elim
    | cls cs =>
      obtain ⟨rfl, _⟩ := comp_cls h
      exact scan_cls (RefP.refl _) hst
    | lit l =>
      obtain ⟨rfl, _⟩ := comp_lit h
      obtain ⟨far, h1, h2⟩ := lit_stop l hst
      refine ⟨far, evals_lit.2 ?_, h2⟩
      unfold litEv
      rw [h1]
      cases b <;> rfl
    | nonterm m => obtain ⟨rfl, _⟩ := comp_nonterm h; exact (nostop (fun _ => rfl) rfl).elim
    | inl m bd =>
      obtain ⟨far, h1, h2⟩ := ih (env := env) (w := w) (comp_inl h) hsc hst
      exact ⟨far, evals_inl.2 h1, h2⟩
    | dot m =>
      obtain ⟨rfl, _⟩ := comp_dot h
      obtain ⟨h1, rfl⟩ := hst.one
      simp only [simpleAt] at h1
      split at h1
      · rename_i hm
        subst hm
        refine ⟨0, evals_dot.2 ?_, Nat.zero_le _⟩
        · simp only [Option.some.injEq] at h1
          unfold dotEv
          cases b
          · simp only [decide_eq_false_iff_not] at h1
            exact (if_neg (show ¬ pos + 1 ≤ c.data.length by omega)).symm
          · simp only [decide_eq_true_eq] at h1
            exact (if_pos (show pos + 1 ≤ c.data.length by omega)).symm
      · cases h1
    | err m => obtain ⟨rfl, _⟩ := comp_err h; exact (nostop (fun _ => rfl) rfl).elim
    | errRec m p =>
      obtain ⟨sub, h1, rfl⟩ := comp_errRec h
      exact (nostop (fun _ => rfl) rfl).elim
    | empty =>
      obtain ⟨rfl, _⟩ := comp_empty h
      cases b with
      | true =>
        have : i = 0 := hst.2
        subst this
        exact ⟨0, evals_empty.2 rfl, Nat.zero_le _⟩
      | false =>
        obtain ⟨insn, h1, _⟩ := hst.2
        cases h1

end Gpeg
