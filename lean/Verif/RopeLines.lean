import Verif.RopeLemmas
/-! # Lines and columns of a rope with a one-byte separator -/
namespace Gpeg.Linerope

/-- Specification: the position behind the text `t` is in line "number of separators", at the
column "length of the longest suffix without separator". -/
def Text.loc (c : UInt8) (t : Bytes) : Loc :=
  ⟨t.count c, (t.reverse.takeWhile (· != c)).length⟩

open Text

variable {c : UInt8}

theorem loc_nil : loc c [] = ⟨0, 0⟩ := rfl

theorem loc_line_nonneg (t : Bytes) : 0 ≤ (loc c t).line := by simp [loc]
theorem loc_col_nonneg (t : Bytes) : 0 ≤ (loc c t).col := by simp [loc]

theorem takeWhile_all {t : Bytes} (h : t.count c = 0) : t.takeWhile (· != c) = t := by
  induction t with
  | nil => rfl
  | cons x t ih =>
    rw [List.count_cons] at h
    by_cases hx : (x == c) = true
    · simp [hx] at h
    · rw [List.takeWhile_cons, if_pos (by simpa using hx), ih (by omega)]

theorem loc_of_count_zero {t : Bytes} (h : t.count c = 0) : loc c t = ⟨0, t.length⟩ := by
  have : t.reverse.count c = 0 := by rw [List.count_reverse]; exact h
  simp only [loc, h, takeWhile_all this, List.length_reverse, Int.natCast_zero]

theorem takeWhile_lt {t : Bytes} (h : t.count c ≠ 0) :
    (t.takeWhile (· != c)).length < t.length := by
  induction t with
  | nil => simp at h
  | cons x t ih =>
    rw [List.takeWhile_cons]
    split
    · rename_i hx
      rw [List.count_cons, if_neg (by simpa using hx)] at h
      have := ih h
      simp only [List.length_cons]; omega
    · simp

theorem loc_append (a b : Bytes) : loc c (a ++ b) = addlocs (loc c a) (loc c b) := by
  by_cases hb : b.count c = 0
  · rw [loc_of_count_zero hb]
    have hb' : b.reverse.count c = 0 := by rw [List.count_reverse]; exact hb
    have h1 : ((b.reverse ++ a.reverse).takeWhile (· != c)) =
        b.reverse ++ a.reverse.takeWhile (· != c) := by
      rw [List.takeWhile_append, if_pos]
      rw [takeWhile_all hb']
    simp only [loc, List.reverse_append, h1, List.count_append, hb, List.length_append,
      List.length_reverse, addlocs]
    by_cases ha : a.count c = 0
    · simp [ha, Int.add_comm]
    · simp [ha]
  · have hb' : b.reverse.count c ≠ 0 := by rw [List.count_reverse]; exact hb
    have h1 : ((b.reverse ++ a.reverse).takeWhile (· != c)) = b.reverse.takeWhile (· != c) := by
      rw [List.takeWhile_append, if_neg]
      exact Nat.ne_of_lt (takeWhile_lt hb')
    simp only [loc, List.reverse_append, h1, List.count_append, addlocs]
    by_cases ha : a.count c = 0
    · simp [ha, hb]
    · simp [ha, hb]

/-! ## The scanning functions of the code -/

theorem isPrefixOf_single (x : UInt8) (b : Bytes) : [c].isPrefixOf (x :: b) = (c == x) := by
  simp [List.isPrefixOf]

theorem index_none {b : Bytes} (h : index [c] b = none) : b.count c = 0 := by
  induction b with
  | nil => rfl
  | cons x b ih =>
    simp only [index, isPrefixOf_single] at h
    split at h
    · cases h
    · rename_i hx
      rw [Option.map_eq_none_iff] at h
      rw [List.count_cons, ih h]
      have : ¬ (x == c) = true := by
        intro hh; apply hx; rw [beq_iff_eq] at hh ⊢; exact hh.symm
      simp [this]

theorem index_some {b : Bytes} {i : Nat} (h : index [c] b = some i) :
    ∃ u w, b = u ++ c :: w ∧ u.length = i ∧ u.count c = 0 := by
  induction b generalizing i with
  | nil => simp [index] at h
  | cons x b ih =>
    simp only [index, isPrefixOf_single] at h
    split at h
    · rename_i hx
      cases h
      rw [beq_iff_eq] at hx
      subst hx
      exact ⟨[], b, rfl, rfl, rfl⟩
    · rename_i hx
      obtain ⟨j, hj, rfl⟩ := Option.map_eq_some_iff.1 h
      obtain ⟨u, w, e1, e2, e3⟩ := ih hj
      refine ⟨x :: u, w, by rw [e1]; rfl, by simp [e2], ?_⟩
      have : ¬ (x == c) = true := by
        intro hh; apply hx; rw [beq_iff_eq] at hh ⊢; exact hh.symm
      rw [List.count_cons, e3]
      simp [this]

theorem countF_single : ∀ (k : Nat) (b : Bytes), b.length ≤ k → countF [c] k b = b.count c
  | 0, b, h => by
    have : b = [] := List.length_eq_zero_iff.1 (by omega)
    subst this; rfl
  | k + 1, b, h => by
    rw [countF]
    cases hi : index [c] b with
    | none => exact (index_none hi).symm
    | some i =>
      obtain ⟨u, w, e1, e2, e3⟩ := index_some hi
      subst e1
      subst e2
      have hd : (u ++ c :: w).drop (u.length + [c].length) = w := by
        rw [List.drop_append]; simp
      show countF [c] k ((u ++ c :: w).drop (u.length + [c].length)) + 1 = _
      rw [hd, countF_single k w (by simp at h; omega)]
      simp [List.count_append, e3]

theorem count_single (b : Bytes) : count [c] b = b.count c := countF_single _ b (Nat.le_refl _)

theorem lastIndex_none {b : Bytes} (h : lastIndex [c] b = none) : b.count c = 0 := by
  induction b with
  | nil => rfl
  | cons x b ih =>
    simp only [lastIndex] at h
    cases hl : lastIndex [c] b with
    | some i => rw [hl] at h; cases h
    | none =>
      rw [hl] at h
      simp only [isPrefixOf_single] at h
      split at h
      · cases h
      · rename_i hx
        have : ¬ (x == c) = true := by
          intro hh; apply hx; rw [beq_iff_eq] at hh ⊢; exact hh.symm
        rw [List.count_cons, ih hl]
        simp [this]

theorem lastIndex_some {b : Bytes} {i : Nat} (h : lastIndex [c] b = some i) :
    ∃ u w, b = u ++ c :: w ∧ u.length = i ∧ w.count c = 0 := by
  induction b generalizing i with
  | nil => simp [lastIndex] at h
  | cons x b ih =>
    simp only [lastIndex] at h
    cases hl : lastIndex [c] b with
    | some j =>
      rw [hl] at h
      cases h
      obtain ⟨u, w, e1, e2, e3⟩ := ih hl
      exact ⟨x :: u, w, by rw [e1]; rfl, by simp [e2], e3⟩
    | none =>
      rw [hl] at h
      simp only [isPrefixOf_single] at h
      split at h
      · rename_i hx
        cases h
        rw [beq_iff_eq] at hx
        subst hx
        exact ⟨[], b, rfl, rfl, lastIndex_none hl⟩
      · cases h

theorem loc_sep (u : Bytes) : loc c (u ++ [c]) = ⟨u.count c + 1, 0⟩ := by
  simp [loc, List.count_append]

theorem llen_single (b : Bytes) : llen b [c] = loc c b := by
  unfold llen
  simp only [count_single]
  split
  · rename_i h
    cases hl : lastIndex [c] b with
    | none => exact absurd (lastIndex_none hl) h
    | some i =>
      obtain ⟨u, w, e1, e2, e3⟩ := lastIndex_some hl
      have e4 : b = (u ++ [c]) ++ w := by rw [e1]; simp
      have hw := loc_of_count_zero e3
      rw [e4, loc_append, loc_sep, hw]
      simp only [addlocs]
      rw [if_neg (by simp), if_pos (by simp; omega)]
      simp [List.count_append, e3, e2]
      omega
  · rename_i h
    rw [loc_of_count_zero (by omega)]

/-! ## Order and difference of positions -/

theorem Loc.cmp_neg {a b : Loc} : a.cmp b < 0 ↔ a.line < b.line ∨ a.line = b.line ∧ a.col < b.col := by
  unfold Loc.cmp
  split <;> (try split) <;> (try split) <;> constructor <;> intro h <;> omega

theorem Loc.cmp_pos {a b : Loc} : a.cmp b > 0 ↔ b.line < a.line ∨ a.line = b.line ∧ b.col < a.col := by
  unfold Loc.cmp
  split <;> (try split) <;> (try split) <;> constructor <;> intro h <;> omega

theorem loc_pos {t : Bytes} (h : t ≠ []) : 0 < (loc c t).line ∨ 0 < (loc c t).col := by
  by_cases hc : t.count c = 0
  · rw [loc_of_count_zero hc]
    have := List.length_pos_iff.2 h
    right; show (0 : Int) < t.length; omega
  · left; show (0 : Int) < t.count c; omega

theorem sublocs_addlocs {a b : Bytes} : sublocs (addlocs (loc c a) (loc c b)) (loc c a) = loc c b := by
  have h1 := loc_line_nonneg (c := c) a
  have h2 := loc_line_nonneg (c := c) b
  have ext : ∀ x y : Loc, x.line = y.line → x.col = y.col → x = y := by
    rintro ⟨_, _⟩ ⟨_, _⟩ rfl rfl; rfl
  unfold addlocs sublocs
  by_cases ha : (loc c a).line = 0 <;> by_cases hb : (loc c b).line = 0 <;>
    simp only [ha, hb, ne_eq, not_true_eq_false, not_false_eq_true, and_self, and_true, and_false,
      false_and, if_true, if_false] <;> (try split) <;> apply ext <;> simp only [] <;> omega

theorem addlocs_lt {x y : Loc} (hx : 0 ≤ x.line) (hy : 0 ≤ y.line) (h : 0 < y.line ∨ 0 < y.col) :
    x.cmp (addlocs x y) < 0 := by
  rw [Loc.cmp_neg]
  unfold addlocs
  split
  · simp only []; omega
  · split
    · refine Or.inr ⟨rfl, ?_⟩
      show x.col < y.col + x.col
      omega
    · split
      · simp only []; omega
      · simp only []; omega

/-- The position of offset `i` in `t`. -/
theorem loc_take_lt {t : Bytes} {i j : Nat} (h : i < j) (hj : j ≤ t.length) :
    (loc c (t.take i)).cmp (loc c (t.take j)) < 0 := by
  have e : t.take j = t.take i ++ (t.drop i).take (j - i) := by
    rw [← List.take_add]; congr 1; omega
  rw [e, loc_append]
  refine addlocs_lt (loc_line_nonneg _) (loc_line_nonneg _) (loc_pos ?_)
  intro hn
  have := congrArg List.length hn
  simp only [List.length_take, List.length_drop, List.length_nil] at this
  omega

theorem Loc.cmp_self (a : Loc) : a.cmp a = 0 := by simp [Loc.cmp]

theorem Loc.cmp_swap {a b : Loc} (h : a.cmp b < 0) : b.cmp a > 0 := by
  rw [Loc.cmp_neg] at h
  rw [Loc.cmp_pos]
  omega

theorem loc_take_cmp_neg {t : Bytes} {i j : Nat} (hi : i ≤ t.length) (hj : j ≤ t.length) :
    (loc c (t.take i)).cmp (loc c (t.take j)) < 0 ↔ i < j := by
  refine ⟨fun h => ?_, fun h => loc_take_lt h hj⟩
  rcases Nat.lt_trichotomy i j with h' | h' | h'
  · exact h'
  · subst h'; rw [Loc.cmp_self] at h; omega
  · have := Loc.cmp_swap (loc_take_lt (c := c) h' hi); omega

theorem loc_take_inj {t : Bytes} {i j : Nat} (hi : i ≤ t.length) (hj : j ≤ t.length)
    (h : loc c (t.take i) = loc c (t.take j)) : i = j := by
  rcases Nat.lt_trichotomy i j with h' | h' | h'
  · have := loc_take_lt (c := c) h' hj; rw [h, Loc.cmp_self] at this; omega
  · exact h'
  · have := loc_take_lt (c := c) h' hi; rw [h, Loc.cmp_self] at this; omega

/-! ## `indexN` and `lineCol` -/

theorem indexNLoop_single : ∀ (k : Nat) (b : Bytes) (off : Nat) (acc idx : Int), off ≤ b.length →
    (b.take off).count c = k + 1 →
    ∃ j : Nat, indexNLoop [c] (k + 1) b acc idx =
      (acc + off - (loc c (b.take off)).col - (k + 1), (j : Int)) := by
  intro k
  induction k with
  | zero =>
    intro b off acc idx ho hc
    rw [indexNLoop]
    cases hi : index [c] b with
    | none =>
      have h1 := index_none hi
      have h2 : (b.take off).count c ≤ b.count c := (List.take_sublist off b).count_le c
      omega
    | some i =>
      obtain ⟨u, w, e1, e2, e3⟩ := index_some hi
      have hio : i < off := by
        apply Nat.lt_of_not_le
        intro hle
        rw [e1, List.take_append_of_le_length (by omega)] at hc
        have h2 : (u.take off).count c ≤ u.count c := (List.take_sublist off u).count_le c
        omega
      have e4 : b.take off = (u ++ [c]) ++ w.take (off - (i + 1)) := by
        have : b = (u ++ [c]) ++ w := by rw [e1]; simp
        rw [this, List.take_append, List.take_of_length_le (by simp; omega)]
        simp [e2]
      have hw : (w.take (off - (i + 1))).count c = 0 := by
        rw [e4, List.count_append, List.count_append] at hc
        simp at hc; omega
      have hlw : off ≤ (u ++ c :: w).length := by rw [← e1]; exact ho
      refine ⟨i, ?_⟩
      show (acc + (i : Int), (i : Int)) = _
      rw [e4, loc_append, loc_sep, loc_of_count_zero hw]
      simp only [addlocs]
      rw [if_neg (by simp), if_pos (by simp; omega)]
      simp only [List.length_take, Prod.mk.injEq, and_true]
      simp at hlw
      omega
  | succ k ih =>
    intro b off acc idx ho hc
    rw [indexNLoop]
    cases hi : index [c] b with
    | none =>
      have h1 := index_none hi
      have h2 : (b.take off).count c ≤ b.count c := (List.take_sublist off b).count_le c
      omega
    | some i =>
      obtain ⟨u, w, e1, e2, e3⟩ := index_some hi
      have hio : i < off := by
        apply Nat.lt_of_not_le
        intro hle
        rw [e1, List.take_append_of_le_length (by omega)] at hc
        have h2 : (u.take off).count c ≤ u.count c := (List.take_sublist off u).count_le c
        omega
      have e5 : b = (u ++ [c]) ++ w := by rw [e1]; simp
      have e4 : b.take off = (u ++ [c]) ++ w.take (off - (i + 1)) := by
        rw [e5, List.take_append, List.take_of_length_le (by simp; omega)]
        simp [e2]
      have hw : (w.take (off - (i + 1))).count c = k + 1 := by
        rw [e4, List.count_append, List.count_append] at hc
        simp at hc; omega
      have hlw : off ≤ ((u ++ [c]) ++ w).length := by rw [← e5]; exact ho
      have hd : b.drop (i + [c].length) = w := by
        rw [e5]; exact List.drop_left' (by simp [e2])
      obtain ⟨j, hj⟩ := ih w (off - (i + 1)) (acc + i) i (by simp at hlw; omega) hw
      refine ⟨j, ?_⟩
      show indexNLoop [c] (k + 1) (b.drop (i + [c].length)) (acc + i) i = _
      rw [hd, hj, e4, loc_append, loc_sep]
      have hl : (loc c (w.take (off - (i + 1)))).line = (k : Int) + 1 := by
        simp only [loc, hw]; rfl
      simp only [addlocs]
      rw [if_pos (by rw [hl]; simp; omega)]
      simp only [Prod.mk.injEq, and_true]
      omega

theorem indexN_single {b : Bytes} {off : Nat} (ho : off ≤ b.length) :
    indexN b [c] (loc c (b.take off)).line + ([c].length : Int) + (loc c (b.take off)).col = off := by
  unfold indexN
  have hl : (loc c (b.take off)).line.toNat = (b.take off).count c := by simp [loc]
  rw [hl]
  cases hc : (b.take off).count c with
  | zero =>
    rw [loc_of_count_zero hc]
    simp only [indexNLoop, if_true, List.length_take, List.length_singleton]
    omega
  | succ k =>
    obtain ⟨j, hj⟩ := indexNLoop_single k b off 0 (-1) ho hc
    rw [hj]
    have h1 : (loc c (b.take off)).line = (k : Int) + 1 := by simp only [loc, hc]; rfl
    rw [h1]
    simp only [List.length_singleton]
    rw [if_neg (by omega)]
    omega

theorem lineColF_single : ∀ (k : Nat) (b : Bytes) (off last line : Nat), off ≤ b.length →
    last ≤ off → b.length - last < k →
    lineColF [c] off k b last line =
      some ⟨line + (loc c ((b.drop last).take (off - last))).line,
        (loc c ((b.drop last).take (off - last))).col⟩
  | 0, _, _, _, _, _, _, h => by omega
  | k + 1, b, off, last, line, ho, hl, hk => by
    rw [lineColF]
    cases hi : index [c] (b.drop last) with
    | none =>
      have h1 := index_none hi
      have h2 : ((b.drop last).take (off - last)).count c ≤ (b.drop last).count c :=
        (List.take_sublist _ _).count_le c
      rw [loc_of_count_zero (by omega)]
      simp only [List.length_take, List.length_drop, Option.some.injEq, Loc.mk.injEq]
      omega
    | some i =>
      obtain ⟨u, w, e1, e2, e3⟩ := index_some hi
      simp only []
      have hlen := congrArg List.length e1
      simp only [List.length_drop, List.length_append, List.length_cons] at hlen
      split
      · rename_i hge
        have h2 : (b.drop last).take (off - last) = u.take (off - last) := by
          rw [e1, List.take_append_of_le_length (by omega)]
        have h3 : (u.take (off - last)).count c ≤ u.count c := (List.take_sublist _ _).count_le c
        rw [h2, loc_of_count_zero (by omega)]
        simp only [List.length_take, Option.some.injEq, Loc.mk.injEq]
        omega
      · rename_i hlt
        have e5 : b.drop last = (u ++ [c]) ++ w := by rw [e1]; simp
        have hd : b.drop (last + i + [c].length) = w := by
          rw [Nat.add_assoc, ← List.drop_drop, e5]; exact List.drop_left' (by simp [e2])
        have ht : (b.drop last).take (off - last) =
            (u ++ [c]) ++ w.take (off - (last + i + 1)) := by
          rw [e5, List.take_append, List.take_of_length_le (by simp; omega)]
          congr 2
          simp; omega
        rw [lineColF_single k b off (last + i + [c].length) (line + 1) ho
          (by simp only [List.length_singleton]; omega) (by simp only [List.length_singleton]; omega)]
        rw [hd, ht, loc_append, loc_sep, e3]
        have hnn := loc_line_nonneg (c := c) (w.take (off - (last + i + 1)))
        simp only [List.length_singleton, addlocs]
        by_cases hz : (loc c (w.take (off - (last + i + 1)))).line = 0
        · simp [hz]
        · simp [hz]; omega

theorem lineCol_single {b : Bytes} {off : Nat} (ho : off ≤ b.length) :
    lineCol b [c] off = some (loc c (b.take off)) := by
  unfold lineCol
  rw [lineColF_single _ b off 0 0 ho (Nat.zero_le _) (by omega)]
  simp

namespace Rope
variable {P : Opts → Prop}

theorem WF.ll (hP : ∀ o, P o → o.sep = [c]) : ∀ {r : Rope} {t : Bytes}, WF P r t →
    r.ll = loc c t
  | leaf o v n ll, t, ⟨h1, h2, _, h3⟩ => by
    subst h2
    show ll = _
    rw [h3, hP o h1, llen_single]
  | node o n ll l r, t, ⟨_, _, h1, a, b, h2, h3, h4⟩ => by
    show ll = _
    rw [h1, h3.ll hP, h4.ll hP, h2, loc_append]

theorem lineColAt_wf (hP : ∀ o, P o → o.sep = [c]) : ∀ {r : Rope} {t : Bytes} (off : Nat),
    WF P r t → off ≤ t.length → r.lineColAt off = some (loc c (t.take off))
  | leaf o v n ll, t, off, ⟨h1, h2, _, h3⟩, ho => by
    subst h2
    simp only [Rope.lineColAt, hP o h1]
    exact lineCol_single ho
  | node o n ll l r, t, off, ⟨_, _, h1, a, b, h2, h3, h4⟩, ho => by
    have hl := h3.len
    simp only [Rope.lineColAt]
    rw [h2, List.length_append] at ho
    by_cases h : off < l.len
    · rw [if_pos (by omega), lineColAt_wf hP off h3 (by omega), h2,
        List.take_append_of_le_length (by omega)]
    · rw [if_neg (by omega)]
      have : (off : Int) - l.len = ((off - a.length : Nat) : Int) := by omega
      rw [this, lineColAt_wf hP (off - a.length) h4 (by omega), h3.ll hP, h2, List.take_append,
        List.take_of_length_le (l := a) (by omega), loc_append]
      rfl

theorem take_app_left {a b : Bytes} {i : Nat} (h : i ≤ a.length) : (a ++ b).take i = a.take i :=
  List.take_append_of_le_length h

theorem take_app_right {a b : Bytes} {i : Nat} (h : a.length ≤ i) :
    (a ++ b).take i = a ++ b.take (i - a.length) := by
  rw [List.take_append, List.take_of_length_le h]

theorem loc_take_cmp_left {a b : Bytes} {i : Nat} (hi : i ≤ (a ++ b).length) :
    (loc c ((a ++ b).take i)).cmp (loc c a) < 0 ↔ i < a.length := by
  have h := loc_take_cmp_neg (c := c) (t := a ++ b) hi (j := a.length) (by simp)
  rwa [List.take_left' rfl] at h

theorem offsetAt_wf (hP : ∀ o, P o → o.sep = [c]) : ∀ {r : Rope} {t : Bytes} (off : Nat),
    WF P r t → off ≤ t.length →
    r.offsetAt (loc c (t.take off)).line (loc c (t.take off)).col = some (off : Int)
  | leaf o v n ll, t, off, ⟨h1, h2, _, h3⟩, ho => by
    subst h2
    simp only [Rope.offsetAt, hP o h1, Option.some.injEq]
    exact indexN_single ho
  | node o n ll l r, t, off, ⟨_, _, h1, a, b, h2, h3, h4⟩, ho => by
    have hl := h3.len
    simp only [Rope.offsetAt]
    subst h2
    have hc := loc_take_cmp_left (c := c) ho
    rw [h3.ll hP]
    rw [List.length_append] at ho
    by_cases h : off < a.length
    · rw [if_pos (hc.2 h), take_app_left (by omega)]
      exact offsetAt_wf hP off h3 (by omega)
    · have h' : ¬ (loc c ((a ++ b).take off)).cmp (loc c a) < 0 := fun hh => h (hc.1 hh)
      rw [if_neg h']
      have e : sublocs ⟨(loc c ((a ++ b).take off)).line, (loc c ((a ++ b).take off)).col⟩ (loc c a)
          = loc c (b.take (off - a.length)) := by
        show sublocs (loc c ((a ++ b).take off)) (loc c a) = _
        rw [take_app_right (by omega), loc_append, sublocs_addlocs]
      rw [e, offsetAt_wf hP (off - a.length) h4 (by omega)]
      show some _ = some _
      congr 1
      omega

theorem sublocs_neg {x y : Loc} (h : x.cmp y < 0) : (sublocs x y).cmp ⟨0, 0⟩ < 0 := by
  rw [Loc.cmp_neg] at h ⊢
  unfold sublocs
  split
  · simp only []; omega
  · simp only []; omega

theorem Loc.cmp_lt_of_lt_of_nonneg {x y : Loc} (h : x.cmp ⟨0, 0⟩ < 0) (h1 : 0 ≤ y.line)
    (h2 : 0 ≤ y.col) : x.cmp y < 0 := by
  rw [Loc.cmp_neg] at h ⊢
  simp only [] at h
  omega

theorem minloc_left {a b : Bytes} {i : Nat} (hi : i ≤ (a ++ b).length) :
    minloc (loc c ((a ++ b).take i)) (loc c a) = loc c (a.take i) := by
  unfold minloc
  have hc := loc_take_cmp_left (c := c) hi
  by_cases h : i < a.length
  · rw [if_pos (hc.2 h), take_app_left (by omega)]
  · rw [if_neg (fun hh => h (hc.1 hh)), List.take_of_length_le (by omega)]

theorem maxloc_right {a b : Bytes} {i : Nat} (hi : i ≤ (a ++ b).length) :
    maxloc ⟨0, 0⟩ (minloc (sublocs (loc c ((a ++ b).take i)) (loc c a)) (loc c b)) =
      loc c (b.take (i - a.length)) := by
  have hc := loc_take_cmp_left (c := c) hi
  rw [List.length_append] at hi
  by_cases h : i < a.length
  · have h1 := sublocs_neg (hc.2 h)
    have h2 := Loc.cmp_lt_of_lt_of_nonneg h1 (loc_line_nonneg (c := c) b) (loc_col_nonneg b)
    unfold minloc maxloc
    rw [if_pos h2, if_pos (Loc.cmp_swap h1), Nat.sub_eq_zero_of_le (by omega)]
    rfl
  · have e : sublocs (loc c ((a ++ b).take i)) (loc c a) = loc c (b.take (i - a.length)) := by
      rw [take_app_right (by omega), loc_append, sublocs_addlocs]
    rw [e]
    have hm : minloc (loc c (b.take (i - a.length))) (loc c b) = loc c (b.take (i - a.length)) := by
      have := minloc_left (c := c) (a := b) (b := []) (i := i - a.length) (by simp; omega)
      rwa [List.append_nil] at this
    rw [hm]
    unfold maxloc
    split
    · rename_i hp
      rw [Loc.cmp_pos] at hp
      have := loc_line_nonneg (c := c) (b.take (i - a.length))
      have := loc_col_nonneg (c := c) (b.take (i - a.length))
      simp only [] at hp
      omega
    · rfl

theorem sliceLC_wf (hP : ∀ o, P o → o.sep = [c]) : ∀ {r : Rope} {t : Bytes} (s e : Nat), WF P r t →
    s ≤ t.length → e ≤ t.length →
    r.sliceLC (loc c (t.take s)) (loc c (t.take e)) = some ((t.take e).drop s)
  | leaf o v n ll, t, s, e, ⟨h1, h2, h3, h4⟩, hs, he => by
    subst h2
    have hc := loc_take_cmp_neg (c := c) hs he
    simp only [Rope.sliceLC, hP o h1]
    by_cases h : s < e
    · have := hc.2 h
      rw [if_neg (by omega)]
      unfold sliceloc
      simp only [indexN_single hs, indexN_single he]
      exact cut_nat (by omega) he
    · have : ¬ (loc c (v.take s)).cmp (loc c (v.take e)) < 0 := fun hh => h (hc.1 hh)
      rw [if_pos (by omega), List.drop_of_length_le]
      rw [List.length_take]; omega
  | node o n ll l r, t, s, e, ⟨h1, h2, h3, a, b, h4, h5, h6⟩, hs, he => by
    subst h4
    have hc := loc_take_cmp_neg (c := c) hs he
    simp only [Rope.sliceLC]
    by_cases h : ¬ s < e
    · have : ¬ (loc c ((a ++ b).take s)).cmp (loc c ((a ++ b).take e)) < 0 := fun hh => h (hc.1 hh)
      rw [if_pos (by omega), List.drop_of_length_le]
      rw [List.length_take]; omega
    have := hc.2 (Nat.lt_of_not_le (fun hh => h (by omega)))
    rw [if_neg (by omega), h5.ll hP, h6.ll hP, minloc_left hs, minloc_left he, maxloc_right hs,
      maxloc_right he, slice_append]
    have hts : ∀ i, a.take i = a.take (min i a.length) := fun i => List.take_eq_take_min
    rw [List.length_append] at hs he
    have A := sliceLC_wf hP (min s a.length) (min e a.length) h5 (by omega) (by omega)
    have B := sliceLC_wf hP (s - a.length) (e - a.length) h6 (by omega) (by omega)
    have hA : (a.take (min e a.length)).drop (min s a.length) = (a.take e).drop s := by
      rw [← hts]
      by_cases hs : s ≤ a.length
      · rw [Nat.min_eq_left hs]
      · rw [List.drop_of_length_le, List.drop_of_length_le] <;> rw [List.length_take] <;> omega
    rw [hA, ← hts s, ← hts e] at A
    have iA : loc c (a.take s) = loc c (a.take e) ↔ min s a.length = min e a.length := by
      rw [hts s, hts e]
      exact ⟨fun hh => loc_take_inj (by omega) (by omega) hh, fun hh => by rw [hh]⟩
    have iB : loc c (b.take (s - a.length)) = loc c (b.take (e - a.length)) ↔
        s - a.length = e - a.length :=
      ⟨fun hh => loc_take_inj (by omega) (by omega) hh, fun hh => by rw [hh]⟩
    have eA : min s a.length = min e a.length → (a.take e).drop s = [] := by
      intro hq
      rw [List.drop_of_length_le]
      rw [List.length_take]; omega
    have eB : s - a.length = e - a.length → (b.take (e - a.length)).drop (s - a.length) = [] := by
      intro hq
      rw [List.drop_of_length_le]
      rw [List.length_take]; omega
    by_cases c1 : min s a.length = min e a.length
    · by_cases c2 : s - a.length = e - a.length
      · rw [if_neg (fun hh => hh (iA.2 c1)), if_neg (fun hh => hh (iB.2 c2)), eA c1, eB c2]; rfl
      · rw [if_neg (fun hh => hh (iA.2 c1)), if_pos (fun hh => c2 (iB.1 hh)), B, eA c1]; rfl
    · by_cases c2 : s - a.length = e - a.length
      · rw [if_pos (fun hh => c1 (iA.1 hh)), if_neg (fun hh => hh (iB.2 c2)), A, eB c2,
          List.append_nil]
      · rw [if_pos (fun hh => c1 (iA.1 hh)), if_pos (fun hh => c2 (iB.1 hh)), A, B]; rfl

end Rope
end Gpeg.Linerope
