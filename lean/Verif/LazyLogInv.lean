import Mathlib.Tactic.SplitIfs
import Mathlib.Order.Basic
import Verif.LazyLog
/-! # Invariants of the interval tree: shifts and the bounds kept in the nodes -/
namespace Gpeg.LazyLog
variable {α : Type}

/-! ## Shifts -/

/-- The list of shifts as `shift` builds it: the `i`-th shift has timestamp `i + 1`. -/
def WfS (S : List Shift) : Prop := ∀ i s, S[i]? = some s → s.tstamp = i + 1

/-- Where a position goes under one shift. -/
def movePos (s : Shift) (p : Int) : Int := if s.idx ≤ p then p + s.amt else p

/-- Where a position goes under a list of shifts. -/
def movePosL (l : List Shift) (p : Int) : Int := l.foldl (fun p s => movePos s p) p

@[simp] theorem movePosL_nil (p : Int) : movePosL [] p = p := rfl
@[simp] theorem movePosL_cons (s : Shift) (l : List Shift) (p : Int) :
    movePosL (s :: l) p = movePosL l (movePos s p) := rfl
theorem movePosL_snoc (s : Shift) (l : List Shift) (p : Int) :
    movePosL (l ++ [s]) p = movePos s (movePosL l p) := by simp [movePosL]

theorem shiftIns_zero (ins : List (Ival α)) : shiftIns 0 ins = ins := by
  simp [shiftIns]

theorem shiftIns_add (a b : Int) (ins : List (Ival α)) :
    shiftIns a (shiftIns b ins) = shiftIns (b + a) ins := by
  simp only [shiftIns, List.map_map]
  congr 1
  funext i
  simp only [Function.comp]
  congr 1 <;> omega

theorem highOf_foldl (ins : List (Ival α)) : ∀ m : Int,
    m ≤ ins.foldl (fun high i => if i.high > high then i.high else high) m ∧
    ∀ i ∈ ins, i.high ≤ ins.foldl (fun high i => if i.high > high then i.high else high) m := by
  induction ins with
  | nil => intro m; exact ⟨Int.le_refl _, fun _ h => by cases h⟩
  | cons i is ih =>
    intro m
    obtain ⟨h1, h2⟩ := ih (if i.high > m then i.high else m)
    simp only [List.foldl_cons]
    refine ⟨?_, ?_⟩
    · refine Int.le_trans ?_ h1
      split <;> omega
    · intro j hj
      rcases List.mem_cons.1 hj with rfl | hj
      · refine Int.le_trans ?_ h1
        split <;> omega
      · exact h2 j hj

theorem le_highOf {ins : List (Ival α)} {i : Ival α} (h : i ∈ ins) : i.high ≤ highOf ins :=
  (highOf_foldl ins 0).2 i h

/-- A number with an optional other. -/
def omax (m : Int) : Option Int → Int
  | none => m
  | some x => max m x

theorem le_omax (m : Int) (o : Option Int) : m ≤ omax m o := by
  cases o <;> simp only [omax] <;> omega

theorem updateMax_mx (d : Nd α) (lm rm : Option Int) :
    (updateMax d lm rm).mx = max (omax (omax d.mx rm) lm) (highOf d.ins) := by
  cases lm <;> cases rm <;> rfl

theorem updateMax_ge (d : Nd α) (lm rm : Option Int) :
    d.mx ≤ (updateMax d lm rm).mx ∧ highOf d.ins ≤ (updateMax d lm rm).mx ∧
    (∀ x, lm = some x → x ≤ (updateMax d lm rm).mx) ∧ (∀ x, rm = some x → x ≤ (updateMax d lm rm).mx) := by
  rw [updateMax_mx]
  refine ⟨?_, ?_, ?_, ?_⟩
  · have := le_omax d.mx rm
    have := le_omax (omax d.mx rm) lm
    omega
  · omega
  · rintro x rfl
    simp only [omax]
    omega
  · rintro x rfl
    have := le_omax (omax d.mx (some x)) lm
    simp only [omax] at *
    omega

@[simp] theorem updateMax_pos (d : Nd α) (lm rm : Option Int) : (updateMax d lm rm).pos = d.pos := rfl
@[simp] theorem updateMax_id (d : Nd α) (lm rm : Option Int) : (updateMax d lm rm).id = d.id := rfl
@[simp] theorem updateMax_ins (d : Nd α) (lm rm : Option Int) : (updateMax d lm rm).ins = d.ins := rfl
@[simp] theorem updateMax_t (d : Nd α) (lm rm : Option Int) : (updateMax d lm rm).t = d.t := rfl
@[simp] theorem updateMax_addr (d : Nd α) (lm rm : Option Int) : (updateMax d lm rm).addr = d.addr := rfl
@[simp] theorem updateMax_h (d : Nd α) (lm rm : Option Int) : (updateMax d lm rm).h = d.h := rfl

theorem startIdx_le (S : List Shift) (hS : WfS S) (t : Nat) (j : Nat) : startIdx S t j ≤ t := by
  induction j with
  | zero => exact Nat.zero_le _
  | succ j ih =>
    rw [startIdx]
    split
    · rename_i s hs
      have := hS _ _ hs
      split
      · omega
      · exact ih
    · exact ih

theorem applyShift_old {lm rm : Option Int} {d : Nd α} {s : Shift} (h : s.tstamp ≤ d.t) :
    applyShift lm rm d s = d := by rw [applyShift, if_pos h]

theorem foldl_drop_old (S : List Shift) (hS : WfS S) (lm rm : Option Int) (d : Nd α) (n : Nat) :
    ∀ j, j + n = d.t → (S.drop j).foldl (applyShift lm rm) d = (S.drop d.t).foldl (applyShift lm rm) d := by
  induction n with
  | zero => intro j h; rw [← h]; rfl
  | succ n ih =>
    intro j h
    rw [← ih (j + 1) (by omega)]
    cases hj : S[j]? with
    | none =>
      rw [List.getElem?_eq_none_iff] at hj
      rw [List.drop_of_length_le hj, List.drop_of_length_le (by omega)]
    | some s =>
      have hlt : j < S.length := by
        rcases List.getElem?_eq_some_iff.1 hj with ⟨h, -⟩
        exact h
      rw [List.drop_eq_getElem_cons hlt, List.foldl_cons]
      have : S[j] = s := by
        rcases List.getElem?_eq_some_iff.1 hj with ⟨_, h⟩
        exact h
      rw [this, applyShift_old]
      have := hS j s hj
      omega

theorem applyShifts_eq (S : List Shift) (hS : WfS S) (lm rm : Option Int) (d : Nd α) :
    applyShifts S lm rm d = (S.drop d.t).foldl (applyShift lm rm) d := by
  rw [applyShifts]
  cases hl : S.getLast? with
  | none =>
    rw [List.getLast?_eq_none_iff] at hl
    subst hl
    simp
  | some s =>
    simp only []
    have hs : s.tstamp = S.length := by
      rw [List.getLast?_eq_getElem?] at hl
      have := hS _ _ hl
      have : 0 < S.length := by
        cases S with
        | nil => cases hl
        | cons => simp
      omega
    split
    · rename_i h
      rw [List.drop_of_length_le (by omega)]
      rfl
    · have := startIdx_le S hS d.t (S.length - 1)
      exact foldl_drop_old S hS lm rm d (d.t - startIdx S d.t (S.length - 1)) _ (by omega)

theorem applyShifts_done (S : List Shift) (hS : WfS S) (lm rm : Option Int) (d : Nd α)
    (h : d.t = S.length) : applyShifts S lm rm d = d := by
  rw [applyShifts_eq S hS, h, List.drop_length]
  rfl

theorem applyShifts_nil (lm rm : Option Int) (d : Nd α) : applyShifts [] lm rm d = d := rfl

/-- What `applyShift` does to a node that has not seen the shift. -/
theorem applyShift_new {lm rm : Option Int} {d : Nd α} {s : Shift} (h : d.t < s.tstamp) :
    applyShift lm rm d s =
      if d.mx < s.idx then { d with t := s.tstamp }
      else updateMax
        (if d.pos ≥ s.idx then
          { d with t := s.tstamp, mx := d.mx + s.amt, pos := d.pos + s.amt, ins := shiftIns s.amt d.ins }
         else { d with t := s.tstamp, mx := d.mx + s.amt }) lm rm := by
  rw [applyShift, if_neg (by omega)]

/-! ## What a node stands for -/

/-- A node with all shifts applied to its position and its intervals. -/
structure Fl (α : Type) where
  addr : Nat
  pos : Int
  id : Int
  ins : List (Ival α)

/-- The node with all shifts of `S` after its own time applied. -/
def Nd.fl (S : List Shift) (d : Nd α) : Fl α :=
  { addr := d.addr, pos := movePosL (S.drop d.t) d.pos, id := d.id,
    ins := shiftIns (movePosL (S.drop d.t) d.pos - d.pos) d.ins }

/-- The nodes of a tree in order. -/
def Tr.flat (S : List Shift) : Tr α → List (Fl α)
  | .nil => []
  | .node d l r => l.flat S ++ d.fl S :: r.flat S

/-- A bound for the position and for the ends of all intervals of a node. -/
def Fl.le (f : Fl α) (m : Int) : Prop := f.pos ≤ m ∧ ∀ i ∈ f.ins, i.high ≤ m

theorem Fl.le_trans {f : Fl α} {m m' : Int} (h : f.le m) (h' : m ≤ m') : f.le m' :=
  ⟨Int.le_trans h.1 h', fun i hi => Int.le_trans (h.2 i hi) h'⟩

/-- The intervals of a node start at its position and are not of negative length. -/
def Nd.Wf (d : Nd α) : Prop := ∀ i ∈ d.ins, i.low = d.pos ∧ i.low ≤ i.high

theorem Nd.fl_done (S : List Shift) (d : Nd α) (h : d.t = S.length) :
    d.fl S = ⟨d.addr, d.pos, d.id, d.ins⟩ := by
  simp [Nd.fl, h, shiftIns_zero]

/-- The bound kept in a node, moved along by the shifts. -/
def moveMax (l : List Shift) (m : Int) : Int := l.foldl (fun m s => if m < s.idx then m else m + s.amt) m

@[simp] theorem moveMax_nil (m : Int) : moveMax [] m = m := rfl
@[simp] theorem moveMax_cons (s : Shift) (l : List Shift) (m : Int) :
    moveMax (s :: l) m = moveMax l (if m < s.idx then m else m + s.amt) := rfl
theorem moveMax_snoc (s : Shift) (l : List Shift) (m : Int) :
    moveMax (l ++ [s]) m = if moveMax l m < s.idx then moveMax l m else moveMax l m + s.amt := by
  simp only [moveMax, List.foldl_append]; rfl

theorem moveMax_mono (l : List Shift) (hl : ∀ s ∈ l, 0 ≤ s.amt) :
    ∀ m m', m ≤ m' → moveMax l m ≤ moveMax l m' := by
  induction l with
  | nil => intro m m' h; exact h
  | cons s l ih =>
    intro m m' h
    have := hl s List.mem_cons_self
    refine ih (fun x hx => hl x (List.mem_cons_of_mem _ hx)) _ _ ?_
    show (if m < s.idx then m else m + s.amt) ≤ (if m' < s.idx then m' else m' + s.amt)
    split <;> split <;> omega

theorem le_moveMax (l : List Shift) (hl : ∀ s ∈ l, 0 ≤ s.amt) : ∀ m, m ≤ moveMax l m := by
  induction l with
  | nil => intro m; exact Int.le_refl _
  | cons s l ih =>
    intro m
    have := hl s List.mem_cons_self
    refine Int.le_trans ?_ (ih (fun x hx => hl x (List.mem_cons_of_mem _ hx)) _)
    show m ≤ (if m < s.idx then m else m + s.amt)
    split <;> omega

/-- Shift lists covered: all shifts but the first move to the right. -/
structure Good (S : List Shift) : Prop where
  wf : WfS S
  pos : ∀ s ∈ S.tail, 0 ≤ s.amt

/-- A bound that follows from the field `max` (`m`) of a node of time `t` and the field `max` of one of its
children (`c`) when all shifts are applied to the node. -/
def adv (S : List Shift) (t : Nat) (m : Int) (c : Option Int) : Int :=
  match t, S with
  | 0, [] => m
  | 0, s :: S' => moveMax S' (if m < s.idx then m else omax (m + s.amt) c)
  | t + 1, S => moveMax (S.drop (t + 1)) m

theorem adv_done (S : List Shift) (t : Nat) (m : Int) (c : Option Int) (h : t = S.length) :
    adv S t m c = m := by
  subst h
  cases S with
  | nil => rfl
  | cons s S' => simp [adv]

/-- The invariant of a node without its children. -/
structure Own (S : List Shift) (d : Nd α) : Prop where
  time : d.t ≤ S.length
  wf : d.Wf
  pos : d.pos ≤ d.mx
  high : ∀ i ∈ d.ins, i.high ≤ d.mx
  empty : ∀ s S', S = s :: S' → d.t = 0 → d.ins = [] → s.idx ≤ d.mx → d.pos < s.idx → d.pos ≤ d.mx + s.amt

/-- The invariant of a tree. -/
inductive Inv (S : List Shift) : Tr α → Prop
  | nil : Inv S .nil
  | node {d : Nd α} {l r : Tr α} (own : Own S d) (hl : Inv S l) (hr : Inv S r)
      (bl : ∀ f ∈ l.flat S, f.le (adv S d.t d.mx l.mx?)) (br : ∀ f ∈ r.flat S, f.le (adv S d.t d.mx r.mx?)) :
      Inv S (.node d l r)

theorem mem_shiftIns {a : Int} {ins : List (Ival α)} {i : Ival α} (h : i ∈ shiftIns a ins) :
    ∃ j ∈ ins, i.low = j.low + a ∧ i.high = j.high + a ∧ i.val = j.val := by
  simp only [shiftIns, List.mem_map] at h
  obtain ⟨j, hj, rfl⟩ := h
  exact ⟨j, hj, rfl, rfl, rfl⟩

theorem tail_drop_mem {S : List Shift} {s : Shift} {t : Nat} (h : S[t + 1]? = some s) : s ∈ S.tail := by
  cases S with
  | nil => cases h
  | cons a S' =>
    rw [List.getElem?_cons_succ] at h
    exact List.mem_of_getElem? h

theorem drop_tail_mem {S : List Shift} {t : Nat} : ∀ s ∈ S.drop (t + 1), s ∈ S.tail := by
  intro s hs
  cases S with
  | nil => simp at hs
  | cons a S' =>
    rw [List.drop_succ_cons] at hs
    exact List.mem_of_mem_drop hs

/-- One shift preserves the invariant and what the node stands for. -/
theorem applyShift_inv {S : List Shift} (hS : Good S) {d : Nd α} {l r : Tr α} {s : Shift}
    (hs : S[d.t]? = some s) (h : Inv S (.node d l r)) :
    Inv S (.node (applyShift l.mx? r.mx? d s) l r) ∧ (applyShift l.mx? r.mx? d s).fl S = d.fl S ∧
    (applyShift l.mx? r.mx? d s).t = d.t + 1 := by
  cases h with | node own hl hr bl br => ?_
  have hts : s.tstamp = d.t + 1 := hS.wf _ _ hs
  have hlt : d.t < S.length := (List.getElem?_eq_some_iff.1 hs).1
  have hds : S.drop d.t = s :: S.drop (d.t + 1) := by
    rw [List.drop_eq_getElem_cons hlt, (List.getElem?_eq_some_iff.1 hs).2]
  have hamt : 0 < d.t → 0 ≤ s.amt := by
    intro h0
    obtain ⟨t, ht⟩ : ∃ t, d.t = t + 1 := ⟨d.t - 1, by omega⟩
    rw [ht] at hs
    exact hS.pos s (tail_drop_mem hs)
  -- the children
  have hmono : ∀ m m', m ≤ m' → moveMax (S.drop (d.t + 1)) m ≤ moveMax (S.drop (d.t + 1)) m' :=
    moveMax_mono _ fun x hx => hS.pos x (drop_tail_mem x hx)
  have hchild : ∀ (c : Option Int) (m' : Int), (d.mx < s.idx → d.mx ≤ m') →
      (s.idx ≤ d.mx → d.mx + s.amt ≤ m') → (s.idx ≤ d.mx → ∀ x, c = some x → x ≤ m') →
      adv S d.t d.mx c ≤ adv S (d.t + 1) m' c := by
    intro c m' h1 h2 h3
    show _ ≤ moveMax (S.drop (d.t + 1)) m'
    cases ht : d.t with
    | zero =>
      cases S with
      | nil => simp [ht] at hlt
      | cons s0 S' =>
        rw [ht] at hs
        cases hs
        simp only [adv]
        rw [ht] at hmono
        refine hmono _ _ ?_
        split
        · exact h1 (by omega)
        · have h2' := h2 (by omega)
          cases c with
          | none => exact h2'
          | some x =>
            have := h3 (by omega) x rfl
            simp only [omax]
            omega
    | succ t =>
      simp only [adv]
      rw [← ht, hds, moveMax_cons]
      refine hmono _ _ ?_
      split
      · exact h1 (by omega)
      · exact h2 (by omega)
  rw [applyShift_new (by omega)]
  by_cases hmx : d.mx < s.idx
  · rw [if_pos hmx]
    have hpos : movePos s d.pos = d.pos := by
      have := own.pos
      rw [movePos, if_neg (by omega)]
    refine ⟨.node ⟨by simp only []; omega, own.wf, own.pos, own.high, ?_⟩ hl hr ?_ ?_, ?_, hts⟩
    · intro s' S' _ h0
      simp only [hts] at h0
      omega
    · intro f hf
      refine Fl.le_trans (bl f hf) ?_
      simp only [hts]
      exact hchild _ _ (fun _ => Int.le_refl _) (fun h => by omega) (fun h => by omega)
    · intro f hf
      refine Fl.le_trans (br f hf) ?_
      simp only [hts]
      exact hchild _ _ (fun _ => Int.le_refl _) (fun h => by omega) (fun h => by omega)
    · simp only [Nd.fl, hts]
      rw [hds, movePosL_cons, hpos]
  · rw [if_neg hmx]
    have hins_eq : ∀ (d0 : Nd α), (updateMax d0 l.mx? r.mx?).mx ≥ d0.mx := fun d0 =>
      (updateMax_ge d0 _ _).1
    by_cases hp : d.pos ≥ s.idx
    · rw [if_pos hp]
      obtain ⟨g1, g2, g3, g4⟩ := updateMax_ge
        ({ d with t := s.tstamp, mx := d.mx + s.amt, pos := d.pos + s.amt, ins := shiftIns s.amt d.ins })
        l.mx? r.mx?
      simp only [] at g1
      have hpos : movePos s d.pos = d.pos + s.amt := by rw [movePos, if_pos hp]
      refine ⟨.node ⟨by simp only [updateMax_t]; omega, ?_, ?_, ?_, ?_⟩ hl hr ?_ ?_, ?_, hts⟩
      · intro i hi
        obtain ⟨j, hj, e1, e2, -⟩ := mem_shiftIns hi
        obtain ⟨w1, w2⟩ := own.wf j hj
        simp only [updateMax_pos]
        omega
      · have := own.pos
        simp only [updateMax_pos]
        omega
      · intro i hi
        obtain ⟨j, hj, e1, e2, -⟩ := mem_shiftIns hi
        have := own.high j hj
        omega
      · intro s' S' _ h0
        simp only [updateMax_t, hts] at h0
        omega
      · intro f hf
        refine Fl.le_trans (bl f hf) ?_
        simp only [updateMax_t, hts]
        exact hchild _ _ (fun h => by omega) (fun _ => g1) (fun _ => g3)
      · intro f hf
        refine Fl.le_trans (br f hf) ?_
        simp only [updateMax_t, hts]
        exact hchild _ _ (fun h => by omega) (fun _ => g1) (fun _ => g4)
      · simp only [Nd.fl, hts, updateMax_addr, updateMax_pos, updateMax_id, updateMax_ins, updateMax_t]
        rw [hds, movePosL_cons, hpos, shiftIns_add]
        congr 2
        omega
    · rw [if_neg hp]
      obtain ⟨g1, g2, g3, g4⟩ := updateMax_ge
        ({ d with t := s.tstamp, mx := d.mx + s.amt }) l.mx? r.mx?
      simp only [] at g1 g2
      have hpos : movePos s d.pos = d.pos := by rw [movePos, if_neg hp]
      refine ⟨.node ⟨by simp only [updateMax_t]; omega, own.wf, ?_, ?_, ?_⟩ hl hr ?_ ?_, ?_, hts⟩
      · simp only [updateMax_pos]
        by_cases he : d.ins = []
        · by_cases h0 : d.t = 0
          · have : ∃ S', S = s :: S' := by
              cases S with
              | nil => simp at hlt
              | cons s0 S' => rw [h0] at hs; cases hs; exact ⟨_, rfl⟩
            obtain ⟨S', hS'⟩ := this
            have := own.empty s S' hS' h0 he (by omega) (by omega)
            omega
          · have := hamt (by omega)
            have := own.pos
            omega
        · obtain ⟨i, hi⟩ := List.exists_mem_of_ne_nil _ he
          obtain ⟨w1, w2⟩ := own.wf i hi
          have := le_highOf hi
          omega
      · intro i hi
        have := le_highOf hi
        simp only [updateMax_ins] at *
        omega
      · intro s' S' _ h0
        simp only [updateMax_t, hts] at h0
        omega
      · intro f hf
        refine Fl.le_trans (bl f hf) ?_
        simp only [updateMax_t, hts]
        exact hchild _ _ (fun h => by omega) (fun _ => g1) (fun _ => g3)
      · intro f hf
        refine Fl.le_trans (br f hf) ?_
        simp only [updateMax_t, hts]
        exact hchild _ _ (fun h => by omega) (fun _ => g1) (fun _ => g4)
      · simp only [Nd.fl, hts, updateMax_addr, updateMax_pos, updateMax_id, updateMax_ins, updateMax_t]
        rw [hds, movePosL_cons, hpos]

@[simp] theorem applyShift_addr (lm rm : Option Int) (d : Nd α) (s : Shift) :
    (applyShift lm rm d s).addr = d.addr := by
  rw [applyShift]; simp only []; split_ifs <;> rfl

@[simp] theorem applyShift_id (lm rm : Option Int) (d : Nd α) (s : Shift) :
    (applyShift lm rm d s).id = d.id := by
  rw [applyShift]; simp only []; split_ifs <;> rfl

theorem foldl_inv {S : List Shift} (hS : Good S) {l r : Tr α} (n : Nat) : ∀ d : Nd α,
    d.t + n = S.length → Inv S (.node d l r) →
    Inv S (.node ((S.drop d.t).foldl (applyShift l.mx? r.mx?) d) l r) ∧
    ((S.drop d.t).foldl (applyShift l.mx? r.mx?) d).fl S = d.fl S ∧
    ((S.drop d.t).foldl (applyShift l.mx? r.mx?) d).t = S.length := by
  induction n with
  | zero =>
    intro d h hi
    rw [List.drop_of_length_le (by omega)]
    exact ⟨hi, rfl, by simpa using h⟩
  | succ n ih =>
    intro d h hi
    have hlt : d.t < S.length := by omega
    obtain ⟨h1, h2, h3⟩ := applyShift_inv hS (List.getElem?_eq_getElem hlt) hi
    obtain ⟨g1, g2, g3⟩ := ih _ (by omega) h1
    rw [List.drop_eq_getElem_cons hlt, List.foldl_cons]
    rw [h3] at g1 g2 g3
    exact ⟨g1, g2.trans h2, g3⟩

/-- Applying the shifts to a node preserves the invariant and what the node stands for. -/
theorem applyShifts_inv {S : List Shift} (hS : Good S) {d : Nd α} {l r : Tr α}
    (h : Inv S (.node d l r)) :
    Inv S (.node (applyShifts S l.mx? r.mx? d) l r) ∧ (applyShifts S l.mx? r.mx? d).fl S = d.fl S ∧
    (applyShifts S l.mx? r.mx? d).t = S.length := by
  rw [applyShifts_eq S hS.wf]
  have : d.t ≤ S.length := by cases h with | node own => exact own.time
  exact foldl_inv hS (S.length - d.t) d (by omega) h

/-- The node at the root has seen all shifts. -/
def Tr.Done (S : List Shift) : Tr α → Prop
  | .nil => True
  | .node d _ _ => d.t = S.length

theorem sync_inv {S : List Shift} (hS : Good S) {t : Tr α} (h : Inv S t) :
    Inv S (t.sync S) ∧ (t.sync S).flat S = t.flat S ∧ (t.sync S).Done S := by
  cases t with
  | nil => exact ⟨h, rfl, trivial⟩
  | node d l r =>
    obtain ⟨h1, h2, h3⟩ := applyShifts_inv hS h
    refine ⟨h1, ?_, h3⟩
    simp only [Tr.sync, Tr.flat, h2]

/-- At a node that has seen all shifts the field `max` bounds everything below. -/
theorem Inv.bound {S : List Shift} {d : Nd α} {l r : Tr α} (h : Inv S (.node d l r))
    (ht : d.t = S.length) : ∀ f ∈ (Tr.node d l r).flat S, f.le d.mx := by
  cases h with | node own hl hr bl br => ?_
  intro f hf
  simp only [Tr.flat, List.mem_append, List.mem_cons] at hf
  rw [adv_done _ _ _ _ ht] at bl br
  rcases hf with hf | rfl | hf
  · exact bl f hf
  · rw [Nd.fl_done _ _ ht]
    exact ⟨own.pos, own.high⟩
  · exact br f hf

/-- The bound at the root of a subtree. -/
theorem Inv.boundTr {S : List Shift} {t : Tr α} (h : Inv S t) (hd : t.Done S) :
    ∀ f ∈ t.flat S, ∀ m, (∀ x, t.mx? = some x → x ≤ m) → f.le m := by
  cases t with
  | nil => intro f hf; cases hf
  | node d l r => exact fun f hf m hm => Fl.le_trans (h.bound hd f hf) (hm _ rfl)

/-- A node with all shifts applied, put together with two trees. -/
theorem Inv.mk_done {S : List Shift} {d : Nd α} {l r : Tr α} (ht : d.t = S.length) (wf : d.Wf)
    (hp : d.pos ≤ d.mx) (hh : ∀ i ∈ d.ins, i.high ≤ d.mx)
    (hl : Inv S l) (hr : Inv S r) (bl : ∀ f ∈ l.flat S, f.le d.mx) (br : ∀ f ∈ r.flat S, f.le d.mx) :
    Inv S (.node d l r) := by
  refine .node ⟨by omega, wf, hp, hh, ?_⟩ hl hr ?_ ?_
  · intro s S' hS' h0
    rw [hS'] at ht
    simp at ht
    omega
  · rwa [adv_done _ _ _ _ ht]
  · rwa [adv_done _ _ _ _ ht]

@[simp] theorem recalc_mx (d : Nd α) (l r : Tr α) : (recalc d l r).mx = d.mx := rfl
@[simp] theorem recalc_ins (d : Nd α) (l r : Tr α) : (recalc d l r).ins = d.ins := rfl
@[simp] theorem recalc_t (d : Nd α) (l r : Tr α) : (recalc d l r).t = d.t := rfl
@[simp] theorem recalc_pos (d : Nd α) (l r : Tr α) : (recalc d l r).pos = d.pos := rfl
@[simp] theorem recalc_id (d : Nd α) (l r : Tr α) : (recalc d l r).id = d.id := rfl
@[simp] theorem recalc_addr (d : Nd α) (l r : Tr α) : (recalc d l r).addr = d.addr := rfl

theorem fl_update (S : List Shift) (d : Nd α) (l r : Tr α) :
    (updateMax (recalc d l r) l.mx? r.mx?).fl S = d.fl S := rfl

@[simp] theorem mk_flat (S : List Shift) (d : Nd α) (l r : Tr α) :
    (mk d l r).flat S = l.flat S ++ d.fl S :: r.flat S := rfl

/-- A lower bound for the field `max` of the node made by `mk`. -/
theorem mk_ge (d : Nd α) (l r : Tr α) : d.mx ≤ (updateMax (recalc d l r) l.mx? r.mx?).mx ∧
    (∀ x, l.mx? = some x → x ≤ (updateMax (recalc d l r) l.mx? r.mx?).mx) ∧
    (∀ x, r.mx? = some x → x ≤ (updateMax (recalc d l r) l.mx? r.mx?).mx) ∧
    highOf d.ins ≤ (updateMax (recalc d l r) l.mx? r.mx?).mx := by
  obtain ⟨g1, g2, g3, g4⟩ := updateMax_ge (recalc d l r) l.mx? r.mx?
  exact ⟨g1, g3, g4, g2⟩

theorem mk_inv {S : List Shift} {d : Nd α} {l r : Tr α} (ht : d.t = S.length) (wf : d.Wf)
    (hp : d.pos ≤ (updateMax (recalc d l r) l.mx? r.mx?).mx)
    (hl : Inv S l) (hr : Inv S r)
    (bl : ∀ f ∈ l.flat S, f.le (updateMax (recalc d l r) l.mx? r.mx?).mx)
    (br : ∀ f ∈ r.flat S, f.le (updateMax (recalc d l r) l.mx? r.mx?).mx) :
    Inv S (mk d l r) := by
  refine Inv.mk_done ht wf hp ?_ hl hr bl br
  intro i hi
  exact Int.le_trans (le_highOf hi) (mk_ge d l r).2.2.2

/-- `rotateLeft` on a tree whose root has seen all shifts. -/
theorem rotateLeft_inv {S : List Shift} (hS : Good S) {d : Nd α} {l r : Tr α}
    (h : Inv S (.node d l r)) (ht : d.t = S.length) :
    Inv S (rotateLeft S (.node d l r)) ∧
    (rotateLeft S (.node d l r)).flat S = (Tr.node d l r).flat S ∧
    (rotateLeft S (.node d l r)).Done S ∧
    (∀ x, (rotateLeft S (.node d l r)).mx? = some x → d.mx ≤ x) := by
  have hb := h.bound ht
  cases h with | node own hl hr bl br => ?_
  rw [rotateLeft, applyShifts_done _ hS.wf _ _ _ ht]
  obtain ⟨s1, s2, s3⟩ := sync_inv hS hr
  cases hr' : r.sync S with
  | nil =>
    rw [hr'] at s2
    cases r with
    | nil => exact ⟨.node own hl .nil bl br, rfl, ht, fun x hx => by cases hx; exact Int.le_refl _⟩
    | node => simp [Tr.sync] at hr'
  | node e rl rr =>
    rw [hr'] at s1 s2 s3
    have hbr := s1.bound s3
    cases s1 with | node own' hrl hrr brl brr => ?_
    simp only [Tr.flat] at s2 hb hbr
    obtain ⟨a1, a2, a3, a4⟩ := mk_ge d l rl
    obtain ⟨c1, c2, c3, c4⟩ := mk_ge e (mk d l rl) rr
    have c2' := c2 _ rfl
    have hin : Inv S (mk d l rl) := by
      refine mk_inv ht own.wf (Int.le_trans own.pos a1) hl hrl ?_ ?_
      · intro f hf
        exact Fl.le_trans (hb f (by simp [hf])) a1
      · intro f hf
        refine Fl.le_trans (hb f ?_) a1
        simp only [List.mem_append, List.mem_cons]
        right; right
        rw [← s2]
        simp [hf]
    refine ⟨mk_inv s3 own'.wf (Int.le_trans own'.pos c1) hin hrr ?_ ?_, ?_, s3, ?_⟩
    · intro f hf
      refine Fl.le_trans (hb f ?_) (Int.le_trans a1 c2')
      simp only [mk_flat, List.mem_append, List.mem_cons] at hf ⊢
      rcases hf with hf | hf | hf
      · exact .inl hf
      · exact .inr (.inl hf)
      · refine .inr (.inr ?_)
        rw [← s2]
        simp [hf]
    · intro f hf
      exact Fl.le_trans (hbr f (by simp [hf])) c1
    · simp only [mk_flat, Tr.flat]
      rw [← s2]
      simp
    · intro x hx
      cases hx
      exact Int.le_trans a1 c2'

/-- `rotateRight` on a tree whose root has seen all shifts. -/
theorem rotateRight_inv {S : List Shift} (hS : Good S) {d : Nd α} {l r : Tr α}
    (h : Inv S (.node d l r)) (ht : d.t = S.length) :
    Inv S (rotateRight S (.node d l r)) ∧
    (rotateRight S (.node d l r)).flat S = (Tr.node d l r).flat S ∧
    (rotateRight S (.node d l r)).Done S ∧
    (∀ x, (rotateRight S (.node d l r)).mx? = some x → d.mx ≤ x) := by
  have hb := h.bound ht
  cases h with | node own hl hr bl br => ?_
  rw [rotateRight, applyShifts_done _ hS.wf _ _ _ ht]
  obtain ⟨s1, s2, s3⟩ := sync_inv hS hl
  cases hl' : l.sync S with
  | nil =>
    rw [hl'] at s2
    cases l with
    | nil => exact ⟨.node own .nil hr bl br, rfl, ht, fun x hx => by cases hx; exact Int.le_refl _⟩
    | node => simp [Tr.sync] at hl'
  | node e ll lr =>
    rw [hl'] at s1 s2 s3
    have hbl := s1.bound s3
    cases s1 with | node own' hll hlr bll blr => ?_
    simp only [Tr.flat] at s2 hb hbl
    obtain ⟨a1, a2, a3, a4⟩ := mk_ge d lr r
    obtain ⟨c1, c2, c3, c4⟩ := mk_ge e ll (mk d lr r)
    have c3' := c3 _ rfl
    have hin : Inv S (mk d lr r) := by
      refine mk_inv ht own.wf (Int.le_trans own.pos a1) hlr hr ?_ ?_
      · intro f hf
        refine Fl.le_trans (hb f ?_) a1
        simp only [List.mem_append, List.mem_cons]
        left
        rw [← s2]
        simp [hf]
      · intro f hf
        exact Fl.le_trans (hb f (by simp [hf])) a1
    refine ⟨mk_inv s3 own'.wf (Int.le_trans own'.pos c1) hll hin ?_ ?_, ?_, s3, ?_⟩
    · intro f hf
      exact Fl.le_trans (hbl f (by simp [hf])) c1
    · intro f hf
      refine Fl.le_trans (hb f ?_) (Int.le_trans a1 c3')
      simp only [mk_flat, List.mem_append, List.mem_cons] at hf ⊢
      rcases hf with hf | hf | hf
      · refine .inl ?_
        rw [← s2]
        simp [hf]
      · exact .inr (.inl hf)
      · exact .inr (.inr hf)
    · simp only [mk_flat, Tr.flat]
      rw [← s2]
      simp
    · intro x hx
      cases hx
      exact Int.le_trans a1 c3'

theorem rotateLeft_inv' {S : List Shift} (hS : Good S) {t : Tr α} (h : Inv S t) :
    Inv S (rotateLeft S t) ∧ (rotateLeft S t).flat S = t.flat S ∧ (rotateLeft S t).Done S := by
  cases t with
  | nil => exact ⟨h, rfl, trivial⟩
  | node d l r =>
    obtain ⟨h1, h2, h3⟩ := applyShifts_inv hS h
    obtain ⟨g1, g2, g3, -⟩ := rotateLeft_inv hS h1 h3
    have he : rotateLeft S (.node (applyShifts S l.mx? r.mx? d) l r) = rotateLeft S (.node d l r) := by
      simp only [rotateLeft, applyShifts_done _ hS.wf _ _ _ h3]
    rw [he] at g1 g2 g3
    refine ⟨g1, ?_, g3⟩
    rw [g2]
    simp only [Tr.flat, h2]

theorem rotateRight_inv' {S : List Shift} (hS : Good S) {t : Tr α} (h : Inv S t) :
    Inv S (rotateRight S t) ∧ (rotateRight S t).flat S = t.flat S ∧ (rotateRight S t).Done S := by
  cases t with
  | nil => exact ⟨h, rfl, trivial⟩
  | node d l r =>
    obtain ⟨h1, h2, h3⟩ := applyShifts_inv hS h
    obtain ⟨g1, g2, g3, -⟩ := rotateRight_inv hS h1 h3
    have he : rotateRight S (.node (applyShifts S l.mx? r.mx? d) l r) = rotateRight S (.node d l r) := by
      simp only [rotateRight, applyShifts_done _ hS.wf _ _ _ h3]
    rw [he] at g1 g2 g3
    refine ⟨g1, ?_, g3⟩
    rw [g2]
    simp only [Tr.flat, h2]

/-- `rebalanceTree` when the bound at the root may be too small by what the children know. -/
theorem rebalance_inv {S : List Shift} (hS : Good S) {d : Nd α} {l r : Tr α} (ht : d.t = S.length)
    (wf : d.Wf) (hp : d.pos ≤ (updateMax (recalc d l r) l.mx? r.mx?).mx) (hl : Inv S l) (hr : Inv S r)
    (bl : ∀ f ∈ l.flat S, f.le (updateMax (recalc d l r) l.mx? r.mx?).mx)
    (br : ∀ f ∈ r.flat S, f.le (updateMax (recalc d l r) l.mx? r.mx?).mx) :
    Inv S (rebalance S (.node d l r)) ∧
    (rebalance S (.node d l r)).flat S = (Tr.node d l r).flat S ∧
    (rebalance S (.node d l r)).Done S ∧
    (∀ x, (rebalance S (.node d l r)).mx? = some x → (updateMax (recalc d l r) l.mx? r.mx?).mx ≤ x) := by
  have h0 : Inv S (.node (updateMax (recalc d l r) l.mx? r.mx?) l r) := mk_inv ht wf hp hl hr bl br
  have hown : Own S (updateMax (recalc d l r) l.mx? r.mx?) := by cases h0 with | node own => exact own
  rw [rebalance]
  simp only []
  split
  · -- right heavy
    obtain ⟨r1, r2⟩ : Inv S (if r.left.height > r.right.height then rotateRight S r else r) ∧
        (if r.left.height > r.right.height then rotateRight S r else r).flat S = r.flat S := by
      split
      · exact ⟨(rotateRight_inv' hS hr).1, (rotateRight_inv' hS hr).2.1⟩
      · exact ⟨hr, rfl⟩
    obtain ⟨g1, g2, g3, g4⟩ := rotateLeft_inv hS
      (Inv.mk_done (d := updateMax (recalc d l r) l.mx? r.mx?) ht wf hp hown.high hl r1 bl (by rw [r2]; exact br)) ht
    exact ⟨g1, by rw [g2]; simp only [Tr.flat, fl_update, r2], g3, g4⟩
  · split
    · obtain ⟨r1, r2⟩ : Inv S (if l.right.height > l.left.height then rotateLeft S l else l) ∧
          (if l.right.height > l.left.height then rotateLeft S l else l).flat S = l.flat S := by
        split
        · exact ⟨(rotateLeft_inv' hS hl).1, (rotateLeft_inv' hS hl).2.1⟩
        · exact ⟨hl, rfl⟩
      obtain ⟨g1, g2, g3, g4⟩ := rotateRight_inv hS
        (Inv.mk_done (d := updateMax (recalc d l r) l.mx? r.mx?) ht wf hp hown.high r1 hr (by rw [r2]; exact bl) br) ht
      exact ⟨g1, by rw [g2]; simp only [Tr.flat, fl_update, r2], g3, g4⟩
    · refine ⟨h0, ?_, ht, fun x hx => by cases hx; exact Int.le_refl _⟩
      simp only [Tr.flat, fl_update]

/-- `rebalanceTree` when the bound at the root is right already. -/
theorem rebalance_inv' {S : List Shift} (hS : Good S) {d : Nd α} {l r : Tr α}
    (h : Inv S (.node d l r)) (ht : d.t = S.length) :
    Inv S (rebalance S (.node d l r)) ∧
    (rebalance S (.node d l r)).flat S = (Tr.node d l r).flat S ∧
    (rebalance S (.node d l r)).Done S ∧ (∀ x, (rebalance S (.node d l r)).mx? = some x → d.mx ≤ x) := by
  have hb := h.bound ht
  cases h with | node own hl hr bl br => ?_
  have hge := (mk_ge d l r).1
  obtain ⟨g1, g2, g3, g4⟩ := rebalance_inv hS ht own.wf (Int.le_trans own.pos hge) hl hr
    (fun f hf => Fl.le_trans (hb f (by simp [Tr.flat, hf])) hge)
    (fun f hf => Fl.le_trans (hb f (by simp [Tr.flat, hf])) hge)
  exact ⟨g1, g2, g3, fun x hx => Int.le_trans hge (g4 x hx)⟩

end Gpeg.LazyLog
