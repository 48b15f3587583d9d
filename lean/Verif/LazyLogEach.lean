import Verif.LazyLogLazy
/-!
# The interval tree when edits meet nothing

As long as no node becomes empty, what a node holds depends on its own field `max` only, and not on that of other nodes. So the content
stays right whatever `Pos` does to the fields `max`.
-/
namespace Gpeg.LazyLog
variable {α : Type}

/-- A node without its time and without its children. -/
abbrev Raw0 (d : Nd α) : Prop := Raw none none d

theorem raw_step0 {S : List Shift} (hS : WfS S) {lm rm : Option Int} {d : Nd α} {s : Shift} (hs : S[d.t]? = some s)
    (h : Raw0 d) : Raw0 (applyShift lm rm d s) ∧ (applyShift lm rm d s).fl S = d.fl S ∧
    (applyShift lm rm d s).t = d.t + 1 := by
  have hts : s.tstamp = d.t + 1 := hS _ _ hs
  have hlt : d.t < S.length := (List.getElem?_eq_some_iff.1 hs).1
  have hdrop : S.drop d.t = s :: S.drop (d.t + 1) := by
    rw [List.drop_eq_getElem_cons hlt, (List.getElem?_eq_some_iff.1 hs).2]
  have hp := h.pos_le
  rw [applyShift_new (by omega)]
  by_cases hm : d.mx < s.idx
  · rw [if_pos hm]
    refine ⟨⟨h.ne, h.wf, h.high, nofun, nofun⟩, ?_, hts⟩
    simp only [Nd.fl, hdrop, movePosL_cons, movePos, hts]
    rw [if_neg (by omega)]
  · rw [if_neg hm]
    obtain ⟨g0, g3, g1, g2⟩ := updateMax_ge (if d.pos ≥ s.idx then
        { d with t := s.tstamp, mx := d.mx + s.amt, pos := d.pos + s.amt, ins := shiftIns s.amt d.ins }
      else { d with t := s.tstamp, mx := d.mx + s.amt }) lm rm
    by_cases hq : d.pos ≥ s.idx
    · simp only [if_pos hq] at g0 g1 g2 g3 ⊢
      refine ⟨⟨?_, ?_, g3, nofun, nofun⟩, ?_, hts⟩
      · simp only [updateMax_ins, shiftIns]
        intro he
        exact h.ne (List.map_eq_nil_iff.1 he)
      · intro i hi
        simp only [updateMax_ins, updateMax_pos] at hi ⊢
        obtain ⟨j, hj, e1, e2, -⟩ := mem_shiftIns hi
        have := h.wf j hj
        omega
      · simp only [Nd.fl, updateMax_addr, updateMax_pos, updateMax_id, updateMax_ins, updateMax_t, hdrop, movePosL_cons, hts]
        rw [show movePos s d.pos = d.pos + s.amt by simp only [movePos]; rw [if_pos (by omega)], shiftIns_add]
        congr 2
        omega
    · simp only [if_neg hq] at g0 g1 g2 g3 ⊢
      refine ⟨⟨h.ne, h.wf, g3, nofun, nofun⟩, ?_, hts⟩
      simp only [Nd.fl, updateMax_addr, updateMax_pos, updateMax_id, updateMax_ins, updateMax_t, hdrop, movePosL_cons, hts]
      rw [show movePos s d.pos = d.pos by simp only [movePos]; rw [if_neg (by omega)]]

theorem raw_foldl0 {S : List Shift} (hS : WfS S) {lm rm : Option Int} (n : Nat) : ∀ d : Nd α, d.t + n = S.length →
    Raw0 d → Raw0 ((S.drop d.t).foldl (applyShift lm rm) d) ∧
    ((S.drop d.t).foldl (applyShift lm rm) d).fl S = d.fl S ∧
    ((S.drop d.t).foldl (applyShift lm rm) d).t = S.length := by
  induction n with
  | zero =>
    intro d h hr
    rw [List.drop_of_length_le (by omega)]
    exact ⟨hr, rfl, by simpa using h⟩
  | succ n ih =>
    intro d h hr
    have hlt : d.t < S.length := by omega
    obtain ⟨h1, h2, h3⟩ := raw_step0 hS (List.getElem?_eq_getElem hlt) hr
    obtain ⟨g1, g2, g3⟩ := ih _ (by omega) h1
    rw [List.drop_eq_getElem_cons hlt, List.foldl_cons]
    rw [h3] at g1 g2 g3
    exact ⟨g1, g2.trans h2, g3⟩

theorem raw_sync0 {S : List Shift} (hS : WfS S) {lm rm : Option Int} {d : Nd α} (ht : d.t ≤ S.length) (h : Raw0 d) :
    Raw0 (applyShifts S lm rm d) ∧ (applyShifts S lm rm d).fl S = d.fl S ∧
    (applyShifts S lm rm d).t = S.length := by
  rw [applyShifts_eq S hS]
  exact raw_foldl0 hS (S.length - d.t) d (by omega) h

/-- Every node is right by itself. -/
inductive Each (S : List Shift) : Tr α → Prop
  | nil : Each S .nil
  | node {d : Nd α} {l r : Tr α} (time : d.t ≤ S.length) (raw : Raw0 d) (hl : Each S l) (hr : Each S r) : Each S (.node d l r)

theorem Each.parts {S : List Shift} (hS : WfS S) {d : Nd α} {l r : Tr α} (h : Each S (.node d l r)) :
    (applyShifts S l.mx? r.mx? d).t = S.length ∧ (applyShifts S l.mx? r.mx? d).fl S = d.fl S ∧
    Raw0 (applyShifts S l.mx? r.mx? d) ∧ Each S l ∧ Each S r := by
  cases h with | node time raw hl hr => ?_
  obtain ⟨h1, h2, h3⟩ := raw_sync0 hS (lm := l.mx?) (rm := r.mx?) time raw
  exact ⟨h3, h2, h1, hl, hr⟩

theorem each_mk {S : List Shift} {d : Nd α} {l r : Tr α} (ht : d.t = S.length) (ne : d.ins ≠ []) (wf : d.Wf) (hl : Each S l)
    (hr : Each S r) : Each S (mk d l r) := by
  obtain ⟨-, -, -, gh⟩ := mk_ge d l r
  exact .node (d := updateMax (recalc d l r) l.mx? r.mx?) (Nat.le_of_eq ht) ⟨ne, wf, gh, nofun, nofun⟩ hl hr

theorem rotateLeft_each {S : List Shift} (hS : WfS S) : ∀ {t : Tr α}, Each S t →
    Each S (rotateLeft S t) ∧ (rotateLeft S t).flat S = t.flat S
  | .nil, _ => ⟨.nil, rfl⟩
  | .node d l r, h => by
    obtain ⟨h1, h2, h3, h4, h5⟩ := h.parts hS
    rw [rotateLeft]
    generalize applyShifts S l.mx? r.mx? d = d' at *
    cases r with
    | nil =>
      simp only [Tr.sync]
      exact ⟨.node (Nat.le_of_eq h1) h3 h4 h5, by simp only [Tr.flat, h2]⟩
    | node e rl rr =>
      obtain ⟨k1, k2, k3, k4, k5⟩ := h5.parts hS
      simp only [Tr.sync]
      exact ⟨each_mk k1 k3.ne k3.wf (each_mk h1 h3.ne h3.wf h4 k4) k5,
        by simp only [mk_flat, Tr.flat, h2, k2, List.append_assoc, List.cons_append]⟩

theorem rotateRight_each {S : List Shift} (hS : WfS S) : ∀ {t : Tr α}, Each S t →
    Each S (rotateRight S t) ∧ (rotateRight S t).flat S = t.flat S
  | .nil, _ => ⟨.nil, rfl⟩
  | .node d l r, h => by
    obtain ⟨h1, h2, h3, h4, h5⟩ := h.parts hS
    rw [rotateRight]
    generalize applyShifts S l.mx? r.mx? d = d' at *
    cases l with
    | nil =>
      simp only [Tr.sync]
      exact ⟨.node (Nat.le_of_eq h1) h3 h4 h5, by simp only [Tr.flat, h2]⟩
    | node e ll lr =>
      obtain ⟨k1, k2, k3, k4, k5⟩ := h4.parts hS
      simp only [Tr.sync]
      exact ⟨each_mk k1 k3.ne k3.wf k4 (each_mk h1 h3.ne h3.wf k5 h5),
        by simp only [mk_flat, Tr.flat, h2, k2, List.append_assoc, List.cons_append]⟩

theorem rebalance_each {S : List Shift} (hS : WfS S) {d : Nd α} {l r : Tr α} (ht : d.t = S.length) (ne : d.ins ≠ [])
    (wf : d.Wf) (hl : Each S l) (hr : Each S r) :
    Each S (rebalance S (.node d l r)) ∧ (rebalance S (.node d l r)).flat S = l.flat S ++ d.fl S :: r.flat S := by
  have hmk := each_mk ht ne wf hl hr
  have hu := fl_update S d l r
  rw [mk] at hmk
  rw [rebalance]
  simp only []
  generalize updateMax (recalc d l r) l.mx? r.mx? = d1 at *
  cases hmk with | node time raw hl hr => ?_
  split
  · generalize hr1 : (if r.left.height > r.right.height then rotateRight S r else r) = r1
    have hr' : Each S r1 ∧ r1.flat S = r.flat S := by
      rw [← hr1]
      split
      · exact rotateRight_each hS hr
      · exact ⟨hr, rfl⟩
    obtain ⟨o1, o2⟩ := rotateLeft_each hS (Each.node time raw hl hr'.1)
    exact ⟨o1, by rw [o2, Tr.flat, hu, hr'.2]⟩
  · split
    · generalize hl1 : (if l.right.height > l.left.height then rotateLeft S l else l) = l1
      have hl' : Each S l1 ∧ l1.flat S = l.flat S := by
        rw [← hl1]
        split
        · exact rotateLeft_each hS hl
        · exact ⟨hl, rfl⟩
      obtain ⟨o1, o2⟩ := rotateRight_each hS (Each.node time raw hl'.1 hr)
      exact ⟨o1, by rw [o2, Tr.flat, hu, hl'.2]⟩
    · exact ⟨.node time raw hl hr, by rw [Tr.flat, hu]⟩

theorem add_each {S : List Shift} (hS : WfS S) (a : Nat) (pos id : Int) (v : Ival α) (hv : v.low = pos)
    (h0 : 0 ≤ v.high) (hlh : v.low ≤ v.high) : ∀ t : Tr α, Each S t → t.Ord S →
    Each S (add S S.length a pos id v t).1 ∧
    AddRel (t.flat S) ((add S S.length a pos id v t).1.flat S) a pos id v (add S S.length a pos id v t).2 := by
  intro t
  induction t with
  | nil =>
    intro _ _
    refine ⟨.node (Nat.le_refl _) ⟨by simp, ?_, ?_, nofun, nofun⟩ .nil .nil, .inl ⟨[], [], rfl, ?_, rfl, (fun _ h => by cases h),
      (fun _ h => by cases h)⟩⟩
    · intro i hi
      rw [List.mem_singleton] at hi
      subst hi
      exact ⟨hv, hlh⟩
    · simp only [highOf, List.foldl_cons, List.foldl_nil]
      split <;> omega
    · simp [add, Tr.flat, Nd.fl, shiftIns_zero]
  | node d l r ihl ihr =>
    intro h ho
    obtain ⟨h1, h2, h3, h6, h7⟩ := h.parts hS
    have hll := ho.lt_left
    have hlr := ho.lt_right
    rw [← h2] at hll hlr
    have hflat : (Tr.node d l r).flat S = l.flat S ++ (applyShifts S l.mx? r.mx? d).fl S :: r.flat S := by
      rw [h2]; rfl
    rw [hflat, add]
    simp only []
    generalize applyShifts S l.mx? r.mx? d = d' at *
    have hdfl := Nd.fl_done S d' h1
    simp only [Fl.lt, hdfl] at hll hlr
    split
    · rename_i hc
      have hc := compareKey_lt hc
      obtain ⟨i1, i3⟩ := ihl h6 ho.left
      obtain ⟨o1, o2⟩ := rebalance_each hS h1 h3.ne h3.wf i1 h7
      refine ⟨o1, ?_⟩
      simp only [o2]
      rcases i3 with ⟨A, B, e1, e2, e3, e4, e5⟩ | ⟨A, f, B, e1, e2, e3, e4, e5⟩
      · rw [e1, e2]
        refine .inl ⟨A, B ++ d'.fl S :: r.flat S, by simp, by simp, e3, e4, ?_⟩
        intro f hf
        simp only [List.mem_append, List.mem_cons] at hf
        rcases hf with hf | rfl | hf
        · exact e5 f hf
        · rw [hdfl]; exact hc
        · exact klt_trans hc (hlr f hf)
      · rw [e1, e2]
        exact .inr ⟨A, f, B ++ d'.fl S :: r.flat S, by simp, by simp, e3, e4, e5⟩
    · rename_i hc
      have hc := compareKey_gt hc
      obtain ⟨i1, i3⟩ := ihr h7 ho.right
      obtain ⟨o1, o2⟩ := rebalance_each hS h1 h3.ne h3.wf h6 i1
      refine ⟨o1, ?_⟩
      simp only [o2]
      rcases i3 with ⟨A, B, e1, e2, e3, e4, e5⟩ | ⟨A, f, B, e1, e2, e3, e4, e5⟩
      · rw [e1, e2]
        refine .inl ⟨l.flat S ++ d'.fl S :: A, B, by simp, by simp, e3, ?_, e5⟩
        intro f hf
        simp only [List.mem_append, List.mem_cons] at hf
        rcases hf with hf | rfl | hf
        · exact klt_trans (hll f hf) hc
        · rw [hdfl]; exact hc
        · exact e4 f hf
      · rw [e1, e2]
        exact .inr ⟨l.flat S ++ d'.fl S :: A, f, B, by simp, by simp, e3, e4, e5⟩
    · rename_i hc
      have hc := compareKey_eq hc
      obtain ⟨o1, o2⟩ := rebalance_each (d := { d' with ins := d'.ins ++ [v], t := S.length }) hS rfl (by simp) (by
        intro i hi
        rcases List.mem_append.1 hi with hi | hi
        · exact h3.wf i hi
        · rw [List.mem_singleton] at hi
          subst hi
          exact ⟨by rw [hv]; exact hc.1, hlh⟩) h6 h7
      refine ⟨o1, ?_⟩
      simp only [o2]
      refine .inr ⟨l.flat S, d'.fl S, r.flat S, rfl, ?_, ?_, ?_, ?_⟩
      · rw [Nd.fl_done S { d' with ins := d'.ins ++ [v], t := S.length } rfl, hdfl]
      all_goals rw [hdfl]
      all_goals simp only [hc]

theorem search_each {S : List Shift} (hS : WfS S) (pos id : Int) : ∀ t : Tr α, Each S t → t.Ord S →
    Each S (search S pos id t).1 ∧ (search S pos id t).1.flat S = t.flat S ∧
    match (search S pos id t).2 with
    | some d => d.t = S.length ∧ d.pos = pos ∧ d.id = id ∧ d.fl S ∈ t.flat S
    | none => ∀ f ∈ t.flat S, ¬ (f.pos = pos ∧ f.id = id) := by
  intro t
  induction t with
  | nil => intro _ _; exact ⟨.nil, rfl, fun f hf => by cases hf⟩
  | node d l r ihl ihr =>
    intro h ho
    obtain ⟨h1, h2, h3, h6, h7⟩ := h.parts hS
    have hll := ho.lt_left
    have hlr := ho.lt_right
    rw [← h2] at hll hlr
    have hflat : (Tr.node d l r).flat S = l.flat S ++ (applyShifts S l.mx? r.mx? d).fl S :: r.flat S := by
      rw [h2]; rfl
    rw [hflat, search]
    simp only []
    generalize applyShifts S l.mx? r.mx? d = d' at *
    have hdfl := Nd.fl_done S d' h1
    simp only [Fl.lt, hdfl, klt] at hll hlr
    cases hc : compareKey pos id d'.pos d'.id with
    | lt =>
      have hc := compareKey_lt hc
      obtain ⟨i1, i2, i5⟩ := ihl h6 ho.left
      simp only []
      refine ⟨.node (Nat.le_of_eq h1) h3 i1 h7, by simp only [Tr.flat, i2], ?_⟩
      cases hs : (search S pos id l).2 with
      | some e => rw [hs] at i5; exact ⟨i5.1, i5.2.1, i5.2.2.1, by simp [i5.2.2.2]⟩
      | none =>
        rw [hs] at i5
        intro f hf
        simp only [List.mem_append, List.mem_cons] at hf
        simp only [klt] at hc
        rcases hf with hf | rfl | hf
        · exact i5 f hf
        · rw [hdfl]; simp only []; omega
        · have := hlr f hf; omega
    | gt =>
      have hc := compareKey_gt hc
      obtain ⟨i1, i2, i5⟩ := ihr h7 ho.right
      simp only []
      refine ⟨.node (Nat.le_of_eq h1) h3 h6 i1, by simp only [Tr.flat, i2], ?_⟩
      cases hs : (search S pos id r).2 with
      | some e => rw [hs] at i5; exact ⟨i5.1, i5.2.1, i5.2.2.1, by simp [i5.2.2.2]⟩
      | none =>
        rw [hs] at i5
        intro f hf
        simp only [List.mem_append, List.mem_cons] at hf
        simp only [klt] at hc
        rcases hf with hf | rfl | hf
        · have := hll f hf; omega
        · rw [hdfl]; simp only []; omega
        · exact i5 f hf
    | eq =>
      have hc := compareKey_eq hc
      exact ⟨.node (Nat.le_of_eq h1) h3 h6 h7, rfl, h1, hc.1.symm, hc.2.symm, by simp⟩

theorem touch_each {S : List Shift} (hS : WfS S) (a : Nat) {t : Tr α} (h : Each S t) :
    Each S (t.touch S a) ∧ (t.touch S a).flat S = t.flat S := by
  induction h with
  | nil => exact ⟨.nil, rfl⟩
  | @node d l r time raw hl hr ihl ihr =>
    obtain ⟨h1, h2, h3⟩ := raw_sync0 hS (lm := l.mx?) (rm := r.mx?) time raw
    rw [Tr.touch]
    split
    · exact ⟨.node (Nat.le_of_eq h3) h1 hl hr, by simp only [Tr.flat, h2]⟩
    · exact ⟨.node time raw ihl.1 ihr.1, by simp only [Tr.flat, ihl.2, ihr.2]⟩

theorem Each.wf_flat {S : List Shift} (hS : WfS S) {t : Tr α} (h : Each S t) :
    ∀ f ∈ t.flat S, f.ins ≠ [] ∧ ∀ i ∈ f.ins, i.low = f.pos ∧ i.low ≤ i.high := by
  induction h with
  | nil => intro f hf; cases hf
  | @node d l r time raw hl hr ihl ihr =>
    intro f hf
    simp only [Tr.flat, List.mem_append, List.mem_cons] at hf
    rcases hf with hf | rfl | hf
    · exact ihl f hf
    · obtain ⟨h1, h2, h3⟩ := raw_sync0 hS (lm := none) (rm := none) time raw
      rw [← h2, Nd.fl_done S _ h3]
      exact ⟨h1.ne, h1.wf⟩
    · exact ihr f hf

/-- An edit that meets nothing leaves the content as it is. -/
theorem removeOverlaps_each {S : List Shift} (hS : WfS S) {low high : Int} : ∀ (f : Nat) {t : Tr α}, Each S t →
    (∀ g ∈ t.flat S, ∀ i ∈ g.ins, Ival.overlaps low high i = false) →
    Each S (removeOverlaps S low high f t) ∧ (removeOverlaps S low high f t).flat S = t.flat S
  | 0, _, h, _ => ⟨h, rfl⟩
  | _ + 1, .nil, h, _ => ⟨h, rfl⟩
  | f + 1, .node d l r, h, hc => by
    obtain ⟨h1, h2, h3, h6, h7⟩ := h.parts hS
    obtain ⟨l1, l2⟩ := removeOverlaps_each hS f h6 fun g hg => hc g (by simp [Tr.flat, hg])
    obtain ⟨r1, r2⟩ := removeOverlaps_each hS f h7 fun g hg => hc g (by simp [Tr.flat, hg])
    have hcd := hc (d.fl S) (by simp [Tr.flat])
    rw [← h2, Nd.fl_done S _ h1] at hcd
    rw [removeOverlaps]
    simp only []
    generalize applyShifts S l.mx? r.mx? d = d' at *
    have hne : ¬ (d'.ins.isEmpty = true) := fun he => h3.ne (List.isEmpty_iff.1 he)
    simp only [swapRemove_none _ _ (Nat.le_refl _) hcd, if_neg hne]
    have ht := Nat.le_of_eq h1
    split
    · exact ⟨.node ht h3 h6 h7, by simp only [Tr.flat, h2]⟩
    · split
      · exact ⟨.node ht h3 l1 h7, by simp only [Tr.flat, h2, l2]⟩
      · exact ⟨.node ht h3 l1 r1, by simp only [Tr.flat, h2, l2, r2]⟩

theorem each_snoc {S : List Shift} {t : Tr α} (h : Each S t) (s : Shift) :
    Each (S ++ [s]) t ∧ t.flat (S ++ [s]) = (t.flat S).map (Fl.move s) := by
  induction h with
  | nil => exact ⟨.nil, rfl⟩
  | node time raw _ _ ihl ihr =>
    exact ⟨.node (by simp only [List.length_append]; omega) raw ihl.1 ihr.1,
      by simp only [Tr.flat, ihl.2, ihr.2, fl_snoc time, List.map_append, List.map_cons]⟩

end Gpeg.LazyLog
