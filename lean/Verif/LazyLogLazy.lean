import Verif.LazyLogEager
/-!
# The interval tree with shifts applied lazily, for all edits

The invariant of the lazy tree when no node is empty: with all shifts applied to each node, the field `max` of a node is not
smaller than that of its children. An edit visits the nodes for which this could be broken by the shift that follows it.
-/
namespace Gpeg.LazyLog
variable {α : Type}

/-- A node without its time: not empty, its intervals start at its key, and `max` bounds them and the fields `max` of the
children. -/
structure Raw (lm rm : Option Int) (d : Nd α) : Prop where
  ne : d.ins ≠ []
  wf : d.Wf
  high : highOf d.ins ≤ d.mx
  left : ∀ x, lm = some x → x ≤ d.mx
  right : ∀ x, rm = some x → x ≤ d.mx

theorem Raw.pos_le {lm rm : Option Int} {d : Nd α} (h : Raw lm rm d) : d.pos ≤ d.mx :=
  Ok.pos_le (T := d.t) ⟨Nat.le_refl _, h.ne, h.wf⟩ h.high

theorem raw_step {S : List Shift} (hS : WfS S) {lm rm : Option Int} {d : Nd α} {s : Shift} (hs : S[d.t]? = some s)
    (h : Raw lm rm d) : Raw lm rm (applyShift lm rm d s) ∧ (applyShift lm rm d s).fl S = d.fl S ∧
    (applyShift lm rm d s).t = d.t + 1 := by
  have hts : s.tstamp = d.t + 1 := hS _ _ hs
  have hlt : d.t < S.length := (List.getElem?_eq_some_iff.1 hs).1
  have hdrop : S.drop d.t = s :: S.drop (d.t + 1) := by
    rw [List.drop_eq_getElem_cons hlt, (List.getElem?_eq_some_iff.1 hs).2]
  have hp := h.pos_le
  rw [applyShift_new (by omega)]
  by_cases hm : d.mx < s.idx
  · rw [if_pos hm]
    refine ⟨⟨h.ne, h.wf, h.high, h.left, h.right⟩, ?_, hts⟩
    simp only [Nd.fl, hdrop, movePosL_cons, movePos, hts]
    rw [if_neg (by omega)]
  · rw [if_neg hm]
    obtain ⟨g0, g3, g1, g2⟩ := updateMax_ge (if d.pos ≥ s.idx then
        { d with t := s.tstamp, mx := d.mx + s.amt, pos := d.pos + s.amt, ins := shiftIns s.amt d.ins }
      else { d with t := s.tstamp, mx := d.mx + s.amt }) lm rm
    by_cases hq : d.pos ≥ s.idx
    · simp only [if_pos hq] at g0 g1 g2 g3 ⊢
      refine ⟨⟨?_, ?_, g3, g1, g2⟩, ?_, hts⟩
      · simp only [updateMax_ins, shiftIns]
        intro he
        exact h.ne (List.map_eq_nil_iff.1 he)
      · intro i hi
        simp only [updateMax_ins, updateMax_pos] at hi ⊢
        obtain ⟨j, hj, e1, e2, -⟩ := mem_shiftIns hi
        have := h.wf j hj
        omega
      · simp only [Nd.fl, updateMax_addr, updateMax_pos, updateMax_id, updateMax_ins, updateMax_t, hdrop, movePosL_cons, hts]
        rw [show movePos s d.pos = d.pos + s.amt by simp only [movePos]; rw [if_pos (by omega)], shiftIns_add]
        congr 2
        omega
    · simp only [if_neg hq] at g0 g1 g2 g3 ⊢
      refine ⟨⟨h.ne, h.wf, g3, g1, g2⟩, ?_, hts⟩
      simp only [Nd.fl, updateMax_addr, updateMax_pos, updateMax_id, updateMax_ins, updateMax_t, hdrop, movePosL_cons, hts]
      rw [show movePos s d.pos = d.pos by simp only [movePos]; rw [if_neg (by omega)]]

theorem raw_foldl {S : List Shift} (hS : WfS S) {lm rm : Option Int} (n : Nat) : ∀ d : Nd α, d.t + n = S.length →
    Raw lm rm d → Raw lm rm ((S.drop d.t).foldl (applyShift lm rm) d) ∧
    ((S.drop d.t).foldl (applyShift lm rm) d).fl S = d.fl S ∧
    ((S.drop d.t).foldl (applyShift lm rm) d).t = S.length := by
  induction n with
  | zero =>
    intro d h hr
    rw [List.drop_of_length_le (by omega)]
    exact ⟨hr, rfl, by simpa using h⟩
  | succ n ih =>
    intro d h hr
    have hlt : d.t < S.length := by omega
    obtain ⟨h1, h2, h3⟩ := raw_step hS (List.getElem?_eq_getElem hlt) hr
    obtain ⟨g1, g2, g3⟩ := ih _ (by omega) h1
    rw [List.drop_eq_getElem_cons hlt, List.foldl_cons]
    rw [h3] at g1 g2 g3
    exact ⟨g1, g2.trans h2, g3⟩

theorem raw_sync {S : List Shift} (hS : WfS S) {lm rm : Option Int} {d : Nd α} (ht : d.t ≤ S.length) (h : Raw lm rm d) :
    Raw lm rm (applyShifts S lm rm d) ∧ (applyShifts S lm rm d).fl S = d.fl S ∧
    (applyShifts S lm rm d).t = S.length := by
  rw [applyShifts_eq S hS]
  exact raw_foldl hS (S.length - d.t) d (by omega) h

/-- The field `max` of the root with all shifts applied to the root. -/
def Tr.fmx (S : List Shift) : Tr α → Option Int
  | .nil => none
  | .node d l r => some (applyShifts S l.mx? r.mx? d).mx

/-- The invariant of the lazy tree. -/
inductive Lz (S : List Shift) : Tr α → Prop
  | nil : Lz S .nil
  | node {d : Nd α} {l r : Tr α} (time : d.t ≤ S.length) (raw : Raw l.mx? r.mx? d)
      (fl : ∀ x, l.fmx S = some x → x ≤ (applyShifts S l.mx? r.mx? d).mx)
      (fr : ∀ x, r.fmx S = some x → x ≤ (applyShifts S l.mx? r.mx? d).mx)
      (hl : Lz S l) (hr : Lz S r) : Lz S (.node d l r)

/-- Both fields `max` of the root are at most `m`. -/
def Under (S : List Shift) (m : Int) (t : Tr α) : Prop :=
  (∀ x, t.mx? = some x → x ≤ m) ∧ (∀ x, t.fmx S = some x → x ≤ m)

/-- What can be a child of a node about to get a new `max`. -/
def Near (S : List Shift) (m : Int) (t : Tr α) : Prop := Under S m t ∨ t.Done S

theorem fmx_done {S : List Shift} (hS : WfS S) {t : Tr α} (h : t.Done S) : t.fmx S = t.mx? := by
  cases t with
  | nil => rfl
  | node d l r => simp only [Tr.fmx, Tr.mx?]; rw [applyShifts_done S hS _ _ d h]

theorem Lz.parts {S : List Shift} (hS : WfS S) {d : Nd α} {l r : Tr α} (h : Lz S (.node d l r)) :
    (applyShifts S l.mx? r.mx? d).t = S.length ∧ (applyShifts S l.mx? r.mx? d).fl S = d.fl S ∧
    Raw l.mx? r.mx? (applyShifts S l.mx? r.mx? d) ∧ Under S (applyShifts S l.mx? r.mx? d).mx l ∧
    Under S (applyShifts S l.mx? r.mx? d).mx r ∧ Lz S l ∧ Lz S r := by
  cases h with | node time raw fl fr hl hr => ?_
  obtain ⟨h1, h2, h3⟩ := raw_sync hS time raw
  exact ⟨h3, h2, h1, ⟨h1.left, fl⟩, ⟨h1.right, fr⟩, hl, hr⟩

theorem Lz.mk_done {S : List Shift} (hS : WfS S) {d : Nd α} {l r : Tr α} (ht : d.t = S.length) (ne : d.ins ≠ [])
    (wf : d.Wf) (hh : highOf d.ins ≤ d.mx) (bl : Under S d.mx l) (br : Under S d.mx r) (hl : Lz S l) (hr : Lz S r) :
    Lz S (.node d l r) := by
  have e := applyShifts_done S hS l.mx? r.mx? d ht
  exact .node (Nat.le_of_eq ht) ⟨ne, wf, hh, bl.1, br.1⟩ (by rw [e]; exact bl.2) (by rw [e]; exact br.2) hl hr

theorem Lz.sync_node {S : List Shift} (hS : WfS S) {d : Nd α} {l r : Tr α} (h : Lz S (.node d l r)) :
    Lz S (.node (applyShifts S l.mx? r.mx? d) l r) := by
  obtain ⟨h1, -, h3, h4, h5, h6, h7⟩ := h.parts hS
  exact .mk_done hS h1 h3.ne h3.wf h3.high h4 h5 h6 h7

theorem near_mk {S : List Shift} (hS : WfS S) {m m' : Int} {t : Tr α} (h : Near S m t) (hm : m ≤ m')
    (ht : ∀ x, t.mx? = some x → x ≤ m') : Under S m' t := by
  rcases h with h | h
  · exact ⟨ht, fun x hx => Int.le_trans (h.2 x hx) hm⟩
  · exact ⟨ht, by rw [fmx_done hS h]; exact ht⟩

theorem Under.mono {S : List Shift} {m m' : Int} {t : Tr α} (h : Under S m t) (hm : m ≤ m') : Under S m' t :=
  ⟨fun x hx => Int.le_trans (h.1 x hx) hm, fun x hx => Int.le_trans (h.2 x hx) hm⟩

theorem mk_lz {S : List Shift} (hS : WfS S) {d : Nd α} {l r : Tr α} (ht : d.t = S.length) (ne : d.ins ≠ [])
    (wf : d.Wf) (bl : Near S d.mx l) (br : Near S d.mx r) (hl : Lz S l) (hr : Lz S r) : Lz S (mk d l r) := by
  obtain ⟨g0, gl, gr, gh⟩ := mk_ge d l r
  exact .mk_done hS (d := updateMax (recalc d l r) l.mx? r.mx?) ht ne wf gh (near_mk hS bl g0 gl) (near_mk hS br g0 gr) hl hr

/-- What an operation makes: a right tree, all shifts applied to its root, with the nodes `L` and `max` at most `m`. -/
structure Out (S : List Shift) (L : List (Fl α)) (m : Int) (t : Tr α) : Prop where
  lz : Lz S t
  done : t.Done S
  flat : t.flat S = L
  mx : ∀ x, t.mx? = some x → x ≤ m

theorem Out.under {S : List Shift} (hS : WfS S) {L : List (Fl α)} {m m' : Int} {t : Tr α} (h : Out S L m t)
    (hm : m ≤ m') : Under S m' t := by
  have := fun x hx => Int.le_trans (h.mx x hx) hm
  exact ⟨this, by rw [fmx_done hS h.done]; exact this⟩

theorem rotateLeft_lz {S : List Shift} (hS : WfS S) {d : Nd α} {l r : Tr α} (h : Lz S (.node d l r)) :
    Out S ((Tr.node d l r).flat S) (applyShifts S l.mx? r.mx? d).mx (rotateLeft S (.node d l r)) := by
  obtain ⟨h1, h2, h3, h4, h5, h6, h7⟩ := h.parts hS
  rw [rotateLeft]
  generalize hd' : applyShifts S l.mx? r.mx? d = d' at *
  cases r with
  | nil =>
    simp only [Tr.sync]
    exact ⟨.mk_done hS h1 h3.ne h3.wf h3.high h4 h5 h6 h7, h1, by simp only [Tr.flat, h2],
      fun x hx => by cases hx; exact Int.le_refl _⟩
  | node e rl rr =>
    obtain ⟨k1, k2, k3, k4, k5, k6, k7⟩ := h7.parts hS
    have he : (applyShifts S rl.mx? rr.mx? e).mx ≤ d'.mx := h5.2 _ rfl
    simp only [Tr.sync]
    generalize applyShifts S rl.mx? rr.mx? e = e' at *
    have m1 : Lz S (mk d' l rl) := mk_lz hS h1 h3.ne h3.wf (.inl h4) (.inl (k4.mono he)) h6 k6
    have m2 : Lz S (mk e' (mk d' l rl) rr) := mk_lz hS k1 k3.ne k3.wf (.inr h1) (.inl k5) m1 k7
    refine ⟨m2, k1, ?_, ?_⟩
    · simp only [mk_flat, Tr.flat, h2, k2, List.append_assoc, List.cons_append]
    · intro x hx
      cases hx
      refine updateMax_le he ?_ (k5.mono he).1 (Int.le_trans k3.high he)
      intro x hx
      cases hx
      exact updateMax_le (Int.le_refl _) h4.1 (k4.mono he).1 h3.high

theorem rotateRight_lz {S : List Shift} (hS : WfS S) {d : Nd α} {l r : Tr α} (h : Lz S (.node d l r)) :
    Out S ((Tr.node d l r).flat S) (applyShifts S l.mx? r.mx? d).mx (rotateRight S (.node d l r)) := by
  obtain ⟨h1, h2, h3, h4, h5, h6, h7⟩ := h.parts hS
  rw [rotateRight]
  generalize hd' : applyShifts S l.mx? r.mx? d = d' at *
  cases l with
  | nil =>
    simp only [Tr.sync]
    exact ⟨.mk_done hS h1 h3.ne h3.wf h3.high h4 h5 h6 h7, h1, by simp only [Tr.flat, h2],
      fun x hx => by cases hx; exact Int.le_refl _⟩
  | node e ll lr =>
    obtain ⟨k1, k2, k3, k4, k5, k6, k7⟩ := h6.parts hS
    have he : (applyShifts S ll.mx? lr.mx? e).mx ≤ d'.mx := h4.2 _ rfl
    simp only [Tr.sync]
    generalize applyShifts S ll.mx? lr.mx? e = e' at *
    have m1 : Lz S (mk d' lr r) := mk_lz hS h1 h3.ne h3.wf (.inl (k5.mono he)) (.inl h5) k7 h7
    have m2 : Lz S (mk e' ll (mk d' lr r)) := mk_lz hS k1 k3.ne k3.wf (.inl k4) (.inr h1) k6 m1
    refine ⟨m2, k1, ?_, ?_⟩
    · simp only [mk_flat, Tr.flat, h2, k2, List.append_assoc, List.cons_append]
    · intro x hx
      cases hx
      refine updateMax_le he (k4.mono he).1 ?_ (Int.le_trans k3.high he)
      intro x hx
      cases hx
      exact updateMax_le (Int.le_refl _) (k5.mono he).1 h5.1 h3.high

theorem rebalance_lz {S : List Shift} (hS : WfS S) {d : Nd α} {l r : Tr α} (ht : d.t = S.length) (ne : d.ins ≠ [])
    (wf : d.Wf) (bl : Near S d.mx l) (br : Near S d.mx r) (hl : Lz S l) (hr : Lz S r) :
    Out S (l.flat S ++ d.fl S :: r.flat S) (updateMax (recalc d l r) l.mx? r.mx?).mx (rebalance S (.node d l r)) := by
  have hmk := mk_lz hS ht ne wf bl br hl hr
  have hu := fl_update S d l r
  obtain ⟨g0, gl, gr, gh⟩ := mk_ge d l r
  have bl' := near_mk hS bl g0 gl
  have br' := near_mk hS br g0 gr
  have ht' : (updateMax (recalc d l r) l.mx? r.mx?).t = S.length := ht
  have ne' : (updateMax (recalc d l r) l.mx? r.mx?).ins ≠ [] := ne
  have wf' : (updateMax (recalc d l r) l.mx? r.mx?).Wf := wf
  have gh : highOf (updateMax (recalc d l r) l.mx? r.mx?).ins ≤ (updateMax (recalc d l r) l.mx? r.mx?).mx := gh
  rw [mk] at hmk
  rw [rebalance]
  simp only []
  generalize updateMax (recalc d l r) l.mx? r.mx? = d1 at *
  have hd1 : ∀ lm rm, applyShifts S lm rm d1 = d1 := fun lm rm => applyShifts_done S hS lm rm d1 ht'
  split
  · generalize hr1 : (if r.left.height > r.right.height then rotateRight S r else r) = r1
    have hr' : Lz S r1 ∧ Under S d1.mx r1 ∧ r1.flat S = r.flat S := by
      rw [← hr1]
      split
      · cases r with
        | nil => exact ⟨.nil, br', rfl⟩
        | node e rl rr =>
          have o := rotateRight_lz hS hr
          exact ⟨o.lz, o.under hS (br'.2 _ rfl), o.flat⟩
      · exact ⟨hr, br', rfl⟩
    have o := rotateLeft_lz hS (Lz.mk_done hS ht' ne' wf' gh bl' hr'.2.1 hl hr'.1)
    rw [hd1] at o
    exact ⟨o.lz, o.done, by rw [o.flat, Tr.flat, hu, hr'.2.2], o.mx⟩
  · split
    · generalize hl1 : (if l.right.height > l.left.height then rotateLeft S l else l) = l1
      have hl' : Lz S l1 ∧ Under S d1.mx l1 ∧ l1.flat S = l.flat S := by
        rw [← hl1]
        split
        · cases l with
          | nil => exact ⟨.nil, bl', rfl⟩
          | node e ll lr =>
            have o := rotateLeft_lz hS hl
            exact ⟨o.lz, o.under hS (bl'.2 _ rfl), o.flat⟩
        · exact ⟨hl, bl', rfl⟩
      have o := rotateRight_lz hS (Lz.mk_done hS ht' ne' wf' gh hl'.2.1 br' hl'.1 hr)
      rw [hd1] at o
      exact ⟨o.lz, o.done, by rw [o.flat, Tr.flat, hu, hl'.2.2], o.mx⟩
    · exact ⟨hmk, ht', by rw [Tr.flat, hu], fun x hx => by cases hx; exact Int.le_refl _⟩

theorem rebalance_lz' {S : List Shift} (hS : WfS S) {d : Nd α} {l r : Tr α} (ht : d.t = S.length) (ne : d.ins ≠ [])
    (wf : d.Wf) (hh : highOf d.ins ≤ d.mx) (bl : Under S d.mx l) (br : Under S d.mx r) (hl : Lz S l) (hr : Lz S r) :
    Out S (l.flat S ++ d.fl S :: r.flat S) d.mx (rebalance S (.node d l r)) := by
  obtain ⟨h1, h2, h3, h4⟩ := rebalance_lz hS ht ne wf (.inl bl) (.inl br) hl hr
  exact ⟨h1, h2, h3, fun x hx => Int.le_trans (h4 x hx) (updateMax_le (Int.le_refl _) bl.1 br.1 hh)⟩

/-! ## Adding and searching -/

theorem add_lz {S : List Shift} (hS : WfS S) (a : Nat) (pos id : Int) (v : Ival α) (hv : v.low = pos)
    (h0 : 0 ≤ v.high) (hlh : v.low ≤ v.high) : ∀ t : Tr α, Lz S t → t.Ord S →
    Lz S (add S S.length a pos id v t).1 ∧ (add S S.length a pos id v t).1.Done S ∧
    AddRel (t.flat S) ((add S S.length a pos id v t).1.flat S) a pos id v (add S S.length a pos id v t).2 := by
  intro t
  induction t with
  | nil =>
    intro _ _
    refine ⟨.mk_done hS rfl (by simp) ?_ ?_ ⟨nofun, nofun⟩ ⟨nofun, nofun⟩ .nil .nil, rfl, .inl ⟨[], [], rfl, ?_, rfl, (fun _ h => by cases h),
      (fun _ h => by cases h)⟩⟩
    · intro i hi
      rw [List.mem_singleton] at hi
      subst hi
      exact ⟨hv, hlh⟩
    · simp only [highOf, List.foldl_cons, List.foldl_nil]
      split <;> omega
    · simp [add, Tr.flat, Nd.fl, shiftIns_zero]
  | node d l r ihl ihr =>
    intro h ho
    obtain ⟨h1, h2, h3, h4, h5, h6, h7⟩ := h.parts hS
    have hll := ho.lt_left
    have hlr := ho.lt_right
    rw [← h2] at hll hlr
    have hflat : (Tr.node d l r).flat S = l.flat S ++ (applyShifts S l.mx? r.mx? d).fl S :: r.flat S := by
      rw [h2]; rfl
    rw [hflat, add]
    simp only []
    generalize applyShifts S l.mx? r.mx? d = d' at *
    have hdfl := Nd.fl_done S d' h1
    simp only [Fl.lt, hdfl] at hll hlr
    split
    · rename_i hc
      have hc := compareKey_lt hc
      obtain ⟨i1, i2, i3⟩ := ihl h6 ho.left
      have o := rebalance_lz hS h1 h3.ne h3.wf (.inr i2) (.inl h5) i1 h7
      refine ⟨o.lz, o.done, ?_⟩
      simp only [o.flat]
      rcases i3 with ⟨A, B, e1, e2, e3, e4, e5⟩ | ⟨A, f, B, e1, e2, e3, e4, e5⟩
      · rw [e1, e2]
        refine .inl ⟨A, B ++ d'.fl S :: r.flat S, by simp, by simp, e3, e4, ?_⟩
        intro f hf
        simp only [List.mem_append, List.mem_cons] at hf
        rcases hf with hf | rfl | hf
        · exact e5 f hf
        · rw [hdfl]; exact hc
        · exact klt_trans hc (hlr f hf)
      · rw [e1, e2]
        exact .inr ⟨A, f, B ++ d'.fl S :: r.flat S, by simp, by simp, e3, e4, e5⟩
    · rename_i hc
      have hc := compareKey_gt hc
      obtain ⟨i1, i2, i3⟩ := ihr h7 ho.right
      have o := rebalance_lz hS h1 h3.ne h3.wf (.inl h4) (.inr i2) h6 i1
      refine ⟨o.lz, o.done, ?_⟩
      simp only [o.flat]
      rcases i3 with ⟨A, B, e1, e2, e3, e4, e5⟩ | ⟨A, f, B, e1, e2, e3, e4, e5⟩
      · rw [e1, e2]
        refine .inl ⟨l.flat S ++ d'.fl S :: A, B, by simp, by simp, e3, ?_, e5⟩
        intro f hf
        simp only [List.mem_append, List.mem_cons] at hf
        rcases hf with hf | rfl | hf
        · exact klt_trans (hll f hf) hc
        · rw [hdfl]; exact hc
        · exact e4 f hf
      · rw [e1, e2]
        exact .inr ⟨l.flat S ++ d'.fl S :: A, f, B, by simp, by simp, e3, e4, e5⟩
    · rename_i hc
      have hc := compareKey_eq hc
      have o := rebalance_lz (d := { d' with ins := d'.ins ++ [v], t := S.length }) hS rfl (by simp) (by
        intro i hi
        rcases List.mem_append.1 hi with hi | hi
        · exact h3.wf i hi
        · rw [List.mem_singleton] at hi
          subst hi
          exact ⟨by rw [hv]; exact hc.1, hlh⟩) (.inl h4) (.inl h5) h6 h7
      refine ⟨o.lz, o.done, ?_⟩
      simp only [o.flat]
      refine .inr ⟨l.flat S, d'.fl S, r.flat S, rfl, ?_, ?_, ?_, ?_⟩
      · rw [Nd.fl_done S { d' with ins := d'.ins ++ [v], t := S.length } rfl, hdfl]
      all_goals rw [hdfl]
      all_goals simp only [hc]

theorem search_lz {S : List Shift} (hS : WfS S) (pos id : Int) : ∀ t : Tr α, Lz S t → t.Ord S →
    Lz S (search S pos id t).1 ∧ (search S pos id t).1.flat S = t.flat S ∧ (search S pos id t).1.Done S ∧
    (search S pos id t).1.mx? = t.fmx S ∧
    match (search S pos id t).2 with
    | some d => d.t = S.length ∧ d.pos = pos ∧ d.id = id ∧ d.fl S ∈ t.flat S
    | none => ∀ f ∈ t.flat S, ¬ (f.pos = pos ∧ f.id = id) := by
  intro t
  induction t with
  | nil => intro _ _; exact ⟨.nil, rfl, trivial, rfl, fun f hf => by cases hf⟩
  | node d l r ihl ihr =>
    intro h ho
    obtain ⟨h1, h2, h3, h4, h5, h6, h7⟩ := h.parts hS
    have hll := ho.lt_left
    have hlr := ho.lt_right
    rw [← h2] at hll hlr
    have hflat : (Tr.node d l r).flat S = l.flat S ++ (applyShifts S l.mx? r.mx? d).fl S :: r.flat S := by
      rw [h2]; rfl
    rw [hflat, search]
    simp only [Tr.fmx]
    generalize applyShifts S l.mx? r.mx? d = d' at *
    have hdfl := Nd.fl_done S d' h1
    simp only [Fl.lt, hdfl, klt] at hll hlr
    cases hc : compareKey pos id d'.pos d'.id with
    | lt =>
      have hc := compareKey_lt hc
      obtain ⟨i1, i2, i3, i4, i5⟩ := ihl h6 ho.left
      simp only []
      refine ⟨.mk_done hS h1 h3.ne h3.wf h3.high ⟨by rw [i4]; exact h4.2, by rw [fmx_done hS i3, i4]; exact h4.2⟩ h5 i1 h7,
        by simp only [Tr.flat, i2], h1, rfl, ?_⟩
      cases hs : (search S pos id l).2 with
      | some e => rw [hs] at i5; exact ⟨i5.1, i5.2.1, i5.2.2.1, by simp [i5.2.2.2]⟩
      | none =>
        rw [hs] at i5
        intro f hf
        simp only [List.mem_append, List.mem_cons] at hf
        simp only [klt] at hc
        rcases hf with hf | rfl | hf
        · exact i5 f hf
        · rw [hdfl]; simp only []; omega
        · have := hlr f hf; omega
    | gt =>
      have hc := compareKey_gt hc
      obtain ⟨i1, i2, i3, i4, i5⟩ := ihr h7 ho.right
      simp only []
      refine ⟨.mk_done hS h1 h3.ne h3.wf h3.high h4 ⟨by rw [i4]; exact h5.2, by rw [fmx_done hS i3, i4]; exact h5.2⟩ h6 i1,
        by simp only [Tr.flat, i2], h1, rfl, ?_⟩
      cases hs : (search S pos id r).2 with
      | some e => rw [hs] at i5; exact ⟨i5.1, i5.2.1, i5.2.2.1, by simp [i5.2.2.2]⟩
      | none =>
        rw [hs] at i5
        intro f hf
        simp only [List.mem_append, List.mem_cons] at hf
        simp only [klt] at hc
        rcases hf with hf | rfl | hf
        · have := hll f hf; omega
        · rw [hdfl]; simp only []; omega
        · exact i5 f hf
    | eq =>
      have hc := compareKey_eq hc
      exact ⟨.mk_done hS h1 h3.ne h3.wf h3.high h4 h5 h6 h7, rfl, h1, rfl, h1, hc.1.symm, hc.2.symm, by simp⟩

/-! ## Removing -/

theorem findSmallest_lz {S : List Shift} (hS : WfS S) : ∀ (l : Tr α) (d : Nd α) (r : Tr α), Lz S (.node d l r) →
    d.t = S.length →
    Out S ((Tr.node d l r).flat S) d.mx (findSmallest S d l r).1 ∧
    (findSmallest S d l r).2.t = S.length ∧ (findSmallest S d l r).2.ins ≠ [] ∧ (findSmallest S d l r).2.Wf ∧
    (findSmallest S d l r).2.mx ≤ d.mx ∧
    highOf (findSmallest S d l r).2.ins ≤ (findSmallest S d l r).2.mx ∧
    ∃ rest, (Tr.node d l r).flat S = (findSmallest S d l r).2.fl S :: rest := by
  intro l
  induction l with
  | nil =>
    intro d r h ht
    obtain ⟨-, -, h3, -, -, -, -⟩ := h.parts hS
    rw [applyShifts_done S hS _ _ d ht] at h3
    exact ⟨⟨h, ht, rfl, fun x hx => by cases hx; exact Int.le_refl _⟩, ht, h3.ne, h3.wf, Int.le_refl _, h3.high, _, rfl⟩
  | node e ll lr ihl ihr =>
    intro d r h ht
    obtain ⟨-, -, h3, h4, h5, h6, h7⟩ := h.parts hS
    rw [applyShifts_done S hS _ _ d ht] at h3 h4 h5
    obtain ⟨k1, k2, -⟩ := h6.parts hS
    have he : (applyShifts S ll.mx? lr.mx? e).mx ≤ d.mx := h4.2 _ rfl
    have hs := h6.sync_node hS
    have hfl : (Tr.node e ll lr).flat S = (Tr.node (applyShifts S ll.mx? lr.mx? e) ll lr).flat S := by
      simp only [Tr.flat, k2]
    rw [findSmallest]
    simp only []
    generalize applyShifts S ll.mx? lr.mx? e = e' at *
    obtain ⟨o, i1, i2, i3, i4, i5, rest, i6⟩ := ihl e' lr hs k1
    refine ⟨⟨.mk_done hS ht h3.ne h3.wf h3.high (o.under hS he) h5 o.lz h7, ht, ?_,
      fun x hx => by cases hx; exact Int.le_refl _⟩, i1, i2, i3, Int.le_trans i4 he, i5, rest ++ d.fl S :: r.flat S, ?_⟩
    · simp only [Tr.flat] at hfl ⊢
      rw [o.flat, hfl]; rfl
    · rw [Tr.flat, hfl, i6]; rfl

theorem removeRS_succ (S : List Shift) (f : Nat) (pos id : Int) (d : Nd α) (l r : Tr α) :
    removeR S (f + 1) pos id (.node d l r) =
      match compareKey pos id (applyShifts S l.mx? r.mx? d).pos (applyShifts S l.mx? r.mx? d).id with
      | .lt => rebalance S (.node (applyShifts S l.mx? r.mx? d) (removeR S f pos id l) r)
      | .gt => rebalance S (.node (applyShifts S l.mx? r.mx? d) l (removeR S f pos id r))
      | .eq =>
        match l, r with
        | .node e ll lr, .node g rl rr =>
          rebalance S (.node { applyShifts S l.mx? r.mx? d with
              addr := (findSmallest S (applyShifts S rl.mx? rr.mx? g) rl rr).2.addr
              pos := (findSmallest S (applyShifts S rl.mx? rr.mx? g) rl rr).2.pos
              id := (findSmallest S (applyShifts S rl.mx? rr.mx? g) rl rr).2.id
              ins := (findSmallest S (applyShifts S rl.mx? rr.mx? g) rl rr).2.ins
              t := (findSmallest S (applyShifts S rl.mx? rr.mx? g) rl rr).2.t }
            (Tr.sync S (.node e ll lr))
            (removeR S f (findSmallest S (applyShifts S rl.mx? rr.mx? g) rl rr).2.pos
              (findSmallest S (applyShifts S rl.mx? rr.mx? g) rl rr).2.id
              (findSmallest S (applyShifts S rl.mx? rr.mx? g) rl rr).1))
        | .node e ll lr, .nil => rebalance S (Tr.sync S (.node e ll lr))
        | .nil, .node g rl rr => rebalance S (Tr.sync S (.node g rl rr))
        | .nil, .nil => .nil := by
  cases l <;> cases r <;> rfl

/-- Rebalancing a tree after applying the shifts to its root. -/
theorem rebalance_sync {S : List Shift} (hS : WfS S) {d : Nd α} {l r : Tr α} (h : Lz S (.node d l r)) :
    Out S ((Tr.node d l r).flat S) (applyShifts S l.mx? r.mx? d).mx (rebalance S (Tr.sync S (.node d l r))) := by
  obtain ⟨h1, h2, h3, h4, h5, h6, h7⟩ := h.parts hS
  rw [Tr.sync]
  have o := rebalance_lz' hS h1 h3.ne h3.wf h3.high h4 h5 h6 h7
  rw [h2] at o
  exact o

theorem removeMin_lz {S : List Shift} (hS : WfS S) : ∀ (f : Nat) (t : Tr α) (f0 : Fl α) (rest : List (Fl α)) (m : Int),
    t.size ≤ f → t.Ord S → t.flat S = f0 :: rest → Lz S t → (∀ x, t.fmx S = some x → x ≤ m) →
    Out S rest m (removeR S f f0.pos f0.id t) := by
  intro f
  induction f with
  | zero =>
    intro t f0 rest m hf _ hfl
    rw [size_eq S, hfl] at hf
    simp at hf
  | succ f ih =>
    intro t f0 rest m hf ho hfl h hm
    cases t with
    | nil => cases hfl
    | node d l r =>
      obtain ⟨h1, h2, h3, h4, h5, h6, h7⟩ := h.parts hS
      replace hm := hm _ rfl
      have hll := ho.lt_left
      rw [← h2] at hll
      rw [Tr.flat, ← h2] at hfl
      rw [removeRS_succ]
      simp only [Tr.size] at hf
      generalize applyShifts S l.mx? r.mx? d = d' at *
      have hdfl := Nd.fl_done S d' h1
      cases hlf : l.flat S with
      | nil =>
        have hlnil : l = .nil := by
          cases l with
          | nil => rfl
          | node => simp [Tr.flat] at hlf
        subst hlnil
        simp only [Tr.flat, List.nil_append, List.cons.injEq] at hfl
        obtain ⟨rfl, rfl⟩ := hfl
        rw [hdfl]
        simp only [compareKey_refl]
        cases r with
        | nil => exact ⟨.nil, trivial, rfl, fun _ h => by cases h⟩
        | node g rl rr =>
          simp only []
          obtain ⟨z1, z2, z3, z4⟩ := rebalance_sync hS h7
          exact ⟨z1, z2, z3, fun x hx => Int.le_trans (z4 x hx) (Int.le_trans (h5.2 _ rfl) hm)⟩
      | cons f1 rest1 =>
        rw [hlf] at hfl
        simp only [List.cons_append, List.cons.injEq] at hfl
        obtain ⟨rfl, rfl⟩ := hfl
        have hlt := hll f1 (by rw [hlf]; exact List.mem_cons_self)
        rw [hdfl] at hlt
        rw [compareKey_of_lt hlt]
        simp only []
        have i := ih l f1 rest1 d'.mx (by omega) ho.left hlf h6 h4.2
        have o := rebalance_lz' hS h1 h3.ne h3.wf h3.high (i.under hS (Int.le_refl _)) h5 i.lz h7
        rw [i.flat] at o
        exact ⟨o.lz, o.done, o.flat, fun x hx => Int.le_trans (o.mx x hx) hm⟩

/-- The repaired `remove` removes the root and nothing else. The root may be empty. -/
theorem removeRoot_lz {S : List Shift} (hS : WfS S) (f : Nat) (d : Nd α) (l r : Tr α)
    (hf : (Tr.node d l r).size ≤ f) (ho : (Tr.node d l r).Ord S) (ht : d.t = S.length)
    (bl : Under S d.mx l) (br : Under S d.mx r) (hl : Lz S l) (hr : Lz S r) :
    Out S (l.flat S ++ r.flat S) d.mx (removeR S f d.pos d.id (.node d l r)) := by
  cases f with
  | zero => simp [Tr.size] at hf
  | succ f =>
    rw [removeRS_succ]
    simp only [applyShifts_done S hS _ _ d ht, compareKey_refl]
    cases hlc : l with
    | nil =>
      cases hrc : r with
      | nil => exact ⟨.nil, trivial, rfl, fun _ h => by cases h⟩
      | node g rl rr =>
        subst hrc
        simp only []
        obtain ⟨z1, z2, z3, z4⟩ := rebalance_sync hS hr
        exact ⟨z1, z2, z3, fun x hx => Int.le_trans (z4 x hx) (br.2 _ rfl)⟩
    | node e ll lr =>
      subst hlc
      cases hrc : r with
      | nil =>
        simp only []
        obtain ⟨z1, z2, z3, z4⟩ := rebalance_sync hS hl
        exact ⟨z1, z2, by rw [z3]; simp [Tr.flat], fun x hx => Int.le_trans (z4 x hx) (bl.2 _ rfl)⟩
      | node g rl rr =>
        subst hrc
        simp only []
        obtain ⟨k1, k2, -⟩ := hr.parts hS
        have hg : (applyShifts S rl.mx? rr.mx? g).mx ≤ d.mx := br.2 _ rfl
        have hgs := hr.sync_node hS
        have hgfl : (Tr.node g rl rr).flat S = (Tr.node (applyShifts S rl.mx? rr.mx? g) rl rr).flat S := by
          simp only [Tr.flat, k2]
        have hrsz : (Tr.node g rl rr).size ≤ f := by simp only [Tr.size] at hf ⊢; omega
        have hor := ho.right
        generalize applyShifts S rl.mx? rr.mx? g = g' at *
        obtain ⟨o, i1, i2, i3, i4, i5, rest, i6⟩ := findSmallest_lz hS rl g' rr hgs k1
        have hsz : (findSmallest S g' rl rr).1.size ≤ f := by
          rw [size_eq S, o.flat, ← hgfl, ← size_eq]; exact hrsz
        have hor' : (findSmallest S g' rl rr).1.Ord S := by
          rw [Tr.Ord, o.flat, ← hgfl]; exact hor
        have hfl' : (findSmallest S g' rl rr).1.flat S = (findSmallest S g' rl rr).2.fl S :: rest := by
          rw [o.flat, i6]
        have hfm : ∀ x, (findSmallest S g' rl rr).1.fmx S = some x → x ≤ d.mx := (o.under hS hg).2
        have q := removeMin_lz hS f _ _ rest d.mx hsz hor' hfl' o.lz hfm
        generalize (findSmallest S g' rl rr).2 = m at *
        rw [Nd.fl_done S m i1] at q
        simp only [] at q
        have hes := hl.sync_node hS
        obtain ⟨e1, e2, -⟩ := hl.parts hS
        have be : Under S d.mx (Tr.sync S (.node e ll lr)) := by
          have : ∀ x, (Tr.sync S (.node e ll lr)).mx? = some x → x ≤ d.mx := fun x hx => by
            cases hx; exact bl.2 _ rfl
          exact ⟨this, by rw [fmx_done hS (t := Tr.sync S (.node e ll lr)) e1]; exact this⟩
        have o2 := rebalance_lz' (d := { d with addr := m.addr, pos := m.pos, id := m.id, ins := m.ins, t := m.t }) hS i1
          i2 i3 (by simp only []; omega) be (q.under hS (Int.le_refl _)) hes q.lz
        rw [q.flat] at o2
        refine ⟨o2.lz, o2.done, ?_, o2.mx⟩
        have e3 : (Tr.sync S (.node e ll lr)).flat S = (Tr.node e ll lr).flat S := by
          simp only [Tr.sync, Tr.flat, e2]
        rw [o2.flat, e3, hgfl, i6, Nd.fl_done S m i1, 
          Nd.fl_done S { d with addr := m.addr, pos := m.pos, id := m.id, ins := m.ins, t := m.t } i1]

/-- All shifts have been applied to the root, or everything is after the range. -/
def Side (S : List Shift) (high : Int) (t : Tr α) : Prop := t.Done S ∨ ∀ f ∈ t.flat S, high < f.pos

/-- What the edit of a range leaves: at each node, everything is in front of the range, or the children are up to date or
after the range. -/
inductive Pc (S : List Shift) (low high : Int) : Tr α → Prop
  | nil : Pc S low high .nil
  | node {d : Nd α} {l r : Tr α} (h : (applyShifts S l.mx? r.mx? d).mx < low ∨ (Side S high l ∧ Side S high r))
      (hl : Pc S low high l) (hr : Pc S low high r) : Pc S low high (.node d l r)

theorem pc_small {S : List Shift} {low high : Int} {t : Tr α} (h : Lz S t) (hx : ∀ x, t.fmx S = some x → x < low) :
    Pc S low high t := by
  induction h with
  | nil => exact .nil
  | node time raw fl fr hl hr ihl ihr =>
    have h0 := hx _ rfl
    exact .node (.inl h0) (ihl fun x h => Int.lt_of_le_of_lt (fl x h) h0) (ihr fun x h => Int.lt_of_le_of_lt (fr x h) h0)

theorem pc_after {S : List Shift} {low high : Int} : ∀ {t : Tr α}, (∀ f ∈ t.flat S, high < f.pos) → Pc S low high t
  | .nil, _ => .nil
  | .node d l r, h =>
    have hl : ∀ f ∈ l.flat S, high < f.pos := fun f hf => h f (by simp [Tr.flat, hf])
    have hr : ∀ f ∈ r.flat S, high < f.pos := fun f hf => h f (by simp [Tr.flat, hf])
    .node (.inr ⟨.inr hl, .inr hr⟩) (pc_after hl) (pc_after hr)

theorem Lz.wf_flat {S : List Shift} (hS : WfS S) {t : Tr α} (h : Lz S t) :
    ∀ f ∈ t.flat S, f.ins ≠ [] ∧ ∀ i ∈ f.ins, i.low = f.pos ∧ i.low ≤ i.high := by
  induction h with
  | nil => intro f hf; cases hf
  | @node d l r time raw fl fr hl hr ihl ihr =>
    intro f hf
    simp only [Tr.flat, List.mem_append, List.mem_cons] at hf
    rcases hf with hf | rfl | hf
    · exact ihl f hf
    · obtain ⟨h1, h2, h3⟩ := raw_sync hS time raw
      rw [← h2, Nd.fl_done S _ h3]
      exact ⟨h1.ne, h1.wf⟩
    · exact ihr f hf

theorem Lz.high_flat {S : List Shift} (hS : WfS S) {t : Tr α} (h : Lz S t) {m : Int} (hm : ∀ x, t.fmx S = some x → x ≤ m) :
    ∀ f ∈ t.flat S, ∀ i ∈ f.ins, i.high ≤ m := by
  induction h with
  | nil => intro f hf; cases hf
  | @node d l r time raw fl fr hl hr ihl ihr =>
    have h0 := hm _ rfl
    intro f hf i hi
    simp only [Tr.flat, List.mem_append, List.mem_cons] at hf
    rcases hf with hf | rfl | hf
    · exact ihl (fun x hx => Int.le_trans (fl x hx) h0) f hf i hi
    · obtain ⟨h1, h2, h3⟩ := raw_sync hS time raw
      rw [← h2, Nd.fl_done S _ h3] at hi
      exact Int.le_trans (le_highOf hi) (Int.le_trans h1.high h0)
    · exact ihr (fun x hx => Int.le_trans (fr x hx) h0) f hf i hi

theorem removeOverlaps_lz {S : List Shift} (hS : WfS S) (low high : Int) : ∀ (f : Nat) (t : Tr α) (m : Int), t.size ≤ f →
    t.Ord S → Lz S t → (∀ x, t.fmx S = some x → x ≤ m) →
    Out S ((t.flat S).filterMap (clean low high)) m (removeOverlapsR S low high f t) ∧
    Pc S low high (removeOverlapsR S low high f t) := by
  intro f
  induction f with
  | zero =>
    intro t m hf _ _ _
    cases t with
    | nil => exact ⟨⟨.nil, trivial, rfl, (fun _ h => by cases h)⟩, .nil⟩
    | node => simp [Tr.size] at hf
  | succ f ih =>
    intro t m hf ho h hm
    cases t with
    | nil => exact ⟨⟨.nil, trivial, rfl, (fun _ h => by cases h)⟩, .nil⟩
    | node d l r =>
      obtain ⟨h1, h2, h3, h4, h5, h6, h7⟩ := h.parts hS
      have hm := hm _ rfl
      have hll := ho.lt_left
      have hlr := ho.lt_right
      have hsync := h.sync_node hS
      have hord0 := ho
      rw [← h2] at hll hlr
      have hflat0 : (Tr.node d l r).flat S = l.flat S ++ (applyShifts S l.mx? r.mx? d).fl S :: r.flat S := by
        rw [h2]; rfl
      rw [hflat0, removeOverlapsR]
      simp only [Tr.size] at hf
      simp only []
      generalize applyShifts S l.mx? r.mx? d = d' at *
      have hdfl := Nd.fl_done S d' h1
      have hd1 : ∀ lm rm, applyShifts S lm rm d' = d' := fun lm rm => applyShifts_done S hS lm rm d' h1
      by_cases hmx : low > d'.mx
      · rw [if_pos hmx]
        refine ⟨⟨hsync, h1, ?_, fun x hx => by cases hx; exact hm⟩, pc_small hsync fun x hx => ?_⟩
        · refine (filterMap_clean_id (L := (Tr.node d' l r).flat S) ?_).symm
          intro g hg
          refine ⟨(hsync.wf_flat hS g hg).1, fun i hi => ?_⟩
          have := hsync.high_flat hS (m := d'.mx) (fun y hy => by
            simp only [Tr.fmx, hd1, Option.some.injEq] at hy; omega) g hg i hi
          simp only [Ival.overlaps, Bool.and_eq_false_iff, decide_eq_false_iff_not]
          omega
        · simp only [Tr.fmx, hd1, Option.some.injEq] at hx; omega
      · rw [if_neg hmx]
        obtain ⟨k, kp⟩ := ih l d'.mx (by omega) ho.left h6 h4.2
        generalize removeOverlapsR S low high f l = l' at *
        generalize hins : swapRemove (Ival.overlaps low high) d'.ins.length d'.ins = ins'
        have hmem : ∀ i ∈ ins', i ∈ d'.ins := by
          intro i hi
          rw [← hins] at hi
          exact (swapRemove_mem.1 hi).1
        have hdm : 0 ≤ d'.mx := Int.le_trans (highOf_foldl d'.ins 0).1 h3.high
        have hh' : highOf ins' ≤ d'.mx :=
          highOf_le hdm fun i hi => Int.le_trans (le_highOf (hmem i hi)) h3.high
        have hfl' : ({ d' with ins := ins' } : Nd α).fl S = ⟨d'.addr, d'.pos, d'.id, ins'⟩ :=
          Nd.fl_done S { d' with ins := ins' } h1
        have kb : Under S d'.mx l' := k.under hS (Int.le_refl _)
        have hord : (Tr.node { d' with ins := ins' } l' r).Ord S := by
          simp only [Fl.lt, hdfl] at hll hlr
          have q1 : (l'.flat S).Pairwise Fl.lt := by rw [k.flat]; exact pairwise_clean ho.left
          simp only [Tr.Ord, Tr.flat]
          rw [List.pairwise_append, List.pairwise_cons]
          have hkey : ∀ g ∈ l'.flat S, klt g.pos g.id d'.pos d'.id := by
            intro g hg
            rw [k.flat] at hg
            obtain ⟨g0, hg0, e⟩ := List.mem_filterMap.1 hg
            have q2 := clean_key e
            rw [q2.1, q2.2.1]
            exact hll g0 hg0
          refine ⟨q1, ⟨fun g hg => ?_, ho.right⟩, ?_⟩
          · rw [Fl.lt, hfl']; exact hlr g hg
          · intro a ha b hb
            rcases List.mem_cons.1 hb with rfl | hb
            · rw [Fl.lt, hfl']; exact hkey a ha
            · exact klt_trans (hkey a ha) (hlr b hb)
        have hafter : high < d'.pos → ∀ g ∈ r.flat S, high < g.pos := by
          intro hp g hg
          have q3 := hlr g hg
          simp only [Fl.lt, hdfl, klt] at q3
          omega
        have hright : high < d'.pos → (r.flat S).filterMap (clean low high) = r.flat S := by
          intro hp
          refine filterMap_clean_id fun g hg => ?_
          obtain ⟨g1, g2⟩ := h7.wf_flat hS g hg
          refine ⟨g1, fun i hi => ?_⟩
          have q2 := g2 i hi
          have q3 := hafter hp g hg
          simp only [Ival.overlaps, Bool.and_eq_false_iff, decide_eq_false_iff_not]
          omega
        have hcd : clean low high (d'.fl S) = if ins'.isEmpty then none else some ⟨d'.addr, d'.pos, d'.id, ins'⟩ := by
          rw [hdfl, clean]; simp only [hins]
        have hflat : (l.flat S ++ d'.fl S :: r.flat S).filterMap (clean low high) = l'.flat S ++
            ((if ins'.isEmpty then none else some ⟨d'.addr, d'.pos, d'.id, ins'⟩ : Option (Fl α)).toList ++
              (r.flat S).filterMap (clean low high)) := by
          rw [List.filterMap_append, k.flat, List.filterMap_cons, hcd]
          by_cases he : ins'.isEmpty <;> simp [he]
        rw [hflat]
        by_cases hemp : ins'.isEmpty = true
        · simp only [hemp, if_true, Option.toList_none, List.nil_append]
          have v := removeRoot_lz hS (Tr.node { d' with ins := ins' } l' r).size
            { d' with ins := ins' } l' r (Nat.le_refl _) hord h1 kb h5 k.lz h7
          generalize removeR S (Tr.node { d' with ins := ins' } l' r).size
            ({ d' with ins := ins' } : Nd α).pos ({ d' with ins := ins' } : Nd α).id
            (.node { d' with ins := ins' } l' r) = n at *
          have hge : high ≥ d'.pos := by
            cases hi : d'.ins with
            | nil => exact absurd hi h3.ne
            | cons i is =>
              have him : i ∈ d'.ins := by rw [hi]; exact List.mem_cons_self
              have hw := h3.wf i him
              have hni : i ∉ ins' := by rw [List.isEmpty_iff.1 hemp]; exact List.not_mem_nil
              rw [← hins, swapRemove_mem] at hni
              have hov : Ival.overlaps low high i = true := by
                cases hb : Ival.overlaps low high i with
                | true => rfl
                | false => exact absurd ⟨him, hb⟩ hni
              simp only [Ival.overlaps, Bool.and_eq_true, decide_eq_true_eq] at hov
              omega
          rw [if_pos hge]
          have hl2 : l'.size ≤ l.size := by
            rw [size_eq S, size_eq S, k.flat]
            exact List.length_filterMap_le _ _
          have hsz : n.size ≤ f := by
            rw [size_eq S, v.flat, List.length_append, ← size_eq, ← size_eq]
            omega
          have hno : n.Ord S := by
            have := hord
            simp only [Tr.Ord, Tr.flat, List.pairwise_append, List.pairwise_cons] at this
            rw [Tr.Ord, v.flat, List.pairwise_append]
            exact ⟨this.1, this.2.1.2, fun a ha b hb => this.2.2 a ha b (List.mem_cons_of_mem _ hb)⟩
          obtain ⟨i, ip⟩ := ih n m hsz hno v.lz (v.under hS hm).2
          refine ⟨⟨i.lz, i.done, ?_, i.mx⟩, ip⟩
          rw [i.flat, v.flat, List.filterMap_append]
          congr 1
          rw [k.flat]
          exact filterMap_clean_id clean_done
        · have hne : ins' ≠ [] := fun h => hemp (by simp [h])
          have hwf : ({ d' with ins := ins' } : Nd α).Wf := fun i hi => h3.wf i (hmem i hi)
          simp only [hemp, if_false, Bool.false_eq_true, Option.toList_some]
          by_cases hge : high < d'.pos
          · rw [if_pos hge, hright hge]
            refine ⟨⟨.mk_done hS h1 hne hwf hh' kb h5 k.lz h7, h1, ?_, fun x hx => by cases hx; exact hm⟩,
              .node (.inr ⟨.inl k.done, .inr (hafter hge)⟩) kp (pc_after (hafter hge))⟩
            simp only [Tr.flat, hfl', List.singleton_append]
          · rw [if_neg hge]
            obtain ⟨q, qp⟩ := ih r d'.mx (by omega) ho.right h7 h5.2
            refine ⟨⟨.mk_done hS h1 hne hwf hh' kb (q.under hS (Int.le_refl _)) k.lz q.lz, h1, ?_,
              fun x hx => by cases hx; exact hm⟩, .node (.inr ⟨.inl k.done, .inl q.done⟩) kp qp⟩
            simp only [Tr.flat, hfl', List.singleton_append, q.flat]

/-! ## A new shift -/

theorem applyShifts_snoc {S : List Shift} (hS : WfS S) {s : Shift} (hs : s.tstamp = S.length + 1) {lm rm : Option Int}
    {d : Nd α} (ht : d.t ≤ S.length) :
    applyShifts (S ++ [s]) lm rm d = applyShift lm rm (applyShifts S lm rm d) s := by
  have hS' : WfS (S ++ [s]) := by
    intro i x hx
    rcases Nat.lt_trichotomy i S.length with hi | hi | hi
    · rw [List.getElem?_append_left hi] at hx
      exact hS i x hx
    · subst hi
      rw [List.getElem?_append_right (Nat.le_refl _)] at hx
      simp only [Nat.sub_self, List.getElem?_cons_zero, Option.some.injEq] at hx
      rw [← hx]; exact hs
    · rw [List.getElem?_eq_none (by simp; omega)] at hx
      cases hx
  rw [applyShifts_eq _ hS', applyShifts_eq _ hS, List.drop_append_of_le_length ht, List.foldl_append]
  rfl

theorem wfS_snoc {S : List Shift} (hS : WfS S) {s : Shift} (hs : s.tstamp = S.length + 1) : WfS (S ++ [s]) := by
  intro i x hx
  rcases Nat.lt_trichotomy i S.length with hi | hi | hi
  · rw [List.getElem?_append_left hi] at hx
    exact hS i x hx
  · subst hi
    rw [List.getElem?_append_right (Nat.le_refl _)] at hx
    simp only [Nat.sub_self, List.getElem?_cons_zero, Option.some.injEq] at hx
    rw [← hx]; exact hs
  · rw [List.getElem?_eq_none (by simp; omega)] at hx
    cases hx

theorem updateMax_le' {d : Nd α} {lm rm : Option Int} {m : Int} (h : d.mx ≤ m) (hl : ∀ x, lm = some x → x ≤ m)
    (hr : ∀ x, rm = some x → x ≤ m) (hh : highOf d.ins ≤ m) : (updateMax d lm rm).mx ≤ m := by
  rw [updateMax_mx]
  have h1 : omax d.mx rm ≤ m := by
    cases rm with
    | none => exact h
    | some x => have := hr x rfl; simp only [omax]; omega
  have h2 : omax (omax d.mx rm) lm ≤ m := by
    cases lm with
    | none => exact h1
    | some x => have := hl x rfl; simp only [omax] at h1 ⊢; omega
  omega

theorem child_shift {S : List Shift} (hS : WfS S) {low high amt : Int} (hlh : low ≤ high) {s : Shift}
    (hs : s = ⟨low, amt, S.length + 1⟩) {D : Nd α} (hD : D.t = S.length) {lm rm : Option Int} {c : Tr α}
    (hc : Lz S c) (hb : ∀ x, c.fmx S = some x → x ≤ D.mx) (hcm : c.mx? = lm ∨ c.mx? = rm)
    (hside : D.mx < low ∨ Side S high c) :
    ∀ x, c.fmx (S ++ [s]) = some x → x ≤ (applyShift lm rm D s).mx := by
  have hst : s.tstamp = S.length + 1 := by rw [hs]
  have hsi : s.idx = low := by rw [hs]
  have hsa : s.amt = amt := by rw [hs]
  cases c with
  | nil => intro x hx; cases hx
  | node e l r =>
    intro x hx
    cases hc with | node time raw fl fr hl hr => ?_
    simp only [Tr.fmx, Option.some.injEq] at hx
    rw [applyShifts_snoc hS hst time] at hx
    obtain ⟨r1, r2, r3⟩ := raw_sync hS time raw
    have hE := hb _ rfl
    have hEp := r1.pos_le
    have hdone : (Tr.node e l r).Done S → applyShifts S l.mx? r.mx? e = e := fun h => applyShifts_done S hS _ _ e h
    have hfp : (∀ f ∈ (Tr.node e l r).flat S, high < f.pos) → high < (applyShifts S l.mx? r.mx? e).pos := by
      intro hf
      have := hf (e.fl S) (by simp [Tr.flat])
      rw [← r2, Nd.fl_done S _ r3] at this
      exact this
    generalize applyShifts S l.mx? r.mx? e = E at *
    subst hx
    rw [applyShift_new (d := D) (by omega), applyShift_new (d := E) (by omega), hsi, hsa]
    by_cases hDm : D.mx < low
    · rw [if_pos hDm, if_pos (by omega)]
      exact hE
    · rw [if_neg hDm]
      have hside := hside.resolve_left hDm
      generalize hD' : (if D.pos ≥ low then
          { D with t := s.tstamp, mx := D.mx + amt, pos := D.pos + amt, ins := shiftIns amt D.ins }
        else { D with t := s.tstamp, mx := D.mx + amt }) = D'
      have hDm' : D'.mx = D.mx + amt := by rw [← hD']; split <;> rfl
      obtain ⟨g0, g3, g1, g2⟩ := updateMax_ge D' lm rm
      have graw : e.mx ≤ (updateMax D' lm rm).mx := by
        rcases hcm with h | h
        · exact g1 _ h.symm
        · exact g2 _ h.symm
      have h0 : 0 ≤ (updateMax D' lm rm).mx := Int.le_trans (highOf_foldl D'.ins 0).1 g3
      generalize (updateMax D' lm rm).mx = M at *
      by_cases hEm : E.mx < low
      · rw [if_pos hEm]
        rcases hside with h | h
        · rw [hdone h]; exact graw
        · have := hfp h; omega
      · rw [if_neg hEm]
        refine updateMax_le' ?_ (fun x hx => Int.le_trans (raw.left x hx) graw)
          (fun x hx => Int.le_trans (raw.right x hx) graw) ?_
        · split <;> simp only [] <;> omega
        · by_cases hp : E.pos ≥ low
          · rw [if_pos hp]
            refine highOf_le h0 ?_
            intro i hi
            obtain ⟨j, hj, -, e2, -⟩ := mem_shiftIns hi
            have := Int.le_trans (le_highOf hj) r1.high
            omega
          · rw [if_neg hp]
            rcases hside with h | h
            · rw [hdone h]
              exact Int.le_trans raw.high graw
            · have := hfp h; omega

theorem flat_snoc_lz {S : List Shift} {t : Tr α} (h : Lz S t) (s : Shift) :
    t.flat (S ++ [s]) = (t.flat S).map (Fl.move s) := by
  induction h with
  | nil => rfl
  | node time _ _ _ _ _ ihl ihr => simp only [Tr.flat, ihl, ihr, fl_snoc time, List.map_append, List.map_cons]

/-- The shift of an edit keeps the invariant, whether it moves to the left or to the right. -/
theorem shift_lz {S : List Shift} (hS : WfS S) {low high amt : Int} (hlh : low ≤ high) {s : Shift}
    (hs : s = ⟨low, amt, S.length + 1⟩) {t : Tr α} (h : Lz S t) (hp : Pc S low high t) : Lz (S ++ [s]) t := by
  induction h with
  | nil => exact .nil
  | @node d l r time raw fl fr hl hr ihl ihr =>
    cases hp with | node hq hpl hpr => ?_
    obtain ⟨r1, r2, r3⟩ := raw_sync hS time raw
    have e : applyShifts (S ++ [s]) l.mx? r.mx? d = applyShift l.mx? r.mx? (applyShifts S l.mx? r.mx? d) s :=
      applyShifts_snoc hS (by rw [hs]) time
    refine .node (by simp only [List.length_append]; omega) raw ?_ ?_ (ihl hpl) (ihr hpr)
    · rw [e]
      exact child_shift hS hlh hs r3 hl fl (.inl rfl) (hq.imp_right And.left)
    · rw [e]
      exact child_shift hS hlh hs r3 hr fr (.inr rfl) (hq.imp_right And.right)

/-! ## Edits that meet nothing -/

theorem removeOverlaps_same {S : List Shift} (hS : WfS S) {low high : Int} : ∀ (f : Nat) {t : Tr α}, Lz S t →
    (∀ g ∈ t.flat S, ∀ i ∈ g.ins, Ival.overlaps low high i = false) →
    removeOverlaps S low high f t = removeOverlapsR S low high f t
  | 0, _, _, _ => rfl
  | _ + 1, .nil, _, _ => rfl
  | f + 1, .node d l r, h, hc => by
    obtain ⟨h1, h2, h3, h4, h5, h6, h7⟩ := h.parts hS
    have el := removeOverlaps_same hS f h6 fun g hg => hc g (by simp [Tr.flat, hg])
    have er := removeOverlaps_same hS f h7 fun g hg => hc g (by simp [Tr.flat, hg])
    have hcd := hc (d.fl S) (by simp [Tr.flat])
    rw [← h2, Nd.fl_done S _ h1] at hcd
    rw [removeOverlaps, removeOverlapsR]
    simp only []
    generalize applyShifts S l.mx? r.mx? d = d' at *
    have hne : ¬ (d'.ins.isEmpty = true) := fun he => h3.ne (List.isEmpty_iff.1 he)
    simp only [swapRemove_none _ _ (Nat.le_refl _) hcd, el, er, if_neg hne]

end Gpeg.LazyLog
