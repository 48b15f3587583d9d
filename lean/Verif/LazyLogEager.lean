import Verif.LazyLogHist
/-!
# The interval tree with `ShiftThreshold = 1`

The code has a constant `ShiftThreshold` with the value -1, which turns off the branch of `shift` that applies all shifts to
all nodes at once. Here is the model of this branch, and of the tree with any value of the constant.
-/
namespace Gpeg.LazyLog
variable {α : Type}

/-- `memo/interval/lazylog/tree.go:433-441` `(*node).applyAllShifts`. -/
def Tr.applyAll (S : List Shift) : Tr α → Tr α
  | .nil => .nil
  | .node d l r => .node (applyShifts S (l.applyAll S).mx? (r.applyAll S).mx? d) (l.applyAll S) (r.applyAll S)

/-- `memo/interval/lazylog/tree.go:124-127` `(*Tree).applyAllShifts`. -/
def Tree.applyAllShifts (T : Tree α) : Tree α :=
  { T with root := T.root.applyAll T.shifts, shifts := [] }

/-- `memo/interval/lazylog/tree.go:108-122` `shift`, for any value `k` of `ShiftThreshold`. -/
def Tree.shiftK (k : Int) (T : Tree α) (idx amt : Int) : Tree α :=
  if amt = 0 then T
  else
    let T := { T with tstamp := T.tstamp + 1, shifts := T.shifts ++ [⟨idx, amt, T.tstamp + 1⟩] }
    if k ≠ -1 ∧ (T.shifts.length : Int) ≥ k then T.applyAllShifts else T

/-- `memo/interval/lazylog/tree.go:92-97` `RemoveAndShift`, for any value of `ShiftThreshold` and any function in the place
of `removeOverlaps`. -/
def Tree.removeAndShiftK (k : Int) (ro : List Shift → Int → Int → Nat → Tr α → Tr α) (T : Tree α)
    (low high amt : Int) : Tree α :=
  let T := { T with root := ro T.shifts low high T.root.size T.root }
  if amt ≠ 0 then T.shiftK k low amt else T

/-- One operation of a history (`St.step`) for any value of `ShiftThreshold`. -/
def St.stepK (k : Int) (ro : List Shift → Int → Int → Nat → Tr α → Tr α) (st : St α) : Op α → St α
  | .edit low high amt =>
    { tree := st.tree.removeAndShiftK k ro low high amt,
      live := st.live.filterMap fun s => (follow low high amt s.1).map fun s' => (s', s.2) }
  | op => st.step op

/-- A history for any value of `ShiftThreshold`. -/
def runK (k : Int) (ro : List Shift → Int → Int → Nat → Tr α → Tr α) (ops : List (Op α)) : St α :=
  ops.foldl (St.stepK k ro) {}

/-- Not the code, but a repair of it: `remove` (`memo/interval/lazylog/tree.go:194-233`) with
`n.interval = rightMinNode.interval` in the place of the call of `copy` in line 212. -/
def removeR (S : List Shift) : Nat → Int → Int → Tr α → Tr α
  | 0, _, _, t => t
  | _ + 1, _, _, .nil => .nil
  | f + 1, pos, id, .node d l r =>
    let d := applyShifts S l.mx? r.mx? d
    match compareKey pos id d.pos d.id with
    | .lt => rebalance S (.node d (removeR S f pos id l) r)
    | .gt => rebalance S (.node d l (removeR S f pos id r))
    | .eq =>
      match l, r with
      | .node e ll lr, .node g rl rr =>
        let (r', m) := findSmallest S (applyShifts S rl.mx? rr.mx? g) rl rr
        rebalance S (.node { d with addr := m.addr, pos := m.pos, id := m.id, ins := m.ins, t := m.t }
          (Tr.sync S (.node e ll lr)) (removeR S f m.pos m.id r'))
      | .node e ll lr, .nil => rebalance S (Tr.sync S (.node e ll lr))
      | .nil, .node g rl rr => rebalance S (Tr.sync S (.node g rl rr))
      | .nil, .nil => .nil

/-- `removeOverlaps` (`memo/interval/lazylog/tree.go:250-287`) with the repaired `remove`. -/
def removeOverlapsR (S : List Shift) (low high : Int) : Nat → Tr α → Tr α
  | 0, t => t
  | _ + 1, .nil => .nil
  | f + 1, .node d l r =>
    let d := applyShifts S l.mx? r.mx? d
    if low > d.mx then .node d l r
    else
      let l := removeOverlapsR S low high f l
      let d := { d with ins := swapRemove (Ival.overlaps low high) d.ins.length d.ins }
      if d.ins.isEmpty then
        let n := removeR S (Tr.node d l r).size d.pos d.id (.node d l r)
        if high ≥ d.pos then removeOverlapsR S low high f n else n
      else if high < d.pos then .node d l r
      else .node d l (removeOverlapsR S low high f r)

theorem stepK_code (st : St α) (op : Op α) : st.stepK (-1) removeOverlaps op = st.step op := by
  cases op with
  | edit low high amt =>
    simp only [St.stepK, St.step, Tree.removeAndShiftK, Tree.removeAndShift, Tree.shiftK, Tree.shift]
    simp
  | _ => rfl

/-- The code as it is: `ShiftThreshold` is -1. -/
theorem runK_code (ops : List (Op α)) : runK (-1) removeOverlaps ops = run ops := by
  have h : St.stepK (α := α) (-1) removeOverlaps = St.step := funext fun st => funext fun op => stepK_code st op
  rw [runK, run, h]

/-! ## Trees without shifts -/

theorem fl_nil (d : Nd α) : d.fl [] = ⟨d.addr, d.pos, d.id, d.ins⟩ := by simp [Nd.fl, shiftIns_zero]

theorem rotateLeft_flat0 (t : Tr α) : (rotateLeft [] t).flat [] = t.flat [] := by
  cases t with
  | nil => rfl
  | node d l r =>
    rw [rotateLeft, applyShifts_nil]
    simp only [sync_nil]
    cases r with
    | nil => rfl
    | node e rl rr => simp only [mk_flat, Tr.flat, List.append_assoc, List.cons_append]

theorem rotateRight_flat0 (t : Tr α) : (rotateRight [] t).flat [] = t.flat [] := by
  cases t with
  | nil => rfl
  | node d l r =>
    rw [rotateRight, applyShifts_nil]
    simp only [sync_nil]
    cases l with
    | nil => rfl
    | node e rl rr => simp only [mk_flat, Tr.flat, List.append_assoc, List.cons_append]

theorem rebalance_flat0 (t : Tr α) : (rebalance [] t).flat [] = t.flat [] := by
  cases t with
  | nil => rfl
  | node d l r =>
    have hu := fl_update [] d l r
    rw [rebalance]
    simp only []
    split
    · rw [rotateLeft_flat0]
      simp only [Tr.flat, hu]
      split
      · rw [rotateRight_flat0]
      · rfl
    · split
      · rw [rotateRight_flat0]
        simp only [Tr.flat, hu]
        split
        · rw [rotateLeft_flat0]
        · rfl
      · simp only [Tr.flat, hu]

/-- The nodes of a tree between operations: the shifts up to the time `T` have been applied. -/
def Ok (T : Nat) (d : Nd α) : Prop := d.t ≤ T ∧ d.ins ≠ [] ∧ d.Wf

theorem ok_stable (T : Nat) : Stable (α := α) (Ok T) := fun _ _ _ h _ => h

theorem Ok.pos_le {T : Nat} {d : Nd α} (h : Ok T d) (hh : highOf d.ins ≤ d.mx) : d.pos ≤ d.mx := by
  obtain ⟨-, hn, hw⟩ := h
  cases hi : d.ins with
  | nil => exact absurd hi hn
  | cons i is =>
    have hm : i ∈ d.ins := by rw [hi]; exact List.mem_cons_self
    have h1 := hw i hm
    have h2 := le_highOf hm
    omega

theorem All.mono {P Q : Nd α → Prop} (h : ∀ d, P d → Q d) {t : Tr α} (ht : All P t) : All Q t := by
  induction ht with
  | nil => exact .nil
  | node hd _ _ il ir => exact .node (h _ hd) il ir

theorem All.flat {T : Nat} {t : Tr α} (ht : All (Ok T) t) :
    ∀ f ∈ t.flat [], f.ins ≠ [] ∧ ∀ i ∈ f.ins, i.low = f.pos ∧ i.low ≤ i.high := by
  induction ht with
  | nil => intro f hf; cases hf
  | @node d l r hd _ _ il ir =>
    intro f hf
    simp only [Tr.flat, List.mem_append, List.mem_cons] at hf
    rcases hf with hf | rfl | hf
    · exact il f hf
    · rw [fl_nil]; exact hd.2
    · exact ir f hf

/-- All intervals end at the field `max` of the root or before. -/
theorem Dom.high {t : Tr α} (h : Dom t) {x : Int} (hx : ∀ y, t.mx? = some y → y ≤ x) :
    ∀ f ∈ t.flat [], ∀ i ∈ f.ins, i.high ≤ x := by
  induction h with
  | nil => intro f hf; cases hf
  | @node d l r hl hr hh dl dr ihl ihr =>
    have hd := hx d.mx rfl
    intro f hf i hi
    simp only [Tr.flat, List.mem_append, List.mem_cons] at hf
    rcases hf with hf | rfl | hf
    · exact ihl (fun y hy => Int.le_trans (hl y hy) hd) f hf i hi
    · rw [fl_nil] at hi
      exact Int.le_trans (le_highOf (ins := d.ins) hi) (Int.le_trans hh hd)
    · exact ihr (fun y hy => Int.le_trans (hr y hy) hd) f hf i hi

/-! ## Adding -/

theorem add_dom0 (T a : Nat) (pos id : Int) (v : Ival α) (h0 : 0 ≤ v.high) : ∀ t : Tr α, Dom t →
    Dom (add [] T a pos id v t).1 := by
  intro t h
  induction h with
  | nil =>
    refine .node (fun x hx => by cases hx) (fun x hx => by cases hx) ?_ .nil .nil
    simp only [highOf, List.foldl_cons, List.foldl_nil]
    split <;> omega
  | @node d l r hl hr hh dl dr ihl ihr =>
    rw [add, applyShifts_nil]
    simp only []
    split
    · exact (rebalance_dom ihl dr).1
    · exact (rebalance_dom dl ihr).1
    · exact (rebalance_dom dl dr).1

theorem add_all0 (T a : Nat) (pos id : Int) (v : Ival α) (hv : v.low = pos) (hlh : v.low ≤ v.high) : ∀ t : Tr α,
    All (Ok T) t → All (Ok T) (add [] T a pos id v t).1 := by
  intro t h
  induction h with
  | nil =>
    refine .node ⟨Nat.le_refl _, by simp, ?_⟩ .nil .nil
    intro i hi
    rw [List.mem_singleton] at hi
    subst hi
    exact ⟨hv, hlh⟩
  | @node d l r hd hl hr ihl ihr =>
    rw [add, applyShifts_nil]
    simp only []
    split
    · exact rebalance_all (ok_stable T) (.node hd ihl hr)
    · exact rebalance_all (ok_stable T) (.node hd hl ihr)
    · rename_i hc
      refine rebalance_all (ok_stable T) (.node ⟨Nat.le_refl _, by simp, ?_⟩ hl hr)
      intro i hi
      rcases List.mem_append.1 hi with hi | hi
      · exact hd.2.2 i hi
      · rw [List.mem_singleton] at hi
        subst hi
        exact ⟨by rw [hv]; exact (compareKey_eq hc).1, hlh⟩

theorem add_rel0 (T a : Nat) (pos id : Int) (v : Ival α) : ∀ t : Tr α, t.Ord [] →
    AddRel (t.flat []) ((add [] T a pos id v t).1.flat []) a pos id v (add [] T a pos id v t).2 := by
  intro t
  induction t with
  | nil =>
    intro _
    exact .inl ⟨[], [], rfl, by simp [add, Tr.flat, fl_nil], rfl, (fun _ h => by cases h), (fun _ h => by cases h)⟩
  | node d l r ihl ihr =>
    intro ho
    have hll := ho.lt_left
    have hlr := ho.lt_right
    simp only [Fl.lt, fl_nil] at hll hlr
    rw [add, applyShifts_nil]
    simp only []
    split
    · rename_i hc
      have hc := compareKey_lt hc
      rw [rebalance_flat0]
      simp only [Tr.flat]
      rcases ihl ho.left with ⟨A, B, e1, e2, e3, e4, e5⟩ | ⟨A, f, B, e1, e2, e3, e4, e5⟩
      · rw [e1, e2]
        refine .inl ⟨A, B ++ d.fl [] :: r.flat [], by simp, by simp, e3, e4, ?_⟩
        intro f hf
        simp only [List.mem_append, List.mem_cons] at hf
        rcases hf with hf | rfl | hf
        · exact e5 f hf
        · rw [fl_nil]; exact hc
        · exact klt_trans hc (hlr f hf)
      · rw [e1, e2]
        exact .inr ⟨A, f, B ++ d.fl [] :: r.flat [], by simp, by simp, e3, e4, e5⟩
    · rename_i hc
      have hc := compareKey_gt hc
      rw [rebalance_flat0]
      simp only [Tr.flat]
      rcases ihr ho.right with ⟨A, B, e1, e2, e3, e4, e5⟩ | ⟨A, f, B, e1, e2, e3, e4, e5⟩
      · rw [e1, e2]
        refine .inl ⟨l.flat [] ++ d.fl [] :: A, B, by simp, by simp, e3, ?_, e5⟩
        intro f hf
        simp only [List.mem_append, List.mem_cons] at hf
        rcases hf with hf | rfl | hf
        · exact klt_trans (hll f hf) hc
        · rw [fl_nil]; exact hc
        · exact e4 f hf
      · rw [e1, e2]
        exact .inr ⟨l.flat [] ++ d.fl [] :: A, f, B, by simp, by simp, e3, e4, e5⟩
    · rename_i hc
      have hc := compareKey_eq hc
      rw [rebalance_flat0]
      refine .inr ⟨l.flat [], d.fl [], r.flat [], rfl, ?_, ?_, ?_, ?_⟩ <;>
        simp only [Tr.flat, fl_nil, hc]

/-! ## Searching -/

theorem search0 (pos id : Int) : ∀ t : Tr α, t.Ord [] →
    match (search [] pos id t).2 with
    | some d => d.pos = pos ∧ d.id = id ∧ d.fl [] ∈ t.flat []
    | none => ∀ f ∈ t.flat [], ¬ (f.pos = pos ∧ f.id = id) := by
  intro t
  induction t with
  | nil => intro _ f hf; cases hf
  | node d l r ihl ihr =>
    intro ho
    have hll := ho.lt_left
    have hlr := ho.lt_right
    simp only [Fl.lt, fl_nil, klt] at hll hlr
    rw [search, applyShifts_nil]
    simp only []
    cases hc : compareKey pos id d.pos d.id with
    | lt =>
      have hc := compareKey_lt hc
      have hl := ihl ho.left
      simp only []
      cases hs : (search [] pos id l).2 with
      | some e => rw [hs] at hl; exact ⟨hl.1, hl.2.1, by simp [Tr.flat, hl.2.2]⟩
      | none =>
        rw [hs] at hl
        intro f hf
        simp only [Tr.flat, List.mem_append, List.mem_cons] at hf
        simp only [klt] at hc
        rcases hf with hf | rfl | hf
        · exact hl f hf
        · rw [fl_nil]; simp only []; omega
        · have := hlr f hf; omega
    | gt =>
      have hc := compareKey_gt hc
      have hr := ihr ho.right
      simp only []
      cases hs : (search [] pos id r).2 with
      | some e => rw [hs] at hr; exact ⟨hr.1, hr.2.1, by simp [Tr.flat, hr.2.2]⟩
      | none =>
        rw [hs] at hr
        intro f hf
        simp only [Tr.flat, List.mem_append, List.mem_cons] at hf
        simp only [klt] at hc
        rcases hf with hf | rfl | hf
        · have := hll f hf; omega
        · rw [fl_nil]; simp only []; omega
        · exact hr f hf
    | eq =>
      have hc := compareKey_eq hc
      exact ⟨hc.1.symm, hc.2.symm, by simp [Tr.flat]⟩

/-! ## Removing -/

theorem findSmallest0 {P : Nd α → Prop} : ∀ (l : Tr α) (d : Nd α) (r : Tr α), Dom (.node d l r) → All P (.node d l r) →
    P (findSmallest [] d l r).2 ∧ (findSmallest [] d l r).2.mx ≤ d.mx ∧
    highOf (findSmallest [] d l r).2.ins ≤ (findSmallest [] d l r).2.mx ∧
    ∃ rest, (Tr.node d l r).flat [] = (findSmallest [] d l r).2.fl [] :: rest := by
  intro l
  induction l with
  | nil =>
    intro d r hd ha
    cases hd with | node _ _ hh _ _ => ?_
    cases ha with | node hp _ _ => ?_
    exact ⟨hp, Int.le_refl _, hh, _, rfl⟩
  | node e ll lr ihl ihr =>
    intro d r hd ha
    cases hd with | node hl _ _ dl _ => ?_
    cases ha with | node _ al _ => ?_
    obtain ⟨h1, h2, h3, rest, h4⟩ := ihl e lr dl al
    rw [findSmallest, applyShifts_nil]
    refine ⟨h1, Int.le_trans h2 (hl _ rfl), h3, rest ++ d.fl [] :: r.flat [], ?_⟩
    rw [Tr.flat, h4]; rfl

theorem removeR_succ (f : Nat) (pos id : Int) (d : Nd α) (l r : Tr α) :
    removeR [] (f + 1) pos id (.node d l r) =
      match compareKey pos id d.pos d.id with
      | .lt => rebalance [] (.node d (removeR [] f pos id l) r)
      | .gt => rebalance [] (.node d l (removeR [] f pos id r))
      | .eq =>
        match l, r with
        | .node e ll lr, .node g rl rr =>
          rebalance [] (.node { d with
              addr := (findSmallest [] g rl rr).2.addr
              pos := (findSmallest [] g rl rr).2.pos
              id := (findSmallest [] g rl rr).2.id
              ins := (findSmallest [] g rl rr).2.ins
              t := (findSmallest [] g rl rr).2.t }
            (.node e ll lr)
            (removeR [] f (findSmallest [] g rl rr).2.pos (findSmallest [] g rl rr).2.id (findSmallest [] g rl rr).1))
        | .node e ll lr, .nil => rebalance [] (.node e ll lr)
        | .nil, .node g rl rr => rebalance [] (.node g rl rr)
        | .nil, .nil => .nil := by
  cases l <;> cases r <;> rfl

theorem removeMinR {P : Nd α → Prop} (hP : Stable P) : ∀ (f : Nat) (t : Tr α) (f0 : Fl α)
    (rest : List (Fl α)), t.size ≤ f → t.Ord [] → t.flat [] = f0 :: rest → Dom t → All P t →
    Dom (removeR [] f f0.pos f0.id t) ∧ All P (removeR [] f f0.pos f0.id t) ∧
    (removeR [] f f0.pos f0.id t).flat [] = rest ∧
    (∀ m, (∀ x, t.mx? = some x → x ≤ m) → ∀ x, (removeR [] f f0.pos f0.id t).mx? = some x → x ≤ m) := by
  intro f
  induction f with
  | zero =>
    intro t f0 rest hf _ hfl
    rw [size_eq [], hfl] at hf
    simp at hf
  | succ f ih =>
    intro t f0 rest hf ho hfl hdom hall
    cases hdom with
    | nil => cases hfl
    | @node d l r hl hr hh dl dr =>
      cases hall with | node hd al ar => ?_
      rw [removeR_succ]
      simp only [Tr.size] at hf
      cases hlf : l.flat [] with
      | nil =>
        have hlnil : l = .nil := by
          cases l with
          | nil => rfl
          | node => simp [Tr.flat] at hlf
        subst hlnil
        simp only [Tr.flat, List.nil_append, List.cons.injEq] at hfl
        obtain ⟨rfl, rfl⟩ := hfl
        rw [fl_nil]
        simp only [compareKey_refl]
        cases r with
        | nil => exact ⟨.nil, .nil, rfl, fun _ _ _ h => by cases h⟩
        | node g rl rr =>
          simp only []
          obtain ⟨z1, z2⟩ := rebalance_dom' dr
          exact ⟨z1, rebalance_all hP ar, rebalance_flat0 _, fun m hm x hx =>
            Int.le_trans (z2 x hx) (Int.le_trans (hr _ rfl) (hm _ rfl))⟩
      | cons f1 rest1 =>
        rw [Tr.flat, hlf] at hfl
        simp only [List.cons_append, List.cons.injEq] at hfl
        obtain ⟨rfl, rfl⟩ := hfl
        have hlt := ho.lt_left f1 (by rw [hlf]; exact List.mem_cons_self)
        rw [fl_nil] at hlt
        rw [compareKey_of_lt hlt]
        simp only []
        obtain ⟨i1, i2, i4, i3⟩ := ih l f1 rest1 (by omega) ho.left hlf dl al
        obtain ⟨z1, z2⟩ := rebalance_dom' (.node (i3 _ hl) hr hh i1 dr)
        exact ⟨z1, rebalance_all hP (.node hd i2 ar), by rw [rebalance_flat0, Tr.flat, i4],
          fun m hm x hx => Int.le_trans (z2 x hx) (hm _ rfl)⟩

/-- The repaired `remove` removes the root and nothing else. The root may be empty. -/
theorem removeRootR {T : Nat} (f : Nat) (d : Nd α) (l r : Tr α)
    (hf : (Tr.node d l r).size ≤ f) (ho : (Tr.node d l r).Ord [])
    (hdom : Dom (.node d l r)) (al : All (Ok T) l) (ar : All (Ok T) r) :
    Dom (removeR [] f d.pos d.id (.node d l r)) ∧ All (Ok T) (removeR [] f d.pos d.id (.node d l r)) ∧
    (removeR [] f d.pos d.id (.node d l r)).flat [] = l.flat [] ++ r.flat [] ∧
    ∀ x, (removeR [] f d.pos d.id (.node d l r)).mx? = some x → x ≤ d.mx := by
  cases f with
  | zero => simp [Tr.size] at hf
  | succ f =>
    cases hdom with | node hl hr hh dl dr => ?_
    rw [removeR_succ]
    simp only [compareKey_refl]
    cases hlc : l with
    | nil =>
      cases hrc : r with
      | nil => exact ⟨.nil, .nil, rfl, fun _ h => by cases h⟩
      | node g rl rr =>
        subst hrc
        simp only []
        obtain ⟨z1, z2⟩ := rebalance_dom' dr
        exact ⟨z1, rebalance_all (ok_stable T) ar, rebalance_flat0 _, fun x hx => Int.le_trans (z2 x hx) (hr _ rfl)⟩
    | node e ll lr =>
      subst hlc
      cases hrc : r with
      | nil =>
        simp only []
        obtain ⟨z1, z2⟩ := rebalance_dom' dl
        exact ⟨z1, rebalance_all (ok_stable T) al, by rw [rebalance_flat0]; simp [Tr.flat],
          fun x hx => Int.le_trans (z2 x hx) (hl _ rfl)⟩
      | node g rl rr =>
        subst hrc
        simp only []
        obtain ⟨h1, h2, h3, rest, h4⟩ := findSmallest0 rl g rr dr ar
        rw [findSmallest_nil]
        generalize (findSmallest [] g rl rr).2 = m at *
        obtain ⟨i1, i2, i4, i3⟩ := removeMinR (ok_stable T) f (.node g rl rr) (m.fl []) rest
          (by simp only [Tr.size] at hf ⊢; omega) ho.right h4 dr ar
        rw [fl_nil] at i1 i2 i3 i4
        simp only [] at i1 i2 i3 i4
        have hg := hr _ rfl
        obtain ⟨z1, z2⟩ := rebalance_dom' (d := { d with addr := m.addr, pos := m.pos, id := m.id, ins := m.ins, t := m.t })
          (.node hl (i3 _ hr) (by simp only []; omega) dl i1)
        refine ⟨z1, rebalance_all (ok_stable T) (.node h1 al i2), ?_, z2⟩
        rw [rebalance_flat0, Tr.flat, i4, h4, fl_nil, fl_nil]

/-- What is left of a node. -/
def clean (low high : Int) (f : Fl α) : Option (Fl α) :=
  if (swapRemove (Ival.overlaps low high) f.ins.length f.ins).isEmpty then none
  else some { f with ins := swapRemove (Ival.overlaps low high) f.ins.length f.ins }

theorem clean_id {low high : Int} {f : Fl α} (hn : f.ins ≠ []) (hc : ∀ i ∈ f.ins, Ival.overlaps low high i = false) :
    clean low high f = some f := by
  rw [clean, swapRemove_none _ _ (Nat.le_refl _) hc, if_neg (fun h => hn (List.isEmpty_iff.1 h))]

theorem filterMap_clean_id {low high : Int} {L : List (Fl α)}
    (h : ∀ f ∈ L, f.ins ≠ [] ∧ ∀ i ∈ f.ins, Ival.overlaps low high i = false) : L.filterMap (clean low high) = L := by
  induction L with
  | nil => rfl
  | cons f L ih =>
    have h0 := h f List.mem_cons_self
    rw [List.filterMap_cons_some (clean_id h0.1 h0.2), ih fun g hg => h g (List.mem_cons_of_mem _ hg)]

theorem clean_done {low high : Int} {L : List (Fl α)} : ∀ f ∈ L.filterMap (clean low high),
    f.ins ≠ [] ∧ ∀ i ∈ f.ins, Ival.overlaps low high i = false := by
  intro f hf
  obtain ⟨g, hg, e⟩ := List.mem_filterMap.1 hf
  simp only [clean] at e
  split at e
  · cases e
  · rename_i hne
    simp only [Option.some.injEq] at e
    subst e
    exact ⟨fun h => hne (List.isEmpty_iff.2 h), fun i hi => (swapRemove_mem.1 hi).2⟩

theorem clean_key {low high : Int} {f g : Fl α} (h : clean low high f = some g) :
    g.pos = f.pos ∧ g.id = f.id ∧ g.addr = f.addr ∧ ∀ i ∈ g.ins, i ∈ f.ins := by
  simp only [clean] at h
  split at h
  · cases h
  · simp only [Option.some.injEq] at h
    subst h
    exact ⟨rfl, rfl, rfl, fun i hi => (swapRemove_mem.1 hi).1⟩

theorem pairwise_clean {low high : Int} {L : List (Fl α)} (h : L.Pairwise Fl.lt) :
    (L.filterMap (clean low high)).Pairwise Fl.lt := by
  rw [List.pairwise_filterMap]
  refine h.imp ?_
  intro a b hab a' ha b' hb
  have h1 := clean_key ha
  have h2 := clean_key hb
  simp only [Fl.lt, h1, h2] at hab ⊢
  exact hab

/-- The repaired `removeOverlaps` removes the intervals that meet the range, and nothing else. -/
theorem removeOverlapsR_spec {T : Nat} (low high : Int) : ∀ (f : Nat) (t : Tr α), t.size ≤ f → t.Ord [] → Dom t →
    All (Ok T) t →
    Dom (removeOverlapsR [] low high f t) ∧ All (Ok T) (removeOverlapsR [] low high f t) ∧
    (removeOverlapsR [] low high f t).flat [] = (t.flat []).filterMap (clean low high) ∧
    (∀ m, (∀ x, t.mx? = some x → x ≤ m) → ∀ x, (removeOverlapsR [] low high f t).mx? = some x → x ≤ m) := by
  intro f
  induction f with
  | zero =>
    intro t hf _ _ _
    cases t with
    | nil => exact ⟨.nil, .nil, rfl, (fun _ _ _ h => by cases h)⟩
    | node => simp [Tr.size] at hf
  | succ f ih =>
    intro t hf ho hdom hall
    have hdom0 := hdom
    have hall0 := hall
    cases hdom with
    | nil => exact ⟨.nil, .nil, rfl, (fun _ _ _ h => by cases h)⟩
    | @node d l r hl hr hh dl dr =>
      cases hall with | node hd al ar => ?_
      rw [removeOverlapsR, applyShifts_nil]
      simp only [Tr.size] at hf
      simp only []
      by_cases hmx : low > d.mx
      · rw [if_pos hmx]
        refine ⟨hdom0, hall0, ?_, fun m hm => hm⟩
        refine (filterMap_clean_id ?_).symm
        intro g hg
        refine ⟨(hall0.flat g hg).1, fun i hi => ?_⟩
        have := hdom0.high (x := d.mx) (fun y hy => by cases hy; exact Int.le_refl _) g hg i hi
        simp only [Ival.overlaps, Bool.and_eq_false_iff, decide_eq_false_iff_not]
        omega
      · rw [if_neg hmx]
        obtain ⟨k1, k2, k3, k4⟩ := ih l (by omega) ho.left dl al
        generalize removeOverlapsR [] low high f l = l' at *
        generalize hins : swapRemove (Ival.overlaps low high) d.ins.length d.ins = ins'
        have hmem : ∀ i ∈ ins', i ∈ d.ins := by
          intro i hi
          rw [← hins] at hi
          exact (swapRemove_mem.1 hi).1
        have hdm : 0 ≤ d.mx := Int.le_trans (highOf_foldl d.ins 0).1 hh
        have hh' : highOf ins' ≤ d.mx := by
          have : ∀ (L : List (Ival α)) (m0 : Int), m0 ≤ d.mx → (∀ i ∈ L, i.high ≤ d.mx) →
              L.foldl (fun high i => if i.high > high then i.high else high) m0 ≤ d.mx := by
            intro L
            induction L with
            | nil => intro m0 h _; exact h
            | cons i is ihL =>
              intro m0 h hL
              refine ihL _ ?_ (fun j hj => hL j (List.mem_cons_of_mem _ hj))
              have := hL i List.mem_cons_self
              show (if i.high > m0 then i.high else m0) ≤ d.mx
              split <;> omega
          exact this ins' 0 hdm (fun i hi => Int.le_trans (le_highOf (hmem i hi)) hh)
        have hll := ho.lt_left
        have hlr := ho.lt_right
        have hdn : Dom (.node { d with ins := ins' } l' r) := .node (k4 _ hl) hr hh' k1 dr
        have hord : (Tr.node { d with ins := ins' } l' r).Ord [] := by
          simp only [Fl.lt, fl_nil] at hll hlr
          have h1 : (l'.flat []).Pairwise Fl.lt := by rw [k3]; exact pairwise_clean ho.left
          simp only [Tr.Ord, Tr.flat]
          rw [List.pairwise_append, List.pairwise_cons]
          have hkey : ∀ g ∈ l'.flat [], klt g.pos g.id d.pos d.id := by
            intro g hg
            rw [k3] at hg
            obtain ⟨g0, hg0, e⟩ := List.mem_filterMap.1 hg
            have h2 := clean_key e
            rw [h2.1, h2.2.1]
            exact hll g0 hg0
          refine ⟨h1, ⟨fun g hg => ?_, ho.right⟩, ?_⟩
          · rw [Fl.lt, fl_nil]; exact hlr g hg
          · intro a ha b hb
            rcases List.mem_cons.1 hb with rfl | hb
            · rw [Fl.lt, fl_nil]; exact hkey a ha
            · exact klt_trans (hkey a ha) (hlr b hb)
        have hright : high < d.pos → (r.flat []).filterMap (clean low high) = r.flat [] := by
          intro hp
          refine filterMap_clean_id fun g hg => ?_
          obtain ⟨g1, g2⟩ := ar.flat g hg
          refine ⟨g1, fun i hi => ?_⟩
          have h2 := g2 i hi
          have h3 := hlr g hg
          simp only [Fl.lt, fl_nil, klt] at h3
          simp only [Ival.overlaps, Bool.and_eq_false_iff, decide_eq_false_iff_not]
          omega
        have hcd : clean low high (d.fl []) = if ins'.isEmpty then none else some ⟨d.addr, d.pos, d.id, ins'⟩ := by
          rw [fl_nil, clean]; simp only [hins]
        have hflat : ((Tr.node d l r).flat []).filterMap (clean low high) = l'.flat [] ++
            ((if ins'.isEmpty then none else some ⟨d.addr, d.pos, d.id, ins'⟩ : Option (Fl α)).toList ++
              (r.flat []).filterMap (clean low high)) := by
          rw [Tr.flat, List.filterMap_append, k3, List.filterMap_cons, hcd]
          by_cases he : ins'.isEmpty <;> simp [he]
        rw [hflat]
        by_cases hemp : ins'.isEmpty = true
        · simp only [hemp, if_true, Option.toList_none, List.nil_append]
          obtain ⟨v1, v2, v4, v3⟩ := removeRootR (T := T) (Tr.node { d with ins := ins' } l' r).size
            { d with ins := ins' } l' r (Nat.le_refl _) hord hdn k2 ar
          generalize removeR [] (Tr.node { d with ins := ins' } l' r).size
            ({ d with ins := ins' } : Nd α).pos ({ d with ins := ins' } : Nd α).id
            (.node { d with ins := ins' } l' r) = n at *
          by_cases hge : high ≥ d.pos
          · rw [if_pos hge]
            have hl2 : l'.size ≤ l.size := by
              rw [size_eq [], size_eq [], k3]
              exact List.length_filterMap_le _ _
            have hsz : n.size ≤ f := by
              rw [size_eq [], v4, List.length_append, ← size_eq, ← size_eq]
              omega
            have hno : n.Ord [] := by
              have := hord
              simp only [Tr.Ord, Tr.flat, List.pairwise_append, List.pairwise_cons] at this
              rw [Tr.Ord, v4, List.pairwise_append]
              exact ⟨this.1, this.2.1.2, fun a ha b hb => this.2.2 a ha b (List.mem_cons_of_mem _ hb)⟩
            obtain ⟨i1, i2, i4, i3⟩ := ih n hsz hno v1 v2
            refine ⟨i1, i2, ?_, fun m hm => i3 m (fun x hx => Int.le_trans (v3 x hx) (hm _ rfl))⟩
            rw [i4, v4, List.filterMap_append]
            congr 1
            rw [k3]
            exact filterMap_clean_id clean_done
          · rw [if_neg hge]
            exact ⟨v1, v2, by rw [v4, hright (by omega)], fun m hm x hx => Int.le_trans (v3 x hx) (hm _ rfl)⟩
        · have hne : ins' ≠ [] := fun h => hemp (by simp [h])
          have hok : Ok T ({ d with ins := ins' } : Nd α) :=
            ⟨hd.1, hne, fun i hi => hd.2.2 i (hmem i hi)⟩
          simp only [hemp, if_false, Bool.false_eq_true, Option.toList_some]
          by_cases hge : high < d.pos
          · rw [if_pos hge, hright hge]
            refine ⟨hdn, .node hok k2 ar, ?_, fun m hm x hx => by cases hx; exact hm _ rfl⟩
            simp only [Tr.flat, fl_nil, List.singleton_append]
          · rw [if_neg hge]
            obtain ⟨q1, q2, q3, q4⟩ := ih r (by omega) ho.right dr ar
            refine ⟨.node (k4 _ hl) (q4 _ hr) hh' k1 q1, .node hok k2 q2, ?_, fun m hm x hx => by cases hx; exact hm _ rfl⟩
            simp only [Tr.flat, fl_nil, List.singleton_append, q3]

/-! ## Applying a shift to all nodes -/

theorem applyShifts_one {lm rm : Option Int} {d : Nd α} {s : Shift} (h : d.t < s.tstamp) :
    applyShifts [s] lm rm d = applyShift lm rm d s := by
  simp only [applyShifts, List.getLast?_singleton, List.length_singleton, Nat.sub_self, startIdx, List.drop_zero,
    List.foldl_cons, List.foldl_nil]
  rw [if_neg (by omega)]

theorem highOf_le {L : List (Ival α)} {m : Int} (h0 : 0 ≤ m) (h : ∀ i ∈ L, i.high ≤ m) : highOf L ≤ m := by
  have : ∀ (L : List (Ival α)) (m0 : Int), m0 ≤ m → (∀ i ∈ L, i.high ≤ m) →
      L.foldl (fun high i => if i.high > high then i.high else high) m0 ≤ m := by
    intro L
    induction L with
    | nil => intro m0 h _; exact h
    | cons i is ihL =>
      intro m0 h hL
      refine ihL _ ?_ (fun j hj => hL j (List.mem_cons_of_mem _ hj))
      have := hL i List.mem_cons_self
      show (if i.high > m0 then i.high else m0) ≤ m
      split <;> omega
  exact this L 0 h0 h

theorem applyAll_mx_small {s : Shift} {t : Tr α} {T : Nat} (hs : s.tstamp = T + 1) (ha : All (Ok T) t)
    (hx : ∀ x, t.mx? = some x → x < s.idx) : (t.applyAll [s]).mx? = t.mx? := by
  cases ha with
  | nil => rfl
  | @node d l r hd _ _ =>
    have := hd.1
    have h2 := hx d.mx rfl
    rw [Tr.applyAll, applyShifts_one (by omega), applyShift_new (by omega), if_pos h2]
    rfl

/-- After a shift has been applied to all nodes, all is as before, moved. -/
theorem applyAll_spec {s : Shift} {T : Nat} (hs : s.tstamp = T + 1) {t : Tr α} (hd : Dom t) (ha : All (Ok T) t) :
    Dom (t.applyAll [s]) ∧ All (Ok (T + 1)) (t.applyAll [s]) ∧
    (t.applyAll [s]).flat [] = (t.flat []).map (Fl.move s) := by
  induction ha with
  | nil => exact ⟨.nil, .nil, rfl⟩
  | @node d l r hok al ar ihl ihr =>
    cases hd with | node hl hr hh dl dr => ?_
    obtain ⟨l1, l2, l3⟩ := ihl dl
    obtain ⟨r1, r2, r3⟩ := ihr dr
    have ht := hok.1
    have hp := hok.pos_le hh
    rw [Tr.applyAll, applyShifts_one (by omega), applyShift_new (by omega)]
    by_cases hm : d.mx < s.idx
    · rw [if_pos hm]
      have el := applyAll_mx_small hs al fun x hx => Int.lt_of_le_of_lt (hl x hx) hm
      have er := applyAll_mx_small hs ar fun x hx => Int.lt_of_le_of_lt (hr x hx) hm
      refine ⟨.node (by rw [el]; exact hl) (by rw [er]; exact hr) hh l1 r1,
        .node ⟨by simp only []; omega, hok.2⟩ l2 r2, ?_⟩
      simp only [Tr.flat, l3, r3, fl_nil, List.map_append, List.map_cons, Fl.move, movePos]
      rw [if_neg (by omega), Int.sub_self, shiftIns_zero]
    · rw [if_neg hm]
      refine ⟨?_, .node ?_ l2 r2, ?_⟩
      · obtain ⟨g0, g3, g1, g2⟩ := updateMax_ge (if d.pos ≥ s.idx then
            { d with t := s.tstamp, mx := d.mx + s.amt, pos := d.pos + s.amt, ins := shiftIns s.amt d.ins }
          else { d with t := s.tstamp, mx := d.mx + s.amt }) (l.applyAll [s]).mx? (r.applyAll [s]).mx?
        exact .node g1 g2 g3 l1 r1
      · split
        · refine ⟨by simp only [updateMax_t]; omega, ?_, ?_⟩
          · simp only [updateMax_ins, shiftIns]
            intro h
            exact hok.2.1 (List.map_eq_nil_iff.1 h)
          · intro i hi
            simp only [updateMax_ins, updateMax_pos] at hi ⊢
            obtain ⟨j, hj, e1, e2, -⟩ := mem_shiftIns hi
            have := hok.2.2 j hj
            omega
        · exact ⟨by simp only [updateMax_t]; omega, hok.2⟩
      · simp only [Tr.flat, l3, r3, fl_nil, List.map_append, List.map_cons, Fl.move, movePos]
        by_cases hq : s.idx ≤ d.pos
        · rw [if_pos hq, if_pos hq]
          simp only [updateMax_addr, updateMax_pos, updateMax_id, updateMax_ins]
          rw [show d.pos + s.amt - d.pos = s.amt by omega]
        · rw [if_neg hq, if_neg hq]
          simp only [updateMax_addr, updateMax_pos, updateMax_id, updateMax_ins]
          rw [Int.sub_self, shiftIns_zero]

end Gpeg.LazyLog
