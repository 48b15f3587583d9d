import Verif.LazyLog
/-! # The interval tree does not look at its values -/
namespace Gpeg.LazyLog
variable {α β : Type}

/-- Another value. -/
def Ival.map (g : α → β) (i : Ival α) : Ival β := ⟨i.low, i.high, g i.val⟩

/-- Other values. -/
def Nd.map (g : α → β) (d : Nd α) : Nd β := ⟨d.addr, d.pos, d.id, d.mx, d.ins.map (Ival.map g), d.t, d.h⟩

/-- Other values. -/
def Tr.map (g : α → β) : Tr α → Tr β
  | .nil => .nil
  | .node d l r => .node (d.map g) (l.map g) (r.map g)

/-- Other values. -/
def Tree.map (g : α → β) (T : Tree α) : Tree β := ⟨T.root.map g, T.shifts, T.tstamp, T.next⟩

variable (g : α → β)

@[simp] theorem Tr.map_mx (t : Tr α) : (t.map g).mx? = t.mx? := by cases t <;> rfl
@[simp] theorem Tr.map_height (t : Tr α) : (t.map g).height = t.height := by cases t <;> rfl
@[simp] theorem Tr.map_left (t : Tr α) : (t.map g).left = t.left.map g := by cases t <;> rfl
@[simp] theorem Tr.map_right (t : Tr α) : (t.map g).right = t.right.map g := by cases t <;> rfl
@[simp] theorem Tr.map_size (t : Tr α) : (t.map g).size = t.size := by
  induction t with
  | nil => rfl
  | node d l r ihl ihr => simp [Tr.map, Tr.size, ihl, ihr]

theorem highOf_map (is : List (Ival α)) : highOf (is.map (Ival.map g)) = highOf is := by
  unfold highOf
  rw [List.foldl_map]
  rfl

theorem shiftIns_map (a : Int) (is : List (Ival α)) : shiftIns a (is.map (Ival.map g)) = (shiftIns a is).map (Ival.map g) := by
  simp [shiftIns, Ival.map]

theorem updateMax_map (d : Nd α) (lm rm : Option Int) : updateMax (d.map g) lm rm = (updateMax d lm rm).map g := by
  simp only [updateMax, Nd.map, highOf_map]

theorem applyShift_map (lm rm : Option Int) (d : Nd α) (s : Shift) :
    applyShift lm rm (d.map g) s = (applyShift lm rm d s).map g := by
  have e0 : (d.map g).t = d.t := rfl
  have e1 : (d.map g).mx = d.mx := rfl
  have e2 : (d.map g).pos = d.pos := rfl
  unfold applyShift
  simp only [e0, e1, e2]
  by_cases h0 : d.t ≥ s.tstamp
  · rw [if_pos h0, if_pos h0]
  · rw [if_neg h0, if_neg h0]
    by_cases h1 : d.mx < s.idx
    · rw [if_pos h1, if_pos h1]; rfl
    · rw [if_neg h1, if_neg h1, ← updateMax_map]
      by_cases h2 : d.pos ≥ s.idx
      · rw [if_pos h2, if_pos h2]; simp only [Nd.map, shiftIns_map]
      · rw [if_neg h2, if_neg h2]; simp only [Nd.map]

theorem foldl_applyShift_map (lm rm : Option Int) (S : List Shift) : ∀ d : Nd α,
    S.foldl (applyShift lm rm) (d.map g) = (S.foldl (applyShift lm rm) d).map g := by
  induction S with
  | nil => intro d; rfl
  | cons s S ih => intro d; simp only [List.foldl_cons, applyShift_map, ih]

theorem applyShifts_map (S : List Shift) (lm rm : Option Int) (d : Nd α) :
    applyShifts S lm rm (d.map g) = (applyShifts S lm rm d).map g := by
  unfold applyShifts
  split
  · rfl
  · rename_i s _
    have e0 : (d.map g).t = d.t := rfl
    rw [e0]
    by_cases h0 : d.t ≥ s.tstamp
    · rw [if_pos h0, if_pos h0]
    · rw [if_neg h0, if_neg h0]
      exact foldl_applyShift_map g lm rm _ d

theorem sync_map (S : List Shift) (t : Tr α) : (t.map g).sync S = (t.sync S).map g := by
  cases t with
  | nil => rfl
  | node d l r => simp only [Tr.map, Tr.sync, Tr.map_mx, applyShifts_map]

theorem mk_map (d : Nd α) (l r : Tr α) : mk (d.map g) (l.map g) (r.map g) = (mk d l r).map g := by
  simp only [mk, Tr.map, Tr.map_mx, ← updateMax_map]
  simp only [recalc, Nd.map, Tr.map_height]

theorem rotateLeft_map (S : List Shift) (t : Tr α) : rotateLeft S (t.map g) = (rotateLeft S t).map g := by
  cases t with
  | nil => rfl
  | node d l r =>
    simp only [Tr.map, rotateLeft, Tr.map_mx, applyShifts_map, sync_map]
    cases r.sync S with
    | nil => rfl
    | node e rl rr => simp only [Tr.map, mk_map]

theorem rotateRight_map (S : List Shift) (t : Tr α) : rotateRight S (t.map g) = (rotateRight S t).map g := by
  cases t with
  | nil => rfl
  | node d l r =>
    simp only [Tr.map, rotateRight, Tr.map_mx, applyShifts_map, sync_map]
    cases l.sync S with
    | nil => rfl
    | node e rl rr => simp only [Tr.map, mk_map]

theorem node_map (d : Nd α) (l r : Tr α) : Tr.node (d.map g) (l.map g) (r.map g) = (Tr.node d l r).map g := rfl

theorem recalc_map (d : Nd α) (l r : Tr α) : recalc (d.map g) (l.map g) (r.map g) = (recalc d l r).map g := by
  simp only [recalc, Nd.map, Tr.map_height]

theorem rebalance_map (S : List Shift) (t : Tr α) : rebalance S (t.map g) = (rebalance S t).map g := by
  cases t with
  | nil => rfl
  | node d l r =>
    simp only [Tr.map, rebalance, Tr.map_mx, Tr.map_height, Tr.map_left, Tr.map_right, recalc_map, updateMax_map]
    split
    · rw [← rotateLeft_map]
      split
      · rw [rotateRight_map]; rfl
      · rfl
    · split
      · rw [← rotateRight_map]
        split
        · rw [rotateLeft_map]; rfl
        · rfl
      · rfl

theorem add_map (S : List Shift) (T a : Nat) (pos id : Int) (v : Ival α) (t : Tr α) :
    add S T a pos id (v.map g) (t.map g) = ((add S T a pos id v t).1.map g, (add S T a pos id v t).2) := by
  induction t with
  | nil => rfl
  | node d l r ihl ihr =>
    simp only [Tr.map, add, Tr.map_mx, applyShifts_map]
    have e1 : ((applyShifts S l.mx? r.mx? d).map g).pos = (applyShifts S l.mx? r.mx? d).pos := rfl
    have e2 : ((applyShifts S l.mx? r.mx? d).map g).id = (applyShifts S l.mx? r.mx? d).id := rfl
    rw [e1, e2]
    generalize applyShifts S l.mx? r.mx? d = d'
    cases compareKey pos id d'.pos d'.id with
    | lt => simp only [ihl, node_map, rebalance_map]
    | gt => simp only [ihr, node_map, rebalance_map]
    | eq =>
      simp only [← rebalance_map]
      simp [Tr.map, Nd.map]

theorem findSmallest_map (S : List Shift) : ∀ (l : Tr α) (d : Nd α) (r : Tr α),
    findSmallest S (d.map g) (l.map g) (r.map g) = ((findSmallest S d l r).1.map g, (findSmallest S d l r).2.map g)
  | .nil, d, r => rfl
  | .node e ll lr, d, r => by
    have := findSmallest_map S ll (applyShifts S ll.mx? lr.mx? e) lr
    simp only [Tr.map, findSmallest, Tr.map_mx, applyShifts_map, this]

theorem copyIns_map (a b : List (Ival α)) : copyIns (a.map (Ival.map g)) (b.map (Ival.map g)) = (copyIns a b).map (Ival.map g) := by
  simp [copyIns]

theorem remove_map (S : List Shift) : ∀ (f : Nat) (pos id : Int) (t : Tr α),
    remove S f pos id (t.map g) = (remove S f pos id t).map g
  | 0, _, _, _ => rfl
  | _ + 1, _, _, .nil => rfl
  | f + 1, pos, id, .node d l r => by
    have ih := remove_map S f
    rw [Tr.map]
    unfold remove
    simp only [Tr.map_mx, applyShifts_map]
    have e1 : ((applyShifts S l.mx? r.mx? d).map g).pos = (applyShifts S l.mx? r.mx? d).pos := rfl
    have e2 : ((applyShifts S l.mx? r.mx? d).map g).id = (applyShifts S l.mx? r.mx? d).id := rfl
    rw [e1, e2]
    generalize applyShifts S l.mx? r.mx? d = d'
    cases compareKey pos id d'.pos d'.id with
    | lt => simp only [ih, node_map, rebalance_map]
    | gt => simp only [ih, node_map, rebalance_map]
    | eq =>
      cases l with
      | nil =>
        cases r with
        | nil => rfl
        | node e rl rr => simp only [Tr.map]; rw [← rebalance_map, node_map, sync_map]
      | node e ll lr =>
        cases r with
        | nil => simp only [Tr.map]; rw [← rebalance_map, node_map, sync_map]
        | node k rl rr =>
          rw [Tr.map, Tr.map]
          simp only [Tr.map_mx, applyShifts_map, findSmallest_map]
          rw [← rebalance_map, node_map, sync_map]
          simp only [Tr.map, Nd.map, copyIns_map, ih]

theorem search_map (S : List Shift) (pos id : Int) (t : Tr α) :
    search S pos id (t.map g) = ((search S pos id t).1.map g, (search S pos id t).2.map (Nd.map g)) := by
  induction t with
  | nil => rfl
  | node d l r ihl ihr =>
    simp only [Tr.map, search, Tr.map_mx, applyShifts_map]
    have e1 : ((applyShifts S l.mx? r.mx? d).map g).pos = (applyShifts S l.mx? r.mx? d).pos := rfl
    have e2 : ((applyShifts S l.mx? r.mx? d).map g).id = (applyShifts S l.mx? r.mx? d).id := rfl
    rw [e1, e2]
    generalize applyShifts S l.mx? r.mx? d = d'
    cases compareKey pos id d'.pos d'.id with
    | lt => simp only [ihl, Tr.map]
    | gt => simp only [ihr, Tr.map]
    | eq => rfl

theorem swapRemove_map {γ δ : Type} (k : γ → δ) {p : δ → Bool} {q : γ → Bool} (hpq : ∀ x, p (k x) = q x) :
    ∀ (f : Nat) (l : List γ), swapRemove p f (l.map k) = (swapRemove q f l).map k
  | 0, _ => rfl
  | _ + 1, [] => rfl
  | f + 1, x :: xs => by
    have ih := swapRemove_map k hpq f
    simp only [List.map_cons, swapRemove, hpq, List.getLast?_map]
    split
    · cases xs.getLast? with
      | none => exact ih []
      | some y =>
        rw [← ih]
        simp
    · rw [ih]; rfl

theorem removeOverlaps_map (S : List Shift) (low high : Int) : ∀ (f : Nat) (t : Tr α),
    removeOverlaps S low high f (t.map g) = (removeOverlaps S low high f t).map g
  | 0, _ => rfl
  | _ + 1, .nil => rfl
  | f + 1, .node d l r => by
    have ih := removeOverlaps_map S low high f
    rw [Tr.map]
    unfold removeOverlaps
    simp only [Tr.map_mx, applyShifts_map, ih]
    generalize applyShifts S l.mx? r.mx? d = d'
    generalize removeOverlaps S low high f l = l'
    have e6 : swapRemove (Ival.overlaps low high) (d'.map g).ins.length (d'.map g).ins =
        (swapRemove (Ival.overlaps low high) d'.ins.length d'.ins).map (Ival.map g) := by
      simp only [Nd.map, List.length_map]
      rw [swapRemove_map (Ival.map g) (q := Ival.overlaps low high) (fun _ => rfl)]
    rw [e6]
    generalize swapRemove (Ival.overlaps low high) d'.ins.length d'.ins = is
    show (if low > d'.mx then (Tr.node d' l r).map g
      else if (is.map (Ival.map g)).isEmpty = true then
        if high ≥ d'.pos then removeOverlaps S low high f (remove S ((Tr.node { d' with ins := is } l' r).map g).size d'.pos d'.id
            ((Tr.node { d' with ins := is } l' r).map g))
        else remove S ((Tr.node { d' with ins := is } l' r).map g).size d'.pos d'.id ((Tr.node { d' with ins := is } l' r).map g)
      else if high < d'.pos then (Tr.node { d' with ins := is } l' r).map g
      else (Tr.node { d' with ins := is } l' (removeOverlaps S low high f r)).map g) = _
    rw [List.isEmpty_map, Tr.map_size, remove_map, ih]
    split
    · rfl
    · split
      · split <;> rfl
      · split <;> rfl

theorem largest_map : ∀ (is : List (Ival α)) (i : Ival α),
    Tree.largest (is.map (Ival.map g)) (i.map g) = (Tree.largest is i).map g
  | [], _ => rfl
  | j :: is, i => by
    simp only [List.map_cons, Tree.largest]
    have e : ∀ i : Ival α, (i.map g).high - (i.map g).low = i.high - i.low := fun _ => rfl
    rw [e, e]
    split <;> exact largest_map is _

theorem Tree.add_map (T : Tree α) (id low high : Int) (v : α) :
    (T.map g).add id low high (g v) = ((T.add id low high v).1.map g, (T.add id low high v).2) := by
  have := LazyLog.add_map g T.shifts T.tstamp T.next low id ⟨low, high, v⟩ T.root
  simp only [Tree.add, Tree.map]
  rw [show (⟨low, high, g v⟩ : Ival β) = Ival.map g ⟨low, high, v⟩ from rfl, this]

theorem Tree.findLargest_map (T : Tree α) (id pos : Int) :
    (T.map g).findLargest id pos = ((T.findLargest id pos).1.map g, (T.findLargest id pos).2.map g) := by
  simp only [Tree.findLargest, Tree.map, search_map]
  cases (search T.shifts pos id T.root).2 with
  | none => rfl
  | some d =>
    simp only [Option.map_some, Nd.map]
    cases d.ins with
    | nil => rfl
    | cons i is =>
      simp only [List.map_cons, largest_map]
      rfl

theorem Tree.removeAndShift_map (T : Tree α) (low high amt : Int) :
    (T.map g).removeAndShift low high amt = (T.removeAndShift low high amt).map g := by
  simp only [Tree.removeAndShift, Tree.map, Tr.map_size, removeOverlaps_map, Tree.shift]
  by_cases h : amt = 0
  · simp [h]
  · simp [h]

end Gpeg.LazyLog
