import Verif.LazyLog
/-!
# The interval tree does not look at the values

Trees that are the same up to related values stay so under `Add` and `FindLargest`.
-/
namespace Gpeg.LazyLog
variable {α β : Type} {E : α → β → Prop}

/-- Intervals with the same bounds and related values. -/
structure IRel (E : α → β → Prop) (i : Ival α) (j : Ival β) : Prop where
  low : i.low = j.low
  high : i.high = j.high
  val : E i.val j.val

/-- Lists of intervals with the same bounds and related values. -/
def LRel (E : α → β → Prop) : List (Ival α) → List (Ival β) → Prop
  | [], [] => True
  | i :: is, j :: js => IRel E i j ∧ LRel E is js
  | _, _ => False

/-- Nodes that agree in everything but the values, which are related. -/
structure NRel (E : α → β → Prop) (d : Nd α) (e : Nd β) : Prop where
  addr : d.addr = e.addr
  pos : d.pos = e.pos
  id : d.id = e.id
  mx : d.mx = e.mx
  ins : LRel E d.ins e.ins
  t : d.t = e.t
  h : d.h = e.h

/-- Trees of the same shape with related nodes. -/
def TRel (E : α → β → Prop) : Tr α → Tr β → Prop
  | .nil, .nil => True
  | .node d l r, .node e l' r' => NRel E d e ∧ TRel E l l' ∧ TRel E r r'
  | _, _ => False

theorem LRel.append : ∀ {l l' : List (Ival α)} {m m' : List (Ival β)}, LRel E l m → LRel E l' m' →
    LRel E (l ++ l') (m ++ m')
  | [], _, [], _, _, h => h
  | _ :: _, _, _ :: _, _, h, h' => ⟨h.1, h.2.append h'⟩
  | [], _, _ :: _, _, h, _ | _ :: _, _, [], _, h, _ => h.elim

theorem LRel.shift (amt : Int) : ∀ {l : List (Ival α)} {m : List (Ival β)}, LRel E l m →
    LRel E (shiftIns amt l) (shiftIns amt m)
  | [], [], _ => trivial
  | _ :: _, _ :: _, h => ⟨⟨by simp only [h.1.low], by simp only [h.1.high], h.1.val⟩, LRel.shift amt h.2⟩
  | [], _ :: _, h | _ :: _, [], h => h.elim

theorem LRel.foldl : ∀ {l : List (Ival α)} {m : List (Ival β)} (x : Int), LRel E l m →
    l.foldl (fun high i => if i.high > high then i.high else high) x =
      m.foldl (fun high i => if i.high > high then i.high else high) x
  | [], [], _, _ => rfl
  | _ :: _, _ :: _, x, h => by simp only [List.foldl_cons, h.1.high]; exact LRel.foldl _ h.2
  | [], _ :: _, _, h | _ :: _, [], _, h => h.elim

theorem LRel.high {l : List (Ival α)} {m : List (Ival β)} (h : LRel E l m) : highOf l = highOf m := h.foldl 0

theorem TRel.mx? : ∀ {t : Tr α} {u : Tr β}, TRel E t u → t.mx? = u.mx?
  | .nil, .nil, _ => rfl
  | .node .., .node .., h => congrArg some h.1.mx
  | .nil, .node .., h | .node .., .nil, h => h.elim

theorem TRel.height : ∀ {t : Tr α} {u : Tr β}, TRel E t u → t.height = u.height
  | .nil, .nil, _ => rfl
  | .node .., .node .., h => h.1.h
  | .nil, .node .., h | .node .., .nil, h => h.elim

theorem TRel.left : ∀ {t : Tr α} {u : Tr β}, TRel E t u → TRel E t.left u.left
  | .nil, .nil, _ => trivial
  | .node .., .node .., h => h.2.1
  | .nil, .node .., h | .node .., .nil, h => h.elim

theorem TRel.right : ∀ {t : Tr α} {u : Tr β}, TRel E t u → TRel E t.right u.right
  | .nil, .nil, _ => trivial
  | .node .., .node .., h => h.2.2
  | .nil, .node .., h | .node .., .nil, h => h.elim

theorem NRel.updateMax {d : Nd α} {e : Nd β} (h : NRel E d e) (lm rm : Option Int) :
    NRel E (updateMax d lm rm) (updateMax e lm rm) :=
  { h with mx := by simp only [LazyLog.updateMax, h.mx, h.ins.high] }

theorem NRel.applyShift {d : Nd α} {e : Nd β} (h : NRel E d e) (lm rm : Option Int) (s : Shift) :
    NRel E (applyShift lm rm d s) (applyShift lm rm e s) := by
  unfold LazyLog.applyShift
  simp only [h.t, h.mx, h.pos]
  split
  · exact h
  · split
    · exact ⟨h.addr, rfl, h.id, rfl, h.ins, rfl, h.h⟩
    · refine NRel.updateMax ?_ lm rm
      split
      · exact ⟨h.addr, rfl, h.id, rfl, h.ins.shift _, rfl, h.h⟩
      · exact ⟨h.addr, rfl, h.id, rfl, h.ins, rfl, h.h⟩

theorem NRel.foldl {lm rm : Option Int} : ∀ (S : List Shift) {d : Nd α} {e : Nd β}, NRel E d e →
    NRel E (S.foldl (LazyLog.applyShift lm rm) d) (S.foldl (LazyLog.applyShift lm rm) e)
  | [], _, _, h => h
  | s :: S, _, _, h => NRel.foldl S (h.applyShift lm rm s)

theorem NRel.applyShifts {d : Nd α} {e : Nd β} (h : NRel E d e) (S : List Shift) (lm rm : Option Int) :
    NRel E (applyShifts S lm rm d) (applyShifts S lm rm e) := by
  unfold LazyLog.applyShifts
  rw [h.t]
  split
  · exact h
  · split
    · exact h
    · exact NRel.foldl _ h

theorem TRel.sync (S : List Shift) : ∀ {t : Tr α} {u : Tr β}, TRel E t u → TRel E (t.sync S) (u.sync S)
  | .nil, .nil, _ => trivial
  | .node d l r, .node e l' r', h => by
    unfold Tr.sync
    simp only [h.2.1.mx?, h.2.2.mx?]
    exact ⟨h.1.applyShifts _ _ _, h.2⟩
  | .nil, .node .., h | .node .., .nil, h => h.elim

theorem NRel.recalc {d : Nd α} {e : Nd β} (h : NRel E d e) {l r : Tr α} {l' r' : Tr β} (hl : TRel E l l')
    (hr : TRel E r r') : NRel E (recalc d l r) (recalc e l' r') :=
  { h with h := by simp only [LazyLog.recalc, hl.height, hr.height] }

theorem mk_rel {d : Nd α} {e : Nd β} (h : NRel E d e) {l r : Tr α} {l' r' : Tr β} (hl : TRel E l l')
    (hr : TRel E r r') : TRel E (mk d l r) (mk e l' r') := by
  unfold mk
  rw [hl.mx?, hr.mx?]
  exact ⟨(h.recalc hl hr).updateMax _ _, hl, hr⟩

theorem rotateLeft_rel (S : List Shift) : ∀ {t : Tr α} {u : Tr β}, TRel E t u →
    TRel E (rotateLeft S t) (rotateLeft S u)
  | .nil, .nil, _ => trivial
  | .node d l r, .node e l' r', ⟨h, hl, hr⟩ => by
    unfold rotateLeft
    simp only [hl.mx?, hr.mx?]
    have hs := hr.sync S
    have hd := h.applyShifts S l'.mx? r'.mx?
    revert hs
    cases r.sync S <;> cases r'.sync S <;> intro hs
    · exact ⟨hd, hl, trivial⟩
    · exact hs.elim
    · exact hs.elim
    · exact mk_rel hs.1 (mk_rel hd hl hs.2.1) hs.2.2
  | .nil, .node .., h | .node .., .nil, h => h.elim

theorem rotateRight_rel (S : List Shift) : ∀ {t : Tr α} {u : Tr β}, TRel E t u →
    TRel E (rotateRight S t) (rotateRight S u)
  | .nil, .nil, _ => trivial
  | .node d l r, .node e l' r', ⟨h, hl, hr⟩ => by
    unfold rotateRight
    simp only [hl.mx?, hr.mx?]
    have hs := hl.sync S
    have hd := h.applyShifts S l'.mx? r'.mx?
    revert hs
    cases l.sync S <;> cases l'.sync S <;> intro hs
    · exact ⟨hd, trivial, hr⟩
    · exact hs.elim
    · exact hs.elim
    · exact mk_rel hs.1 hs.2.1 (mk_rel hd hs.2.2 hr)
  | .nil, .node .., h | .node .., .nil, h => h.elim

theorem rebalance_rel (S : List Shift) : ∀ {t : Tr α} {u : Tr β}, TRel E t u →
    TRel E (rebalance S t) (rebalance S u)
  | .nil, .nil, _ => trivial
  | .node d l r, .node e l' r', ⟨h, hl, hr⟩ => by
    unfold rebalance
    have hd := (h.recalc hl hr).updateMax l'.mx? r'.mx?
    simp only [hl.height, hr.height, hl.mx?, hr.mx?, hr.left.height, hr.right.height, hl.left.height, hl.right.height]
    split
    · refine rotateLeft_rel S ⟨hd, hl, ?_⟩
      split
      · exact rotateRight_rel S hr
      · exact hr
    · split
      · refine rotateRight_rel S ⟨hd, ?_, hr⟩
        split
        · exact rotateLeft_rel S hl
        · exact hl
      · exact ⟨hd, hl, hr⟩
  | .nil, .node .., h | .node .., .nil, h => h.elim

theorem add_rel (S : List Shift) (T a : Nat) (pos id : Int) {v : Ival α} {w : Ival β} (hv : IRel E v w) :
    ∀ {t : Tr α} {u : Tr β}, TRel E t u → TRel E (add S T a pos id v t).1 (add S T a pos id w u).1
  | .nil, .nil, _ => ⟨⟨rfl, rfl, rfl, hv.high, ⟨hv, trivial⟩, rfl, rfl⟩, trivial, trivial⟩
  | .node d l r, .node e l' r', ⟨h, hl, hr⟩ => by
    unfold add
    have hd := h.applyShifts S l'.mx? r'.mx?
    simp only [hl.mx?, hr.mx?, hd.pos, hd.id]
    split
    · exact rebalance_rel S (t := .node ..) (u := .node ..) ⟨hd, add_rel S T a pos id hv hl, hr⟩
    · exact rebalance_rel S (t := .node ..) (u := .node ..) ⟨hd, hl, add_rel S T a pos id hv hr⟩
    · exact rebalance_rel S (t := .node ..) (u := .node ..) ⟨⟨hd.addr, rfl, rfl, hd.mx, hd.ins.append ⟨hv, trivial⟩, rfl, hd.h⟩, hl, hr⟩
  | .nil, .node .., h | .node .., .nil, h => h.elim

/-- Related results of `search`. -/
def ORelN (E : α → β → Prop) : Option (Nd α) → Option (Nd β) → Prop
  | none, none => True
  | some d, some e => NRel E d e
  | _, _ => False

theorem search_rel (S : List Shift) (pos id : Int) : ∀ {t : Tr α} {u : Tr β}, TRel E t u →
    TRel E (search S pos id t).1 (search S pos id u).1 ∧ ORelN E (search S pos id t).2 (search S pos id u).2
  | .nil, .nil, _ => ⟨trivial, trivial⟩
  | .node d l r, .node e l' r', ⟨h, hl, hr⟩ => by
    unfold search
    have hd := h.applyShifts S l'.mx? r'.mx?
    simp only [hl.mx?, hr.mx?, hd.pos, hd.id]
    split
    · have := search_rel S pos id hl
      exact ⟨⟨hd, this.1, hr⟩, this.2⟩
    · have := search_rel S pos id hr
      exact ⟨⟨hd, hl, this.1⟩, this.2⟩
    · exact ⟨⟨hd, hl, hr⟩, hd⟩
  | .nil, .node .., h | .node .., .nil, h => h.elim

theorem largest_rel : ∀ {l : List (Ival α)} {m : List (Ival β)} {i : Ival α} {j : Ival β}, LRel E l m → IRel E i j →
    IRel E (Tree.largest l i) (Tree.largest m j)
  | [], [], _, _, _, h => h
  | x :: l, y :: m, i, j, h, h' => by
    unfold Tree.largest
    rw [h.1.high, h.1.low, h'.high, h'.low]
    split
    · exact largest_rel h.2 h.1
    · exact largest_rel h.2 h'
  | [], _ :: _, _, _, h, _ | _ :: _, [], _, _, h, _ => h.elim

/-- Trees with the same shape, the same shifts, and related values. -/
structure TreeRel (E : α → β → Prop) (T : Tree α) (U : Tree β) : Prop where
  root : TRel E T.root U.root
  shifts : T.shifts = U.shifts
  tstamp : T.tstamp = U.tstamp
  next : T.next = U.next

theorem TreeRel.add {T : Tree α} {U : Tree β} (h : TreeRel E T U) (id low high : Int) {v : α} {w : β} (hv : E v w) :
    TreeRel E (T.add id low high v).1 (U.add id low high w).1 := by
  unfold Tree.add
  simp only [h.shifts, h.tstamp, h.next]
  exact ⟨add_rel U.shifts U.tstamp U.next low id (v := ⟨low, high, v⟩) (w := ⟨low, high, w⟩) ⟨rfl, rfl, hv⟩ h.root, rfl, rfl, rfl⟩

/-- Related results of `FindLargest`. -/
def ORelV (E : α → β → Prop) : Option α → Option β → Prop
  | none, none => True
  | some d, some e => E d e
  | _, _ => False

theorem TreeRel.find {T : Tree α} {U : Tree β} (h : TreeRel E T U) (id pos : Int) :
    TreeRel E (T.findLargest id pos).1 (U.findLargest id pos).1 ∧
      ORelV E (T.findLargest id pos).2 (U.findLargest id pos).2 := by
  unfold Tree.findLargest
  rw [h.shifts]
  have := search_rel U.shifts pos id h.root
  revert this
  rcases search U.shifts pos id T.root with ⟨t, x⟩
  rcases search U.shifts pos id U.root with ⟨u, y⟩
  intro this
  refine ⟨⟨this.1, rfl, h.tstamp, h.next⟩, ?_⟩
  have h2 := this.2
  cases x <;> cases y
  · trivial
  · exact h2.elim
  · exact h2.elim
  · rename_i d e
    have hi : LRel E d.ins e.ins := NRel.ins h2
    simp only
    revert hi
    cases d.ins <;> cases e.ins <;> intro hi
    · trivial
    · exact hi.elim
    · exact hi.elim
    · exact (largest_rel hi.2 hi.1).val

mutual
theorem LRel.mono {F : α → β → Prop} (hf : ∀ a b, E a b → F a b) : ∀ {l : List (Ival α)} {m : List (Ival β)},
    LRel E l m → LRel F l m
  | [], [], _ => trivial
  | _ :: _, _ :: _, h => ⟨⟨h.1.low, h.1.high, hf _ _ h.1.val⟩, LRel.mono hf h.2⟩
  | [], _ :: _, h | _ :: _, [], h => h.elim
end

theorem TRel.mono {F : α → β → Prop} (hf : ∀ a b, E a b → F a b) : ∀ {t : Tr α} {u : Tr β}, TRel E t u → TRel F t u
  | .nil, .nil, _ => trivial
  | .node .., .node .., h => ⟨{ h.1 with ins := h.1.ins.mono hf }, h.2.1.mono hf, h.2.2.mono hf⟩
  | .nil, .node .., h | .node .., .nil, h => h.elim

theorem TreeRel.mono {F : α → β → Prop} (hf : ∀ a b, E a b → F a b) {T : Tree α} {U : Tree β} (h : TreeRel E T U) :
    TreeRel F T U := { h with root := h.root.mono hf }

end Gpeg.LazyLog
