import Verif.Balance
/-! # What the operations of the interval trees do to shapes -/
namespace Gpeg.LazyLog
variable {α : Type}

/-- The shape of a tree. -/
def Tr.shape : Tr α → Sh
  | .nil => .nil
  | .node d l r => .node d.h l.shape r.shape

theorem shape_height (t : Tr α) : t.shape.ht = t.height := by cases t <;> rfl
theorem shape_left (t : Tr α) : t.shape.left = t.left.shape := by cases t <;> rfl
theorem shape_right (t : Tr α) : t.shape.right = t.right.shape := by cases t <;> rfl
theorem shape_size (t : Tr α) : t.shape.size = t.size := by
  induction t with
  | nil => rfl
  | node d l r ihl ihr => simp only [Tr.shape, Sh.size, Tr.size, ihl, ihr]

theorem applyShift_h (lm rm : Option Int) (d : Nd α) (s : Shift) : (applyShift lm rm d s).h = d.h := by
  unfold applyShift
  split
  · rfl
  · simp only []
    split
    · rfl
    · split <;> rfl

theorem applyShifts_h (S : List Shift) (lm rm : Option Int) (d : Nd α) : (applyShifts S lm rm d).h = d.h := by
  unfold applyShifts
  split
  · rfl
  · split
    · rfl
    · rename_i h
      clear h
      generalize S.drop _ = L
      induction L generalizing d with
      | nil => rfl
      | cons s L ih => rw [List.foldl_cons, ih, applyShift_h]

theorem sync_shape (S : List Shift) (t : Tr α) : (t.sync S).shape = t.shape := by
  cases t with
  | nil => rfl
  | node d l r => simp only [Tr.sync, Tr.shape, applyShifts_h]

theorem mk_shape (d : Nd α) (l r : Tr α) : (mk d l r).shape = Sh.mk l.shape r.shape := by
  simp only [mk, Tr.shape, updateMax_h, recalc, Sh.mk, shape_height]

theorem rotateLeft_shape (S : List Shift) (t : Tr α) : (rotateLeft S t).shape = t.shape.rotL := by
  cases t with
  | nil => rfl
  | node d l r =>
    cases r with
    | nil => simp only [rotateLeft, Tr.sync, Tr.shape, applyShifts_h, Sh.rotL]
    | node e rl rr => simp only [rotateLeft, Tr.sync, mk_shape, Tr.shape, Sh.rotL]

theorem rotateRight_shape (S : List Shift) (t : Tr α) : (rotateRight S t).shape = t.shape.rotR := by
  cases t with
  | nil => rfl
  | node d l r =>
    cases l with
    | nil => simp only [rotateRight, Tr.sync, Tr.shape, applyShifts_h, Sh.rotR]
    | node e rl rr => simp only [rotateRight, Tr.sync, mk_shape, Tr.shape, Sh.rotR]

theorem rebalance_shape (S : List Shift) (d : Nd α) (l r : Tr α) :
    (rebalance S (.node d l r)).shape = Sh.rebal l.shape r.shape := by
  unfold rebalance Sh.rebal
  simp only [shape_height]
  split
  · rw [rotateLeft_shape]
    simp only [Tr.shape, updateMax_h, recalc, shape_left, shape_right, shape_height]
    rename_i h
    cases r with
    | nil => simp only [Tr.height] at h; omega
    | node e rl rr =>
      split
      · rw [rotateRight_shape]
        cases rl with
        | nil => rfl
        | node => rfl
      · rfl
  · split
    · rw [rotateRight_shape]
      simp only [Tr.shape, updateMax_h, recalc, shape_left, shape_right, shape_height]
      rename_i h
      cases l with
      | nil => simp only [Tr.height] at h; omega
      | node e rl rr =>
        split
        · rw [rotateLeft_shape]
          cases rr with
          | nil => rfl
          | node => rfl
        · rfl
    · exact mk_shape d l r

/-- An insertion keeps the balance. -/
theorem add_shape (S : List Shift) (T a : Nat) (pos id : Int) (v : Ival α) : ∀ t : Tr α, t.shape.Bal →
    t.shape.Grown (add S T a pos id v t).1.shape := by
  intro t
  induction t with
  | nil => exact fun _ => ⟨⟨rfl, Nat.le_succ _, Nat.le_succ _, trivial, trivial⟩, Nat.zero_le _, Nat.le_refl _⟩
  | node d l r ihl ihr =>
    intro b
    rw [add]
    simp only []
    split
    · simp only [rebalance_shape]
      exact Sh.Grown.left b (ihl b.2.2.2.1)
    · simp only [rebalance_shape]
      exact Sh.Grown.right b (ihr b.2.2.2.2)
    · simp only [rebalance_shape]
      rw [Sh.rebal_node b]
      exact .refl b

theorem findSmallest_shape (S : List Shift) : ∀ (l : Tr α) (d : Nd α) (r : Tr α),
    (findSmallest S d l r).1.shape = .node d.h l.shape r.shape := by
  intro l
  induction l with
  | nil => intro d r; rfl
  | node e ll lr ih _ =>
    intro d r
    simp only [findSmallest, Tr.shape, ih, applyShifts_h]

/-- The removal of one key keeps the balance; if no node went away, the shape is the same. -/
theorem remove_shape (S : List Shift) : ∀ (f : Nat) (pos id : Int) (t : Tr α), t.shape.Bal →
    t.shape.Shrunk (remove S f pos id t).shape ∧
    ((remove S f pos id t).size = t.size → (remove S f pos id t).shape = t.shape) := by
  intro f
  induction f with
  | zero => intro pos id t b; exact ⟨.refl b, fun _ => rfl⟩
  | succ f ih =>
    intro pos id t b
    cases t with
    | nil => exact ⟨.refl b, fun _ => rfl⟩
    | node d l r =>
      have hsz : ∀ (S : List Shift) (d : Nd α) (x y : Tr α),
          (rebalance S (.node d x y)).size = x.size + y.size + 1 := by
        intro S d x y; rw [← shape_size, rebalance_shape, Sh.size_rebal, shape_size, shape_size]
      rw [remove.eq_def]
      simp only []
      split
      · obtain ⟨s1, s2⟩ := ih pos id l b.2.2.2.1
        refine ⟨?_, fun hs => ?_⟩
        · rw [rebalance_shape]; exact .left b s1
        · rw [hsz, Tr.size] at hs
          rw [rebalance_shape, s2 (by omega)]
          exact Sh.rebal_node b
      · obtain ⟨s1, s2⟩ := ih pos id r b.2.2.2.2
        refine ⟨?_, fun hs => ?_⟩
        · rw [rebalance_shape]; exact .right b s1
        · rw [hsz, Tr.size] at hs
          rw [rebalance_shape, s2 (by omega)]
          exact Sh.rebal_node b
      · cases l with
        | nil =>
          cases r with
          | nil =>
            simp only []
            obtain ⟨e, _⟩ := b
            simp only [Tr.shape, Sh.ht] at e
            exact ⟨⟨trivial, Nat.zero_le _, by simp only [Tr.shape, Sh.ht]; omega⟩,
              fun hs => by simp only [Tr.size] at hs; omega⟩
          | node g rl rr =>
            simp only [Tr.sync]
            refine ⟨?_, fun hs => by rw [hsz] at hs; simp only [Tr.size] at hs; omega⟩
            rw [rebalance_shape, Sh.rebal_node (b.2.2.2.2 : (Sh.node g.h rl.shape rr.shape).Bal)]
            obtain ⟨e, x, y, _, b2⟩ := b
            refine ⟨b2, ?_, ?_⟩ <;> simp only [Tr.shape, Sh.ht_node, Sh.ht_nil] at * <;> omega
        | node e ll lr =>
          cases r with
          | nil =>
            simp only [Tr.sync]
            refine ⟨?_, fun hs => by rw [hsz] at hs; simp only [Tr.size] at hs; omega⟩
            rw [rebalance_shape, Sh.rebal_node (b.2.2.2.1 : (Sh.node e.h ll.shape lr.shape).Bal)]
            obtain ⟨e, x, y, b2, _⟩ := b
            refine ⟨b2, ?_, ?_⟩ <;> simp only [Tr.shape, Sh.ht_node, Sh.ht_nil] at * <;> omega
          | node g rl rr =>
            simp only []
            have hf := findSmallest_shape S rl (applyShifts S rl.mx? rr.mx? g) rr
            rw [applyShifts_h] at hf
            generalize findSmallest S (applyShifts S rl.mx? rr.mx? g) rl rr = q at hf
            obtain ⟨r', m⟩ := q
            simp only [] at hf ⊢
            have hf' : r'.shape = (Tr.node g rl rr).shape := hf
            obtain ⟨s1, s2⟩ := ih m.pos m.id r' (by rw [hf']; exact b.2.2.2.2)
            have hz : r'.size = (Tr.node g rl rr).size := by rw [← shape_size, hf', shape_size]
            rw [hf'] at s1 s2
            refine ⟨?_, fun hs => ?_⟩
            · rw [rebalance_shape, sync_shape]; exact .right b s1
            · rw [hsz] at hs
              have hl : (Tr.sync S (.node e ll lr)).size = (Tr.node e ll lr).size := by
                rw [← shape_size, sync_shape, shape_size]
              have e1 := s2 (by rw [hl] at hs; simp only [Tr.size] at hs hz ⊢; omega)
              rw [rebalance_shape, sync_shape, e1]
              exact Sh.rebal_node b

theorem search_shape (S : List Shift) (pos id : Int) (t : Tr α) : (search S pos id t).1.shape = t.shape := by
  induction t with
  | nil => rfl
  | node d l r ihl ihr =>
    rw [search]
    simp only []
    split <;> simp only [Tr.shape, applyShifts_h, ihl, ihr]

theorem touch_shape (S : List Shift) (a : Nat) (t : Tr α) : (t.touch S a).shape = t.shape := by
  induction t with
  | nil => rfl
  | node d l r ihl ihr =>
    rw [Tr.touch]
    split <;> simp only [Tr.shape, applyShifts_h, ihl, ihr]

theorem remove_size (S : List Shift) : ∀ (f : Nat) (pos id : Int) (t : Tr α), (remove S f pos id t).size ≤ t.size := by
  intro f
  induction f with
  | zero => intro pos id t; exact Nat.le_refl _
  | succ f ih =>
    intro pos id t
    cases t with
    | nil => exact Nat.le_refl _
    | node d l r =>
      have hsz : ∀ (S : List Shift) (d : Nd α) (x y : Tr α),
          (rebalance S (.node d x y)).size = x.size + y.size + 1 := by
        intro S d x y; rw [← shape_size, rebalance_shape, Sh.size_rebal, shape_size, shape_size]
      rw [remove.eq_def]
      simp only []
      split
      · have := ih pos id l; rw [hsz, Tr.size]; omega
      · have := ih pos id r; rw [hsz, Tr.size]; omega
      · cases l with
        | nil =>
          cases r with
          | nil => exact Nat.zero_le _
          | node g rl rr => simp only [Tr.sync, hsz, Tr.size]; omega
        | node e ll lr =>
          cases r with
          | nil => simp only [Tr.sync, hsz, Tr.size]; omega
          | node g rl rr =>
            simp only [Tr.sync]
            have hf := findSmallest_shape S rl (applyShifts S rl.mx? rr.mx? g) rr
            generalize findSmallest S (applyShifts S rl.mx? rr.mx? g) rl rr = q at hf
            obtain ⟨r', m⟩ := q
            simp only [] at hf ⊢
            have := ih m.pos m.id r'
            rw [← shape_size r', hf] at this
            rw [hsz]
            simp only [Sh.size, Tr.size, shape_size] at *
            omega

/-- An edit that drops no node leaves the shape as it is. -/
theorem removeOverlaps_shape (S : List Shift) (low high : Int) : ∀ (f : Nat) (t : Tr α),
    (removeOverlaps S low high f t).size ≤ t.size ∧
    (t.shape.Bal → (removeOverlaps S low high f t).size = t.size →
      (removeOverlaps S low high f t).shape = t.shape) := by
  intro f
  induction f with
  | zero => intro t; exact ⟨Nat.le_refl _, fun _ _ => rfl⟩
  | succ f ih =>
    intro t
    cases t with
    | nil => exact ⟨Nat.le_refl _, fun _ _ => rfl⟩
    | node d l r =>
      rw [removeOverlaps]
      simp only []
      have hd := applyShifts_h S l.mx? r.mx? d
      generalize applyShifts S l.mx? r.mx? d = d' at hd ⊢
      obtain ⟨l1, l2⟩ := ih l
      obtain ⟨r1, r2⟩ := ih r
      split
      · exact ⟨Nat.le_refl _, fun _ _ => by rw [Tr.shape, hd]; rfl⟩
      · generalize removeOverlaps S low high f l = l' at l1 l2 ⊢
        generalize removeOverlaps S low high f r = r' at r1 r2 ⊢
        split
        · generalize hn : remove S _ _ _ (Tr.node _ l' r) = n
          have s1 := remove_size S (Tr.node { d' with ins := swapRemove (Ival.overlaps low high) d'.ins.length d'.ins } l' r).size
            d'.pos d'.id (.node { d' with ins := swapRemove (Ival.overlaps low high) d'.ins.length d'.ins } l' r)
          rw [hn] at s1
          have key : (Tr.node d l r).shape.Bal → n.size = (Tr.node d l r).size → n.shape = (Tr.node d l r).shape := by
            intro b hs
            simp only [Tr.size] at s1 hs
            have el := l2 b.2.2.2.1 (by omega)
            have e0 : (Tr.node { d' with ins := swapRemove (Ival.overlaps low high) d'.ins.length d'.ins } l' r).shape =
                (Tr.node d l r).shape := by simp only [Tr.shape, hd, el]
            have s2 := (remove_shape S (Tr.node { d' with ins := swapRemove (Ival.overlaps low high) d'.ins.length d'.ins } l' r).size
              d'.pos d'.id _ (by rw [e0]; exact b)).2
            rw [hn, e0] at s2
            exact s2 (by simp only [Tr.size]; omega)
          simp only [Tr.size] at s1
          split
          · obtain ⟨n1, n2⟩ := ih n
            refine ⟨by simp only [Tr.size]; omega, fun b hs => ?_⟩
            have e1 := key b (by simp only [Tr.size] at hs ⊢; omega)
            rw [n2 (by rw [e1]; exact b) (by simp only [Tr.size] at hs; omega), e1]
          · exact ⟨by simp only [Tr.size]; omega, key⟩
        · split
          · refine ⟨by simp only [Tr.size]; omega, fun b hs => ?_⟩
            simp only [Tr.size] at hs
            simp only [Tr.shape, hd, l2 b.2.2.2.1 (by omega)]
          · refine ⟨by simp only [Tr.size]; omega, fun b hs => ?_⟩
            simp only [Tr.size] at hs
            simp only [Tr.shape, hd, l2 b.2.2.2.1 (by omega), r2 b.2.2.2.2 (by omega)]

end Gpeg.LazyLog

namespace Gpeg.Lazy
variable {α : Type}

/-- The shape of a tree. -/
def Tr.shape : Tr α → Sh
  | .nil => .nil
  | .node d l r => .node d.h l.shape r.shape

theorem shape_height (t : Tr α) : t.shape.ht = t.height := by cases t <;> rfl
theorem shape_left (t : Tr α) : t.shape.left = t.left.shape := by cases t <;> rfl
theorem shape_right (t : Tr α) : t.shape.right = t.right.shape := by cases t <;> rfl
theorem shape_size (t : Tr α) : t.shape.size = t.size := by
  induction t with
  | nil => rfl
  | node d l r ihl ihr => simp only [Tr.shape, Sh.size, Tr.size, ihl, ihr]

theorem applyShifts_h (L : List Shift) : ∀ d : Nd α, (L.foldl applyShift d).h = d.h := by
  induction L with
  | nil => exact fun _ => rfl
  | cons s L ih =>
    intro d
    rw [List.foldl_cons, ih]
    unfold applyShift
    split
    · simp only []
      split <;> rfl
    · rfl

theorem addShift_shape (s : Shift) (t : Tr α) : (t.addShift s).shape = t.shape := by cases t <;> rfl

theorem addShifts_shape (L : List Shift) : ∀ t : Tr α, (L.foldl (fun t sh => t.addShift sh) t).shape = t.shape := by
  induction L with
  | nil => exact fun _ => rfl
  | cons s L ih => intro t; rw [List.foldl_cons, ih, addShift_shape]

theorem sync_shape (t : Tr α) : t.sync.shape = t.shape := by
  cases t with
  | nil => rfl
  | node d l r => simp only [Tr.sync, Tr.shape, applyShifts_h, addShifts_shape]

theorem mk_shape (d : Nd α) (l r : Tr α) : (mk d l r).shape = Sh.mk l.shape r.shape := by
  simp only [mk, Tr.shape, updateMax, Sh.mk, shape_height]

theorem shape_nil {t : Tr α} (h : t.shape = .nil) : t = .nil := by
  cases t with
  | nil => rfl
  | node => cases h

theorem rotateLeft_shape (t : Tr α) : (rotateLeft t).shape = t.shape.rotL := by
  unfold rotateLeft
  rw [← sync_shape t]
  generalize t.sync = s
  cases s with
  | nil => rfl
  | node d l r =>
    simp only []
    rw [Tr.shape, ← sync_shape r]
    generalize r.sync = q
    cases q with
    | nil => rfl
    | node e rl rr => simp only [mk_shape, Tr.shape, Sh.rotL]

theorem rotateRight_shape (t : Tr α) : (rotateRight t).shape = t.shape.rotR := by
  unfold rotateRight
  rw [← sync_shape t]
  generalize t.sync = s
  cases s with
  | nil => rfl
  | node d l r =>
    simp only []
    rw [Tr.shape, ← sync_shape l]
    generalize l.sync = q
    cases q with
    | nil => rfl
    | node e rl rr => simp only [mk_shape, Tr.shape, Sh.rotR]

theorem rebalance_shape (d : Nd α) (l r : Tr α) : (rebalance d l r).shape = Sh.rebalEq l.shape r.shape := by
  unfold rebalance Sh.rebalEq
  simp only [shape_height]
  split
  · rw [rotateLeft_shape]
    simp only [Tr.shape, updateMax, shape_left, shape_right, shape_height]
    rename_i h
    cases r with
    | nil => simp only [Tr.height] at h; omega
    | node e rl rr =>
      split
      · rw [rotateRight_shape]
        cases rl with
        | nil => rfl
        | node => rfl
      · rfl
  · split
    · rw [rotateRight_shape]
      simp only [Tr.shape, updateMax, shape_left, shape_right, shape_height]
      rename_i h
      cases l with
      | nil => simp only [Tr.height] at h; omega
      | node e rl rr =>
        split
        · rw [rotateLeft_shape]
          cases rr with
          | nil => rfl
          | node => rfl
        · rfl
    · exact mk_shape d l r

theorem rebalance_size (d : Nd α) (l r : Tr α) : (rebalance d l r).size = l.size + r.size + 1 := by
  rw [← shape_size, rebalance_shape, Sh.size_rebalEq, shape_size, shape_size]

/-- The root of a synchronised tree has the shape of the tree. -/
theorem sync_node_shape {t : Tr α} {d : Nd α} {l r : Tr α} (e : t.sync = .node d l r) :
    t.shape = .node d.h l.shape r.shape := by
  rw [← sync_shape, e]; rfl

theorem rebalEq_grown {h : Nat} {l r l' r' : Sh} (b : (Sh.node h l r).Bal)
    (hl : l' = l ∨ l.Grown l' ∨ l.Shrunk l') (hr : r' = r ∨ r.Grown r' ∨ r.Shrunk r') (one : l' = l ∨ r' = r) :
    Sh.rebalEq l' r' = Sh.rebal l' r' := by
  obtain ⟨_, x, y, _, _⟩ := b
  apply Sh.rebalEq_eq
  · rcases one with rfl | rfl
    · rcases hr with rfl | ⟨_, h1, h2⟩ | ⟨_, h1, h2⟩ <;> omega
    · rcases hl with rfl | ⟨_, h1, h2⟩ | ⟨_, h1, h2⟩ <;> omega
  · rcases one with rfl | rfl
    · rcases hr with rfl | ⟨_, h1, h2⟩ | ⟨_, h1, h2⟩ <;> omega
    · rcases hl with rfl | ⟨_, h1, h2⟩ | ⟨_, h1, h2⟩ <;> omega

/-- An insertion keeps the balance. -/
theorem add_shape (a : Nat) (pos id : Int) (v : Ival α) : ∀ (f : Nat) (t : Tr α), t.shape.Bal →
    t.shape.Grown (add a pos id v f t).1.shape := by
  intro f
  induction f with
  | zero => intro t b; exact .refl b
  | succ f ih =>
    intro t b
    rw [add]
    split
    · rename_i e
      rw [← sync_shape, e]
      exact ⟨⟨rfl, Nat.le_succ _, Nat.le_succ _, trivial, trivial⟩, Nat.zero_le _, Nat.le_refl _⟩
    · rename_i d l r e
      rw [sync_node_shape e] at b ⊢
      split
      · have g := ih l b.2.2.2.1
        simp only [rebalance_shape]
        rw [rebalEq_grown b (.inr (.inl g)) (.inl rfl) (.inr rfl)]
        exact .left b g
      · have g := ih r b.2.2.2.2
        simp only [rebalance_shape]
        rw [rebalEq_grown b (.inl rfl) (.inr (.inl g)) (.inl rfl)]
        exact .right b g
      · simp only [rebalance_shape]
        rw [rebalEq_grown b (.inl rfl) (.inl rfl) (.inl rfl), Sh.rebal_node b]
        exact .refl b

theorem findSmallest_shape : ∀ (f : Nat) (d : Nd α) (l r : Tr α),
    (findSmallest f d l r).1.shape = .node d.h l.shape r.shape := by
  intro f
  induction f with
  | zero => intro d l r; rfl
  | succ f ih =>
    intro d l r
    rw [findSmallest]
    split
    · rename_i e
      rw [← sync_shape l, e]
      rfl
    · rename_i e
      simp only [Tr.shape, ih, sync_node_shape e]

theorem remove_size : ∀ (f : Nat) (pos id : Int) (t : Tr α), (remove f pos id t).size ≤ t.size := by
  intro f
  induction f with
  | zero => intro pos id t; exact Nat.le_refl _
  | succ f ih =>
    intro pos id t
    rw [remove]
    split
    · exact Nat.zero_le _
    · rename_i d l r e
      rw [← shape_size t, sync_node_shape e]
      simp only [Sh.size]
      split
      · have := ih pos id l; rw [rebalance_size]; simp only [shape_size]; omega
      · have := ih pos id r; rw [rebalance_size]; simp only [shape_size]; omega
      · split
        · rename_i x ll lr g rl rr e1 e2
          simp only [sync_node_shape e1, sync_node_shape e2]
          have hf := findSmallest_shape rl.size g rl rr
          generalize findSmallest rl.size g rl rr = q at hf
          obtain ⟨r', m⟩ := q
          simp only [] at hf ⊢
          have := ih m.pos m.id r'
          rw [← shape_size r', hf] at this
          rw [rebalance_size]
          simp only [Sh.size, Tr.size, shape_size] at *
          omega
        · rename_i x ll lr e1 e2
          rw [rebalance_size, sync_node_shape e1]
          simp only [Sh.size, shape_size]
          omega
        · rename_i x ll lr e1 e2
          rw [rebalance_size, sync_node_shape e2]
          simp only [Sh.size, shape_size]
          omega
        · exact Nat.zero_le _

/-- The removal of one key keeps the balance; if no node went away, the shape is the same. -/
theorem remove_shape : ∀ (f : Nat) (pos id : Int) (t : Tr α), t.shape.Bal →
    t.shape.Shrunk (remove f pos id t).shape ∧
    ((remove f pos id t).size = t.size → (remove f pos id t).shape = t.shape) := by
  intro f
  induction f with
  | zero => intro pos id t b; exact ⟨.refl b, fun _ => rfl⟩
  | succ f ih =>
    intro pos id t b
    rw [remove]
    rw [← shape_size t]
    split
    · rename_i e
      rw [← sync_shape t, e]
      exact ⟨.refl trivial, fun _ => rfl⟩
    · rename_i d l r e
      rw [sync_node_shape e] at b ⊢
      simp only [Sh.size]
      split
      · obtain ⟨s1, s2⟩ := ih pos id l b.2.2.2.1
        have q := rebalEq_grown b (.inr (.inr s1)) (.inl rfl) (.inr rfl)
        refine ⟨?_, fun hs => ?_⟩
        · rw [rebalance_shape, q]; exact .left b s1
        · rw [rebalance_size] at hs
          simp only [shape_size] at hs
          rw [rebalance_shape, q, s2 (by omega)]
          exact Sh.rebal_node b
      · obtain ⟨s1, s2⟩ := ih pos id r b.2.2.2.2
        have q := rebalEq_grown b (.inl rfl) (.inr (.inr s1)) (.inl rfl)
        refine ⟨?_, fun hs => ?_⟩
        · rw [rebalance_shape, q]; exact .right b s1
        · rw [rebalance_size] at hs
          simp only [shape_size] at hs
          rw [rebalance_shape, q, s2 (by omega)]
          exact Sh.rebal_node b
      · split
        · rename_i x ll lr g rl rr e1 e2
          have b1 := b.2.2.2.1
          have b2 := b.2.2.2.2
          have hf := findSmallest_shape rl.size g rl rr
          rw [← sync_node_shape e2] at hf
          generalize findSmallest rl.size g rl rr = q at hf
          obtain ⟨r', m⟩ := q
          simp only [] at hf ⊢
          obtain ⟨s1, s2⟩ := ih m.pos m.id r' (by rw [hf]; exact b2)
          have hz : r'.size = r.shape.size := by rw [← shape_size, hf]
          rw [hf] at s1 s2
          have q := rebalEq_grown b (.inl rfl) (.inr (.inr s1)) (.inl rfl)
          have el : (Tr.node x ll lr).shape = l.shape := (sync_node_shape e1).symm
          refine ⟨?_, fun hs => ?_⟩
          · rw [rebalance_shape, el, q]; exact .right b s1
          · rw [rebalance_size, ← shape_size (.node x ll lr), el] at hs
            rw [rebalance_shape, el, q, s2 (by omega)]
            exact Sh.rebal_node b
        · rename_i x ll lr e1 e2
          have hr : r.shape = .nil := by rw [← sync_shape, e2]; rfl
          have hl := sync_node_shape e1
          refine ⟨?_, fun hs => by rw [rebalance_size, hl] at hs; simp only [Sh.size, shape_size] at hs; omega⟩
          rw [hl, hr] at b
          have b1 := b.2.2.2.1
          rw [rebalance_shape, rebalEq_grown b1 (.inl rfl) (.inl rfl) (.inl rfl), Sh.rebal_node b1, hl, hr]
          obtain ⟨e, x, y, b2, _⟩ := b
          refine ⟨b2, ?_, ?_⟩ <;> simp only [Sh.ht_node, Sh.ht_nil] at * <;> omega
        · rename_i x ll lr e1 e2
          have hr : l.shape = .nil := by rw [← sync_shape, e1]; rfl
          have hl := sync_node_shape e2
          refine ⟨?_, fun hs => by rw [rebalance_size, hl] at hs; simp only [Sh.size, shape_size] at hs; omega⟩
          rw [hl, hr] at b
          have b1 := b.2.2.2.2
          rw [rebalance_shape, rebalEq_grown b1 (.inl rfl) (.inl rfl) (.inl rfl), Sh.rebal_node b1, hl, hr]
          obtain ⟨e, x, y, _, b2⟩ := b
          refine ⟨b2, ?_, ?_⟩ <;> simp only [Sh.ht_node, Sh.ht_nil] at * <;> omega
        · rename_i e1 e2
          have hl : l.shape = .nil := by rw [← sync_shape, e1]; rfl
          have hr : r.shape = .nil := by rw [← sync_shape, e2]; rfl
          obtain ⟨e, _⟩ := b
          rw [hl, hr] at e ⊢
          simp only [Sh.ht] at e
          exact ⟨⟨trivial, Nat.zero_le _, by simp only [Tr.shape, Sh.ht]; omega⟩,
            fun hs => by simp only [Tr.size, Sh.size] at hs; omega⟩

theorem search_shape (pos id : Int) : ∀ (f : Nat) (t : Tr α), (search pos id f t).1.shape = t.shape := by
  intro f
  induction f with
  | zero => intro t; rfl
  | succ f ih =>
    intro t
    rw [search]
    split
    · rename_i e
      rw [← sync_shape t, e]
    · rename_i e
      rw [sync_node_shape e]
      split <;> simp only [Tr.shape, ih]

theorem touch_shape (a : Nat) : ∀ (f : Nat) (t : Tr α), (t.touch a f).shape = t.shape := by
  intro f
  induction f with
  | zero => intro t; rfl
  | succ f ih =>
    intro t
    rw [Tr.touch]
    split
    · split
      · rename_i e
        rw [← sync_shape t, e]
      · rename_i e
        rw [sync_node_shape e]
        split <;> simp only [Tr.shape, ih]
    · rfl

theorem overlaps_shape (low high : Int) : ∀ (f : Nat) (t : Tr α) (res : List α),
    (overlaps low high f t res).1.shape = t.shape := by
  intro f
  induction f with
  | zero => intro t _; rfl
  | succ f ih =>
    intro t res
    rw [overlaps]
    split
    · rename_i e
      rw [← sync_shape t, e]
    · rename_i e
      rw [sync_node_shape e]
      simp only []
      split
      · rfl
      · split <;> simp only [Tr.shape, ih]

/-- An edit that drops no node leaves the shape as it is. -/
theorem removeOverlaps_shape (low high : Int) : ∀ (f : Nat) (t : Tr α),
    (removeOverlaps low high f t).size ≤ t.size ∧
    (t.shape.Bal → (removeOverlaps low high f t).size = t.size →
      (removeOverlaps low high f t).shape = t.shape) := by
  intro f
  induction f with
  | zero => intro t; exact ⟨Nat.le_refl _, fun _ _ => rfl⟩
  | succ f ih =>
    intro t
    rw [removeOverlaps]
    rw [← shape_size t]
    split
    · rename_i e
      rw [← sync_shape t, e]
      exact ⟨Nat.le_refl _, fun _ _ => rfl⟩
    · rename_i d l r e
      rw [sync_node_shape e]
      change _ ≤ (Tr.node d l r).shape.size ∧ ((Tr.node d l r).shape.Bal → _ = (Tr.node d l r).shape.size →
        _ = (Tr.node d l r).shape)
      rw [shape_size]
      obtain ⟨l1, l2⟩ := ih l
      obtain ⟨r1, r2⟩ := ih r
      split
      · exact ⟨Nat.le_refl _, fun _ _ => rfl⟩
      · simp only []
        generalize removeOverlaps low high f l = l' at l1 l2 ⊢
        generalize removeOverlaps low high f r = r' at r1 r2 ⊢
        split
        · generalize hn : remove _ _ _ (Tr.node _ l' r) = n
          have s1 := remove_size (Tr.node { d with ivs := swapRemove (Ival.overlaps low high) d.ivs.length d.ivs } l' r).size
            d.pos d.id (.node { d with ivs := swapRemove (Ival.overlaps low high) d.ivs.length d.ivs } l' r)
          rw [hn] at s1
          have key : (Tr.node d l r).shape.Bal → n.size = (Tr.node d l r).size → n.shape = (Tr.node d l r).shape := by
            intro b hs
            simp only [Tr.size] at s1 hs
            have el := l2 b.2.2.2.1 (by omega)
            have e0 : (Tr.node { d with ivs := swapRemove (Ival.overlaps low high) d.ivs.length d.ivs } l' r).shape =
                (Tr.node d l r).shape := by simp only [Tr.shape, el]
            have s2 := (remove_shape (Tr.node { d with ivs := swapRemove (Ival.overlaps low high) d.ivs.length d.ivs } l' r).size
              d.pos d.id _ (by rw [e0]; exact b)).2
            rw [hn, e0] at s2
            exact s2 (by simp only [Tr.size]; omega)
          simp only [Tr.size] at s1
          split
          · obtain ⟨n1, n2⟩ := ih n
            refine ⟨by simp only [Tr.size]; omega, fun b hs => ?_⟩
            have e1 := key b (by simp only [Tr.size] at hs ⊢; omega)
            rw [n2 (by rw [e1]; exact b) (by simp only [Tr.size] at hs; omega), e1]
          · exact ⟨by simp only [Tr.size]; omega, key⟩
        · split
          · refine ⟨by simp only [Tr.size]; omega, fun b hs => ?_⟩
            simp only [Tr.size] at hs
            simp only [Tr.shape, l2 b.2.2.2.1 (by omega)]
          · refine ⟨by simp only [Tr.size]; omega, fun b hs => ?_⟩
            simp only [Tr.size] at hs
            simp only [Tr.shape, l2 b.2.2.2.1 (by omega), r2 b.2.2.2.2 (by omega)]

end Gpeg.Lazy
