import Verif.BalanceOps
/-! # C57: the interval trees stay balanced as long as edits drop nothing

The claims are about the trees themselves: the depth counts nodes on a longest path and does not look at the
field `height`. -/
namespace Gpeg.LazyLog
variable {α : Type}

/-- The number of nodes on the longest path. -/
def Tr.depth : Tr α → Nat
  | .nil => 0
  | .node _ l r => 1 + max l.depth r.depth

/-- The depths of the two sides of every node differ by one at most. -/
def Tr.Even : Tr α → Prop
  | .nil => True
  | .node _ l r => l.depth ≤ r.depth + 1 ∧ r.depth ≤ l.depth + 1 ∧ l.Even ∧ r.Even

/-- The field `height` of every node is the depth of its subtree. -/
def Tr.Heights : Tr α → Prop
  | .nil => True
  | .node d l r => d.h = (Tr.node d l r).depth ∧ l.Heights ∧ r.Heights

/-- The number of keys that `search` (`memo/interval/lazylog/tree.go:236-248`) compares with. -/
def steps (S : List Shift) (pos id : Int) : Tr α → Nat
  | .nil => 0
  | .node d l r =>
    match compareKey pos id (applyShifts S l.mx? r.mx? d).pos (applyShifts S l.mx? r.mx? d).id with
    | .lt => 1 + steps S pos id l
    | .gt => 1 + steps S pos id r
    | .eq => 1

/-- The edits of the history drop no node: the size is the same before and after. -/
def NoneDropped : St α → List (Op α) → Prop
  | _, [] => True
  | st, .edit low high amt :: ops =>
    (st.step (.edit low high amt)).tree.size = st.tree.size ∧ NoneDropped (st.step (.edit low high amt)) ops
  | st, op :: ops => NoneDropped (st.step op) ops

theorem shape_depth (t : Tr α) : t.shape.depth = t.depth := by
  induction t with
  | nil => rfl
  | node d l r ihl ihr => simp only [Tr.shape, Sh.depth, Tr.depth, ihl, ihr]

theorem shape_even (t : Tr α) : t.shape.Avl ↔ t.Even := by
  induction t with
  | nil => exact Iff.rfl
  | node d l r ihl ihr => simp only [Tr.shape, Sh.Avl, Tr.Even, ihl, ihr, shape_depth]

theorem shape_bal (t : Tr α) : t.shape.Bal ↔ t.Heights ∧ t.Even := by
  induction t with
  | nil => exact ⟨fun _ => ⟨trivial, trivial⟩, fun _ => trivial⟩
  | node d l r ihl ihr =>
    constructor
    · intro b
      have h1 := b.avl
      have h2 := b.ht_depth
      rw [shape_even] at h1
      rw [shape_depth] at h2
      exact ⟨⟨h2, (ihl.1 b.2.2.2.1).1, (ihr.1 b.2.2.2.2).1⟩, h1⟩
    · rintro ⟨⟨h, hl, hr⟩, a, b, el, er⟩
      have bl := ihl.2 ⟨hl, el⟩
      have br := ihr.2 ⟨hr, er⟩
      have e1 := bl.ht_depth
      have e2 := br.ht_depth
      rw [shape_depth] at e1 e2
      refine ⟨?_, ?_, ?_, bl, br⟩
      · rw [e1, e2]; exact h
      · omega
      · omega

theorem bal_run : ∀ (ops : List (Op α)) (st : St α), st.tree.root.shape.Bal → NoneDropped st ops →
    (ops.foldl St.step st).tree.root.shape.Bal := by
  intro ops
  induction ops with
  | nil => intro st b _; exact b
  | cons op ops ih =>
    intro st b h
    rw [List.foldl_cons]
    cases op with
    | add id low high v => exact ih _ (add_shape _ _ _ _ _ _ _ b).1 h
    | find id pos => exact ih _ (by rw [St.step, Tree.findLargest]; simp only [search_shape]; exact b) h
    | pos a => exact ih _ (by rw [St.step, Tree.posOf]; simp only [touch_shape]; exact b) h
    | edit low high amt =>
      refine ih _ ?_ h.2
      have hr : (st.step (.edit low high amt)).tree.root =
          removeOverlaps st.tree.shifts low high st.tree.root.size st.tree.root := by
        simp only [St.step, Tree.removeAndShift, Tree.shift]
        by_cases ha : amt = 0
        · rw [if_neg (fun h => h ha)]
        · rw [if_pos ha, if_neg ha]
      have hs := h.1
      rw [Tree.size, Tree.size, hr] at hs
      rw [hr, (removeOverlaps_shape _ _ _ _ _).2 b hs]
      exact b

theorem steps_le (S : List Shift) (pos id : Int) (t : Tr α) : steps S pos id t ≤ t.depth := by
  induction t with
  | nil => exact Nat.le_refl _
  | node d l r ihl ihr =>
    rw [steps, Tr.depth]
    split <;> omega

/-- After a history of insertions, lookups and edits that drop no node, the fields `height` are right, the tree
is balanced and its depth is logarithmic in the number of nodes. -/
theorem C57_balanced (ops : List (Op α)) (h : NoneDropped {} ops) :
    (run ops).tree.root.Heights ∧ (run ops).tree.root.Even ∧
    2 ^ (run ops).tree.root.depth ≤ ((run ops).tree.size + 1) ^ 2 := by
  have b := bal_run ops {} trivial h
  have k := b.avl.size_ge.1
  rw [shape_depth, shape_size] at k
  exact ⟨((shape_bal _).1 b).1, ((shape_bal _).1 b).2, k⟩

/-- Then a lookup compares with logarithmically many keys. -/
theorem C57_lookup (ops : List (Op α)) (h : NoneDropped {} ops) (pos id : Int) :
    2 ^ steps (run ops).tree.shifts pos id (run ops).tree.root ≤ ((run ops).tree.size + 1) ^ 2 :=
  Nat.le_trans (Nat.pow_le_pow_right (by decide) (steps_le ..)) (C57_balanced ops h).2.2

/-- The removal of one key from a balanced tree leaves a balanced tree: the deletion itself is right. -/
theorem C57_remove (S : List Shift) (f : Nat) (pos id : Int) (t : Tr α) (hh : t.Heights) (he : t.Even) :
    (remove S f pos id t).Heights ∧ (remove S f pos id t).Even :=
  (shape_bal _).1 (remove_shape S f pos id t ((shape_bal t).2 ⟨hh, he⟩)).1.1

/-- `n` intervals at the positions 10, 20, … -/
def ascending : Nat → List (Op Nat)
  | 0 => []
  | n + 1 => ascending n ++ [.add 0 (10 * (n + 1)) (10 * (n + 1) + 5) n]

/-- Tests of `Even`, `NoneDropped`. -/
def evenB : Tr α → Bool
  | .nil => true
  | .node _ l r => decide (l.depth ≤ r.depth + 1) && decide (r.depth ≤ l.depth + 1) && evenB l && evenB r

theorem evenB_iff (t : Tr α) : evenB t = true ↔ t.Even := by
  induction t with
  | nil => exact ⟨fun _ => trivial, fun _ => rfl⟩
  | node d l r ihl ihr => simp only [evenB, Tr.Even, Bool.and_eq_true, decide_eq_true_eq, ihl, ihr, and_assoc]

def noneDroppedB : St α → List (Op α) → Bool
  | _, [] => true
  | st, .edit low high amt :: ops =>
    decide ((st.step (.edit low high amt)).tree.size = st.tree.size) && noneDroppedB (st.step (.edit low high amt)) ops
  | st, .add a b c d :: ops => noneDroppedB (st.step (.add a b c d)) ops
  | st, .find a b :: ops => noneDroppedB (st.step (.find a b)) ops
  | st, .pos a :: ops => noneDroppedB (st.step (.pos a)) ops

theorem noneDroppedB_sound : ∀ (ops : List (Op α)) (st : St α), noneDroppedB st ops = true → NoneDropped st ops := by
  intro ops
  induction ops with
  | nil => intro st _; trivial
  | cons op ops ih =>
    intro st h
    cases op with
    | edit low high amt =>
      simp only [noneDroppedB, Bool.and_eq_true, decide_eq_true_eq] at h
      exact ⟨h.1, ih _ h.2⟩
    | add => exact ih _ h
    | find => exact ih _ h
    | pos => exact ih _ h

/-- Insertions in ascending order, an edit between two of the intervals, a lookup, more insertions. -/
def calm : List (Op Nat) := ascending 12 ++ [.edit 47 48 7, .find 0 67, .edit 0 2 (-2), .add 0 1 2 0, .add 0 3 4 0]

/-- Twelve keys in ascending order, edits that move them, two more keys: 14 nodes of depth 5. -/
example : NoneDropped {} calm ∧ (run calm).tree.size = 14 ∧ (run calm).tree.root.depth = 5 :=
  ⟨noneDroppedB_sound _ _ (by decide +kernel), by decide +kernel, by decide +kernel⟩

instance (op : Op α) : Decidable op.Valid := by
  cases op <;> simp only [Op.Valid] <;> infer_instance

/-- Sixty-three keys, then edits that each empty the left side of one more node on the right edge. -/
def stripping : List (Op Nat) := ascending 63 ++
  [.edit 1 318 0, .edit 328 478 0, .edit 488 558 0, .edit 568 598 0, .edit 608 618 0]

/-- Edits that drop nodes do not rebalance the nodes above: what remains of 63 nodes is a path of 6, which is no
balanced tree, and its depth is over the bound. -/
theorem C57_false : ∃ ops : List (Op Nat), (∀ op ∈ ops, op.Valid) ∧ ¬ (run ops).tree.root.Even ∧
    (run ops).tree.root.depth = (run ops).tree.size ∧
    ¬ 2 ^ (run ops).tree.root.depth ≤ ((run ops).tree.size + 1) ^ 2 :=
  ⟨stripping, by decide +kernel, by rw [← evenB_iff]; decide +kernel, by decide +kernel, by decide +kernel⟩

end Gpeg.LazyLog

namespace Gpeg.Lazy
variable {α : Type}

/-- The number of nodes on the longest path. -/
def Tr.depth : Tr α → Nat
  | .nil => 0
  | .node _ l r => 1 + max l.depth r.depth

/-- The depths of the two sides of every node differ by one at most. -/
def Tr.Even : Tr α → Prop
  | .nil => True
  | .node _ l r => l.depth ≤ r.depth + 1 ∧ r.depth ≤ l.depth + 1 ∧ l.Even ∧ r.Even

/-- The field `height` of every node is the depth of its subtree. -/
def Tr.Heights : Tr α → Prop
  | .nil => True
  | .node d l r => d.h = (Tr.node d l r).depth ∧ l.Heights ∧ r.Heights

/-- The number of keys that `search` (`memo/interval/lazy/tree.go:235-247`) compares with. -/
def steps (pos id : Int) : (fuel : Nat) → Tr α → Nat
  | 0, _ => 0
  | f + 1, t =>
    match t.sync with
    | .nil => 0
    | .node d l r =>
      match compareKey pos id d.pos d.id with
      | .lt => 1 + steps pos id f l
      | .gt => 1 + steps pos id f r
      | .eq => 1

/-- The edits of the history drop no node: the size is the same before and after. -/
def NoneDropped : St α → List (Op α) → Prop
  | _, [] => True
  | st, .edit low high amt :: ops =>
    (st.step (.edit low high amt)).tree.size = st.tree.size ∧ NoneDropped (st.step (.edit low high amt)) ops
  | st, op :: ops => NoneDropped (st.step op) ops

theorem shape_depth (t : Tr α) : t.shape.depth = t.depth := by
  induction t with
  | nil => rfl
  | node d l r ihl ihr => simp only [Tr.shape, Sh.depth, Tr.depth, ihl, ihr]

theorem shape_even (t : Tr α) : t.shape.Avl ↔ t.Even := by
  induction t with
  | nil => exact Iff.rfl
  | node d l r ihl ihr => simp only [Tr.shape, Sh.Avl, Tr.Even, ihl, ihr, shape_depth]

theorem shape_bal (t : Tr α) : t.shape.Bal ↔ t.Heights ∧ t.Even := by
  induction t with
  | nil => exact ⟨fun _ => ⟨trivial, trivial⟩, fun _ => trivial⟩
  | node d l r ihl ihr =>
    constructor
    · intro b
      have h1 := b.avl
      have h2 := b.ht_depth
      rw [shape_even] at h1
      rw [shape_depth] at h2
      exact ⟨⟨h2, (ihl.1 b.2.2.2.1).1, (ihr.1 b.2.2.2.2).1⟩, h1⟩
    · rintro ⟨⟨h, hl, hr⟩, a, b, el, er⟩
      have bl := ihl.2 ⟨hl, el⟩
      have br := ihr.2 ⟨hr, er⟩
      have e1 := bl.ht_depth
      have e2 := br.ht_depth
      rw [shape_depth] at e1 e2
      refine ⟨?_, ?_, ?_, bl, br⟩
      · rw [e1, e2]; exact h
      · omega
      · omega

theorem bal_run : ∀ (ops : List (Op α)) (st : St α), st.tree.root.shape.Bal → NoneDropped st ops →
    (ops.foldl St.step st).tree.root.shape.Bal := by
  intro ops
  induction ops with
  | nil => intro st b _; exact b
  | cons op ops ih =>
    intro st b h
    rw [List.foldl_cons]
    cases op with
    | add id low high v => exact ih _ (add_shape st.tree.next low id ⟨low, high, v⟩ (st.tree.root.size + 1) _ b).1 h
    | find id pos => exact ih _ (by rw [St.step, Tree.findLargest]; simp only [search_shape]; exact b) h
    | pos a => exact ih _ (by rw [St.step, Tree.posOf]; simp only [touch_shape]; exact b) h
    | edit low high amt =>
      refine ih _ ?_ h.2
      have hr : (st.step (.edit low high amt)).tree.root.shape =
          (removeOverlaps low high (st.tree.root.size + 1) st.tree.root).shape := by
        simp only [St.step, Tree.removeAndShift]
        split
        · rw [addShift_shape]
        · rfl
      have hs := h.1
      rw [Tree.size, Tree.size, ← shape_size, hr, shape_size] at hs
      rw [hr, (removeOverlaps_shape _ _ _ _).2 b hs]
      exact b

theorem steps_le (pos id : Int) : ∀ (f : Nat) (t : Tr α), steps pos id f t ≤ t.depth := by
  intro f
  induction f with
  | zero => exact fun _ => Nat.zero_le _
  | succ f ih =>
    intro t
    rw [steps]
    split
    · exact Nat.zero_le _
    · rename_i d l r e
      have hd : t.depth = 1 + max l.depth r.depth := by
        rw [← shape_depth, sync_node_shape e, Sh.depth, shape_depth, shape_depth]
      have := ih l
      have := ih r
      rw [hd]
      split <;> omega

/-- After a history of insertions, lookups and edits that drop no node, the fields `height` are right, the tree
is balanced and its depth is logarithmic in the number of nodes. -/
theorem C57_lazy_balanced (ops : List (Op α)) (h : NoneDropped {} ops) :
    (run ops).tree.root.Heights ∧ (run ops).tree.root.Even ∧
    2 ^ (run ops).tree.root.depth ≤ ((run ops).tree.size + 1) ^ 2 := by
  have b := bal_run ops {} trivial h
  have k := b.avl.size_ge.1
  rw [shape_depth, shape_size] at k
  exact ⟨((shape_bal _).1 b).1, ((shape_bal _).1 b).2, k⟩

/-- Then a lookup compares with logarithmically many keys. -/
theorem C57_lazy_lookup (ops : List (Op α)) (h : NoneDropped {} ops) (pos id : Int) :
    2 ^ steps pos id ((run ops).tree.root.size + 1) (run ops).tree.root ≤ ((run ops).tree.size + 1) ^ 2 :=
  Nat.le_trans (Nat.pow_le_pow_right (by decide) (steps_le ..)) (C57_lazy_balanced ops h).2.2

/-- The removal of one key from a balanced tree leaves a balanced tree: the deletion itself is right. -/
theorem C57_lazy_remove (f : Nat) (pos id : Int) (t : Tr α) (hh : t.Heights) (he : t.Even) :
    (remove f pos id t).Heights ∧ (remove f pos id t).Even :=
  (shape_bal _).1 (remove_shape f pos id t ((shape_bal t).2 ⟨hh, he⟩)).1.1

/-- `n` intervals at the positions 10, 20, … -/
def ascending : Nat → List (Op Nat)
  | 0 => []
  | n + 1 => ascending n ++ [.add 0 (10 * (n + 1)) (10 * (n + 1) + 5) n]

/-- Tests of `Even`, `NoneDropped`. -/
def evenB : Tr α → Bool
  | .nil => true
  | .node _ l r => decide (l.depth ≤ r.depth + 1) && decide (r.depth ≤ l.depth + 1) && evenB l && evenB r

theorem evenB_iff (t : Tr α) : evenB t = true ↔ t.Even := by
  induction t with
  | nil => exact ⟨fun _ => trivial, fun _ => rfl⟩
  | node d l r ihl ihr => simp only [evenB, Tr.Even, Bool.and_eq_true, decide_eq_true_eq, ihl, ihr, and_assoc]

def noneDroppedB : St α → List (Op α) → Bool
  | _, [] => true
  | st, .edit low high amt :: ops =>
    decide ((st.step (.edit low high amt)).tree.size = st.tree.size) && noneDroppedB (st.step (.edit low high amt)) ops
  | st, .add a b c d :: ops => noneDroppedB (st.step (.add a b c d)) ops
  | st, .find a b :: ops => noneDroppedB (st.step (.find a b)) ops
  | st, .pos a :: ops => noneDroppedB (st.step (.pos a)) ops

theorem noneDroppedB_sound : ∀ (ops : List (Op α)) (st : St α), noneDroppedB st ops = true → NoneDropped st ops := by
  intro ops
  induction ops with
  | nil => intro st _; trivial
  | cons op ops ih =>
    intro st h
    cases op with
    | edit low high amt =>
      simp only [noneDroppedB, Bool.and_eq_true, decide_eq_true_eq] at h
      exact ⟨h.1, ih _ h.2⟩
    | add => exact ih _ h
    | find => exact ih _ h
    | pos => exact ih _ h

/-- Insertions in ascending order, an edit between two of the intervals, a lookup, more insertions. -/
def calm : List (Op Nat) := ascending 12 ++ [.edit 47 48 7, .find 0 67, .edit 0 2 (-2), .add 0 1 2 0, .add 0 3 4 0]

/-- Twelve keys in ascending order, edits that move them, two more keys: 14 nodes of depth 5. -/
example : NoneDropped {} calm ∧ (run calm).tree.size = 14 ∧ (run calm).tree.root.depth = 5 :=
  ⟨noneDroppedB_sound _ _ (by decide +kernel), by decide +kernel, by decide +kernel⟩

instance (op : Op α) : Decidable op.Valid := by
  cases op <;> simp only [Op.Valid] <;> infer_instance

/-- Sixty-three keys, then edits that each empty the left side of one more node on the right edge. -/
def stripping : List (Op Nat) := ascending 63 ++
  [.edit 1 318 0, .edit 328 478 0, .edit 488 558 0, .edit 568 598 0, .edit 608 618 0]

/-- Edits that drop nodes do not rebalance the nodes above: what remains of 63 nodes is a path of 6, which is no
balanced tree, and its depth is over the bound. -/
theorem C57_lazy_false : ∃ ops : List (Op Nat), (∀ op ∈ ops, op.Valid) ∧ ¬ (run ops).tree.root.Even ∧
    (run ops).tree.root.depth = (run ops).tree.size ∧
    ¬ 2 ^ (run ops).tree.root.depth ≤ ((run ops).tree.size + 1) ^ 2 :=
  ⟨stripping, by decide +kernel, by rw [← evenB_iff]; decide +kernel, by decide +kernel, by decide +kernel⟩

end Gpeg.Lazy
