import Verif.Iter
import Verif.Correct
/-! # Property C35: child iteration flattens dummies -/
namespace Gpeg

mutual
/-- Specification: a capture itself, or in place of a dummy what its children stand for. -/
def Capture.flat : Capture → List Capture
  | .node id s n ch => [.node id s n ch]
  | .dummy _ _ ch => Capture.flatL ch
/-- The same for a list, in order. -/
def Capture.flatL : List Capture → List Capture
  | [] => []
  | c :: cs => c.flat ++ Capture.flatL cs
end

/-- Call the iterator `n` times; the last result. -/
def CIter.nth : Nat → CIter → Option Capture
  | 0, it => it.next.1
  | n + 1, it => it.next.2.nth n

/-- What an iterator still has to return. -/
def CIter.todo : CIter → List Capture
  | .mk [] _ => []
  | .mk (c :: cs) none => Capture.flatL (c :: cs)
  | .mk (_ :: cs) (some s) => s.todo ++ Capture.flatL cs

theorem todo_none (cs : List Capture) : (CIter.mk cs none).todo = Capture.flatL cs := by
  cases cs <;> rfl

theorem CIter.next_spec (it : CIter) : it.next.1 = it.todo.head? ∧ it.next.2.todo = it.todo.tail := by
  induction it using CIter.next.induct with
  | case1 s => rw [CIter.next]; exact ⟨rfl, rfl⟩
  | case2 ch rest sub c0 sub' hs ih =>
    rw [CIter.next, hs]
    rw [hs] at ih
    simp only [CIter.todo] at ih ⊢
    cases h : sub.todo with
    | nil => rw [h] at ih; exact absurd ih.1 (by simp)
    | cons a as =>
      rw [h] at ih
      simp only [List.head?_cons, Option.some.injEq, List.tail_cons] at ih
      simp [ih.1, ih.2]
  | case3 ch rest sub sub' hs ih1 ih2 =>
    rw [CIter.next, hs]
    rw [hs] at ih1
    simp only [CIter.todo] at ih1 ⊢
    cases h : sub.todo with
    | nil => rw [todo_none] at ih2; simpa using ih2
    | cons a as => rw [h] at ih1; exact absurd ih1.1 (by simp)
  | case4 id s n cs rest =>
    rw [CIter.next]
    simp [todo_none, Capture.flatL, Capture.flat]
  | case5 s n cs rest c0 sub' hs ih =>
    rw [CIter.next, hs]
    rw [hs, todo_none] at ih
    simp only [CIter.todo, Capture.flatL, Capture.flat] at ih ⊢
    cases h : Capture.flatL cs with
    | nil => rw [h] at ih; exact absurd ih.1 (by simp)
    | cons a as =>
      rw [h] at ih
      simp only [List.head?_cons, Option.some.injEq, List.tail_cons] at ih
      simp [ih.1, ih.2]
  | case6 s n cs rest sub' hs ih1 ih2 =>
    rw [CIter.next, hs]
    rw [hs, todo_none] at ih1
    simp only [todo_none, Capture.flatL, Capture.flat] at ih1 ih2 ⊢
    cases h : Capture.flatL cs with
    | nil => simpa using ih2
    | cons a as => rw [h] at ih1; exact absurd ih1.1 (by simp)

theorem CIter.nth_spec (n : Nat) : ∀ it : CIter, it.nth n = it.todo[n]? := by
  induction n with
  | zero => intro it; rw [CIter.nth, it.next_spec.1]; exact List.head?_eq_getElem?
  | succ n ih => intro it; rw [CIter.nth, ih, it.next_spec.2]; simp

theorem CIter.child_spec (it : CIter) (i n : Int) : it.child i n = if n < i then none else it.todo[(n - i).toNat]? := by
  induction h : it.size using Nat.strongRecOn generalizing it i with
  | ind k ih =>
    rw [CIter.child]
    have hs := it.next_spec
    split
    · rename_i it' hn
      rw [hn] at hs
      have : it.todo = [] := by
        cases h : it.todo with
        | nil => rfl
        | cons a as => rw [h] at hs; exact absurd hs.1 (by simp)
      rw [this]; simp
    · rename_i c it' hn
      have hlt := it.next_size _ _ hn
      rw [hn] at hs
      obtain ⟨as, ht⟩ : ∃ as, it.todo = c :: as := by
        cases h : it.todo with
        | nil => rw [h] at hs; exact absurd hs.1 (by simp)
        | cons a as =>
          rw [h] at hs
          simp only [List.head?_cons, Option.some.injEq] at hs
          exact ⟨as, by rw [hs.1]⟩
      rw [ht] at hs ⊢
      by_cases hin : i = n
      · subst hin
        rw [if_pos rfl, if_neg (by omega), Int.sub_self]; rfl
      · rw [if_neg hin, ih it'.size (by omega) it' (i + 1) rfl]
        rw [show it'.todo = as from hs.2]
        by_cases hlt : n < i
        · rw [if_pos hlt, if_pos (by omega)]
        · rw [if_neg hlt, if_neg (by omega)]
          rw [show (n - i).toNat = (n - (i + 1)).toNat + 1 by omega]
          rfl

mutual
theorem numOne_flat : ∀ c : Capture, c.numOne = c.flat.length
  | .node .. => rfl
  | .dummy _ _ ch => numL_flatL ch
theorem numL_flatL : ∀ cs : List Capture, Capture.numL cs = (Capture.flatL cs).length
  | [] => rfl
  | c :: cs => by simp only [Capture.numL, Capture.flatL, List.length_append, numOne_flat c, numL_flatL cs]
end

mutual
theorem flat_nodes : ∀ c : Capture, ∀ x ∈ c.flat, x.isDummy = false
  | .node .., x, h => by simp only [Capture.flat, List.mem_singleton] at h; subst h; rfl
  | .dummy _ _ ch, x, h => flatL_nodes ch x h
theorem flatL_nodes : ∀ cs : List Capture, ∀ x ∈ Capture.flatL cs, x.isDummy = false
  | [], x, h => by cases h
  | c :: cs, x, h => by
    rcases List.mem_append.1 h with h | h
    · exact flat_nodes c x h
    · exact flatL_nodes cs x h
end

/-- **C35**, the iterator: the `n`-th call returns the `n`-th capture of the flattened children (nil from
the end on, and forever after). -/
theorem C35_iterator (c : Capture) (n : Nat) : c.iter.nth n = (Capture.flatL c.children)[n]? := by
  rw [CIter.nth_spec, Capture.iter, todo_none]

/-- **C35**, `Child(n)`: the `n`-th flattened child, nil for a negative or too large `n`. -/
theorem C35_child (c : Capture) (n : Int) :
    c.child n = if n < 0 then none else (Capture.flatL c.children)[n.toNat]? := by
  rw [Capture.child, CIter.child_spec, Capture.iter, todo_none, Int.sub_zero]

/-- **C35**, `NumChildren`. -/
theorem C35_numChildren (c : Capture) : c.numChildren = (Capture.flatL c.children).length := numL_flatL _

/-- **C35**: no dummy is ever returned. -/
theorem C35_no_dummy (c : Capture) : ∀ x ∈ Capture.flatL c.children, x.isDummy = false := flatL_nodes _

mutual
theorem trees_flat : ∀ c : Capture, c.trees = Capture.treesL c.flat
  | .node id s n ch => by simp [Capture.trees, Capture.flat, Capture.treesL]
  | .dummy _ _ ch => by rw [Capture.trees, Capture.flat]; exact treesL_flatL ch
theorem treesL_flatL : ∀ cs : List Capture, Capture.treesL cs = Capture.treesL (Capture.flatL cs)
  | [] => rfl
  | c :: cs => by
    rw [Capture.treesL, Capture.flatL, treesL_append, ← trees_flat c, ← treesL_flatL cs]
end

/-- **C35**: the trees in which the captures of a run are stated (C17, C26, C42) are those that walking the
captures with the iterator shows, level by level. -/
theorem C35_trees (cs : List Capture) : Capture.treesL cs =
    (Capture.flatL cs).map fun c => .node c.id c.start c.len (Capture.treesL c.children) := by
  rw [treesL_flatL]
  have h := flatL_nodes cs
  generalize Capture.flatL cs = l at h ⊢
  induction l with
  | nil => rfl
  | cons c l ih =>
    rw [Capture.treesL, ih fun x hx => h x (List.mem_cons_of_mem _ hx)]
    cases c with
    | node id s n ch => simp [Capture.trees, Capture.id, Capture.start, Capture.len, Capture.children]
    | dummy s n ch => exact absurd (h _ (List.mem_cons_self ..)) (by simp [Capture.isDummy])

example : Capture.flatL (Capture.dummy 0 5 [.node 1 0 1 [], .dummy 1 3 [.dummy 1 0 [], .node 2 1 1 [.dummy 1 1 []]],
    .node 3 4 1 []]).children = [.node 1 0 1 [], .node 2 1 1 [.dummy 1 1 []], .node 3 4 1 []] := by
  rfl

end Gpeg
