import Mathlib.Data.List.Perm.Basic
import Mathlib.Tactic.SplitIfs
import Verif.IntervalArray
/-! # C34: the array-backed interval map implements the abstract interval map -/
namespace Gpeg

theorem swapRemove_perm {β : Type} (p : β → Bool) (f : Nat) : ∀ l : List β, l.length ≤ f →
    (swapRemove p f l).Perm (l.filter fun x => !p x) := by
  induction f with
  | zero => intro l h; cases l with
    | nil => exact List.Perm.refl _
    | cons x xs => cases h
  | succ f ih =>
    intro l h
    cases l with
    | nil => exact List.Perm.refl _
    | cons x xs =>
      rw [swapRemove]
      split
      · rename_i hp
        rw [List.filter_cons_of_neg (by simp [hp])]
        cases hl : xs.getLast? with
        | none =>
          rw [List.getLast?_eq_none_iff] at hl
          subst hl
          exact ih [] (Nat.zero_le _)
        | some y =>
          have hx : xs = xs.dropLast ++ [y] := by
            obtain ⟨ys, rfl⟩ := List.getLast?_eq_some_iff.1 hl
            simp
          refine (ih (y :: xs.dropLast) ?_).trans ?_
          · have : xs.length = xs.dropLast.length + 1 := by
              conv_lhs => rw [hx]
              simp
            simp only [List.length_cons] at h ⊢
            omega
          · refine List.Perm.filter _ ?_
            conv_rhs => rw [hx]
            exact (List.perm_append_singleton y _).symm
      · rename_i hp
        rw [List.filter_cons_of_pos (by simp [hp])]
        exact (ih xs (by simpa using h)).cons _

namespace IArray
variable {α : Type}

/-- Operations on an interval map. -/
inductive Op (α : Type)
  | add (id low high : Int) (val : α)
  | edit (low high amt : Int)

/-- The operation on the array. -/
def step (a : IArray α) : Op α → IArray α
  | .add id low high v => a.add id low high v
  | .edit low high amt => a.removeAndShift low high amt

/-- The array after a history, oldest operation first. -/
def run (ops : List (Op α)) : IArray α := ops.foldl step {}

/-- What an edit `[low, high)` moving the rest by `amt` does to one interval `[l, h)` of the map: it goes
away if it has a point in common with the edit, or moves if it starts at or after it, or stays. -/
def specEdit (low high amt : Int) (s : Slot α) : Option (Slot α) :=
  if s.low < high ∧ low < s.high then none
  else if low ≤ s.low then some ⟨s.id, s.low + amt, s.high + amt, s.val⟩
  else some s

/-- The abstract interval map: the collection of the intervals added, each followed through the later
edits. The last argument is the history after the interval was added. -/
def specSlot : Slot α → List (Op α) → Option (Slot α)
  | s, [] => some s
  | s, .add .. :: ops => specSlot s ops
  | s, .edit low high amt :: ops => (specEdit low high amt s).bind fun s' => specSlot s' ops

/-- The contents of the abstract interval map after a history. -/
def spec : List (Op α) → List (Slot α)
  | [] => []
  | .add id low high v :: ops => (specSlot ⟨id, low, high, v⟩ ops).toList ++ spec ops
  | .edit .. :: ops => spec ops

theorem rm_perm (a : IArray α) (low high amt : Int) :
    (a.removeAndShift low high amt).slots.Perm (a.slots.filterMap (specEdit low high amt)) := by
  have hp := swapRemove_perm (Slot.overlaps low high) a.slots.length a.slots (Nat.le_refl _)
  have key : (a.slots.filterMap (specEdit low high amt)) =
      (a.slots.filter fun x => !Slot.overlaps low high x).map
        (fun s => if s.low ≥ low then s.shift amt else s) := by
    induction a.slots with
    | nil => rfl
    | cons s ss ih =>
      rw [List.filterMap_cons]
      by_cases ho : s.low < high ∧ low < s.high
      · rw [List.filter_cons_of_neg (by simp [Slot.overlaps, ho.1, ho.2]), specEdit, if_pos ho]
        exact ih
      · rw [List.filter_cons_of_pos (by
          simp only [Slot.overlaps, Bool.not_eq_true', Bool.and_eq_false_iff, decide_eq_false_iff_not]
          omega), specEdit, if_neg ho, List.map_cons, ih]
        by_cases hl : low ≤ s.low
        · rw [if_pos hl, if_pos hl]; rfl
        · rw [if_neg hl, if_neg hl]
  rw [key, removeAndShift]
  by_cases h0 : amt = 0
  · rw [if_pos h0]
    have : (fun s : Slot α => if s.low ≥ low then s.shift amt else s) = fun s => s := by
      funext s
      subst h0
      simp [Slot.shift]
    rw [this, List.map_id']
    exact hp
  · rw [if_neg h0]
    exact hp.map _

theorem foldl_perm (ops : List (Op α)) : ∀ a : IArray α,
    (ops.foldl step a).slots.Perm (a.slots.filterMap (fun s => specSlot s ops) ++ spec ops) := by
  induction ops with
  | nil =>
    intro a
    simp only [List.foldl_nil, spec, specSlot, List.append_nil, List.filterMap_some]
    exact List.Perm.refl _
  | cons o ops ih =>
    intro a
    rw [List.foldl_cons]
    cases o with
    | add id low high v =>
      refine (ih _).trans ?_
      simp only [step, add, spec, specSlot, List.filterMap_append, List.append_assoc]
      refine List.Perm.append_left _ (List.Perm.append_right _ ?_)
      cases h : specSlot ⟨id, low, high, v⟩ ops <;> simp [List.filterMap_cons, h]
    | edit low high amt =>
      refine (ih _).trans ?_
      simp only [step, spec]
      refine List.Perm.append_right _ ?_
      refine ((rm_perm a low high amt).filterMap _).trans ?_
      rw [List.filterMap_filterMap]
      exact List.Perm.refl _

/-- **C34**, contents: after any history of `Add` and `RemoveAndShift` the array holds, up to order,
exactly the intervals added that no later edit met, moved by the edits before them. -/
theorem C34_contents (ops : List (Op α)) : (run ops).slots.Perm (spec ops) := by
  simpa [run] using foldl_perm ops {}

theorem C34_size (ops : List (Op α)) : (run ops).size = (spec ops).length :=
  (C34_contents ops).length_eq

theorem findLoop_spec (id pos : Int) (l : List (Slot α)) : ∀ (mx : Int) (best : Option α),
    (∃ s ∈ l, s.low = pos ∧ s.id = id ∧ mx < s.high ∧ findLoop id pos l mx best = some s.val ∧
      ∀ s' ∈ l, s'.low = pos → s'.id = id → s'.high ≤ s.high) ∨
    (findLoop id pos l mx best = best ∧ ∀ s' ∈ l, s'.low = pos → s'.id = id → s'.high ≤ mx) := by
  induction l with
  | nil => intro mx best; exact .inr ⟨rfl, fun _ h => by cases h⟩
  | cons s ss ih =>
    intro mx best
    rw [findLoop]
    split
    · rename_i hc
      obtain ⟨hlo, hid, hhi⟩ := hc
      rcases ih s.high (some s.val) with ⟨t, ht, h1, h2, h3, h4, h5⟩ | ⟨h1, h2⟩
      · refine .inl ⟨t, List.mem_cons_of_mem _ ht, h1, h2, by omega, h4, ?_⟩
        intro s' hs' a b
        rcases List.mem_cons.1 hs' with rfl | hs'
        · omega
        · exact h5 s' hs' a b
      · refine .inl ⟨s, List.mem_cons_self, hlo, hid, hhi, h1, ?_⟩
        intro s' hs' a b
        rcases List.mem_cons.1 hs' with rfl | hs'
        · omega
        · exact h2 s' hs' a b
    · rename_i hc
      rcases ih mx best with ⟨t, ht, h1, h2, h3, h4, h5⟩ | ⟨h1, h2⟩
      · refine .inl ⟨t, List.mem_cons_of_mem _ ht, h1, h2, h3, h4, ?_⟩
        intro s' hs' a b
        rcases List.mem_cons.1 hs' with rfl | hs'
        · by_cases hx : s'.high > mx
          · exact absurd ⟨a, b, hx⟩ hc
          · omega
        · exact h5 s' hs' a b
      · refine .inr ⟨h1, ?_⟩
        intro s' hs' a b
        rcases List.mem_cons.1 hs' with rfl | hs'
        · by_cases hx : s'.high > mx
          · exact absurd ⟨a, b, hx⟩ hc
          · omega
        · exact h2 s' hs' a b

/-- **C34**, lookups that find something: after any history, `FindLargest(id, pos)` returns the value of an
interval of the abstract map that has this id, starts at `pos` and ends no earlier than any other such
interval. -/
theorem C34_findLargest (ops : List (Op α)) (id pos : Int) (v : α)
    (h : (run ops).findLargest id pos = some v) :
    ∃ s ∈ spec ops, s.id = id ∧ s.low = pos ∧ s.val = v ∧
      ∀ s' ∈ spec ops, s'.id = id → s'.low = pos → s'.high ≤ s.high := by
  rcases findLoop_spec id pos (run ops).slots 0 none with ⟨s, hs, h1, h2, -, h4, h5⟩ | ⟨h1, -⟩
  · rw [findLargest, h4] at h
    cases h
    exact ⟨s, (C34_contents ops).mem_iff.1 hs, h2, h1, rfl,
      fun s' hs' a b => h5 s' ((C34_contents ops).mem_iff.2 hs') b a⟩
  · rw [findLargest, h1] at h; cases h

/-- **C34**, lookups that find nothing: `FindLargest(id, pos)` returns nil exactly when no interval of the
abstract map with this id and start ends after 0. Intervals of a text, which start at 0 or later and are
not empty, all do. -/
theorem C34_findLargest_none (ops : List (Op α)) (id pos : Int) :
    (run ops).findLargest id pos = none ↔
      ∀ s ∈ spec ops, s.id = id → s.low = pos → s.high ≤ 0 := by
  rcases findLoop_spec id pos (run ops).slots 0 none with ⟨s, hs, h1, h2, h3, h4, h5⟩ | ⟨h1, h2⟩
  · rw [findLargest, h4]
    refine ⟨(fun h => by cases h), fun h => ?_⟩
    have := h s ((C34_contents ops).mem_iff.1 hs) h2 h1
    omega
  · rw [findLargest, h1]
    exact ⟨fun _ s hs a b => h2 s ((C34_contents ops).mem_iff.2 hs) b a, fun _ => rfl⟩

/-- A history in which one interval is hit by an edit, one moves and one stays. -/
example : (run [.add 1 0 3 'a', .add 1 5 9 'b', .add 2 3 5 'c', .add 1 5 7 'd', .edit 3 4 10]).slots =
    [⟨1, 0, 3, 'a'⟩, ⟨1, 15, 19, 'b'⟩, ⟨1, 15, 17, 'd'⟩] ∧
    (run [.add 1 0 3 'a', .add 1 5 9 'b', .add 2 3 5 'c', .add 1 5 7 'd', .edit 3 4 10]).findLargest 1 15
      = some 'b' ∧
    (run [.add 1 0 3 'a', .edit 3 4 10]).findLargest 2 0 = none := by decide

end IArray
end Gpeg
