import Verif.LazyLogHist
import Verif.Props.Lazy
/-! # Shapes of the interval trees

The shape of a tree is what remains when its nodes keep only the field `height`. Both trees of
`memo/interval` (`lazylog` and `lazy`) do the same to shapes; what is proved about balance is proved here once,
on shapes. -/
namespace Gpeg

/-- A tree whose nodes have only the field `height`. -/
inductive Sh
  | nil
  | node (h : Nat) (l r : Sh)

namespace Sh

/-- The field `height`; 0 for no node. -/
def ht : Sh → Nat
  | nil => 0
  | node h _ _ => h

def left : Sh → Sh
  | nil => nil
  | node _ l _ => l

def right : Sh → Sh
  | nil => nil
  | node _ _ r => r

def size : Sh → Nat
  | nil => 0
  | node _ l r => l.size + r.size + 1

/-- The number of nodes on the longest path. -/
def depth : Sh → Nat
  | nil => 0
  | node _ l r => 1 + max l.depth r.depth

/-- The depths of the two sides of every node differ by one at most. -/
def Avl : Sh → Prop
  | nil => True
  | node _ l r => l.depth ≤ r.depth + 1 ∧ r.depth ≤ l.depth + 1 ∧ l.Avl ∧ r.Avl

/-- The fields `height` are right and the two sides of every node differ by one at most. -/
def Bal : Sh → Prop
  | nil => True
  | node h l r => h = 1 + max l.ht r.ht ∧ l.ht ≤ r.ht + 1 ∧ r.ht ≤ l.ht + 1 ∧ l.Bal ∧ r.Bal

def mk (l r : Sh) : Sh := node (1 + max l.ht r.ht) l r

def rotL : Sh → Sh
  | nil => nil
  | node h l nil => node h l nil
  | node _ l (node _ rl rr) => mk (mk l rl) rr

def rotR : Sh → Sh
  | nil => nil
  | node h nil r => node h nil r
  | node _ (node _ ll lr) r => mk ll (mk lr r)

/-- `rebalanceTree` of `lazylog`. -/
def rebal (l r : Sh) : Sh :=
  if (l.ht : Int) - r.ht ≤ -2 then rotL (mk l (if r.left.ht > r.right.ht then rotR r else r) : Sh)
  else if (l.ht : Int) - r.ht ≥ 2 then rotR (mk (if l.right.ht > l.left.ht then rotL l else l) r)
  else mk l r

/-- `rebalanceTree` of `lazy`. -/
def rebalEq (l r : Sh) : Sh :=
  if (l.ht : Int) - r.ht = -2 then rotL (mk l (if r.left.ht > r.right.ht then rotR r else r) : Sh)
  else if (l.ht : Int) - r.ht = 2 then rotR (mk (if l.right.ht > l.left.ht then rotL l else l) r)
  else mk l r

theorem ht_nil : ht nil = 0 := rfl
theorem ht_node (h : Nat) (l r : Sh) : (node h l r).ht = h := rfl
theorem ht_mk (l r : Sh) : (mk l r).ht = 1 + max l.ht r.ht := rfl
theorem left_node (h : Nat) (l r : Sh) : (node h l r).left = l := rfl
theorem right_node (h : Nat) (l r : Sh) : (node h l r).right = r := rfl
theorem bal_mk {l r : Sh} : (mk l r).Bal ↔ l.ht ≤ r.ht + 1 ∧ r.ht ≤ l.ht + 1 ∧ l.Bal ∧ r.Bal :=
  ⟨fun h => h.2, fun h => ⟨rfl, h⟩⟩
theorem rotL_mk (l : Sh) (h : Nat) (rl rr : Sh) : rotL (mk l (node h rl rr)) = mk (mk l rl) rr := rfl
theorem rotR_mk (r : Sh) (h : Nat) (ll lr : Sh) : rotR (mk (node h ll lr) r) = mk ll (mk lr r) := rfl
theorem rotL_node (k : Nat) (l : Sh) (h : Nat) (rl rr : Sh) : rotL (node k l (node h rl rr)) = mk (mk l rl) rr := rfl
theorem rotR_node (k : Nat) (r : Sh) (h : Nat) (ll lr : Sh) : rotR (node k (node h ll lr) r) = mk ll (mk lr r) := rfl

theorem Bal.ht_depth : ∀ {s : Sh}, s.Bal → s.ht = s.depth
  | nil, _ => rfl
  | node h l r, ⟨e, _, _, bl, br⟩ => by
    have := bl.ht_depth
    have := br.ht_depth
    simp only [ht, depth]
    omega

theorem Bal.avl : ∀ {s : Sh}, s.Bal → s.Avl
  | nil, _ => trivial
  | node h l r, ⟨_, a, b, bl, br⟩ => by
    rw [bl.ht_depth, br.ht_depth] at a b
    exact ⟨a, b, bl.avl, br.avl⟩

/-- The least size for a depth, in closed form. -/
theorem Avl.size_ge : ∀ {s : Sh}, s.Avl → 2 ^ s.depth ≤ (s.size + 1) ^ 2 ∧ s.depth ≤ s.size
  | nil, _ => ⟨by simp [depth, size], Nat.le_refl _⟩
  | node h l r, ⟨a, b, al, ar⟩ => by
    obtain ⟨pl, sl⟩ := al.size_ge
    obtain ⟨pr, sr⟩ := ar.size_ge
    refine ⟨?_, by simp only [depth, size]; omega⟩
    simp only [depth, size]
    have key : ∀ {x y p q m : Nat}, 2 ^ p ≤ (x + 1) ^ 2 → 2 ^ q ≤ (y + 1) ^ 2 → p ≤ q + 1 → q ≤ p → p ≤ x → q ≤ y →
        m = x + y → 2 ^ (1 + p) ≤ (m + 1 + 1) ^ 2 := by
      intro x y p q m hp hq h1 h2 hx hy hm
      subst hm
      rcases Nat.lt_or_ge p (q + 1) with h | h
      · have e : p = q := by omega
        subst e
        rw [Nat.pow_add, Nat.pow_one]
        have : (x + y + 1 + 1) ^ 2 = (x + 1) ^ 2 + (y + 1) ^ 2 + 2 * (x + 1) * (y + 1) := by grind
        omega
      · have e : p = q + 1 := by omega
        subst e
        have e2 : 2 ^ (1 + (q + 1)) = 4 * 2 ^ q := by rw [show 1 + (q + 1) = q + 2 by omega, Nat.pow_add]; omega
        rw [e2]
        have p2 : 2 ^ (q + 1) = 2 * 2 ^ q := by rw [Nat.pow_add]; omega
        rw [p2] at hp
        have h3 : (x + y + 1 + 1) ^ 2 = (x + 1) ^ 2 + (y + 1) ^ 2 + 2 * (x + 1) * (y + 1) := by grind
        have h4 : 2 ^ q ≤ (x + 1) * (y + 1) := by
          rcases Nat.le_total (x + 1) (y + 1) with g | g
          · have : (x + 1) ^ 2 ≤ (x + 1) * (y + 1) := by rw [Nat.pow_two]; exact Nat.mul_le_mul_left _ g
            omega
          · have : (y + 1) ^ 2 ≤ (x + 1) * (y + 1) := by rw [Nat.pow_two]; exact Nat.mul_le_mul_right _ g
            omega
        have h5 : 2 * (x + 1) * (y + 1) = 2 * ((x + 1) * (y + 1)) := Nat.mul_assoc ..
        omega
    rcases Nat.le_total l.depth r.depth with h | h
    · rw [Nat.max_eq_right h]
      exact key pr pl b h sr sl (Nat.add_comm ..)
    · rw [Nat.max_eq_left h]
      exact key pl pr a h sl sr rfl

/-! ## Rebalancing -/

theorem size_rotL (s : Sh) : s.rotL.size = s.size := by
  cases s with
  | nil => rfl
  | node h l r => cases r with
    | nil => rfl
    | node => simp only [rotL, mk, size]; omega

theorem size_rotR (s : Sh) : s.rotR.size = s.size := by
  cases s with
  | nil => rfl
  | node h l r => cases l with
    | nil => rfl
    | node => simp only [rotR, mk, size]; omega

theorem size_rebal (l r : Sh) : (rebal l r).size = l.size + r.size + 1 := by
  unfold rebal
  split
  · rw [size_rotL]; simp only [mk, size]; split <;> simp only [size_rotR]
  · split
    · rw [size_rotR]; simp only [mk, size]; split <;> simp only [size_rotL]
    · rfl

theorem size_rebalEq (l r : Sh) : (rebalEq l r).size = l.size + r.size + 1 := by
  unfold rebalEq
  split
  · rw [size_rotL]; simp only [mk, size]; split <;> simp only [size_rotR]
  · split
    · rw [size_rotR]; simp only [mk, size]; split <;> simp only [size_rotL]
    · rfl

theorem rebalEq_eq {l r : Sh} (a : l.ht ≤ r.ht + 2) (b : r.ht ≤ l.ht + 2) : rebalEq l r = rebal l r := by
  unfold rebalEq rebal
  have e1 : ((l.ht : Int) - r.ht = -2) ↔ ((l.ht : Int) - r.ht ≤ -2) := by omega
  have e2 : ((l.ht : Int) - r.ht = 2) ↔ ((l.ht : Int) - r.ht ≥ 2) := by omega
  simp only [e1, e2]

/-- A balanced node is left as it is. -/
theorem rebal_self {l r : Sh} (a : l.ht ≤ r.ht + 1) (b : r.ht ≤ l.ht + 1) : rebal l r = mk l r := by
  unfold rebal
  rw [if_neg (by omega), if_neg (by omega)]

theorem bal_eq_mk {h : Nat} {l r : Sh} (b : (node h l r).Bal) : node h l r = mk l r := by
  rw [mk, b.1]

/-- Two balanced sides that differ by two at most are made into a balanced tree. -/
theorem rebal_bal {l r : Sh} (bl : l.Bal) (br : r.Bal) (a : l.ht ≤ r.ht + 2) (b : r.ht ≤ l.ht + 2) :
    (rebal l r).Bal ∧ max l.ht r.ht ≤ (rebal l r).ht ∧ (rebal l r).ht ≤ max l.ht r.ht + 1 := by
  unfold rebal
  split
  · rename_i h
    cases r with
    | nil => rw [ht_nil] at h; omega
    | node h1 rl rr =>
      obtain ⟨e1, a1, b1, bl1, br1⟩ := br
      rw [ht_node] at *
      rw [left_node, right_node]
      split
      · cases rl with
        | nil => rw [ht_nil] at *; omega
        | node h2 x y =>
          obtain ⟨e2, a2, b2, bx, bz⟩ := bl1
          rw [ht_node] at *
          rw [rotR_node]
          change (rotL (mk l (node _ x (mk y rr)))).Bal ∧ _ ≤ (rotL (mk l (node _ x (mk y rr)))).ht ∧
            (rotL (mk l (node _ x (mk y rr)))).ht ≤ _
          simp only [rotL_mk, ht_mk, bal_mk]
          refine ⟨⟨?_, ?_, ⟨?_, ?_, bl, bx⟩, ⟨?_, ?_, bz, br1⟩⟩, ?_, ?_⟩ <;> omega
      · simp only [rotL_mk, ht_mk, bal_mk]
        refine ⟨⟨?_, ?_, ⟨?_, ?_, bl, bl1⟩, br1⟩, ?_, ?_⟩ <;> omega
  · split
    · rename_i h
      cases l with
      | nil => rw [ht_nil] at h; omega
      | node h1 ll lr =>
        obtain ⟨e1, a1, b1, bl1, br1⟩ := bl
        rw [ht_node] at *
        rw [left_node, right_node]
        split
        · cases lr with
          | nil => rw [ht_nil] at *; omega
          | node h2 x y =>
            obtain ⟨e2, a2, b2, bx, bz⟩ := br1
            rw [ht_node] at *
            rw [rotL_node]
            change (rotR (mk (node _ (mk ll x) y) r)).Bal ∧ _ ≤ (rotR (mk (node _ (mk ll x) y) r)).ht ∧
              (rotR (mk (node _ (mk ll x) y) r)).ht ≤ _
            simp only [rotR_mk, ht_mk, bal_mk]
            refine ⟨⟨?_, ?_, ⟨?_, ?_, bl1, bx⟩, ⟨?_, ?_, bz, br⟩⟩, ?_, ?_⟩ <;> omega
        · simp only [rotR_mk, ht_mk, bal_mk]
          refine ⟨⟨?_, ?_, bl1, ⟨?_, ?_, br1, br⟩⟩, ?_, ?_⟩ <;> omega
    · simp only [ht_mk, bal_mk]
      refine ⟨⟨?_, ?_, bl, br⟩, ?_, ?_⟩ <;> omega

/-- `s'` is what an insertion in `s` may give. -/
def Grown (s s' : Sh) : Prop := s'.Bal ∧ s.ht ≤ s'.ht ∧ s'.ht ≤ s.ht + 1

/-- `s'` is what a removal from `s` may give. -/
def Shrunk (s s' : Sh) : Prop := s'.Bal ∧ s'.ht ≤ s.ht ∧ s.ht ≤ s'.ht + 1

theorem Grown.left {h : Nat} {l r l' : Sh} (b : (node h l r).Bal) (g : Grown l l') :
    Grown (node h l r) (rebal l' r) := by
  obtain ⟨e, x, y, bl, br⟩ := b
  obtain ⟨b1, x1, y1⟩ := g
  have k := rebal_bal b1 br (by omega) (by omega)
  refine ⟨k.1, ?_⟩
  by_cases hh : l'.ht ≤ r.ht + 1
  · rw [rebal_self hh (by omega)]
    rw [ht_mk, ht_node]
    omega
  · rw [ht_node]
    omega

theorem Grown.right {h : Nat} {l r r' : Sh} (b : (node h l r).Bal) (g : Grown r r') :
    Grown (node h l r) (rebal l r') := by
  obtain ⟨e, x, y, bl, br⟩ := b
  obtain ⟨b1, x1, y1⟩ := g
  have k := rebal_bal bl b1 (by omega) (by omega)
  refine ⟨k.1, ?_⟩
  by_cases hh : r'.ht ≤ l.ht + 1
  · rw [rebal_self (by omega) hh]
    rw [ht_mk, ht_node]
    omega
  · rw [ht_node]
    omega

theorem Shrunk.left {h : Nat} {l r l' : Sh} (b : (node h l r).Bal) (g : Shrunk l l') :
    Shrunk (node h l r) (rebal l' r) := by
  obtain ⟨e, x, y, bl, br⟩ := b
  obtain ⟨b1, x1, y1⟩ := g
  have k := rebal_bal b1 br (by omega) (by omega)
  refine ⟨k.1, ?_⟩
  by_cases hh : r.ht ≤ l'.ht + 1
  · rw [rebal_self (by omega) hh]
    rw [ht_mk, ht_node]
    omega
  · rw [ht_node]
    omega

theorem Shrunk.right {h : Nat} {l r r' : Sh} (b : (node h l r).Bal) (g : Shrunk r r') :
    Shrunk (node h l r) (rebal l r') := by
  obtain ⟨e, x, y, bl, br⟩ := b
  obtain ⟨b1, x1, y1⟩ := g
  have k := rebal_bal bl b1 (by omega) (by omega)
  refine ⟨k.1, ?_⟩
  by_cases hh : l.ht ≤ r'.ht + 1
  · rw [rebal_self hh (by omega)]
    rw [ht_mk, ht_node]
    omega
  · rw [ht_node]
    omega

theorem Grown.refl {s : Sh} (b : s.Bal) : Grown s s := ⟨b, Nat.le_refl _, Nat.le_succ _⟩
theorem Shrunk.refl {s : Sh} (b : s.Bal) : Shrunk s s := ⟨b, Nat.le_refl _, Nat.le_succ _⟩

/-- Rebalancing a balanced tree does nothing. -/
theorem rebal_node {h : Nat} {l r : Sh} (b : (node h l r).Bal) : rebal l r = node h l r := by
  rw [rebal_self b.2.1 b.2.2.1, bal_eq_mk b]

end Sh

end Gpeg
