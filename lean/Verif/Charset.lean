/-!
# Model of `charset/charset.go`

A Go `uint64` is a `BitVec 64`, a Go `byte` a `UInt8`.
-/
namespace Gpeg

/-- `charset/charset.go:14-18` `Set{Bits [4]uint64}`. -/
structure CSet where
  w0 : BitVec 64
  w1 : BitVec 64
  w2 : BitVec 64
  w3 : BitVec 64
deriving DecidableEq, Repr, Inhabited

/-- `charset/charset.go:24-26` `SmallSet{Bits [2]uint64}`. -/
structure SmallSet where
  w0 : BitVec 64
  w1 : BitVec 64
deriving DecidableEq, Repr

namespace CSet

/-- The Go zero value of `Set`. -/
def empty : CSet := ⟨0, 0, 0, 0⟩

/-- Array indexing `c.Bits[i]` for `i < 4` (`r>>6` of a byte is always `< 4`). -/
def word (c : CSet) (i : Nat) : BitVec 64 :=
  match i with
  | 0 => c.w0
  | 1 => c.w1
  | 2 => c.w2
  | _ => c.w3

/-- `charset/charset.go:129-131` `Set.Has`:
`c.Bits[r>>6] & (uint64(1)<<(r&63)) != 0`. -/
def has (c : CSet) (r : UInt8) : Bool :=
  (c.word (r.toNat / 64) &&& ((1 : BitVec 64) <<< (r.toNat % 64))) != 0

/-- Body of the loops at `charset/charset.go:57-70` and `:81-94`: set the bit of `n`. -/
def addBit (c : CSet) (n : Nat) : CSet :=
  if n < 64 then { c with w0 := c.w0 ||| ((1 : BitVec 64) <<< n) }
  else if n < 128 then { c with w1 := c.w1 ||| ((1 : BitVec 64) <<< (n - 64)) }
  else if n < 192 then { c with w2 := c.w2 ||| ((1 : BitVec 64) <<< (n - 128)) }
  else { c with w3 := c.w3 ||| ((1 : BitVec 64) <<< (n - 192)) }

/-- `charset/charset.go:54-74` `New`. -/
def new (chars : List UInt8) : CSet :=
  chars.foldl (fun set r => set.addBit r.toNat) empty

/-- The `for c := int(low); c <= int(high); c++` loop of `Range`, run for `k` iterations
starting at `c` (`charset/charset.go:80-95`). -/
def rangeLoop (set : CSet) (c : Nat) : Nat → CSet
  | 0 => set
  | k + 1 => rangeLoop (set.addBit c) (c + 1) k

/-- `charset/charset.go:78-98` `Range`. The loop runs `high + 1 - low` times (truncated). -/
def range (low high : UInt8) : CSet :=
  rangeLoop empty low.toNat (high.toNat + 1 - low.toNat)

/-- `charset/charset.go:102-106` `Complement`. -/
def complement (c : CSet) : CSet := ⟨~~~c.w0, ~~~c.w1, ~~~c.w2, ~~~c.w3⟩

/-- `charset/charset.go:109-113` `Add`. -/
def add (c c1 : CSet) : CSet :=
  ⟨c1.w0 ||| c.w0, c1.w1 ||| c.w1, c1.w2 ||| c.w2, c1.w3 ||| c.w3⟩

/-- `charset/charset.go:116-120` `Sub`. -/
def sub (c c1 : CSet) : CSet :=
  ⟨~~~c1.w0 &&& c.w0, ~~~c1.w1 &&& c.w1, ~~~c1.w2 &&& c.w2, ~~~c1.w3 &&& c.w3⟩

/-- `math/bits.OnesCount64` (Go standard library): the number of one bits. -/
def onesCount (w : BitVec 64) : Nat := (List.range 64).countP (fun i => w.getLsbD i)

/-- `charset/charset.go:123-125` `Set.Size`. -/
def size (c : CSet) : Nat :=
  onesCount c.w0 + onesCount c.w1 + onesCount c.w2 + onesCount c.w3

/-- `charset/charset.go:41-43` `IsSmall`. -/
def isSmall (c : CSet) : Bool := c.w2 == 0 && c.w3 == 0

/-- `charset/charset.go:46-50` `Set.SmallSet`. -/
def smallSet (c : CSet) : SmallSet := ⟨c.w0, c.w1⟩

end CSet

namespace SmallSet

/-- `charset/charset.go:29-31` `SmallSet.Size`. -/
def size (c : SmallSet) : Nat := CSet.onesCount c.w0 + CSet.onesCount c.w1

/-- `charset/charset.go:35-37` `SmallSet.Has`; `none` is the index-out-of-range panic of
`c.Bits[r>>6]` for `r >= 128`. -/
def has (c : SmallSet) (r : UInt8) : Option Bool :=
  match r.toNat / 64 with
  | 0 => some ((c.w0 &&& ((1 : BitVec 64) <<< (r.toNat % 64))) != 0)
  | 1 => some ((c.w1 &&& ((1 : BitVec 64) <<< (r.toNat % 64))) != 0)
  | _ => none

end SmallSet

/-! ## Helper lemmas -/
namespace CSet

theorem and_one_shl_ne_zero (w : BitVec 64) (k : Nat) (hk : k < 64) :
    ((w &&& ((1 : BitVec 64) <<< k)) != 0) = w.getLsbD k := by
  have h1 : ∀ i : Nat, ((1 : BitVec 64) <<< k).getLsbD i = decide (i = k ∧ i < 64) := by
    intro i
    rw [BitVec.getLsbD_shiftLeft]
    by_cases hi : i < 64
    · by_cases hik : i < k
      · have : ¬ (i = k) := by omega
        simp [hik, this]
      · have h2 : (1 : BitVec 64).getLsbD (i - k) = decide (i - k = 0) := by
          rw [show (1 : BitVec 64) = 1#64 from rfl, BitVec.getLsbD_one]; simp
        rw [h2]
        by_cases he : i = k
        · subst he; simp [hi]
        · have : ¬ (i - k = 0) := by omega
          simp [this, he]
    · simp [hi]
  cases hb : w.getLsbD k with
  | true =>
    rw [bne_iff_ne]
    intro h
    have h' : (w &&& ((1 : BitVec 64) <<< k)).getLsbD k = (0 : BitVec 64).getLsbD k := by rw [h]
    rw [BitVec.getLsbD_and, h1, hb] at h'
    simp [hk] at h'
  | false =>
    have : w &&& ((1 : BitVec 64) <<< k) = 0 := by
      apply BitVec.eq_of_getLsbD_eq
      intro i hi
      rw [BitVec.getLsbD_and, h1]
      by_cases he : i = k
      · subst he; simp [hb]
      · simp [he]
    rw [this]; rfl

/-- The bit of number `n` (0..255) in the set. -/
def bit (c : CSet) (n : Nat) : Bool := (c.word (n / 64)).getLsbD (n % 64)

theorem has_eq_bit (c : CSet) (r : UInt8) : c.has r = c.bit r.toNat :=
  and_one_shl_ne_zero _ _ (Nat.mod_lt _ (by decide))

theorem getLsbD_one_shl (k i : Nat) (hi : i < 64) :
    ((1 : BitVec 64) <<< k).getLsbD i = decide (i = k) := by
  rw [BitVec.getLsbD_shiftLeft]
  by_cases hik : i < k
  · have : ¬ (i = k) := by omega
    simp [hik, this]
  · have h2 : (1 : BitVec 64).getLsbD (i - k) = decide (i - k = 0) := by
      rw [show (1 : BitVec 64) = 1#64 from rfl, BitVec.getLsbD_one]; simp
    rw [h2]
    by_cases he : i = k
    · subst he; simp [hi]
    · have : ¬ (i - k = 0) := by omega
      simp [this, he]

theorem bit_addBit (c : CSet) (n m : Nat) (hn : n < 256) (hm : m < 256) :
    (c.addBit n).bit m = (c.bit m || decide (m = n)) := by
  have hmm : m % 64 < 64 := Nat.mod_lt _ (by decide)
  have h4 : m / 64 = 0 ∨ m / 64 = 1 ∨ m / 64 = 2 ∨ m / 64 = 3 := by omega
  unfold addBit bit
  rcases h4 with h | h | h | h <;> rw [h] <;> split <;> try split
  all_goals (try split)
  all_goals simp only [word, BitVec.getLsbD_or, getLsbD_one_shl _ _ hmm]
  all_goals
    first
    | (congr 1; apply decide_eq_decide.mpr; omega)
    | (have : ¬ (m = n) := by omega
       simp [this])

theorem bit_empty (m : Nat) : empty.bit m = false := by
  unfold bit empty word
  split <;> exact BitVec.getLsbD_zero

theorem bit_foldl (chars : List UInt8) : ∀ (c : CSet) (m : Nat), m < 256 →
    (chars.foldl (fun set r => set.addBit r.toNat) c).bit m
      = (c.bit m || chars.any (fun r => decide (r.toNat = m))) := by
  induction chars with
  | nil => intro c m _; simp
  | cons r rs ih =>
    intro c m hm
    rw [List.foldl_cons, ih _ _ hm, bit_addBit _ _ _ r.toNat_lt hm, List.any_cons, Bool.or_assoc]
    congr 2
    apply decide_eq_decide.mpr; omega

theorem bit_rangeLoop : ∀ (k : Nat) (c : CSet) (n m : Nat), n + k ≤ 256 → m < 256 →
    (rangeLoop c n k).bit m = (c.bit m || decide (n ≤ m ∧ m < n + k)) := by
  intro k
  induction k with
  | zero =>
    intro c n m _ _
    rw [rangeLoop, decide_eq_false (by omega : ¬ (n ≤ m ∧ m < n + 0)), Bool.or_false]
  | succ k ih =>
    intro c n m h hm
    rw [rangeLoop, ih _ _ _ (by omega) hm, bit_addBit _ _ _ (by omega) hm, Bool.or_assoc]
    congr 1
    by_cases he : m = n
    · subst he; simp
    · simp only [he, decide_false, Bool.false_or]
      apply decide_eq_decide.mpr; omega

theorem word_complement (c : CSet) (i : Nat) : (c.complement).word i = ~~~ (c.word i) := by
  unfold word complement; split <;> rfl

theorem word_add (c d : CSet) (i : Nat) : (c.add d).word i = d.word i ||| c.word i := by
  unfold word add; split <;> rfl

theorem word_sub (c d : CSet) (i : Nat) : (c.sub d).word i = ~~~(d.word i) &&& c.word i := by
  unfold word sub; split <;> rfl

theorem has_complement (c : CSet) (r : UInt8) : c.complement.has r = !c.has r := by
  rw [has_eq_bit, has_eq_bit]; unfold bit
  rw [word_complement, BitVec.getLsbD_not]
  simp [Nat.mod_lt]

theorem has_add (c d : CSet) (r : UInt8) : (c.add d).has r = (c.has r || d.has r) := by
  rw [has_eq_bit, has_eq_bit, has_eq_bit]; unfold bit
  rw [word_add, BitVec.getLsbD_or, Bool.or_comm]

theorem has_sub (c d : CSet) (r : UInt8) : (c.sub d).has r = (c.has r && !d.has r) := by
  rw [has_eq_bit, has_eq_bit, has_eq_bit]; unfold bit
  rw [word_sub, BitVec.getLsbD_and, BitVec.getLsbD_not, Bool.and_comm]
  simp [Nat.mod_lt]

theorem has_new (chars : List UInt8) (r : UInt8) : (new chars).has r = chars.contains r := by
  rw [has_eq_bit]; unfold new
  rw [bit_foldl _ _ _ r.toNat_lt, bit_empty, Bool.false_or]
  rw [Bool.eq_iff_iff]
  simp only [List.any_eq_true, decide_eq_true_eq, List.contains_iff_mem]
  constructor
  · rintro ⟨x, hx, he⟩
    have : x = r := UInt8.toNat.inj he
    exact this ▸ hx
  · intro h; exact ⟨r, h, rfl⟩

theorem has_range (low high r : UInt8) :
    (range low high).has r = decide (low ≤ r ∧ r ≤ high) := by
  rw [has_eq_bit]; unfold range
  have hl := low.toNat_lt
  have hh := high.toNat_lt
  have hr := r.toNat_lt
  by_cases hle : low.toNat ≤ high.toNat + 1
  · rw [bit_rangeLoop _ _ _ _ (by omega) (by omega), bit_empty, Bool.false_or]
    apply decide_eq_decide.mpr
    rw [UInt8.le_iff_toNat_le, UInt8.le_iff_toNat_le]
    omega
  · have h0 : high.toNat + 1 - low.toNat = 0 := by omega
    rw [h0]
    have : ¬ (low ≤ r ∧ r ≤ high) := by
      rw [UInt8.le_iff_toNat_le, UInt8.le_iff_toNat_le]; omega
    simp [rangeLoop, bit_empty, this]

theorem ext_bit {c d : CSet} (h : ∀ m, m < 256 → c.bit m = d.bit m) : c = d := by
  have hw : ∀ i, i < 4 → c.word i = d.word i := by
    intro i hi
    apply BitVec.eq_of_getLsbD_eq
    intro j hj
    have := h (64 * i + j) (by omega)
    unfold bit at this
    rw [show (64 * i + j) / 64 = i by omega, show (64 * i + j) % 64 = j by omega] at this
    exact this
  cases c; cases d
  have h0 := hw 0 (by decide)
  have h1 := hw 1 (by decide)
  have h2 := hw 2 (by decide)
  have h3 := hw 3 (by decide)
  simp only [word] at h0 h1 h2 h3
  subst h0; subst h1; subst h2; subst h3; rfl

theorem ext_has {c d : CSet} (h : ∀ r : UInt8, c.has r = d.has r) : c = d := by
  apply ext_bit
  intro m hm
  have := h (UInt8.ofNat m)
  rw [has_eq_bit, has_eq_bit] at this
  rwa [UInt8.toNat_ofNat_of_lt' (by simpa using hm)] at this

theorem countP_range_shift (f : Nat → Bool) (n m : Nat) :
    (List.range (n + m)).countP f
      = (List.range n).countP f + (List.range m).countP (fun i => f (n + i)) := by
  rw [List.range_add, List.countP_append, List.countP_map]; rfl

theorem countP_congr' {f g : Nat → Bool} (n : Nat) (h : ∀ i, i < n → f i = g i) :
    (List.range n).countP f = (List.range n).countP g := by
  apply List.countP_congr
  intro x hx
  rw [h x (List.mem_range.mp hx)]

theorem size_eq_count_bit (c : CSet) : c.size = (List.range 256).countP c.bit := by
  rw [show 256 = 64 + (64 + (64 + 64)) from rfl, countP_range_shift, countP_range_shift,
    countP_range_shift]
  unfold size onesCount
  have h : ∀ i, i < 64 → ∀ k, (k + i) / 64 = k / 64 ∨ k % 64 ≠ 0 := by omega
  rw [countP_congr' (f := c.bit) (g := fun i => c.w0.getLsbD i) 64,
    countP_congr' (f := fun i => c.bit (64 + i)) (g := fun i => c.w1.getLsbD i) 64,
    countP_congr' (f := fun i => c.bit (64 + (64 + i))) (g := fun i => c.w2.getLsbD i) 64,
    countP_congr' (f := fun i => c.bit (64 + (64 + (64 + i)))) (g := fun i => c.w3.getLsbD i) 64]
  · omega
  all_goals
    intro i hi
    unfold bit
  · rw [show (64 + (64 + (64 + i))) / 64 = 3 by omega,
      show (64 + (64 + (64 + i))) % 64 = i by omega]; rfl
  · rw [show (64 + (64 + i)) / 64 = 2 by omega, show (64 + (64 + i)) % 64 = i by omega]; rfl
  · rw [show (64 + i) / 64 = 1 by omega, show (64 + i) % 64 = i by omega]; rfl
  · rw [show i / 64 = 0 by omega, show i % 64 = i by omega]; rfl

end CSet
end Gpeg
