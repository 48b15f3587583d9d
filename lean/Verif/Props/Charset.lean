import Verif.Charset
/-! # Properties C01–C05 (`charset`) -/
namespace Gpeg
open CSet

/-- **C01**. `charset.New(chars).Has(b)` iff `b` occurs in `chars`. -/
theorem C01_new_has (chars : List UInt8) (b : UInt8) :
    (CSet.new chars).has b = true ↔ b ∈ chars := by
  rw [has_new, List.contains_iff_mem]

example : (CSet.new [97, 200, 63, 64]).has 200 = true ∧ (CSet.new [97, 200]).has 98 = false := by
  decide

/-- **C02**. `charset.Range(low, high).Has(b)` iff `low ≤ b ≤ high`. -/
theorem C02_range_has (low high b : UInt8) :
    (CSet.range low high).has b = true ↔ low ≤ b ∧ b ≤ high := by
  rw [has_range, decide_eq_true_eq]

example : (CSet.range 60 70).has 64 = true ∧ (CSet.range 60 70).has 71 = false
    ∧ (CSet.range 70 60).has 65 = false := by decide

/-- **C03**. Complement, union and difference. -/
theorem C03_algebra (a b : CSet) (x : UInt8) :
    (a.complement.has x = true ↔ ¬ a.has x = true) ∧
    ((a.add b).has x = true ↔ a.has x = true ∨ b.has x = true) ∧
    ((a.sub b).has x = true ↔ a.has x = true ∧ ¬ b.has x = true) := by
  rw [has_complement, has_add, has_sub]
  cases a.has x <;> cases b.has x <;> decide

/-- **C03** (corollary): complement is an involution, and `a.Sub(b)` is `a` with everything of
`b` removed, i.e. the complement of `(complement a) ∪ b`. -/
theorem C03_involution (a b : CSet) :
    a.complement.complement = a ∧ a.sub b = (a.complement.add b).complement := by
  constructor <;> apply ext_has <;> intro r <;>
    simp only [has_complement, has_add, has_sub] <;> cases a.has r <;> cases b.has r <;> rfl

example : ((CSet.range 97 122).sub (CSet.new [101])).has 101 = false
    ∧ ((CSet.range 97 122).sub (CSet.new [101])).has 102 = true := by decide

/-- All 256 bytes, in order. -/
def allBytes : List UInt8 := (List.range 256).map UInt8.ofNat

/-- **C04**. `Size()` is the number of accepted bytes. -/
theorem C04_size (c : CSet) : c.size = allBytes.countP c.has := by
  rw [size_eq_count_bit, allBytes, List.countP_map]
  apply countP_congr'
  intro i hi
  show c.bit i = c.has (UInt8.ofNat i)
  rw [has_eq_bit, UInt8.toNat_ofNat_of_lt' (by simpa using hi)]

example : (CSet.new [65, 66, 65, 255]).size = 3 := by decide +kernel

/-- `allBytes` really lists every byte exactly once. -/
theorem allBytes_complete : (∀ b : UInt8, b ∈ allBytes) ∧ allBytes.Nodup := by
  constructor
  · intro b
    rw [allBytes, List.mem_map]
    exact ⟨b.toNat, List.mem_range.mpr b.toNat_lt, UInt8.ofNat_toNat⟩
  · rw [allBytes, List.Nodup, List.pairwise_map]
    refine List.Pairwise.imp_of_mem ?_ List.nodup_range
    intro a b ha hb hab h
    apply hab
    rw [List.mem_range] at ha hb
    have := congrArg UInt8.toNat h
    rwa [UInt8.toNat_ofNat_of_lt' (by simpa using ha),
      UInt8.toNat_ofNat_of_lt' (by simpa using hb)] at this

theorem bit_word (c : CSet) (m i : Nat) (h : m / 64 = i) : c.bit m = (c.word i).getLsbD (m % 64) := by
  unfold bit; rw [h]

/-- **C04**. `IsSmall` iff no byte ≥ 128 is accepted; a small set and its `SmallSet` agree on all
bytes below 128 (on which `SmallSet.Has` does not panic) and have the same `Size`. -/
theorem C04_small (c : CSet) :
    (c.isSmall = true ↔ ∀ b : UInt8, 128 ≤ b → c.has b = false) ∧
    (∀ b : UInt8, b < 128 → c.smallSet.has b = some (c.has b)) ∧
    (c.isSmall = true → c.smallSet.size = c.size) := by
  refine ⟨⟨?_, ?_⟩, ?_, ?_⟩
  · intro h b hb
    simp only [isSmall, Bool.and_eq_true, beq_iff_eq] at h
    rw [has_eq_bit]
    have hlt := b.toNat_lt
    rw [UInt8.le_iff_toNat_le] at hb
    have hb' : 128 ≤ b.toNat := hb
    have : b.toNat / 64 = 2 ∨ b.toNat / 64 = 3 := by omega
    rcases this with e | e <;> rw [bit_word _ _ _ e]
    · show c.w2.getLsbD _ = false; rw [h.1]; exact BitVec.getLsbD_zero
    · show c.w3.getLsbD _ = false; rw [h.2]; exact BitVec.getLsbD_zero
  · intro h
    have key : ∀ m, 128 ≤ m → m < 256 → c.bit m = false := by
      intro m h1 h2
      have := h (UInt8.ofNat m) (by
        rw [UInt8.le_iff_toNat_le, UInt8.toNat_ofNat_of_lt' (by simpa using h2)]; exact h1)
      rwa [has_eq_bit, UInt8.toNat_ofNat_of_lt' (by simpa using h2)] at this
    simp only [isSmall, Bool.and_eq_true, beq_iff_eq]
    constructor
    · apply BitVec.eq_of_getLsbD_eq
      intro i hi
      have := key (128 + i) (by omega) (by omega)
      rw [bit_word _ _ 2 (by omega), show (128 + i) % 64 = i by omega] at this
      rw [show c.w2.getLsbD i = false from this]; exact (BitVec.getLsbD_zero).symm
    · apply BitVec.eq_of_getLsbD_eq
      intro i hi
      have := key (192 + i) (by omega) (by omega)
      rw [bit_word _ _ 3 (by omega), show (192 + i) % 64 = i by omega] at this
      rw [show c.w3.getLsbD i = false from this]; exact (BitVec.getLsbD_zero).symm
  · intro b hb
    rw [UInt8.lt_iff_toNat_lt] at hb
    have hb' : b.toNat < 128 := hb
    have : b.toNat / 64 = 0 ∨ b.toNat / 64 = 1 := by omega
    rcases this with e | e <;> unfold SmallSet.has CSet.has <;> rw [e] <;> rfl
  · intro h
    simp only [isSmall, Bool.and_eq_true, beq_iff_eq] at h
    unfold SmallSet.size CSet.size
    rw [h.1, h.2]
    have : onesCount 0 = 0 := by decide +kernel
    rw [this]; rfl

example : (CSet.range 32 126).isSmall = true ∧ (CSet.range 32 128).isSmall = false := by
  decide +kernel

/-- **C05**. Structural equality (Go `==`) of sets is equality of the accepted bytes. -/
theorem C05_ext (c d : CSet) : c = d ↔ ∀ b : UInt8, c.has b = d.has b :=
  ⟨fun h _ => h ▸ rfl, ext_has⟩

example : CSet.new [97, 98, 99] = CSet.range 97 99 := by decide +kernel

end Gpeg
