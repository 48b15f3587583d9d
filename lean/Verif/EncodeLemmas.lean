import Verif.Bisim
import Verif.Encode
/-!
# Encoding and decoding are inverse; running bytecode is running the instruction list
-/
namespace Gpeg
variable {ι τ σ : Type}

set_option linter.unusedSimpArgs false

/-! ## Operands -/

theorem ofNat_toNat {n : Nat} (h : n < 256) : (UInt8.ofNat n).toNat = n := by
  rw [UInt8.toNat_ofNat']; exact Nat.mod_eq_of_lt h

theorem or_shift8 {a b : Nat} (h : a < 256) : a ||| b <<< 8 = a + b * 256 := by
  have := Nat.shiftLeft_add_eq_or_of_lt (i := 8) (b := a) (by omega) b
  rw [Nat.or_comm, ← this, Nat.shiftLeft_eq]; omega

theorem or_shift16 {a b : Nat} (h : a < 65536) : b <<< 16 ||| a = b * 65536 + a := by
  have := Nat.shiftLeft_add_eq_or_of_lt (i := 16) (b := a) (by omega) b
  rw [← this, Nat.shiftLeft_eq]

theorem encodeU8_some {x : Nat} {bs : List UInt8} (h : encodeU8 x = some bs) :
    x < 256 ∧ bs = [UInt8.ofNat x] := by
  unfold encodeU8 at h
  split at h
  · cases h
  · cases h; exact ⟨by omega, rfl⟩

/-- The three bytes of a 24-bit operand. -/
theorem encodeU24_some {x : Nat} {bs : List UInt8} (h : encodeU24 x = some bs) :
    ∃ a b c : UInt8, bs = [a, b, c] ∧ a.toNat <<< 16 ||| (b.toNat ||| c.toNat <<< 8) = x := by
  unfold encodeU24 at h
  split at h
  · cases h
  · rename_i hx
    cases h
    refine ⟨_, _, _, rfl, ?_⟩
    have e1 : (x >>> 16) &&& 255 = x / 65536 := by
      rw [Nat.shiftRight_eq_div_pow, show (255 : Nat) = 2 ^ 8 - 1 from rfl, Nat.and_two_pow_sub_one_eq_mod]
      simp only [Nat.reducePow]
      simp only [Nat.reducePow] at hx
      omega
    simp only [Nat.reducePow] at hx
    rw [e1, ofNat_toNat (by omega), ofNat_toNat (by omega), ofNat_toNat (by omega), or_shift8 (by omega),
      or_shift16 (by omega)]
    omega

/-- Sign extension of a 16-bit value. -/
def sx16 (u : Nat) : Int := if u ≥ 32768 then (u : Int) - 65536 else u

theorem decodeI16_eq (b : List UInt8) (off : Nat) : decodeI16 b off = (decodeU16 b off).map sx16 := rfl

/-- The two bytes of a 16-bit operand. -/
theorem encodeI16_some {x : Int} {bs : List UInt8} (h : encodeI16 x = some bs) :
    ∃ a b : UInt8, bs = [a, b] ∧ sx16 (a.toNat ||| b.toNat <<< 8) = x := by
  unfold encodeI16 at h
  split at h
  · cases h
  · rename_i hx
    cases h
    refine ⟨_, _, rfl, ?_⟩
    rw [ofNat_toNat (by omega), ofNat_toNat (by omega), or_shift8 (by omega)]
    have e : (x % 65536).toNat % 256 + (x % 65536).toNat / 256 * 256 = (x % 65536).toNat := by omega
    rw [e]
    unfold sx16
    omega

/-! ## One instruction -/

namespace Insn
/-- Replace the label operand. -/
def retarget (f : Nat → Nat) : Insn → Insn
  | .jump l => .jump (f l)
  | .choice l => .choice (f l)
  | .call l => .call (f l)
  | .commit l => .commit (f l)
  | .partialCommit l => .partialCommit (f l)
  | .backCommit l => .backCommit (f l)
  | .testChar b l => .testChar b (f l)
  | .testCharNC b l => .testCharNC b (f l)
  | .testSet cs l => .testSet cs (f l)
  | .testSetNC cs l => .testSetNC cs (f l)
  | .testAny n l => .testAny n (f l)
  | .memoOpen l id => .memoOpen (f l) id
  | .memoTreeOpen l id => .memoTreeOpen (f l) id
  | i => i
end Insn

theorem exec1_retarget (c : Cfg ι τ σ) (f : Nat → Nat) (i : Insn) (nxt : Nat) (s : VM ι τ σ) :
    c.exec1 id (i.retarget f) nxt s = c.exec1 f i nxt s := by
  cases i <;> rfl

/-- `D` has the tables and bytes of `c`, followed by more. -/
structure Code.Ext (c D : Code) : Prop where
  sets : ∃ x, D.sets = c.sets ++ x
  errors : ∃ x, D.errors = c.errors ++ x
  checkers : ∃ x, D.checkers = c.checkers ++ x
  insns : ∃ x, D.insns = c.insns ++ x

theorem Code.Ext.refl (c : Code) : c.Ext c := ⟨⟨[], by simp⟩, ⟨[], by simp⟩, ⟨[], by simp⟩, ⟨[], by simp⟩⟩

theorem Code.Ext.trans {a b c : Code} (h : a.Ext b) (h' : b.Ext c) : a.Ext c := by
  obtain ⟨⟨x1, e1⟩, ⟨x2, e2⟩, ⟨x3, e3⟩, ⟨x4, e4⟩⟩ := h
  obtain ⟨⟨y1, f1⟩, ⟨y2, f2⟩, ⟨y3, f3⟩, ⟨y4, f4⟩⟩ := h'
  exact ⟨⟨x1 ++ y1, by rw [f1, e1, List.append_assoc]⟩, ⟨x2 ++ y2, by rw [f2, e2, List.append_assoc]⟩,
    ⟨x3 ++ y3, by rw [f3, e3, List.append_assoc]⟩, ⟨x4 ++ y4, by rw [f4, e4, List.append_assoc]⟩⟩

theorem findIdxFrom_some {α : Type} [DecidableEq α] {x : α} {l : List α} {i j : Nat}
    (h : findIdxFrom x l i = some j) : i ≤ j ∧ l[j - i]? = some x := by
  induction l generalizing i with
  | nil => cases h
  | cons y ys ih =>
    unfold findIdxFrom at h
    split at h
    · rename_i hxy
      cases h
      simp [hxy]
    · obtain ⟨h1, h2⟩ := ih h
      refine ⟨by omega, ?_⟩
      rw [show j - i = (j - (i + 1)) + 1 by omega, List.getElem?_cons_succ]
      exact h2

theorem addSet_spec (c : Code) (s : CSet) : (c.addSet s).2.sets[(c.addSet s).1]? = some s ∧
    (c.addSet s).2.insns = c.insns ∧ c.Ext (c.addSet s).2 := by
  unfold Code.addSet
  split
  · rename_i i hi
    exact ⟨(findIdxFrom_some hi).2, rfl, .refl c⟩
  · exact ⟨by simp, rfl, ⟨⟨[s], rfl⟩, ⟨[], by simp⟩, ⟨[], by simp⟩, ⟨[], by simp⟩⟩⟩

theorem addError_spec (c : Code) (s : String) : (c.addError s).2.errors[(c.addError s).1]? = some s ∧
    (c.addError s).2.insns = c.insns ∧ c.Ext (c.addError s).2 := by
  unfold Code.addError
  split
  · rename_i i hi
    exact ⟨(findIdxFrom_some hi).2, rfl, .refl c⟩
  · exact ⟨by simp, rfl, ⟨⟨[], by simp⟩, ⟨[s], rfl⟩, ⟨[], by simp⟩, ⟨[], by simp⟩⟩⟩

theorem addChecker_spec (c : Code) (k : Nat) : (c.addChecker k).2.checkers[(c.addChecker k).1]? = some k ∧
    (c.addChecker k).2.insns = c.insns ∧ c.Ext (c.addChecker k).2 :=
  ⟨by simp [Code.addChecker], rfl, ⟨⟨[], by simp [Code.addChecker]⟩, ⟨[], by simp [Code.addChecker]⟩,
    ⟨[k], rfl⟩, ⟨[], by simp [Code.addChecker]⟩⟩⟩

theorem getElem?_ext {α : Type} {l l' : List α} {i : Nat} {a : α} (h : l[i]? = some a)
    (h' : ∃ x, l' = l ++ x) : l'[i]? = some a := by
  obtain ⟨x, rfl⟩ := h'
  obtain ⟨hi, _⟩ := List.getElem?_eq_some_iff.1 h
  rw [List.getElem?_append_left hi]; exact h

theorem at_app {α : Type} (pre l : List α) (k : Nat) : (pre ++ l)[pre.length + k]? = l[k]? := by
  rw [List.getElem?_append_right (by omega)]; congr 1; omega

theorem at_app0 {α : Type} (pre l : List α) : (pre ++ l)[pre.length]? = l[0]? := at_app pre l 0

/-- Laying out and decoding one instruction. -/
def RoundTrip (lb : Nat → Nat) (c : Code) (i : Insn) : Prop :=
  ∀ args c', encodeArgs lb c i = some (args, c') →
    c'.insns = c.insns ∧ c.Ext c' ∧ (layoutInsn (opc i) args).length = i.size ∧
    ∀ D : Code, ({ c' with insns := c'.insns ++ layoutInsn (opc i) args } : Code).Ext D →
      decode D c.insns.length = some (i.retarget lb, i.size)

theorem rt_char {lb : Nat → Nat} {c : Code} {b} : RoundTrip lb c (.char b) := by
  intro args c' h
  cases h
  refine ⟨rfl, .refl _, by simp [layoutInsn, Insn.size], fun D hD => ?_⟩
  obtain ⟨x, hx⟩ := hD.insns
  unfold decode
  rw [hx]
  simp [layoutInsn, opc, decodeU8, List.append_assoc, at_app, at_app0, Insn.retarget, Insn.size]

theorem rt_any {lb : Nat → Nat} {c : Code} {b} : RoundTrip lb c (.any b) := by
  intro args c' h
  cases h
  refine ⟨rfl, .refl _, by simp [layoutInsn, Insn.size], fun D hD => ?_⟩
  obtain ⟨x, hx⟩ := hD.insns
  unfold decode
  rw [hx]
  simp [layoutInsn, opc, decodeU8, List.append_assoc, at_app, at_app0, Insn.retarget, Insn.size]

theorem rt_emptyOp {lb : Nat → Nat} {c : Code} {b} : RoundTrip lb c (.emptyOp b) := by
  intro args c' h
  cases h
  refine ⟨rfl, .refl _, by simp [layoutInsn, Insn.size], fun D hD => ?_⟩
  obtain ⟨x, hx⟩ := hD.insns
  unfold decode
  rw [hx]
  simp [layoutInsn, opc, decodeU8, List.append_assoc, at_app, at_app0, Insn.retarget, Insn.size]

theorem rt_endI {lb : Nat → Nat} {c : Code} {b} : RoundTrip lb c (.endI b) := by
  intro args c' h
  cases h
  cases b <;>
  · refine ⟨rfl, .refl _, by simp [layoutInsn, Insn.size, encodeBool], fun D hD => ?_⟩
    obtain ⟨x, hx⟩ := hD.insns
    unfold decode
    rw [hx]
    simp [layoutInsn, opc, decodeU8, List.append_assoc, at_app, at_app0, Insn.retarget, Insn.size, encodeBool]

theorem rt_ret {lb : Nat → Nat} {c : Code} : RoundTrip lb c (.ret) := by
  intro args c' h
  cases h
  refine ⟨rfl, .refl _, by simp [layoutInsn, Insn.size], fun D hD => ?_⟩
  obtain ⟨x, hx⟩ := hD.insns
  unfold decode
  rw [hx]
  simp [layoutInsn, opc, List.append_assoc, at_app0, Insn.retarget, Insn.size]

theorem rt_fail {lb : Nat → Nat} {c : Code} : RoundTrip lb c (.fail) := by
  intro args c' h
  cases h
  refine ⟨rfl, .refl _, by simp [layoutInsn, Insn.size], fun D hD => ?_⟩
  obtain ⟨x, hx⟩ := hD.insns
  unfold decode
  rw [hx]
  simp [layoutInsn, opc, List.append_assoc, at_app0, Insn.retarget, Insn.size]

theorem rt_failTwice {lb : Nat → Nat} {c : Code} : RoundTrip lb c (.failTwice) := by
  intro args c' h
  cases h
  refine ⟨rfl, .refl _, by simp [layoutInsn, Insn.size], fun D hD => ?_⟩
  obtain ⟨x, hx⟩ := hD.insns
  unfold decode
  rw [hx]
  simp [layoutInsn, opc, List.append_assoc, at_app0, Insn.retarget, Insn.size]

theorem rt_captureEnd {lb : Nat → Nat} {c : Code} : RoundTrip lb c (.captureEnd) := by
  intro args c' h
  cases h
  refine ⟨rfl, .refl _, by simp [layoutInsn, Insn.size], fun D hD => ?_⟩
  obtain ⟨x, hx⟩ := hD.insns
  unfold decode
  rw [hx]
  simp [layoutInsn, opc, List.append_assoc, at_app0, Insn.retarget, Insn.size]

theorem rt_memoClose {lb : Nat → Nat} {c : Code} : RoundTrip lb c (.memoClose) := by
  intro args c' h
  cases h
  refine ⟨rfl, .refl _, by simp [layoutInsn, Insn.size], fun D hD => ?_⟩
  obtain ⟨x, hx⟩ := hD.insns
  unfold decode
  rw [hx]
  simp [layoutInsn, opc, List.append_assoc, at_app0, Insn.retarget, Insn.size]

theorem rt_memoTreeInsert {lb : Nat → Nat} {c : Code} : RoundTrip lb c (.memoTreeInsert) := by
  intro args c' h
  cases h
  refine ⟨rfl, .refl _, by simp [layoutInsn, Insn.size], fun D hD => ?_⟩
  obtain ⟨x, hx⟩ := hD.insns
  unfold decode
  rw [hx]
  simp [layoutInsn, opc, List.append_assoc, at_app0, Insn.retarget, Insn.size]

theorem rt_memoTree {lb : Nat → Nat} {c : Code} : RoundTrip lb c (.memoTree) := by
  intro args c' h
  cases h
  refine ⟨rfl, .refl _, by simp [layoutInsn, Insn.size], fun D hD => ?_⟩
  obtain ⟨x, hx⟩ := hD.insns
  unfold decode
  rw [hx]
  simp [layoutInsn, opc, List.append_assoc, at_app0, Insn.retarget, Insn.size]

theorem rt_jump {lb : Nat → Nat} {c : Code} {l} : RoundTrip lb c (.jump l) := by
  intro args c' h
  simp only [encodeArgs, Option.map_eq_some_iff] at h
  obtain ⟨bs, hb, he⟩ := h
  cases he
  obtain ⟨a, b, d, rfl, hv⟩ := encodeU24_some hb
  refine ⟨rfl, .refl _, by simp [layoutInsn, Insn.size], fun D hD => ?_⟩
  obtain ⟨x, hx⟩ := hD.insns
  unfold decode
  rw [hx]
  simp [layoutInsn, opc, decodeU8, decodeU16, decodeU24, List.append_assoc, at_app, at_app0, Nat.add_assoc,
    Insn.retarget, Insn.size, hv]

theorem rt_choice {lb : Nat → Nat} {c : Code} {l} : RoundTrip lb c (.choice l) := by
  intro args c' h
  simp only [encodeArgs, Option.map_eq_some_iff] at h
  obtain ⟨bs, hb, he⟩ := h
  cases he
  obtain ⟨a, b, d, rfl, hv⟩ := encodeU24_some hb
  refine ⟨rfl, .refl _, by simp [layoutInsn, Insn.size], fun D hD => ?_⟩
  obtain ⟨x, hx⟩ := hD.insns
  unfold decode
  rw [hx]
  simp [layoutInsn, opc, decodeU8, decodeU16, decodeU24, List.append_assoc, at_app, at_app0, Nat.add_assoc,
    Insn.retarget, Insn.size, hv]

theorem rt_call {lb : Nat → Nat} {c : Code} {l} : RoundTrip lb c (.call l) := by
  intro args c' h
  simp only [encodeArgs, Option.map_eq_some_iff] at h
  obtain ⟨bs, hb, he⟩ := h
  cases he
  obtain ⟨a, b, d, rfl, hv⟩ := encodeU24_some hb
  refine ⟨rfl, .refl _, by simp [layoutInsn, Insn.size], fun D hD => ?_⟩
  obtain ⟨x, hx⟩ := hD.insns
  unfold decode
  rw [hx]
  simp [layoutInsn, opc, decodeU8, decodeU16, decodeU24, List.append_assoc, at_app, at_app0, Nat.add_assoc,
    Insn.retarget, Insn.size, hv]

theorem rt_commit {lb : Nat → Nat} {c : Code} {l} : RoundTrip lb c (.commit l) := by
  intro args c' h
  simp only [encodeArgs, Option.map_eq_some_iff] at h
  obtain ⟨bs, hb, he⟩ := h
  cases he
  obtain ⟨a, b, d, rfl, hv⟩ := encodeU24_some hb
  refine ⟨rfl, .refl _, by simp [layoutInsn, Insn.size], fun D hD => ?_⟩
  obtain ⟨x, hx⟩ := hD.insns
  unfold decode
  rw [hx]
  simp [layoutInsn, opc, decodeU8, decodeU16, decodeU24, List.append_assoc, at_app, at_app0, Nat.add_assoc,
    Insn.retarget, Insn.size, hv]

theorem rt_partialCommit {lb : Nat → Nat} {c : Code} {l} : RoundTrip lb c (.partialCommit l) := by
  intro args c' h
  simp only [encodeArgs, Option.map_eq_some_iff] at h
  obtain ⟨bs, hb, he⟩ := h
  cases he
  obtain ⟨a, b, d, rfl, hv⟩ := encodeU24_some hb
  refine ⟨rfl, .refl _, by simp [layoutInsn, Insn.size], fun D hD => ?_⟩
  obtain ⟨x, hx⟩ := hD.insns
  unfold decode
  rw [hx]
  simp [layoutInsn, opc, decodeU8, decodeU16, decodeU24, List.append_assoc, at_app, at_app0, Nat.add_assoc,
    Insn.retarget, Insn.size, hv]

theorem rt_backCommit {lb : Nat → Nat} {c : Code} {l} : RoundTrip lb c (.backCommit l) := by
  intro args c' h
  simp only [encodeArgs, Option.map_eq_some_iff] at h
  obtain ⟨bs, hb, he⟩ := h
  cases he
  obtain ⟨a, b, d, rfl, hv⟩ := encodeU24_some hb
  refine ⟨rfl, .refl _, by simp [layoutInsn, Insn.size], fun D hD => ?_⟩
  obtain ⟨x, hx⟩ := hD.insns
  unfold decode
  rw [hx]
  simp [layoutInsn, opc, decodeU8, decodeU16, decodeU24, List.append_assoc, at_app, at_app0, Nat.add_assoc,
    Insn.retarget, Insn.size, hv]

theorem rt_testChar {lb : Nat → Nat} {c : Code} {b} {l} : RoundTrip lb c (.testChar b l) := by
  intro args c' h
  simp only [encodeArgs, Option.map_eq_some_iff] at h
  obtain ⟨bs, hb, he⟩ := h
  cases he
  obtain ⟨a, b, d, rfl, hv⟩ := encodeU24_some hb
  refine ⟨rfl, .refl _, by simp [layoutInsn, Insn.size], fun D hD => ?_⟩
  obtain ⟨x, hx⟩ := hD.insns
  unfold decode
  rw [hx]
  simp [layoutInsn, opc, decodeU8, decodeU16, decodeU24, List.append_assoc, at_app, at_app0, Nat.add_assoc,
    Insn.retarget, Insn.size, hv]

theorem rt_testCharNC {lb : Nat → Nat} {c : Code} {b} {l} : RoundTrip lb c (.testCharNC b l) := by
  intro args c' h
  simp only [encodeArgs, Option.map_eq_some_iff] at h
  obtain ⟨bs, hb, he⟩ := h
  cases he
  obtain ⟨a, b, d, rfl, hv⟩ := encodeU24_some hb
  refine ⟨rfl, .refl _, by simp [layoutInsn, Insn.size], fun D hD => ?_⟩
  obtain ⟨x, hx⟩ := hD.insns
  unfold decode
  rw [hx]
  simp [layoutInsn, opc, decodeU8, decodeU16, decodeU24, List.append_assoc, at_app, at_app0, Nat.add_assoc,
    Insn.retarget, Insn.size, hv]

theorem rt_testAny {lb : Nat → Nat} {c : Code} {b} {l} : RoundTrip lb c (.testAny b l) := by
  intro args c' h
  simp only [encodeArgs, Option.map_eq_some_iff] at h
  obtain ⟨bs, hb, he⟩ := h
  cases he
  obtain ⟨a, b, d, rfl, hv⟩ := encodeU24_some hb
  refine ⟨rfl, .refl _, by simp [layoutInsn, Insn.size], fun D hD => ?_⟩
  obtain ⟨x, hx⟩ := hD.insns
  unfold decode
  rw [hx]
  simp [layoutInsn, opc, decodeU8, decodeU16, decodeU24, List.append_assoc, at_app, at_app0, Nat.add_assoc,
    Insn.retarget, Insn.size, hv]

theorem rt_captureBegin {lb : Nat → Nat} {c : Code} {id} : RoundTrip lb c (.captureBegin id) := by
  intro args c' h
  simp only [encodeArgs, Option.map_eq_some_iff] at h
  obtain ⟨bs, hb, he⟩ := h
  cases he
  obtain ⟨a, b, rfl, hv⟩ := encodeI16_some hb
  refine ⟨rfl, .refl _, by simp [layoutInsn, Insn.size], fun D hD => ?_⟩
  obtain ⟨x, hx⟩ := hD.insns
  unfold decode
  rw [hx]
  simp [layoutInsn, opc, decodeU8, decodeU16, decodeI16_eq, List.append_assoc, at_app, at_app0, Nat.add_assoc,
    Insn.retarget, Insn.size, hv]

theorem rt_memoTreeClose {lb : Nat → Nat} {c : Code} {id} : RoundTrip lb c (.memoTreeClose id) := by
  intro args c' h
  simp only [encodeArgs, Option.map_eq_some_iff] at h
  obtain ⟨bs, hb, he⟩ := h
  cases he
  obtain ⟨a, b, rfl, hv⟩ := encodeI16_some hb
  refine ⟨rfl, .refl _, by simp [layoutInsn, Insn.size], fun D hD => ?_⟩
  obtain ⟨x, hx⟩ := hD.insns
  unfold decode
  rw [hx]
  simp [layoutInsn, opc, decodeU8, decodeU16, decodeI16_eq, List.append_assoc, at_app, at_app0, Nat.add_assoc,
    Insn.retarget, Insn.size, hv]

theorem rt_captureLate {lb : Nat → Nat} {c : Code} {b} {id} : RoundTrip lb c (.captureLate b id) := by
  intro args c' h
  simp only [encodeArgs, Option.map_eq_some_iff] at h
  obtain ⟨bs, hb, he⟩ := h
  cases he
  obtain ⟨a, b, rfl, hv⟩ := encodeI16_some hb
  refine ⟨rfl, .refl _, by simp [layoutInsn, Insn.size], fun D hD => ?_⟩
  obtain ⟨x, hx⟩ := hD.insns
  unfold decode
  rw [hx]
  simp [layoutInsn, opc, decodeU8, decodeU16, decodeI16_eq, List.append_assoc, at_app, at_app0, Nat.add_assoc,
    Insn.retarget, Insn.size, hv]

theorem rt_captureFull {lb : Nat → Nat} {c : Code} {b} {id} : RoundTrip lb c (.captureFull b id) := by
  intro args c' h
  simp only [encodeArgs, Option.map_eq_some_iff] at h
  obtain ⟨bs, hb, he⟩ := h
  cases he
  obtain ⟨a, b, rfl, hv⟩ := encodeI16_some hb
  refine ⟨rfl, .refl _, by simp [layoutInsn, Insn.size], fun D hD => ?_⟩
  obtain ⟨x, hx⟩ := hD.insns
  unfold decode
  rw [hx]
  simp [layoutInsn, opc, decodeU8, decodeU16, decodeI16_eq, List.append_assoc, at_app, at_app0, Nat.add_assoc,
    Insn.retarget, Insn.size, hv]

theorem rt_memoOpen {lb : Nat → Nat} {c : Code} {l} {id} : RoundTrip lb c (.memoOpen l id) := by
  intro args c' h
  simp only [encodeArgs] at h
  split at h
  · rename_i x1 x2 h1 h2
    cases h
    obtain ⟨a, b, d, rfl, hv⟩ := encodeU24_some h1
    obtain ⟨a', b', rfl, hv'⟩ := encodeI16_some h2
    refine ⟨rfl, .refl _, by simp [layoutInsn, Insn.size], fun D hD => ?_⟩
    obtain ⟨x, hx⟩ := hD.insns
    unfold decode
    rw [hx]
    simp [layoutInsn, opc, decodeU8, decodeU16, decodeU24, decodeI16_eq, List.append_assoc, at_app, at_app0,
      Nat.add_assoc, Insn.retarget, Insn.size, hv, hv']
  · cases h

theorem rt_memoTreeOpen {lb : Nat → Nat} {c : Code} {l} {id} : RoundTrip lb c (.memoTreeOpen l id) := by
  intro args c' h
  simp only [encodeArgs] at h
  split at h
  · rename_i x1 x2 h1 h2
    cases h
    obtain ⟨a, b, d, rfl, hv⟩ := encodeU24_some h1
    obtain ⟨a', b', rfl, hv'⟩ := encodeI16_some h2
    refine ⟨rfl, .refl _, by simp [layoutInsn, Insn.size], fun D hD => ?_⟩
    obtain ⟨x, hx⟩ := hD.insns
    unfold decode
    rw [hx]
    simp [layoutInsn, opc, decodeU8, decodeU16, decodeU24, decodeI16_eq, List.append_assoc, at_app, at_app0,
      Nat.add_assoc, Insn.retarget, Insn.size, hv, hv']
  · cases h

theorem rt_checkBegin {lb : Nat → Nat} {c : Code} {l} {id} : RoundTrip lb c (.checkBegin l id) := by
  intro args c' h
  simp only [encodeArgs] at h
  split at h
  · rename_i x1 x2 h1 h2
    cases h
    obtain ⟨a, b, rfl, hv⟩ := encodeI16_some h1
    obtain ⟨a', b', rfl, hv'⟩ := encodeI16_some h2
    refine ⟨rfl, .refl _, by simp [layoutInsn, Insn.size], fun D hD => ?_⟩
    obtain ⟨x, hx⟩ := hD.insns
    unfold decode
    rw [hx]
    simp [layoutInsn, opc, decodeU8, decodeU16, decodeI16_eq, List.append_assoc, at_app, at_app0,
      Nat.add_assoc, Insn.retarget, Insn.size, hv, hv']
  · cases h

theorem rt_set {lb : Nat → Nat} {c : Code} {s} : RoundTrip lb c (.set s) := by
  intro args c' h
  simp only [encodeArgs, Option.map_eq_some_iff] at h
  obtain ⟨bs, hb, he⟩ := h
  cases he
  obtain ⟨hs1, hs2, hs3⟩ := addSet_spec c s
  obtain ⟨hlt, rfl⟩ := encodeU8_some hb
  refine ⟨hs2, hs3, by simp [layoutInsn, Insn.size], fun D hD => ?_⟩
  obtain ⟨x, hx⟩ := hD.insns
  have hset := getElem?_ext hs1 hD.sets
  unfold decode
  rw [hx]
  simp only [hs2]
  simp [layoutInsn, opc, decodeU8, List.append_assoc, at_app, at_app0, Nat.add_assoc, Insn.retarget, Insn.size,
    Nat.mod_eq_of_lt hlt, hset]

theorem rt_span {lb : Nat → Nat} {c : Code} {s} : RoundTrip lb c (.span s) := by
  intro args c' h
  simp only [encodeArgs, Option.map_eq_some_iff] at h
  obtain ⟨bs, hb, he⟩ := h
  cases he
  obtain ⟨hs1, hs2, hs3⟩ := addSet_spec c s
  obtain ⟨hlt, rfl⟩ := encodeU8_some hb
  refine ⟨hs2, hs3, by simp [layoutInsn, Insn.size], fun D hD => ?_⟩
  obtain ⟨x, hx⟩ := hD.insns
  have hset := getElem?_ext hs1 hD.sets
  unfold decode
  rw [hx]
  simp only [hs2]
  simp [layoutInsn, opc, decodeU8, List.append_assoc, at_app, at_app0, Nat.add_assoc, Insn.retarget, Insn.size,
    Nat.mod_eq_of_lt hlt, hset]

theorem rt_testSet {lb : Nat → Nat} {c : Code} {s} {l} : RoundTrip lb c (.testSet s l) := by
  intro args c' h
  simp only [encodeArgs] at h
  split at h
  · rename_i x1 x2 h1 h2
    cases h
    obtain ⟨hs1, hs2, hs3⟩ := addSet_spec c s
    obtain ⟨hlt, rfl⟩ := encodeU8_some h1
    obtain ⟨a, b, d, rfl, hv⟩ := encodeU24_some h2
    refine ⟨hs2, hs3, by simp [layoutInsn, Insn.size], fun D hD => ?_⟩
    obtain ⟨x, hx⟩ := hD.insns
    have hset := getElem?_ext hs1 hD.sets
    unfold decode
    rw [hx]
    simp only [hs2]
    simp [layoutInsn, opc, decodeU8, decodeU16, decodeU24, List.append_assoc, at_app, at_app0, Nat.add_assoc,
      Insn.retarget, Insn.size, Nat.mod_eq_of_lt hlt, hset, hv]
  · cases h

theorem rt_testSetNC {lb : Nat → Nat} {c : Code} {s} {l} : RoundTrip lb c (.testSetNC s l) := by
  intro args c' h
  simp only [encodeArgs] at h
  split at h
  · rename_i x1 x2 h1 h2
    cases h
    obtain ⟨hs1, hs2, hs3⟩ := addSet_spec c s
    obtain ⟨hlt, rfl⟩ := encodeU8_some h1
    obtain ⟨a, b, d, rfl, hv⟩ := encodeU24_some h2
    refine ⟨hs2, hs3, by simp [layoutInsn, Insn.size], fun D hD => ?_⟩
    obtain ⟨x, hx⟩ := hD.insns
    have hset := getElem?_ext hs1 hD.sets
    unfold decode
    rw [hx]
    simp only [hs2]
    simp [layoutInsn, opc, decodeU8, decodeU16, decodeU24, List.append_assoc, at_app, at_app0, Nat.add_assoc,
      Insn.retarget, Insn.size, Nat.mod_eq_of_lt hlt, hset, hv]
  · cases h

theorem rt_checkEnd {lb : Nat → Nat} {c : Code} {k} : RoundTrip lb c (.checkEnd k) := by
  intro args c' h
  simp only [encodeArgs, Option.map_eq_some_iff] at h
  obtain ⟨bs, hb, he⟩ := h
  cases he
  obtain ⟨hs1, hs2, hs3⟩ := addChecker_spec c k
  obtain ⟨a, b, d, rfl, hv⟩ := encodeU24_some hb
  refine ⟨hs2, hs3, by simp [layoutInsn, Insn.size], fun D hD => ?_⟩
  obtain ⟨x, hx⟩ := hD.insns
  have hset := getElem?_ext hs1 hD.checkers
  unfold decode
  rw [hx]
  simp only [hs2]
  simp [layoutInsn, opc, decodeU8, decodeU16, decodeU24, List.append_assoc, at_app, at_app0, Nat.add_assoc,
    Insn.retarget, Insn.size, hset, hv]

theorem rt_error {lb : Nat → Nat} {c : Code} {m} : RoundTrip lb c (.error m) := by
  intro args c' h
  simp only [encodeArgs, Option.map_eq_some_iff] at h
  obtain ⟨bs, hb, he⟩ := h
  cases he
  obtain ⟨hs1, hs2, hs3⟩ := addError_spec c m
  obtain ⟨a, b, d, rfl, hv⟩ := encodeU24_some hb
  refine ⟨hs2, hs3, by simp [layoutInsn, Insn.size], fun D hD => ?_⟩
  obtain ⟨x, hx⟩ := hD.insns
  have hset := getElem?_ext hs1 hD.errors
  unfold decode
  rw [hx]
  simp only [hs2]
  simp [layoutInsn, opc, decodeU8, decodeU16, decodeU24, List.append_assoc, at_app, at_app0, Nat.add_assoc,
    Insn.retarget, Insn.size, hset, hv]

theorem decode_encode {lb : Nat → Nat} {c : Code} {i : Insn} (hskip : i.isSkip = false) : RoundTrip lb c i := by
  cases i with
  | label l => cases hskip
  | nop => cases hskip
  | openCall n => intro args c' h; cases h
  | char _ => exact rt_char
  | any _ => exact rt_any
  | emptyOp _ => exact rt_emptyOp
  | endI _ => exact rt_endI
  | ret => exact rt_ret
  | fail => exact rt_fail
  | failTwice => exact rt_failTwice
  | captureEnd => exact rt_captureEnd
  | memoClose => exact rt_memoClose
  | memoTreeInsert => exact rt_memoTreeInsert
  | memoTree => exact rt_memoTree
  | jump _ => exact rt_jump
  | choice _ => exact rt_choice
  | call _ => exact rt_call
  | commit _ => exact rt_commit
  | partialCommit _ => exact rt_partialCommit
  | backCommit _ => exact rt_backCommit
  | testChar _ _ => exact rt_testChar
  | testCharNC _ _ => exact rt_testCharNC
  | testAny _ _ => exact rt_testAny
  | captureBegin _ => exact rt_captureBegin
  | memoTreeClose _ => exact rt_memoTreeClose
  | captureLate _ _ => exact rt_captureLate
  | captureFull _ _ => exact rt_captureFull
  | memoOpen _ _ => exact rt_memoOpen
  | memoTreeOpen _ _ => exact rt_memoTreeOpen
  | checkBegin _ _ => exact rt_checkBegin
  | set _ => exact rt_set
  | span _ => exact rt_span
  | testSet _ _ => exact rt_testSet
  | testSetNC _ _ => exact rt_testSetNC
  | checkEnd _ => exact rt_checkEnd
  | error _ => exact rt_error

end Gpeg
