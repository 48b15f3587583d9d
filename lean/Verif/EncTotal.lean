import Verif.Props.Compile
/-! # When `Encode` succeeds -/
namespace Gpeg

/-- The operands of an instruction fit into the encoding, if the sets of the program are in `L`. -/
def Insn.okIn (L : List CSet) : Insn → Prop
  | .set s | .span s | .testSet s _ | .testSetNC s _ => s ∈ L
  | .captureBegin id | .memoTreeClose id | .captureLate _ id | .captureFull _ id | .memoOpen _ id | .memoTreeOpen _ id =>
    -(2 ^ 15) ≤ id ∧ id < 2 ^ 15
  | .checkBegin id flag => (-(2 ^ 15) ≤ id ∧ id < 2 ^ 15) ∧ -(2 ^ 15) ≤ flag ∧ flag < 2 ^ 15
  | .openCall _ => False
  | _ => True

instance (L : List CSet) (i : Insn) : Decidable (i.okIn L) := by
  cases i <;> unfold Insn.okIn <;> infer_instance

/-- The size of a program in bytes. -/
def psize (p : Program) : Nat := (p.map Insn.size).sum

/-- The limits of the encoding: at most 256 different sets (those of `L`), less than 2^24 bytes, 16 bit
identifiers; and no unresolved call. -/
structure Fits (L : List CSet) (p : Program) : Prop where
  sets : L.length ≤ 256
  ops : ∀ i ∈ p, i.okIn L
  size : psize p < 2 ^ 24

theorem nodup_length_le {α : Type} [DecidableEq α] {l m : List α} (hl : l.Nodup) (h : ∀ x ∈ l, x ∈ m) : l.length ≤ m.length := by
  induction l generalizing m with
  | nil => simp
  | cons a l ih =>
    have ha : a ∈ m := h a List.mem_cons_self
    rw [List.nodup_cons] at hl
    have := ih (m := m.erase a) hl.2 fun x hx => by
      have hne : x ≠ a := by rintro rfl; exact hl.1 hx
      exact (List.mem_erase_of_ne hne).2 (h x (List.mem_cons_of_mem _ hx))
    rw [List.length_erase_of_mem ha] at this
    have : 0 < m.length := List.length_pos_of_mem ha
    simp only [List.length_cons]
    omega

theorem findIdxFrom_lt {α : Type} [DecidableEq α] {x : α} : ∀ {l : List α} {k i : Nat}, findIdxFrom x l k = some i → i < k + l.length
  | [], k, i, h => by cases h
  | y :: ys, k, i, h => by
    unfold findIdxFrom at h
    split at h
    · cases h; simp
    · have := findIdxFrom_lt h
      simp; omega

theorem findIdxFrom_none {α : Type} [DecidableEq α] {x : α} : ∀ {l : List α} {k : Nat}, findIdxFrom x l k = none → x ∉ l
  | [], k, _ => by simp
  | y :: ys, k, h => by
    unfold findIdxFrom at h
    split at h
    · cases h
    · rename_i hne
      simp only [List.mem_cons, not_or]
      exact ⟨hne, findIdxFrom_none h⟩

theorem labelOffs_le (l : Nat) : ∀ (p : Program) (n d : Nat), labelOffs l p n d ≤ max d (n + psize p)
  | [], n, d => by unfold labelOffs; exact Nat.le_max_left _ _
  | i :: p, n, d => by
    have hp : psize (i :: p) = i.size + psize p := by simp [psize]
    by_cases hi : ∃ l', i = .label l'
    · obtain ⟨l', rfl⟩ := hi
      unfold labelOffs
      rw [hp]
      by_cases hl : l' = l
      · rw [if_pos hl]
        have := labelOffs_le l p n n
        omega
      · rw [if_neg hl]
        have := labelOffs_le l p n d
        omega
    · have e : labelOffs l (i :: p) n d = labelOffs l p (n + i.size) d := by
        cases i <;> first | rfl | exact absurd ⟨_, rfl⟩ hi
      rw [e, hp]
      have := labelOffs_le l p (n + i.size) d
      omega

theorem u24_some {x : Nat} (h : x < 2 ^ 24) : ∃ a, encodeU24 x = some a := by
  unfold encodeU24; rw [if_neg (by omega)]; exact ⟨_, rfl⟩

theorem u8_some {x : Nat} (h : x < 256) : ∃ a, encodeU8 x = some a := by
  unfold encodeU8; rw [if_neg (by omega)]; exact ⟨_, rfl⟩

theorem i16_some {x : Int} (h : -(2 ^ 15) ≤ x ∧ x < 2 ^ 15) : ∃ a, encodeI16 x = some a := by
  unfold encodeI16; rw [if_neg (by omega)]; exact ⟨_, rfl⟩

/-- The tables during the loop of `Encode`, with `n` bytes still to come. -/
structure TabOK (L : List CSet) (c : Code) (n : Nat) : Prop where
  nodup : c.sets.Nodup
  sub : ∀ s ∈ c.sets, s ∈ L
  errs : c.errors.length + n < 2 ^ 24
  chks : c.checkers.length + n < 2 ^ 24

theorem addSet_ok {L : List CSet} {c : Code} {n : Nat} {s : CSet} (hL : L.length ≤ 256) (h : TabOK L c n) (hs : s ∈ L) :
    (c.addSet s).1 < 256 ∧ TabOK L (c.addSet s).2 n := by
  unfold Code.addSet
  split
  · rename_i i hi
    have := findIdxFrom_lt hi
    have := nodup_length_le h.nodup h.sub
    exact ⟨by simp only; omega, h⟩
  · rename_i hi
    have hn := findIdxFrom_none hi
    have hnd : (s :: c.sets).Nodup := List.nodup_cons.2 ⟨hn, h.nodup⟩
    have hlen := nodup_length_le hnd (m := L) (by
      intro x hx
      rcases List.mem_cons.1 hx with rfl | hx
      · exact hs
      · exact h.sub x hx)
    simp only [List.length_cons] at hlen
    refine ⟨by simp only; omega, ?_, ?_, h.errs, h.chks⟩
    · show (c.sets ++ [s]).Nodup
      rw [List.nodup_append]
      refine ⟨h.nodup, by simp, ?_⟩
      intro a ha b hb
      simp only [List.mem_singleton] at hb
      subst hb
      rintro rfl
      exact hn ha
    · intro x hx
      have hx : x ∈ c.sets ++ [s] := hx
      rcases List.mem_append.1 hx with hx | hx
      · exact h.sub x hx
      · simp only [List.mem_singleton] at hx; subst hx; exact hs

theorem TabOK.mono {L : List CSet} {c : Code} {n m : Nat} (h : TabOK L c n) (hm : m ≤ n) : TabOK L c m := by
  obtain ⟨h1, h2, h3, h4⟩ := h
  exact ⟨h1, h2, by omega, by omega⟩

theorem encodeArgs_ok {L : List CSet} {c : Code} {n : Nat} {lb : Nat → Nat} {i : Insn} (hL : L.length ≤ 256)
    (hlb : ∀ l, lb l < 2 ^ 24) (hi : i.okIn L) (hsk : i.isSkip = false) (h : TabOK L c (i.size + n)) :
    ∃ a c', encodeArgs lb c i = some (a, c') ∧ TabOK L c' n := by
  have hn : TabOK L c n := h.mono (by omega)
  have hset : ∀ s, s ∈ L → ∃ a, encodeU8 (c.addSet s).1 = some a ∧ TabOK L (c.addSet s).2 n := by
    intro s hs
    obtain ⟨h1, h2⟩ := addSet_ok hL hn hs
    obtain ⟨a, ha⟩ := u8_some h1
    exact ⟨a, ha, h2⟩
  have hl := fun l => u24_some (hlb l)
  cases i with
  | char b => exact ⟨_, _, rfl, hn⟩
  | jump l | choice l | call l | commit l | partialCommit l | backCommit l =>
    obtain ⟨a, ha⟩ := hl l
    exact ⟨a, c, by simp only [encodeArgs, ha]; rfl, hn⟩
  | ret | fail | failTwice | captureEnd | memoClose | memoTreeInsert | memoTree => exact ⟨_, _, rfl, hn⟩
  | set s | span s =>
    obtain ⟨a, ha, hc⟩ := hset s hi
    exact ⟨a, _, by simp only [encodeArgs, ha]; rfl, hc⟩
  | any k => exact ⟨_, _, rfl, hn⟩
  | emptyOp op => exact ⟨_, _, rfl, hn⟩
  | testChar b l | testCharNC b l =>
    obtain ⟨a, ha⟩ := hl l
    exact ⟨_, c, by simp only [encodeArgs, ha]; rfl, hn⟩
  | testSet s l | testSetNC s l =>
    obtain ⟨a, ha, hc⟩ := hset s hi
    obtain ⟨b, hb⟩ := hl l
    exact ⟨a ++ b, _, by simp only [encodeArgs, ha, hb], hc⟩
  | testAny k l =>
    obtain ⟨a, ha⟩ := hl l
    exact ⟨_, c, by simp only [encodeArgs, ha]; rfl, hn⟩
  | captureBegin id | memoTreeClose id =>
    obtain ⟨a, ha⟩ := i16_some hi
    exact ⟨a, c, by simp only [encodeArgs, ha]; rfl, hn⟩
  | captureLate b id | captureFull b id =>
    obtain ⟨a, ha⟩ := i16_some hi
    exact ⟨_, c, by simp only [encodeArgs, ha]; rfl, hn⟩
  | memoOpen l id | memoTreeOpen l id =>
    obtain ⟨a, ha⟩ := i16_some hi
    obtain ⟨b, hb⟩ := hl l
    exact ⟨b ++ a, c, by simp only [encodeArgs, ha, hb], hn⟩
  | checkBegin id flag =>
    obtain ⟨a, ha⟩ := i16_some hi.1
    obtain ⟨b, hb⟩ := i16_some hi.2
    exact ⟨a ++ b, c, by simp only [encodeArgs, ha, hb], hn⟩
  | checkEnd k =>
    obtain ⟨a, ha⟩ := u24_some (x := (c.addChecker k).1) (by
      have := h.chks
      simp only [Insn.size] at this
      show c.checkers.length < _
      omega)
    refine ⟨a, (c.addChecker k).2, by simp only [encodeArgs, ha]; rfl, h.nodup, h.sub, hn.errs, ?_⟩
    have := h.chks
    simp only [Insn.size] at this
    simp only [Code.addChecker, List.length_append, List.length_cons, List.length_nil]
    omega
  | error m =>
    have he := h.errs
    simp only [Insn.size] at he
    have hx : (c.addError m).1 < 2 ^ 24 ∧ TabOK L (c.addError m).2 n := by
      unfold Code.addError
      split
      · rename_i k hk
        have := findIdxFrom_lt hk
        exact ⟨by simp only; omega, hn⟩
      · refine ⟨by simp only; omega, h.nodup, h.sub, ?_, hn.chks⟩
        simp only [List.length_append, List.length_cons, List.length_nil]
        omega
    obtain ⟨a, ha⟩ := u24_some hx.1
    exact ⟨a, _, by simp only [encodeArgs, ha]; rfl, hx.2⟩
  | endI f => exact ⟨_, _, rfl, hn⟩
  | label l => cases hsk
  | nop => cases hsk
  | openCall n => exact hi.elim

theorem encodeLoop_ok {L : List CSet} {lb : Nat → Nat} (hL : L.length ≤ 256) (hlb : ∀ l, lb l < 2 ^ 24) :
    ∀ (p : Program) (c : Code), (∀ i ∈ p, i.okIn L) → TabOK L c (psize p) → ∃ c', encodeLoop lb c p = some c'
  | [], c, _, _ => ⟨c, rfl⟩
  | i :: p, c, hp, hc => by
    have hsz : psize (i :: p) = i.size + psize p := by simp [psize]
    rw [hsz] at hc
    unfold encodeLoop
    by_cases hsk : i.isSkip = true
    · rw [if_pos hsk]
      exact encodeLoop_ok hL hlb p c (fun j hj => hp j (List.mem_cons_of_mem _ hj)) (hc.mono (by omega))
    · rw [if_neg hsk]
      obtain ⟨a, c', h1, h2⟩ := encodeArgs_ok hL hlb (hp i List.mem_cons_self) (by simpa using hsk) hc
      rw [h1]
      exact encodeLoop_ok hL hlb p _ (fun j hj => hp j (List.mem_cons_of_mem _ hj)) ⟨h2.nodup, h2.sub, h2.errs, h2.chks⟩

/-- `Encode` succeeds within its limits. -/
theorem encode_total {L : List CSet} {p : Program} (h : Fits L p) : ∃ c, encode p = some c := by
  have hs := h.size
  obtain ⟨c, hc⟩ := encodeLoop_ok (lb := fun l => labelOffs l p 0 0) h.sets (fun l => by
    have := labelOffs_le l p 0 0
    show labelOffs l p 0 0 < _
    omega) p ⟨[], [], [], []⟩ h.ops ⟨List.nodup_nil, by simp, by simpa using hs, by simpa using hs⟩
  exact ⟨_, by unfold encode; rw [hc]; rfl⟩

/-! ## The optimizer keeps the limits -/

theorem psize_set {p : Program} {i : Nat} {x y : Insn} (h : p[i]? = some x) :
    psize (p.set i y) + x.size = psize p + y.size := by
  induction p generalizing i with
  | nil => cases h
  | cons a p ih =>
    cases i with
    | zero => cases h; simp [psize]; omega
    | succ i =>
      have := ih (i := i) (by simpa using h)
      simp only [psize, List.set_cons_succ, List.map_cons, List.sum_cons] at this ⊢
      omega

theorem mem_of_nextInsn {p : Program} {x : Insn} (h : nextInsn p = some x) : x ∈ p := by
  induction p with
  | nil => cases h
  | cons a p ih =>
    unfold nextInsn at h
    split at h
    · exact List.mem_cons_of_mem _ (ih h)
    · cases h; exact List.mem_cons_self

theorem optStep_fits {L : List CSet} (lbls : Nat → Nat) {p : Program} (i : Nat) (h : Fits L p) : Fits L (optStep lbls p i) := by
  unfold optStep
  split
  · rename_i l hi
    have key : ∀ {x y : Insn}, p[i + 1]? = some x → x.size = 2 → y.size = 6 → y.okIn L →
        Fits L ((p.set i y).set (i + 1) .nop) := by
      intro x y hx h1 h2 h3
      refine ⟨h.sets, ?_, ?_⟩
      · intro j hj
        rcases List.mem_or_eq_of_mem_set hj with hj | rfl
        · rcases List.mem_or_eq_of_mem_set hj with hj | rfl
          · exact h.ops j hj
          · exact h3
        · trivial
      · have e1 := psize_set (y := y) hi
        have e2 := psize_set (p := p.set i y) (i := i + 1) (x := x) (y := .nop)
          (by rw [List.getElem?_set_ne (by omega)]; exact hx)
        have e3 : (Insn.choice l).size = 4 := rfl
        have e4 : Insn.nop.size = 0 := rfl
        have := h.size
        omega
    split
    · rename_i hx; exact key hx rfl rfl trivial
    · rename_i cs hx
      have : (Insn.set cs).okIn L := h.ops _ (List.mem_of_getElem? hx)
      exact key hx rfl rfl this
    · rename_i hx; exact key hx rfl rfl trivial
    · exact h
  · rename_i l hi
    split
    · rename_i x hx
      split
      · rename_i hctl
        have hxm : x ∈ p := List.mem_of_mem_drop (mem_of_nextInsn hx)
        refine ⟨h.sets, ?_, ?_⟩
        · intro j hj
          rcases List.mem_or_eq_of_mem_set hj with hj | rfl
          · exact h.ops j hj
          · exact h.ops _ hxm
        · have e1 := psize_set (y := x) hi
          have e3 : (Insn.jump l).size = 4 := rfl
          have e4 : x.size ≤ 4 := by
            cases x <;> first | (simp [isCtl] at hctl; done) | (simp [Insn.size]; done)
          have := h.size
          omega
      · exact h
    · exact h
  · exact h

theorem optimize_fits {L : List CSet} {p : Program} (h : Fits L p) : Fits L (optimize p) := by
  unfold optimize
  have gen : ∀ (is : List Nat) (lb : Nat → Nat) (q : Program), Fits L q → Fits L (is.foldl (optStep lb) q) := by
    intro is lb
    induction is with
    | nil => intro q h; exact h
    | cons i is ih => intro q h; exact ih _ (optStep_fits _ _ h)
  exact gen _ _ p h

/-- Adds the set of an instruction to a list of sets. -/
def addSetOf (L : List CSet) : Insn → List CSet
  | .set s | .span s | .testSet s _ | .testSetNC s _ => if s ∈ L then L else s :: L
  | _ => L

/-- A test for `Fits`. -/
def fitsTest (p : Program) : Bool :=
  (fun L => decide (L.length ≤ 256) && p.all (fun i => decide (i.okIn L)) && decide (psize p < 2 ^ 24)) (p.foldl addSetOf [])

theorem fits_of_test {p : Program} (h : fitsTest p = true) : ∃ L, Fits L p := by
  simp only [fitsTest, Bool.and_eq_true, decide_eq_true_eq, List.all_eq_true] at h
  exact ⟨_, h.1.1, h.1.2, h.2⟩

/-- A pattern whose code before optimization is within the limits compiles and encodes. -/
theorem compiled_of_fits {p : Pat} {k : Nat} {cst cst' : CState} {raw : Program} {L : List CSet}
    (h : compileF k p cst = .ok (raw, cst')) (hf : Fits L raw) : ∃ code, Compiled p code := by
  obtain ⟨code, hc⟩ := encode_total (optimize_fits hf)
  exact ⟨code, k, cst, _, cst', by show (compileF k p >>= _) cst = _; simp only [bind, StateT.bind, h]; rfl, hc⟩

end Gpeg
