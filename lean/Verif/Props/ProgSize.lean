import Verif.ProgSize
import Verif.EncodeSim
/-! # Property C85: reading a bytecode from beginning to end -/
namespace Gpeg

/-- The instructions found in a bytecode from `ip` on, one after the other, up to its end. -/
inductive Sweep (code : Code) : Nat → List Insn → Prop
  | done : Sweep code code.insns.length []
  | step {ip sz : Nat} {i : Insn} {l : List Insn} (h : decode code ip = some (i, sz)) (hl : Sweep code (ip + sz) l) :
    Sweep code ip (i :: l)

/-- Labels and nops stand for no code. -/
def Insn.Marks : Insn → Prop
  | .label _ | .nop => True
  | _ => False

instance (i : Insn) : Decidable i.Marks := by cases i <;> unfold Insn.Marks <;> infer_instance

/-- The instructions of a program but for labels and nops, with the offsets of the labels in their place. -/
def Program.resolved (p : Program) : List Insn :=
  (p.filter fun i => ¬ i.Marks).map (Insn.retarget fun l => labelOffs l p 0 0)

theorem marks_skip (i : Insn) : i.isSkip = decide i.Marks := by cases i <;> rfl

theorem countFrom_eq : ∀ (p : Program) (n : Nat), Program.countFrom n p = n + (p.filter fun i => ¬ i.Marks).length
  | [], n => rfl
  | i :: p, n => by
    have := countFrom_eq p
    cases i <;> simp_all [Program.countFrom, Insn.Marks] <;> omega

theorem Sweep.unique {code : Code} {ip : Nat} {l l' : List Insn} (h : Sweep code ip l) (h' : Sweep code ip l') : l = l' := by
  have none : decode code code.insns.length = none := by simp [decode]
  induction h generalizing l' with
  | done =>
    cases h' with
    | done => rfl
    | step h _ => rw [none] at h; cases h
  | step h _ ih =>
    cases h' with
    | done => rw [none] at h; cases h
    | step h' hl' =>
      rw [h] at h'
      cases h'
      rw [ih hl']

theorem sweep_drop {p : Program} {code : Code} (he : Encoded p code) (hn : code.insns.length = addr p p.length + 2) :
    ∀ (n j : Nat), n + j = p.length → Sweep code (addr p j)
      (((p.drop j).filter fun i => ¬ i.Marks).map (Insn.retarget fun l => labelOffs l p 0 0) ++ [.endI false])
  | 0, j, hj => by
    have hj : j = p.length := by omega
    subst hj
    simp only [List.drop_length, List.filter_nil, List.map_nil, List.nil_append]
    exact .step he.2 (by rw [← hn]; exact .done)
  | n + 1, j, hj => by
    have hlt : j < p.length := by omega
    have ih := sweep_drop he hn n (j + 1) (by omega)
    have hget : p[j]? = some p[j] := List.getElem?_eq_getElem hlt
    rw [List.drop_eq_getElem_cons hlt, List.filter_cons]
    have ha := addr_succ hget
    by_cases hm : p[j].Marks
    · have hz : p[j].size = 0 := by
        revert hm; cases p[j] <;> intro hm <;> first | rfl | cases hm
      rw [hz, Nat.add_zero] at ha
      simpa [hm, ha] using ih
    · have hd := he.1 j _ hget (by rw [marks_skip]; simpa using hm)
      simp only [hm, not_false_eq_true, decide_true, if_true, List.map_cons, List.cons_append]
      exact .step hd (by rw [← ha]; exact ih)

theorem sweep_encode {p : Program} {code : Code} (h : encode p = some code) : Sweep code 0 (p.resolved ++ [.endI false]) := by
  have := sweep_drop (encode_spec h) (by
    unfold encode at h
    rw [Option.map_eq_some_iff] at h
    obtain ⟨c, h, rfl⟩ := h
    obtain ⟨_, h2, _⟩ := encodeLoop_spec p h
    simp [h2]) p.length 0 rfl
  simpa [Program.resolved] using this

theorem encodeArgs_retarget (lb : Nat → Nat) (c : Code) (i : Insn) : encodeArgs lb c i = encodeArgs (fun l => l) c (i.retarget lb) := by
  cases i <;> rfl

theorem opc_retarget (lb : Nat → Nat) (i : Insn) : opc (i.retarget lb) = opc i := by cases i <;> rfl

theorem skip_retarget (lb : Nat → Nat) (i : Insn) : (i.retarget lb).isSkip = i.isSkip := by cases i <;> rfl

theorem encodeLoop_resolved (lb : Nat → Nat) : ∀ (p : Program) (c : Code),
    encodeLoop lb c p = encodeLoop (fun l => l) c ((p.filter fun i => ¬ i.Marks).map (Insn.retarget lb))
  | [], c => rfl
  | i :: p, c => by
    by_cases hm : i.Marks
    · rw [encodeLoop, if_pos (by rw [marks_skip]; simpa using hm), encodeLoop_resolved lb p c]
      simp [hm]
    · rw [encodeLoop, if_neg (by rw [marks_skip]; simpa using hm), List.filter_cons, if_pos (by simpa using hm), List.map_cons,
        encodeLoop, skip_retarget, if_neg (by rw [marks_skip]; simpa using hm), ← encodeArgs_retarget, opc_retarget]
      cases encodeArgs lb c i with
      | none => rfl
      | some x => exact encodeLoop_resolved lb p _

/-- **C85.** Reading the bytecode of a program from the beginning gives the instructions of the program in order, but for labels and
nops, with offsets for labels, then the `End` added by `Encode`, and nothing else. `Size` is the number of instructions before it. -/
theorem C85_sweep {p : Program} {code : Code} (h : encode p = some code) (l : List Insn) :
    Sweep code 0 l ↔ l = p.resolved ++ [.endI false] :=
  ⟨fun hl => hl.unique (sweep_encode h), fun e => e ▸ sweep_encode h⟩

/-- **C85**, `Size`. -/
theorem C85_size {p : Program} {code : Code} (h : encode p = some code) {l : List Insn} (hl : Sweep code 0 l) :
    l.length = p.count + 1 := by
  rw [hl.unique (sweep_encode h), Program.count, countFrom_eq]
  simp [Program.resolved]

/-- **C85.** Programs have the same bytecode, sets, messages and checkers included, exactly if they are the same up to the names of
labels, where labels stand that mark the same place, and nops. -/
theorem C85_same {p q : Program} {c d : Code} (hp : encode p = some c) (hq : encode q = some d) : c = d ↔ p.resolved = q.resolved := by
  constructor
  · rintro rfl
    simpa using (sweep_encode hp).unique (sweep_encode hq)
  · intro h
    have e : encode p = encode q := by
      unfold encode
      rw [encodeLoop_resolved, encodeLoop_resolved _ q]
      exact congrArg (fun r => (encodeLoop _ _ r).map _) h
    rw [hp, hq] at e
    exact Option.some.inj e

/-- A repetition with a nop, and the same with other labels. -/
def loopA : Program := [.label 1, .choice 2, .char 97, .nop, .partialCommit 1, .label 2, .endI false]

/-- The same with other labels. -/
def loopB : Program := [.label 7, .label 9, .choice 3, .char 97, .partialCommit 7, .label 3, .nop, .endI false]

example : loopA.count = 4 ∧ (∃ c, encode loopA = some c ∧ encode loopB = some c) ∧ loopA.resolved = loopB.resolved ∧
    loopA.resolved = [.choice 10, .char 97, .partialCommit 0, .endI false] := by
  refine ⟨rfl, ⟨_, rfl, rfl⟩, rfl, rfl⟩

end Gpeg
