import Verif.Exec
/-! # Properties C10–C12: encoding -/
namespace Gpeg
variable {ι τ σ : Type}

/-! ## C10: operands -/

/-- **C10** (8-bit operands). Values below 256 are encoded in a byte that reads back as the value;
others panic. -/
theorem C10_u8 (x : Nat) (pre post : List UInt8) :
    (x < 256 → ∃ bs, encodeU8 x = some bs ∧ bs.length = 1 ∧
      (decodeU8 (pre ++ bs ++ post) pre.length).map UInt8.toNat = some x) ∧
    (256 ≤ x → encodeU8 x = none) := by
  constructor
  · intro h
    refine ⟨[UInt8.ofNat x], by simp [encodeU8, h], rfl, ?_⟩
    have hm : x % 256 = x := Nat.mod_eq_of_lt h
    simp [decodeU8, hm]
  · intro h; simp [encodeU8, h]

/-- **C10** (16-bit signed operands: capture, memo and checker ids). -/
theorem C10_i16 (x : Int) (pre post : List UInt8) :
    (-32768 ≤ x ∧ x < 32768 → ∃ bs, encodeI16 x = some bs ∧ bs.length = 2 ∧
      decodeI16 (pre ++ bs ++ post) pre.length = some x) ∧
    (¬ (-32768 ≤ x ∧ x < 32768) → encodeI16 x = none) := by
  constructor
  · intro h
    have hs : ∃ bs, encodeI16 x = some bs := by
      unfold encodeI16
      rw [if_neg (by simp only [Int.reducePow]; omega)]
      exact ⟨_, rfl⟩
    obtain ⟨bs, hbs⟩ := hs
    obtain ⟨a, b, rfl, hx⟩ := encodeI16_some hbs
    refine ⟨_, hbs, rfl, ?_⟩
    rw [decodeI16_eq]
    simp [decodeU16, hx]
  · intro h
    unfold encodeI16
    rw [if_pos (by simp only [Int.reducePow]; omega)]

/-- **C10** (24-bit operands: labels, indices of checkers and messages). -/
theorem C10_u24 (x : Nat) (pre post : List UInt8) :
    (x < 2 ^ 24 → ∃ bs, encodeU24 x = some bs ∧ bs.length = 3 ∧
      decodeU24 (pre ++ bs ++ post) pre.length = some x) ∧
    (2 ^ 24 ≤ x → encodeU24 x = none) := by
  constructor
  · intro h
    have hs : ∃ bs, encodeU24 x = some bs := by
      unfold encodeU24
      rw [if_neg (by omega)]
      exact ⟨_, rfl⟩
    obtain ⟨bs, hbs⟩ := hs
    obtain ⟨a, b, c, rfl, hx⟩ := encodeU24_some hbs
    refine ⟨_, hbs, rfl, ?_⟩
    have e2 : (pre ++ a :: b :: c :: post)[pre.length + 1 + 1]? = some c := by
      rw [List.getElem?_append_right (by omega), show pre.length + 1 + 1 - pre.length = 2 by omega]; rfl
    simp [decodeU24, decodeU16, decodeU8, e2, hx]
  · intro h; unfold encodeU24; rw [if_pos h]

/-- **C10** (whole instructions). Whatever `Encode` emits for an instruction decodes, wherever it is
placed and whatever follows, to that instruction with its label replaced by the label's offset; the
tables of sets, messages and checkers may have grown in between. -/
theorem C10_instruction (i : Insn) (hskip : i.isSkip = false) (lb : Nat → Nat) (c c' : Code)
    (args : List UInt8) (h : encodeArgs lb c i = some (args, c')) (moreSets : List CSet)
    (moreErrs : List String) (moreChk : List Nat) (post : List UInt8) :
    decode ⟨c'.sets ++ moreSets, c'.errors ++ moreErrs, c'.checkers ++ moreChk,
      c.insns ++ layoutInsn (opc i) args ++ post⟩ c.insns.length = some (i.retarget lb, i.size) := by
  obtain ⟨h1, _, _, h4⟩ := decode_encode hskip _ _ h
  refine h4 _ ⟨⟨_, rfl⟩, ⟨_, rfl⟩, ⟨_, rfl⟩, ⟨post, ?_⟩⟩
  rw [h1]

/-- A label at 16 million, a negative id. -/
example : encodeU24 16000000 = some [244, 0, 36] ∧ decodeU24 [244, 0, 36] 0 = some 16000000 := by
  constructor <;> rfl
example : encodeI16 (-2) = some [254, 255] ∧ decodeI16 [9, 254, 255] 1 = some (-2) := by
  constructor <;> rfl
example : encodeArgs (fun _ => 300) ⟨[], [], [], [1, 2]⟩ (.testChar 97 5) =
    some ([97, 0, 44, 1], ⟨[], [], [], [1, 2]⟩) := by rfl

/-! ## C11: layout -/

/-- **C11**. The bytecode has as many bytes as the sizes of the instructions add up to, plus the
final `End`. -/
theorem C11_size {p : Program} {code : Code} (h : encode p = some code) :
    code.insns.length = (p.map Insn.size).sum + 2 := by
  have hsum : ∀ p : Program, addr p p.length = (p.map Insn.size).sum := by
    intro p
    induction p with
    | nil => rfl
    | cons x p ih => simp [addr, ih]
  unfold encode at h
  rw [Option.map_eq_some_iff] at h
  obtain ⟨c, h, rfl⟩ := h
  obtain ⟨_, h2, _⟩ := encodeLoop_spec p h
  simp [h2, hsum]

/-- **C11**. A label denotes the first byte of the instruction following it (of the final `End` if
there is none). -/
theorem C11_label {q r : Program} {l : Nat} {code : Code} (h : encode (q ++ .label l :: r) = some code)
    (hr : .label l ∉ r) :
    decode code (labelOffs l (q ++ .label l :: r) 0 0) =
      match r.find? (fun i => !i.isSkip) with
      | some i => some (i.retarget (fun l' => labelOffs l' (q ++ .label l :: r) 0 0), i.size)
      | none => some (.endI false, 2) := by
  have he := encode_spec h
  rw [labelOffs_addr]
  have hi : labelIdx (q ++ .label l :: r) l = q.length := by
    have h0 : ∀ (r : Program) (i d : Nat), .label l ∉ r → labelIdxFrom l r i d = d := by
      intro r
      induction r with
      | nil => intro i d _; rfl
      | cons x r ih =>
        intro i d hr
        have hr' : Insn.label l ∉ r := fun h => hr (List.mem_cons_of_mem _ h)
        by_cases hl : ∃ l', x = .label l'
        · obtain ⟨l', rfl⟩ := hl
          unfold labelIdxFrom
          rw [if_neg (fun e => hr (by rw [e]; exact List.mem_cons_self))]
          exact ih _ _ hr'
        · have e : labelIdxFrom l (x :: r) i d = labelIdxFrom l r (i + 1) d := by
            cases x <;> first | rfl | exact absurd ⟨_, rfl⟩ hl
          rw [e]; exact ih _ _ hr'
    have h1 : ∀ (q : Program) (i d : Nat), labelIdxFrom l (q ++ .label l :: r) i d = i + q.length := by
      intro q
      induction q with
      | nil =>
        intro i d
        show labelIdxFrom l r (i + 1) (if l = l then i else d) = i
        rw [if_pos rfl]; exact h0 r _ _ hr
      | cons x q ih =>
        intro i d
        have : ∀ d, labelIdxFrom l (q ++ .label l :: r) (i + 1) d = i + (q.length + 1) := by
          intro d; rw [ih]; omega
        cases x <;> exact this _
    have := h1 q 0 0
    unfold labelIdx; omega
  rw [hi]
  have hget : ∀ k, (q ++ .label l :: r)[q.length + (k + 1)]? = r[k]? := by
    intro k
    rw [List.getElem?_append_right (by omega)]
    rw [show q.length + (k + 1) - q.length = k + 1 by omega]; rfl
  have hskip : ∀ k, (∀ i < k, ∃ x, r[i]? = some x ∧ x.isSkip = true) →
      addr (q ++ .label l :: r) (q.length + (k + 1)) = addr (q ++ .label l :: r) q.length := by
    intro k hk
    refine addr_skip fun i h1 h2 => ?_
    by_cases hi : i = q.length
    · subst hi; exact ⟨.label l, by simp, rfl⟩
    · obtain ⟨x, hx, hs⟩ := hk (i - q.length - 1) (by omega)
      exact ⟨x, by rw [← hx, ← hget]; congr 1; omega, hs⟩
  cases hf : r.find? (fun i => !i.isSkip) with
  | none =>
    rw [List.find?_eq_none] at hf
    have := hskip r.length (fun i hi => ⟨r[i], List.getElem?_eq_getElem hi, by
      have := hf r[i] (List.getElem_mem hi); simpa using this⟩)
    have he' := he.end_
    rw [show (q ++ Insn.label l :: r).length = q.length + (r.length + 1) by simp] at he'
    rw [← this]; exact he'
  | some i =>
    rw [List.find?_eq_some_iff_append] at hf
    obtain ⟨hsk, as, bs, rfl, has⟩ := hf
    have := hskip as.length (fun i hi => ⟨as[i], by
      rw [List.getElem?_append_left hi, List.getElem?_eq_getElem hi], by
      have := has as[i] (List.getElem_mem hi); simpa using this⟩)
    rw [← this]
    exact he.at_ _ _ (by rw [hget]; simp) (by simpa using hsk)

/-- The loop `L: test 'a' → M; jump L; M:` -/
example : (encode [.label 1, .testCharNC 97 2, .jump 1, .label 2]).map (·.insns) =
    some [15, 0, 97, 0, 10, 0, 1, 0, 0, 0, 19, 0] := by rfl

/-! ## C12: execution -/

/-- **C12**. Running the encoded bytecode yields exactly the results of stepping through the
instruction list (with the `End` that `Encode` appends), jumping to labels: same match flag, captures,
final input, errors, memo table and checker state, or the same panic. In particular one stops iff the
other does. The input may be chunked or flat, the table and the checkers arbitrary, the capture
interval present or absent. -/
theorem C12_bytecode_runs_program (c : Cfg ι τ σ) {p : Program} {code : Code} (h : encode p = some code)
    (src : ι) (t : τ) (cst : σ) (r : XRes ι τ σ) :
    Yields (stepL c (withEnd p)) (initVM c src t cst) r ↔ Execs c code src t cst r :=
  (encode_run c h src t cst).yields r

/-- `'a'*` on "aab", from bytes: a match ending at 2. -/
example : Execs (σ := Unit) ⟨flatOps, noneTable, fun _ s _ _ _ _ _ => (none, s), none⟩
    ⟨[], [], [], [15, 0, 97, 0, 10, 0, 1, 0, 0, 0, 19, 0]⟩ ⟨[97, 97, 98], 0, 0⟩ () ()
    (.done true (some (.dummy 0 2 [])) ⟨[97, 97, 98], 2, 2⟩ [] () ()) := by
  have h : encode [.label 1, .testCharNC 97 2, .jump 1, .label 2] =
      some ⟨[], [], [], [15, 0, 97, 0, 10, 0, 1, 0, 0, 0, 19, 0]⟩ := by rfl
  rw [← C12_bytecode_runs_program _ h]
  exact ⟨20, _, rfl, rfl⟩

end Gpeg
