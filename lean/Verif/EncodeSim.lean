import Verif.EncodeLemmas
/-!
# Running bytecode is running the instruction list
-/
namespace Gpeg
variable {ι τ σ : Type}

/-- Byte offset of the `i`-th instruction. -/
def addr : Program → Nat → Nat
  | x :: p, i + 1 => x.size + addr p i
  | _, _ => 0

@[simp] theorem addr_zero (p : Program) : addr p 0 = 0 := by cases p <;> rfl

theorem addr_succ {p : Program} {i : Nat} {insn : Insn} (h : p[i]? = some insn) :
    addr p (i + 1) = addr p i + insn.size := by
  induction p generalizing i with
  | nil => cases h
  | cons x p ih =>
    cases i with
    | zero => cases h; simp [addr]
    | succ i =>
      have h' : p[i]? = some insn := h
      show x.size + addr p (i + 1) = x.size + addr p i + insn.size
      rw [ih h']; omega

theorem encodeLoop_spec {lb : Nat → Nat} (p : Program) : ∀ {c c' : Code}, encodeLoop lb c p = some c' →
    c.Ext c' ∧ c'.insns.length = c.insns.length + addr p p.length ∧
    ∀ j insn, p[j]? = some insn → insn.isSkip = false → ∀ D : Code, c'.Ext D →
      decode D (c.insns.length + addr p j) = some (insn.retarget lb, insn.size) := by
  induction p with
  | nil => intro c c' h; cases h; exact ⟨.refl c, rfl, fun j insn h => by cases h⟩
  | cons i p ih =>
    intro c c' h
    unfold encodeLoop at h
    split at h
    · rename_i hs
      obtain ⟨h1, h2, h3⟩ := ih h
      have hz : i.size = 0 := by
        cases i <;> first | rfl | cases hs
      refine ⟨h1, by simp only [List.length_cons, addr, hz]; omega, fun j insn hj hn D hD => ?_⟩
      cases j with
      | zero => cases hj; rw [hs] at hn; cases hn
      | succ j =>
        simp only [addr, hz, Nat.zero_add]
        exact h3 j insn hj hn D hD
    · rename_i hs
      split at h
      · cases h
      · rename_i args c1 ha
        obtain ⟨e1, e2, e3, e4⟩ := decode_encode (by simpa using hs) _ _ ha
        obtain ⟨h1, h2, h3⟩ := ih h
        have hlen : (c1.insns ++ layoutInsn (opc i) args).length = c.insns.length + i.size := by
          rw [List.length_append, e1, e3]
        have hext : c1.Ext { c1 with insns := c1.insns ++ layoutInsn (opc i) args } :=
          ⟨⟨[], by simp⟩, ⟨[], by simp⟩, ⟨[], by simp⟩, ⟨_, rfl⟩⟩
        refine ⟨(e2.trans hext).trans h1, ?_, fun j insn hj hn D hD => ?_⟩
        · rw [h2]
          simp only [hlen, List.length_cons, addr]; omega
        · cases j with
          | zero =>
            cases hj
            simp only [addr_zero, Nat.add_zero]
            exact e4 D (h1.trans hD)
          | succ j =>
            have := h3 j insn hj hn D hD
            simp only [hlen] at this
            simp only [addr]
            rw [← Nat.add_assoc]
            exact this

/-- What is known of the encoding of `p`. -/
structure Encoded (p : Program) (code : Code) : Prop where
  at_ : ∀ j insn, p[j]? = some insn → insn.isSkip = false →
    decode code (addr p j) = some (insn.retarget (fun l => labelOffs l p 0 0), insn.size)
  end_ : decode code (addr p p.length) = some (.endI false, 2)

theorem encode_spec {p : Program} {code : Code} (h : encode p = some code) : Encoded p code := by
  unfold encode at h
  rw [Option.map_eq_some_iff] at h
  obtain ⟨c, h, rfl⟩ := h
  obtain ⟨h1, h2, h3⟩ := encodeLoop_spec p h
  have hext : c.Ext { c with insns := c.insns ++ [19, 0] } :=
    ⟨⟨[], by simp⟩, ⟨[], by simp⟩, ⟨[], by simp⟩, ⟨_, rfl⟩⟩
  simp only [List.length_nil, Nat.zero_add] at h2 h3
  refine ⟨fun j insn hj hn => h3 j insn hj hn _ hext, ?_⟩
  rw [← h2]
  unfold decode
  simp [decodeU8, at_app]

theorem labelOffs_eq (l : Nat) (P : Program) : ∀ (p : Program) (i d : Nat), P.drop i = p →
    labelOffs l p (addr P i) (addr P d) = addr P (labelIdxFrom l p i d) := by
  intro p
  induction p with
  | nil => intro i d _; rfl
  | cons x p ih =>
    intro i d hp
    have hx : P[i]? = some x := by
      have := congrArg List.head? hp
      rw [List.head?_drop] at this; exact this
    have hp' : P.drop (i + 1) = p := by
      rw [← List.drop_drop, hp]; rfl
    have hs := addr_succ hx
    by_cases hl : ∃ l', x = .label l'
    · obtain ⟨l', rfl⟩ := hl
      have hs' : addr P (i + 1) = addr P i := hs
      unfold labelOffs labelIdxFrom
      rw [← hs']
      have := ih (i + 1) (if l' = l then i else d) hp'
      rw [← this]
      congr 1
      split
      · exact hs'
      · rfl
    · have := ih (i + 1) d hp'
      rw [hs] at this
      cases x <;> first | exact this | exact absurd ⟨_, rfl⟩ hl

theorem labelOffs_addr (l : Nat) (p : Program) : labelOffs l p 0 0 = addr p (labelIdx p l) := by
  have := labelOffs_eq l p p 0 0 rfl
  rw [addr_zero] at this
  exact this

theorem labelIdxFrom_le (l : Nat) (p : Program) : ∀ (i d : Nat), d ≤ i → labelIdxFrom l p i d ≤ i + p.length := by
  induction p with
  | nil => intro i d h; exact h
  | cons x p ih =>
    intro i d h
    by_cases hl : ∃ l', x = .label l'
    · obtain ⟨l', rfl⟩ := hl
      unfold labelIdxFrom
      have := ih (i + 1) (if l' = l then i else d) (by split <;> omega)
      simp only [List.length_cons]; omega
    · have := ih (i + 1) d (by omega)
      have e : labelIdxFrom l (x :: p) i d = labelIdxFrom l p (i + 1) d := by
        cases x <;> first | rfl | exact absurd ⟨_, rfl⟩ hl
      rw [e]; simp only [List.length_cons]; omega

theorem labelIdx_le (p : Program) (l : Nat) : labelIdx p l ≤ p.length := by
  have := labelIdxFrom_le l p 0 0 (Nat.le_refl _)
  simpa [labelIdx] using this

theorem labelIdxFrom_append (l : Nat) (p q : Program) (hq : ∀ l, Insn.label l ∉ q) : ∀ (i d : Nat),
    labelIdxFrom l (p ++ q) i d = labelIdxFrom l p i d := by
  induction p with
  | nil =>
    induction q with
    | nil => intro i d; rfl
    | cons x q ih =>
      intro i d
      have := ih (fun l h => hq l (List.mem_cons_of_mem _ h)) (i + 1) d
      cases x <;> first | exact this | exact absurd List.mem_cons_self (hq _)
  | cons x p ih =>
    intro i d
    cases x <;> exact ih _ _

theorem labelIdx_withEnd (p : Program) (l : Nat) : labelIdx (withEnd p) l = labelIdx p l :=
  labelIdxFrom_append l p _ (by simp) 0 0

/-- The first instruction from `a` on that is executed. -/
theorem skip_run (c : Cfg ι τ σ) (p : Program) : ∀ (n : Nat) (s : VM ι τ σ),
    p[s.ip + n]? ≠ none → (∃ j insn, s.ip ≤ j ∧ j ≤ s.ip + n ∧ p[j]? = some insn ∧ insn.isSkip = false ∧
      (∀ i, s.ip ≤ i → i < j → ∃ x, p[i]? = some x ∧ x.isSkip = true) ∧
      oiter (stepL c p) (j - s.ip) (.next s) = .next { s with ip := j }) ∨
      ∃ x, p[s.ip + n]? = some x ∧ x.isSkip = true := by
  intro n
  induction n with
  | zero =>
    intro s hn
    cases hx : p[s.ip + 0]? with
    | none => exact absurd hx hn
    | some x =>
      cases hs : x.isSkip with
      | true => exact Or.inr ⟨x, rfl, hs⟩
      | false =>
        refine Or.inl ⟨s.ip, x, Nat.le_refl _, Nat.le_refl _, hx, hs, fun i h1 h2 => by omega, ?_⟩
        rw [Nat.sub_self]; rfl
  | succ n ih =>
    intro s hn
    have hlt : s.ip + (n + 1) < p.length := by
      rcases Nat.lt_or_ge (s.ip + (n + 1)) p.length with h | h
      · exact h
      · exact absurd (List.getElem?_eq_none h) hn
    have hx : p[s.ip]? = some (p[s.ip]'(by omega)) := List.getElem?_eq_getElem (by omega)
    generalize p[s.ip]'(by omega) = x at hx
    cases hs : x.isSkip with
    | false =>
      refine Or.inl ⟨s.ip, x, Nat.le_refl _, by omega, hx, hs, fun i h1 h2 => by omega, ?_⟩
      rw [Nat.sub_self]; rfl
    | true =>
      have hstep : stepL c p s = .next { s with ip := s.ip + 1 } := by
        unfold stepL; rw [hx]
        cases x <;> first | rfl | cases hs
      have hip : s.ip + (n + 1) = s.ip + 1 + n := by omega
      rw [hip] at hn ⊢
      rcases ih { s with ip := s.ip + 1 } hn with ⟨j, insn, h1, h2, h3, h4, h5, h6⟩ | h
      · have h1' : s.ip + 1 ≤ j := h1
        refine Or.inl ⟨j, insn, by omega, h2, h3, h4, fun i hi1 hi2 => ?_, ?_⟩
        · by_cases hi : i = s.ip
          · subst hi; exact ⟨x, hx, hs⟩
          · exact h5 i (show s.ip + 1 ≤ i by omega) hi2
        · rw [show j - s.ip = (j - (s.ip + 1)) + 1 by omega]
          show oiter _ _ (stepL c p s) = _
          rw [hstep]
          exact h6
      · exact Or.inr h

theorem addr_skip {p : Program} {a : Nat} : ∀ {n : Nat}, (∀ i, a ≤ i → i < a + n → ∃ x, p[i]? = some x ∧ x.isSkip = true) →
    addr p (a + n) = addr p a := by
  intro n
  induction n with
  | zero => intro _; rfl
  | succ n ih =>
    intro h
    obtain ⟨x, hx, hs⟩ := h (a + n) (by omega) (by omega)
    have hz : x.size = 0 := by cases x <;> first | rfl | cases hs
    rw [← Nat.add_assoc, addr_succ hx, hz, Nat.add_zero]
    exact ih fun i h1 h2 => h i h1 (by omega)

theorem inpRel_eq (o : InputOps ι) : InpRel Eq o o := by
  constructor <;> intros <;> subst_vars <;> rfl

/-- Index and byte offset denote the same place. -/
def AddrRel (p : Program) (a b : Nat) : Prop := a ≤ p.length ∧ b = addr p a

/-- The instruction list (with the `End` that `Encode` appends) and its bytecode. -/
theorem encode_bisim (c : Cfg ι τ σ) {p : Program} {code : Code} (h : encode p = some code) :
    Bisim (stepL c (withEnd p)) (stepB c code) (VRel (AddrRel p) Eq) := by
  intro s t hst
  obtain ⟨hle, hip⟩ := hst.ip
  have he := encode_spec h
  have hlen : (withEnd p).length = p.length + 1 := by simp [withEnd]
  have hlast : (withEnd p)[s.ip + (p.length - s.ip)]? = some (.endI false) := by
    rw [show s.ip + (p.length - s.ip) = p.length by omega]; simp [withEnd]
  rcases skip_run c (withEnd p) (p.length - s.ip) s (by rw [hlast]; simp) with
    ⟨j, insn, h1, h2, h3, h4, h5, h6⟩ | ⟨x, hx, hs⟩
  · have hj : j ≤ p.length := by omega
    have haddr : addr p j = addr p s.ip := by
      have := addr_skip (p := p) (a := s.ip) (n := j - s.ip) (fun i hi1 hi2 => by
        obtain ⟨x, hx, hs⟩ := h5 i hi1 (by omega)
        refine ⟨x, ?_, hs⟩
        rw [← hx]; unfold withEnd
        rw [List.getElem?_append_left (by omega)])
      rw [show s.ip + (j - s.ip) = j by omega] at this
      exact this
    refine ⟨j - s.ip, 0, ?_⟩
    rw [oiter_add, h6]
    show OutRel _ (stepL c (withEnd p) { s with ip := j }) (stepB c code t)
    unfold stepL stepB
    rw [hip, ← haddr]
    simp only [h3]
    rcases Nat.lt_or_ge j p.length with hjl | hjl
    · have h3' : p[j]? = some insn := by
        rw [← h3]; unfold withEnd; rw [List.getElem?_append_left hjl]
      rw [he.at_ j insn h3' h4]
      simp only
      rw [exec1_retarget]
      refine exec1_rel (o := c.inp) (o' := c.inp) (RA := AddrRel p) (inpRel_eq _) ?_ ?_ ?_ ?_
      · intro l _
        rw [labelIdx_withEnd]
        exact ⟨labelIdx_le p l, labelOffs_addr l p⟩
      · exact ⟨by omega, (addr_succ h3').symm⟩
      · intro n _ i j hij; subst hij; rfl
      · exact ⟨⟨hj, by rw [hip, haddr]⟩, hst.stk, hst.capt, hst.src, hst.tbl, hst.errs, hst.cst, hst.rng⟩
    · have hj' : j = p.length := by omega
      subst hj'
      have : insn = .endI false := by
        have e : (withEnd p)[p.length]? = some (.endI false) := by simp [withEnd]
        rw [e] at h3; cases h3; rfl
      subst this
      rw [he.end_]
      simp only
      have hst' : VRel (AddrRel p) Eq { s with ip := p.length } t :=
        ⟨⟨Nat.le_refl _, by rw [hip, haddr]⟩, hst.stk, hst.capt, hst.src, hst.tbl, hst.errs, hst.cst, hst.rng⟩
      unfold Cfg.exec1
      simp only [hst.src, hst.rng, hst.capt]
      exact .halt _ _ ⟨hst'.ip, hst'.stk, rfl, rfl, hst'.tbl, hst'.errs, hst'.cst, rfl⟩
  · rw [hlast] at hx; cases hx; cases hs

theorem encode_run (c : Cfg ι τ σ) {p : Program} {code : Code} (h : encode p = some code) (src : ι) (t : τ)
    (cst : σ) : RunEq (stepL c (withEnd p)) (initVM c src t cst) (stepB c code) (initVM c src t cst) Eq := by
  refine (encode_bisim c h).runEq (fun s t h => h.obs) ?_
  have : VRel (AddrRel p) Eq (initVM c src t cst) (initVM c src t cst) := by
    unfold initVM
    split <;> exact ⟨⟨Nat.zero_le _, (addr_zero p).symm⟩, .nil, rfl, rfl, rfl, rfl, rfl, rfl⟩
  exact this

end Gpeg
