import Verif.InputSim
import Verif.Compile
/-!
# The peephole pass preserves runs
-/
namespace Gpeg
variable {τ σ : Type}

/-! ## Labels -/

theorem labelIdxFrom_congr (l : Nat) : ∀ (p p' : Program) (i d : Nat), p.length = p'.length →
    (∀ (j l' : Nat), p[j]? = some (Insn.label l') ↔ p'[j]? = some (Insn.label l')) →
    labelIdxFrom l p i d = labelIdxFrom l p' i d := by
  intro p
  induction p with
  | nil =>
    intro p' i d hl _
    cases p' with
    | nil => rfl
    | cons x p' => cases hl
  | cons x p ih =>
    intro p' i d hl h
    cases p' with
    | nil => cases hl
    | cons y p' =>
      have htl : ∀ d, labelIdxFrom l p (i + 1) d = labelIdxFrom l p' (i + 1) d :=
        fun d => ih p' (i + 1) d (by simpa using hl) (fun j l' => h (j + 1) l')
      have h0 : ∀ l', x = .label l' ↔ y = .label l' := by
        intro l'
        have := h 0 l'
        simpa using this
      by_cases hx : ∃ l', x = .label l'
      · obtain ⟨l', rfl⟩ := hx
        have hy := (h0 l').1 rfl
        subst hy
        exact htl _
      · have e1 : labelIdxFrom l (x :: p) i d = labelIdxFrom l p (i + 1) d := by
          cases x <;> first | rfl | exact absurd ⟨_, rfl⟩ hx
        have e2 : labelIdxFrom l (y :: p') i d = labelIdxFrom l p' (i + 1) d := by
          cases y <;> first | rfl | exact absurd ⟨_, (h0 _).2 rfl⟩ hx
        rw [e1, e2]; exact htl d

theorem labelIdxFrom_zero_or (l : Nat) : ∀ (p : Program) (i d : Nat),
    labelIdxFrom l p i d = d ∨ ∃ j, labelIdxFrom l p i d = i + j ∧ p[j]? = some (Insn.label l) := by
  intro p
  induction p with
  | nil => intro i d; exact Or.inl rfl
  | cons x p ih =>
    intro i d
    by_cases hx : ∃ l', x = .label l'
    · obtain ⟨l', rfl⟩ := hx
      unfold labelIdxFrom
      rcases ih (i + 1) (if l' = l then i else d) with h | ⟨j, h1, h2⟩
      · rw [h]
        split
        · rename_i e; subst e; exact Or.inr ⟨0, rfl, rfl⟩
        · exact Or.inl rfl
      · exact Or.inr ⟨j + 1, by rw [h1]; omega, h2⟩
    · have e1 : labelIdxFrom l (x :: p) i d = labelIdxFrom l p (i + 1) d := by
        cases x <;> first | rfl | exact absurd ⟨_, rfl⟩ hx
      rw [e1]
      rcases ih (i + 1) d with h | ⟨j, h1, h2⟩
      · exact Or.inl h
      · exact Or.inr ⟨j + 1, by rw [h1]; omega, h2⟩

/-- The position of a label is that of a label, or 0 if it is missing. -/
theorem labelIdx_or (p : Program) (l : Nat) : labelIdx p l = 0 ∨ p[labelIdx p l]? = some (Insn.label l) := by
  rcases labelIdxFrom_zero_or l p 0 0 with h | ⟨j, h1, h2⟩
  · exact Or.inl h
  · refine Or.inr ?_
    have e : labelIdx p l = 0 + j := h1
    rw [e, Nat.zero_add]; exact h2

/-! ## Head-fail instructions -/

/-- `Choice` followed by `x`, as a single instruction. -/
def fuse (l : Nat) : Insn → Option Insn
  | .char b => some (.testChar b l)
  | .set cs => some (.testSet cs l)
  | .any n => some (.testAny n l)
  | _ => none

/-- `P'` is `P` with the `Choice` at `i` fused with the instruction after it. -/
structure Fused (P P' : Program) (i l : Nat) (x y : Insn) : Prop where
  at_ : P[i]? = some (.choice l)
  at1 : P[i + 1]? = some x
  at' : P'[i]? = some y
  at1' : P'[i + 1]? = some .nop
  fuse : fuse l x = some y
  other : ∀ j, j ≠ i → j ≠ i + 1 → P'[j]? = P[j]?
  lbl : ∀ l, labelIdx P' l = labelIdx P l

/-- Addresses other than the one that is only reached by falling through. -/
def FuseRel (i a b : Nat) : Prop := a = b ∧ a ≠ i + 1

theorem oiter_one {step : VM Flat τ σ → Out Flat τ σ} (s : VM Flat τ σ) :
    oiter step (0 + 1) (.next s) = step s := rfl

theorem oiter_two {step : VM Flat τ σ → Out Flat τ σ} (s : VM Flat τ σ) :
    oiter step (1 + 1) (.next s) = ostep step (step s) := rfl

theorem fused_bisim (tab : TableOps τ) (chk : CheckFn σ) (iv : Option Interval) {P P' : Program} {i l : Nat}
    {x y : Insn} (h : Fused P P' i l x y) (hd : ∀ n, x = .any n → n.toNat ≤ 1) :
    Bisim (stepL ⟨flatOps, tab, chk, iv⟩ P) (stepL ⟨flatOps, tab, chk, iv⟩ P') (VRel (FuseRel i) Eq) := by
  intro s t hst
  have htgt : ∀ l', FuseRel i (labelIdx P l') (labelIdx P' l') := by
    intro l'
    refine ⟨(h.lbl l').symm, fun e => ?_⟩
    rcases labelIdx_or P l' with h0 | h0
    · omega
    · rw [e, h.at1] at h0
      cases h0
      have := h.fuse
      cases this
  have hne2 : FuseRel i (i + 1 + 1) (i + 1 + 1) := ⟨rfl, by omega⟩
  by_cases hip : s.ip = i
  · have hip' : t.ip = i := by rw [← hst.ip.1]; exact hip
    obtain ⟨ip, stk, capt, src, tbl, errs, cst, rng⟩ := s
    obtain ⟨ip', stk', capt', src', tbl', errs', cst', rng'⟩ := t
    obtain ⟨h1, h2, h3, h4, h5, h6, h7, h8⟩ := hst
    simp only at hip hip' h1 h2 h3 h4 h5 h6 h7 h8
    subst hip h3 h4 h5 h6 h7 h8
    subst hip'
    have hA1 : stepL ⟨flatOps, tab, chk, iv⟩ P ⟨ip', stk, capt, src, tbl, errs, cst, rng⟩ =
        .next ⟨ip' + 1, ⟨.btrack (labelIdx P l) src.pos, []⟩ :: stk, capt, src, tbl, errs, cst, rng⟩ := by
      simp only [stepL, h.at_]; rfl
    have hstk : ∀ p, StkRel (FuseRel ip') (⟨.btrack (labelIdx P l) p, []⟩ :: stk)
        (⟨.btrack (labelIdx P' l) p, []⟩ :: stk') := fun p => .cons ⟨.btrack p (htgt l), rfl⟩ h2
    cases x with
    | char b =>
      have hy : y = .testChar b l := by have := h.fuse; cases this; rfl
      subst hy
      rcases hb : src.data[src.pos]? with _ | b'
      · refine ⟨1, 0, ?_⟩
        rw [oiter_two, oiter_one, hA1]
        simp only [ostep, stepL, h.at1, h.at', Cfg.exec1, flatOps, Flat.peek, hb]
        exact .next ⟨htgt l, h2, rfl, rfl, rfl, rfl, rfl, rfl⟩
      · by_cases hbb : b' = b
        · subst hbb
          refine ⟨1, 1, ?_⟩
          rw [oiter_two, oiter_two, hA1]
          simp only [ostep, stepL, h.at1, h.at', Cfg.exec1, flatOps, Flat.peek, hb, if_true, VM.push, h.at1']
          exact .next ⟨hne2, hstk _, rfl, rfl, rfl, rfl, rfl, rfl⟩
        · refine ⟨1, 0, ?_⟩
          rw [oiter_two, oiter_one, hA1]
          simp only [ostep, stepL, h.at1, h.at', Cfg.exec1, flatOps, Flat.peek, hb, if_neg hbb, if_neg (Ne.symm hbb)]
          exact .next ⟨htgt l, h2, rfl, rfl, rfl, rfl, rfl, rfl⟩
    | set cs =>
      have hy : y = .testSet cs l := by have := h.fuse; cases this; rfl
      subst hy
      rcases hb : src.data[src.pos]? with _ | b'
      · refine ⟨1, 0, ?_⟩
        rw [oiter_two, oiter_one, hA1]
        simp only [ostep, stepL, h.at1, h.at', Cfg.exec1, flatOps, Flat.peek, hb]
        exact .next ⟨htgt l, h2, rfl, rfl, rfl, rfl, rfl, rfl⟩
      · by_cases hbb : cs.has b' = true
        · refine ⟨1, 1, ?_⟩
          rw [oiter_two, oiter_two, hA1]
          simp only [ostep, stepL, h.at1, h.at', Cfg.exec1, flatOps, Flat.peek, hb, if_pos hbb, VM.push, h.at1']
          exact .next ⟨hne2, hstk _, rfl, rfl, rfl, rfl, rfl, rfl⟩
        · refine ⟨1, 0, ?_⟩
          rw [oiter_two, oiter_one, hA1]
          simp only [ostep, stepL, h.at1, h.at', Cfg.exec1, flatOps, Flat.peek, hb, if_neg hbb]
          exact .next ⟨htgt l, h2, rfl, rfl, rfl, rfl, rfl, rfl⟩
    | any n =>
      have hy : y = .testAny n l := by have := h.fuse; cases this; rfl
      subst hy
      have hn := hd n rfl
      by_cases hp : src.pos < src.data.length
      · have hadv : src.advance n.toNat = (true, { src with pos := src.pos + n.toNat }) := by
          unfold Flat.advance; rw [if_pos hp, decide_eq_true (by omega)]
        refine ⟨1, 1, ?_⟩
        rw [oiter_two, oiter_two, hA1]
        simp only [ostep, stepL, h.at1, h.at', Cfg.exec1, flatOps, hadv, VM.push, h.at1']
        exact .next ⟨hne2, hstk _, rfl, rfl, rfl, rfl, rfl, rfl⟩
      · have hadv : src.advance n.toNat = (false, src) := by
          unfold Flat.advance; rw [if_neg hp]
        refine ⟨1, 0, ?_⟩
        rw [oiter_two, oiter_one, hA1]
        simp only [ostep, stepL, h.at1, h.at', Cfg.exec1, flatOps, hadv]
        exact .next ⟨htgt l, h2, rfl, rfl, rfl, rfl, rfl, rfl⟩
    | _ => have := h.fuse; cases this
  · refine ⟨0, 0, ?_⟩
    show OutRel _ (stepL _ P s) (stepL _ P' t)
    unfold stepL
    rw [← hst.ip.1, h.other s.ip hip hst.ip.2]
    cases hx : P[s.ip]? with
    | none => exact .panic
    | some insn =>
      exact exec1_rel (inpRel_eq _) (fun l' _ => htgt l') ⟨rfl, by omega⟩
        (fun n _ i j hij => by subst hij; rfl) hst

/-! ## Jumps to jumps -/

theorem nextInsn_drop : ∀ (p : Program) (a : Nat) {x : Insn}, nextInsn (p.drop a) = some x →
    ∃ d, p[a + d]? = some x ∧ x.isSkip = false ∧ ∀ k < d, ∃ y, p[a + k]? = some y ∧ y.isSkip = true := by
  intro p a
  have gen : ∀ (q : Program) {x : Insn}, nextInsn q = some x →
      ∃ d : Nat, q[d]? = some x ∧ x.isSkip = false ∧ ∀ k < d, ∃ y : Insn, q[k]? = some y ∧ y.isSkip = true := by
    intro q
    induction q with
    | nil => intro x h; cases h
    | cons z q ih =>
      intro x h
      unfold nextInsn at h
      split at h
      · rename_i hz
        obtain ⟨d, h1, h2, h3⟩ := ih h
        refine ⟨d + 1, h1, h2, fun k hk => ?_⟩
        cases k with
        | zero => exact ⟨z, rfl, hz⟩
        | succ k => exact h3 k (by omega)
      · rename_i hz
        cases h
        exact ⟨0, rfl, by simpa using hz, fun k hk => absurd hk (by omega)⟩
  intro x h
  obtain ⟨d, h1, h2, h3⟩ := gen _ h
  rw [List.getElem?_drop] at h1
  refine ⟨d, h1, h2, fun k hk => ?_⟩
  obtain ⟨y, hy⟩ := h3 k hk
  rw [List.getElem?_drop] at hy
  exact ⟨y, hy⟩

theorem skip_steps {ι : Type} (c : Cfg ι τ σ) (p : Program) : ∀ (d : Nat) (s : VM ι τ σ),
    (∀ k < d, ∃ y, p[s.ip + k]? = some y ∧ y.isSkip = true) →
    oiter (stepL c p) d (.next s) = .next { s with ip := s.ip + d } := by
  intro d
  induction d with
  | zero => intro s _; rfl
  | succ d ih =>
    intro s h
    obtain ⟨y, hy, hs⟩ := h 0 (by omega)
    have hstep : stepL c p s = .next { s with ip := s.ip + 1 } := by
      have hy' : p[s.ip]? = some y := hy
      unfold stepL; rw [hy']
      cases y <;> first | rfl | cases hs
    show oiter _ d (stepL c p s) = _
    rw [hstep, ih { s with ip := s.ip + 1 } (fun k hk => by
      obtain ⟨y, hy⟩ := h (k + 1) (by omega)
      exact ⟨y, by rw [← hy.1]; congr 1; show s.ip + 1 + k = _; omega, hy.2⟩)]
    show Out.next { s with ip := s.ip + 1 + d } = _
    rw [show s.ip + 1 + d = s.ip + (d + 1) by omega]

/-- Control flow instructions do not fall through. -/
theorem exec1_ctl {ι : Type} (c : Cfg ι τ σ) (tgt : Nat → Nat) {x : Insn} (h : isCtl x = true) (n n' : Nat)
    (s : VM ι τ σ) : c.exec1 tgt x n s = c.exec1 tgt x n' s := by
  cases x <;> first | rfl | cases h

/-- `P'` is `P` with the jump at `i` replaced by the instruction `x` found at its target, index `j`. -/
structure Threaded (P P' : Program) (i l d : Nat) (x : Insn) : Prop where
  at_ : P[i]? = some (.jump l)
  at' : P'[i]? = some x
  tgt : P[labelIdx P l + d]? = some x
  skip : ∀ k < d, ∃ y, P[labelIdx P l + k]? = some y ∧ y.isSkip = true
  ctl : isCtl x = true
  other : ∀ j, j ≠ i → P'[j]? = P[j]?
  lbl : ∀ l, labelIdx P' l = labelIdx P l

/-- Equal addresses, or the two addresses of the copied instruction. -/
def ThreadRel (i j a b : Nat) : Prop := a = b ∨ (a = j ∧ b = i)

theorem threaded_bisim {ι : Type} (c : Cfg ι τ σ) {P P' : Program} {i l d : Nat} {x : Insn}
    (h : Threaded P P' i l d x) :
    Bisim (stepL c P) (stepL c P') (VRel (ThreadRel i (labelIdx P l + d)) Eq) := by
  intro s t hst
  have htgt : ∀ l', ThreadRel i (labelIdx P l + d) (labelIdx P l') (labelIdx P' l') :=
    fun l' => Or.inl (h.lbl l').symm
  -- both machines execute `x`
  have hexec : ∀ (s t : VM ι τ σ), VRel (ThreadRel i (labelIdx P l + d)) Eq s t →
      s.ip = labelIdx P l + d → t.ip = i →
      OutRel (VRel (ThreadRel i (labelIdx P l + d)) Eq) (stepL c P s) (stepL c P' t) := by
    intro s t hst hs ht
    unfold stepL
    rw [hs, ht, h.tgt, h.at']
    simp only
    rw [exec1_ctl c _ h.ctl (i + 1) (labelIdx P l + d + 1)]
    exact exec1_rel (inpRel_eq _) (fun l' _ => htgt l') (Or.inl rfl)
      (fun n _ i j hij => by subst hij; rfl) hst
  rcases hst.ip with hip | ⟨hs, ht⟩
  · by_cases hi : s.ip = i
    · refine ⟨d + 1, 0, ?_⟩
      have hA : oiter (stepL c P) (d + 1) (.next s) = .next { s with ip := labelIdx P l + d } := by
        have hstep : stepL c P s = .next { s with ip := labelIdx P l } := by
          unfold stepL; rw [hi, h.at_]; rfl
        show oiter _ d (stepL c P s) = _
        rw [hstep, skip_steps c P d _ h.skip]
      rw [oiter_add, hA]
      exact hexec _ t (hst.setIp (b := t.ip) (Or.inr ⟨rfl, by rw [← hip, hi]⟩)) rfl (by rw [← hip, hi])
    · refine ⟨0, 0, ?_⟩
      show OutRel _ (stepL c P s) (stepL c P' t)
      unfold stepL
      rw [← hip, h.other s.ip hi]
      cases hx : P[s.ip]? with
      | none => exact .panic
      | some insn =>
        exact exec1_rel (inpRel_eq _) (fun l' _ => htgt l') (Or.inl rfl)
          (fun n _ i j hij => by subst hij; rfl) hst
  · exact ⟨0, 0, hexec s t hst hs ht⟩

/-! ## One iteration of the pass -/

/-- Same length and same labels at the same places. -/
structure SameLbl (p p' : Program) : Prop where
  len : p'.length = p.length
  lab : ∀ (j l : Nat), p'[j]? = some (Insn.label l) ↔ p[j]? = some (Insn.label l)

theorem SameLbl.idx {p p' : Program} (h : SameLbl p p') (l : Nat) : labelIdx p' l = labelIdx p l :=
  labelIdxFrom_congr l p' p 0 0 h.len h.lab

theorem SameLbl.trans {p q r : Program} (h : SameLbl p q) (h' : SameLbl q r) : SameLbl p r :=
  ⟨h'.len.trans h.len, fun j l => (h'.lab j l).trans (h.lab j l)⟩

theorem sameLbl_set {p : Program} {i : Nat} {x y : Insn} (hx : p[i]? = some x) (hxl : ∀ l, x ≠ .label l)
    (hyl : ∀ l, y ≠ .label l) : SameLbl p (p.set i y) := by
  have hi : i < p.length := by
    rcases Nat.lt_or_ge i p.length with h | h
    · exact h
    · rw [List.getElem?_eq_none h] at hx; cases hx
  refine ⟨List.length_set, fun j l => ?_⟩
  by_cases hj : i = j
  · subst hj
    rw [List.getElem?_set_self hi, hx]
    constructor
    · intro e; cases e; exact absurd rfl (hyl l)
    · intro e; cases e; exact absurd rfl (hxl l)
  · rw [List.getElem?_set_ne hj]

theorem withEnd_get {p : Program} {j : Nat} (h : j < p.length) : (withEnd p)[j]? = p[j]? := by
  unfold withEnd; rw [List.getElem?_append_left h]

theorem lt_of_get {p : Program} {j : Nat} {x : Insn} (h : p[j]? = some x) : j < p.length := by
  rcases Nat.lt_or_ge j p.length with h' | h'
  · exact h'
  · rw [List.getElem?_eq_none h'] at h; cases h

theorem withEnd_some {p : Program} {j : Nat} {x : Insn} (h : p[j]? = some x) : (withEnd p)[j]? = some x := by
  rw [withEnd_get (lt_of_get h)]; exact h

theorem withEnd_congr {p p' : Program} (hl : p'.length = p.length) {j : Nat} (h : p'[j]? = p[j]?) :
    (withEnd p')[j]? = (withEnd p)[j]? := by
  rcases Nat.lt_or_ge j p.length with h' | h'
  · rw [withEnd_get h', withEnd_get (by omega), h]
  · unfold withEnd
    rw [List.getElem?_append_right h', List.getElem?_append_right (by omega), hl]

/-- What one iteration of `Optimize` preserves. -/
structure OptOK (tab : TableOps τ) (chk : CheckFn σ) (iv : Option Interval) (p p' : Program) : Prop where
  lab : SameLbl p p'
  dots : Dots1 p'
  run : ∀ (f : Flat) (t : τ) (cst : σ),
    RunEq (stepL ⟨flatOps, tab, chk, iv⟩ (withEnd p)) (initVM ⟨flatOps, tab, chk, iv⟩ f t cst)
      (stepL ⟨flatOps, tab, chk, iv⟩ (withEnd p')) (initVM ⟨flatOps, tab, chk, iv⟩ f t cst) Eq

theorem OptOK.refl {tab : TableOps τ} {chk : CheckFn σ} {iv : Option Interval} {p : Program} (h : Dots1 p) :
    OptOK tab chk iv p p := ⟨⟨rfl, fun _ _ => Iff.rfl⟩, h, fun _ _ _ => RunEq.refl _ _⟩

theorem OptOK.trans {tab : TableOps τ} {chk : CheckFn σ} {iv : Option Interval} {p q r : Program}
    (h : OptOK tab chk iv p q) (h' : OptOK tab chk iv q r) : OptOK tab chk iv p r :=
  ⟨h.lab.trans h'.lab, h'.dots, fun f t cst => (h.run f t cst).trans (h'.run f t cst)
    (fun _ _ _ a b => a.trans b)⟩

theorem VRel.init {ι : Type} {c : Cfg ι τ σ} {RA : Nat → Nat → Prop} (h : RA 0 0) (f : ι) (t : τ) (cst : σ) :
    VRel RA Eq (initVM c f t cst) (initVM c f t cst) := by
  unfold initVM
  split <;> exact ⟨h, .nil, rfl, rfl, rfl, rfl, rfl, rfl⟩

theorem dots_set {p : Program} (h : Dots1 p) {i : Nat} {y : Insn}
    (hy : ∀ n, (y = .any n ∨ ∃ l, y = .testAny n l) → n.toNat ≤ 1) : Dots1 (p.set i y) := by
  intro z hz n hn
  rcases List.mem_or_eq_of_mem_set hz with h' | rfl
  · exact h z h' n hn
  · exact hy n hn

theorem fuse_ok (tab : TableOps τ) (chk : CheckFn σ) (iv : Option Interval) {p : Program} (hd : Dots1 p)
    {i l : Nat} {x y : Insn} (hi : p[i]? = some (.choice l)) (hi1 : p[i + 1]? = some x)
    (hf : fuse l x = some y) : OptOK tab chk iv p ((p.set i y).set (i + 1) .nop) := by
  have hxl : ∀ l, x ≠ .label l := by rintro l rfl; cases hf
  have hyl : ∀ l, y ≠ .label l := by
    rintro l rfl; cases x <;> cases hf
  have hlt := lt_of_get hi1
  have hlt' : i < p.length := lt_of_get hi
  have h1 : SameLbl p (p.set i y) := sameLbl_set hi (by simp) hyl
  have h2 : SameLbl (p.set i y) ((p.set i y).set (i + 1) .nop) :=
    sameLbl_set (x := x) (by rw [List.getElem?_set_ne (by omega)]; exact hi1) hxl (by simp)
  have hlab := h1.trans h2
  have hx1 : ∀ n, x = .any n → n.toNat ≤ 1 := fun n e =>
    hd x (List.mem_of_getElem? hi1) n (Or.inl e)
  refine ⟨hlab, ?_, fun f t cst => ?_⟩
  · refine dots_set (dots_set hd ?_) (by simp)
    rintro n (rfl | ⟨l', rfl⟩)
    · cases x <;> cases hf
    · cases x with
      | any m => cases hf; exact hx1 _ rfl
      | _ => cases hf
  · have hfu : Fused (withEnd p) (withEnd ((p.set i y).set (i + 1) .nop)) i l x y := by
      refine ⟨withEnd_some hi, withEnd_some hi1, withEnd_some ?_, withEnd_some ?_, hf, fun j h1 h2 => ?_,
        fun l => ?_⟩
      · rw [List.getElem?_set_ne (by omega), List.getElem?_set_self hlt']
      · rw [List.getElem?_set_self (by simpa using hlt)]
      · refine withEnd_congr hlab.len ?_
        rw [List.getElem?_set_ne (by omega), List.getElem?_set_ne (by omega)]
      · rw [labelIdx_withEnd, labelIdx_withEnd]; exact hlab.idx l
    exact (fused_bisim tab chk iv hfu hx1).runEq (fun s t h => h.obs) (VRel.init ⟨rfl, by omega⟩ f t cst)

theorem optStep_ok (tab : TableOps τ) (chk : CheckFn σ) (iv : Option Interval) {p : Program} (hd : Dots1 p)
    {lbls : Nat → Nat} (hl : ∀ l, lbls l = labelIdx p l) (i : Nat) :
    OptOK tab chk iv p (optStep lbls p i) := by
  unfold optStep
  split
  · rename_i l hi
    split
    · rename_i b hi1; exact fuse_ok tab chk iv hd hi hi1 rfl
    · rename_i b hi1; exact fuse_ok tab chk iv hd hi hi1 rfl
    · rename_i b hi1; exact fuse_ok tab chk iv hd hi hi1 rfl
    · exact .refl hd
  · rename_i l hi
    split
    · rename_i x hx
      split
      · rename_i hc
        rw [hl] at hx
        obtain ⟨d, h1, h2, h3⟩ := nextInsn_drop _ _ hx
        have hlt := lt_of_get hi
        have hxl : ∀ l, x ≠ .label l := by rintro l rfl; cases hc
        have hlab : SameLbl p (p.set i x) := sameLbl_set hi (by simp) hxl
        refine ⟨hlab, dots_set hd ?_, fun f t cst => ?_⟩
        · rintro n (rfl | ⟨l', rfl⟩) <;> cases hc
        · have hth : Threaded (withEnd p) (withEnd (p.set i x)) i l d x := by
            refine ⟨withEnd_some hi, withEnd_some ?_, ?_, ?_, hc, fun j hj => ?_, fun l => ?_⟩
            · rw [List.getElem?_set_self hlt]
            · rw [labelIdx_withEnd]; exact withEnd_some h1
            · intro k hk
              obtain ⟨y, hy, hs⟩ := h3 k hk
              rw [labelIdx_withEnd]
              exact ⟨y, withEnd_some hy, hs⟩
            · refine withEnd_congr hlab.len ?_
              rw [List.getElem?_set_ne (Ne.symm hj)]
            · rw [labelIdx_withEnd, labelIdx_withEnd]; exact hlab.idx l
          exact (threaded_bisim _ hth).runEq (fun s t h => h.obs) (VRel.init (Or.inl rfl) f t cst)
      · exact .refl hd
    · exact .refl hd
  · exact .refl hd

theorem optimize_ok (tab : TableOps τ) (chk : CheckFn σ) (iv : Option Interval) {p : Program} (hd : Dots1 p) :
    OptOK tab chk iv p (optimize p) := by
  unfold optimize
  have gen : ∀ (is : List Nat) (q : Program), OptOK tab chk iv p q →
      OptOK tab chk iv p (is.foldl (optStep (labelIdx p)) q) := by
    intro is
    induction is with
    | nil => intro q h; exact h
    | cons i is ih =>
      intro q h
      refine ih _ (h.trans (optStep_ok tab chk iv h.dots (fun l => (h.lab.idx l).symm) i))
  exact gen _ p (.refl hd)

end Gpeg
