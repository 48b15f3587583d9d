import Verif.SliceRun
/-!
# Each instruction, and whole runs
-/
namespace Gpeg.Slice
variable {ι τ τ' σ : Type}

section
variable {R : Heap → (Nat → Nat) → τ' → τ → Prop} {c : SCfg ι τ' σ} {T : TableOps τ} {fz : Nat → Nat}
  {s : SVM ι τ' σ} {t : VM ι τ σ} {tgt : Nat → Nat} {nxt : Nat}

/-- States that differ from corresponding ones only in fields that are equal on both sides. -/
theorem Rel.upd (h : Rel R fz s t) {s' : SVM ι τ' σ} {t' : VM ι τ σ}
    (e1 : s'.stk = s.stk := by first | rfl | assumption | (symm; assumption))
    (e2 : t'.stk = t.stk := by first | rfl | assumption | (symm; assumption))
    (e3 : s'.capt = s.capt := by rfl) (e4 : t'.capt = t.capt := by rfl) (e5 : s'.heap = s.heap := by rfl)
    (e6 : s'.tbl = s.tbl := by rfl) (e7 : t'.tbl = t.tbl := by rfl)
    (e8 : s'.ip = t'.ip := by first | rfl | assumption) (e9 : s'.src = t'.src := by first | rfl | assumption)
    (e10 : s'.errs = t'.errs := by first | rfl | assumption)
    (e11 : s'.cst = t'.cst := by first | rfl | assumption)
    (e12 : s'.rng = t'.rng := by first | rfl | assumption) : Rel R fz s' t' where
  ip := e8
  src := e9
  errs := e10
  cst := e11
  rng := e12
  kinds := by rw [e1, e2]; exact h.kinds
  wf := by rw [e5]; exact h.wf
  live := by rw [e1, e2, e3, e4, e5]; exact h.live
  tab := by rw [e5, e6, e7]; exact h.tab

theorem Rel.eqs (h : Rel R fz s t) : s.ip = t.ip ∧ s.src = t.src ∧ s.errs = t.errs ∧ s.cst = t.cst ∧ s.rng = t.rng :=
  ⟨h.ip, h.src, h.errs, h.cst, h.rng⟩

/-- Instructions that test the next byte. -/
theorem peek_rel (hT : TabSim c.par.al c.tab T R) (h : Rel R fz s t) (p : UInt8 → Bool) :
    ORel R (match c.inp.peek s.src with
        | (some b, src) => if p b then .next { s with src := (c.inp.advance src 1).2, ip := nxt }
          else c.fail { s with src := src }
        | (none, src) => c.fail { s with src := src })
      (match c.inp.peek t.src with
        | (some b, src) => if p b then .next { t with src := (c.inp.advance src 1).2, ip := nxt }
          else (c.toCfg T).fail { t with src := src }
        | (none, src) => (c.toCfg T).fail { t with src := src }) := by
  obtain ⟨hip, hsrc, herrs, hcst, hrng⟩ := h.eqs
  rw [hsrc]
  rcases c.inp.peek t.src with ⟨_ | b, src⟩
  · exact fail_rel hT h.upd
  · simp only
    split
    · exact .next h.upd
    · exact fail_rel hT h.upd

theorem test_rel (h : Rel R fz s t) (p : UInt8 → Bool) (l : Nat) :
    ORel R (match c.inp.peek s.src with
        | (some b, src) => if p b then
            .next { ({ s with src := src }.push (.btrack l (c.inp.pos src))) with
              src := (c.inp.advance src 1).2, ip := nxt }
          else .next { s with src := src, ip := l }
        | (none, src) => .next { s with src := src, ip := l })
      (match c.inp.peek t.src with
        | (some b, src) => if p b then
            .next { ({ t with src := src }.push (.btrack l (c.inp.pos src))) with
              src := (c.inp.advance src 1).2, ip := nxt }
          else .next { t with src := src, ip := l }
        | (none, src) => .next { t with src := src, ip := l }) := by
  obtain ⟨hip, hsrc, herrs, hcst, hrng⟩ := h.eqs
  rw [hsrc]
  rcases c.inp.peek t.src with ⟨_ | b, src⟩
  · exact .next h.upd
  · simp only
    split
    · exact .next (h.push _).upd
    · exact .next h.upd

theorem testNC_rel (h : Rel R fz s t) (p : UInt8 → Bool) (l : Nat) :
    ORel R (match c.inp.peek s.src with
        | (some b, src) => if p b then .next { s with src := (c.inp.advance src 1).2, ip := nxt }
          else .next { s with src := src, ip := l }
        | (none, src) => .next { s with src := src, ip := l })
      (match c.inp.peek t.src with
        | (some b, src) => if p b then .next { t with src := (c.inp.advance src 1).2, ip := nxt }
          else .next { t with src := src, ip := l }
        | (none, src) => .next { t with src := src, ip := l }) := by
  obtain ⟨hip, hsrc, herrs, hcst, hrng⟩ := h.eqs
  rw [hsrc]
  rcases c.inp.peek t.src with ⟨_ | b, src⟩
  · exact .next h.upd
  · simp only
    split
    · exact .next h.upd
    · exact .next h.upd

theorem Rel.hit (hP : AlOK c.par.al) (hT : TabSim c.par.al c.tab T R) (h : Rel R fz s t) {x : Sl} {ds : List Capture}
    (hd : DenS s.heap fz x ds) (hf : x.len ≤ fz x.arr) (hc : (c.par.al x).cap ≤ x.len) :
    Rel R fz (s.addCapt c.par x) (t.addCapt ds) := by
  refine (h.addCapt (P := c.par) hT hd ?_).1
  intro e r e' r' h1 h2 _
  have hl := h.live
  rw [h1, h2] at hl
  rcases hP with h' | h'
  · rw [h'] at hc ⊢
    exact hl.tail.cons_frozen hd hc hf
  · rw [h']
    exact hl.tail.cons_clip hd hf

theorem Rel.setRng (h : Rel R fz s t) (x : Interval) : Rel R fz { s with rng := x } { t with rng := x } :=
  { h with rng := rfl }

theorem addCapt_src (P : Par) (s : SVM ι τ' σ) (x : Sl) : (s.addCapt P x).src = s.src := by
  unfold SVM.addCapt; split <;> rfl

theorem addCapt_cst (P : Par) (s : SVM ι τ' σ) (x : Sl) : (s.addCapt P x).cst = s.cst := by
  unfold SVM.addCapt; split <;> rfl

theorem VM.addCapt_src (s : VM ι τ σ) (x : List Capture) : (s.addCapt x).src = s.src := by
  unfold VM.addCapt; split <;> rfl

theorem VM.addCapt_cst (s : VM ι τ σ) (x : List Capture) : (s.addCapt x).cst = s.cst := by
  unfold VM.addCapt; split <;> rfl

/-- Freeze any of the live slices. -/
theorem Live.freeze_last {h : Heap} {fz : Nat → Nat} {x : Sl} {xc : List Capture} : ∀ {L : List Sl}
    {Cs : List (List Capture)}, L.length = Cs.length → Live h fz (L ++ [x]) (Cs ++ [xc]) →
    Live h (raise fz x) (L ++ [x]) (Cs ++ [xc]) ∧ DenS h fz x xc
  | [], [], _, hl => by
    obtain ⟨hd, ⟨hg0, hg⟩, _, _⟩ := hl
    refine ⟨⟨⟨hd.len, hd.den.mono (le_raised h fz x)⟩, ⟨hg0, ?_⟩, fun _ h => (by cases h), trivial⟩, hd⟩
    rcases hg with hg | hg | hg
    · exact .inl hg
    · exact .inr (.inl hg.raise)
    · refine .inr (.inr ?_)
      simp only [raise, if_true]
      omega
  | s :: L, cs :: Cs, hlen, hl => by
    obtain ⟨hd, ⟨hg0, hg⟩, hp, hl⟩ := hl
    obtain ⟨h1, h2⟩ := Live.freeze_last (by simpa using hlen) hl
    refine ⟨⟨⟨hd.len, hd.den.mono (le_raised h fz x)⟩, ⟨hg0, ?_⟩, fun u hu => (hp u hu).raise, h1⟩, h2⟩
    rcases hg with hg | hg | hg
    · exact .inl hg
    · exact .inr (.inl hg.raise)
    · rcases hp x (by simp) with h | h | h | h | h
      · exact .inl h
      · refine .inr (.inr ?_)
        simp only [raise, h]
        split <;> omega
      · exact .inr (.inl h.raise)
      · refine .inr (.inr ?_)
        have := h.2
        simp only [raise]
        split
        · rename_i he; rw [he] at hg ⊢; omega
        · exact hg
      · refine .inr (.inr ?_)
        simp only [raise, if_neg h]
        exact hg
  | [], _ :: _, h, _ | _ :: _, [], h, _ => by simp at h

theorem Rel.freeze_base {S : STab τ'} {al : Sl → Sl} (hT : TabSim al S T R) (h : Rel R fz s t) :
    ∃ fz', Rel R fz' s t ∧ s.capt.len ≤ fz' s.capt.arr ∧ DenL s.heap fz' (cells s.heap s.capt) t.capt := by
  have hlen : s.stk.length = t.stk.length := by simpa using congrArg List.length h.kinds
  obtain ⟨h1, h2⟩ := Live.freeze_last (by simpa using hlen) h.live
  refine ⟨Slice.raise fz s.capt, { h with wf := fun a => ?_, live := h1, tab := hT.mono (le_raised ..) h.tab },
    raise_self .., h2.den.mono (le_raised ..)⟩
  have := len_le_of_cells h2.len
  unfold Slice.raise
  split
  · rename_i ha; subst ha; have := h.wf s.capt.arr; omega
  · exact h.wf a

theorem exec1_rel (hP : AlOK c.par.al) (hT : TabSim c.par.al c.tab T R) (insn : Insn) (h : Rel R fz s t) :
    ORel R (c.exec1 tgt insn nxt s) ((c.toCfg T).exec1 tgt insn nxt t) := by
  obtain ⟨ip, stk, capt, src, tbl, errs, cst, rng, heap⟩ := s
  obtain ⟨ip', stk', capt', src', tbl', errs', cst', rng'⟩ := t
  obtain ⟨hip, hsrc, herrs, hcst, hrng⟩ := h.eqs
  simp only at hip hsrc herrs hcst hrng
  subst hip hsrc herrs hcst hrng
  cases insn with
  | label _ => exact .next h.upd
  | nop => exact .next h.upd
  | char b =>
    have := peek_rel (nxt := nxt) hT h fun b' => decide (b = b')
    simp only [decide_eq_true_eq] at this
    exact this
  | jump l => exact .next h.upd
  | choice l =>
    simp only [SCfg.exec1, Cfg.exec1]
    exact .next (h.push _).upd
  | call l => exact .next (h.push _).upd
  | commit l =>
    simp only [SCfg.exec1, Cfg.exec1]
    rcases h.stk with ⟨h1, h2⟩ | ⟨e, r, e', r', h1, h2, _⟩
    · simp only at h1 h2; subst h1 h2
      exact .next h.upd
    · simp only at h1 h2; subst h1 h2
      obtain ⟨_, hr, _⟩ := h.pop (P := c.par) hP hT rfl rfl
      exact .next (hr.upd (e8 := by first | rfl | exact hr.ip) (e9 := by first | rfl | exact hr.src) (e10 := hr.errs) (e11 := hr.cst) (e12 := hr.rng))
  | ret =>
    simp only [SCfg.exec1, Cfg.exec1]
    rcases h.stk with ⟨h1, h2⟩ | ⟨e, r, e', r', h1, h2, hk, _⟩
    · simp only at h1 h2; subst h1 h2; exact .panic
    · simp only at h1 h2; subst h1 h2; simp only [hk]
      cases e'.kind with
      | ret ip =>
        obtain ⟨_, hr, _⟩ := h.pop (P := c.par) hP hT rfl rfl
        exact .next (hr.upd (e8 := by first | rfl | exact hr.ip) (e9 := by first | rfl | exact hr.src) (e10 := hr.errs) (e11 := hr.cst) (e12 := hr.rng))
      | _ => exact .panic
  | fail => exact fail_rel hT h
  | set cs => exact peek_rel (nxt := nxt) hT h fun b => cs.has b
  | any n =>
    simp only [SCfg.exec1, Cfg.exec1]
    show ORel R (match c.inp.advance src n.toNat with | (true, src) => _ | (false, src) => _)
      (match c.inp.advance src n.toNat with | (true, src) => _ | (false, src) => _)
    rcases c.inp.advance src n.toNat with ⟨_ | _, src⟩
    · exact fail_rel hT h.upd
    · exact .next h.upd
  | partialCommit l =>
    simp only [SCfg.exec1, Cfg.exec1]
    rcases h.stk with ⟨h1, h2⟩ | ⟨e, r, e', r', h1, h2, hk, _⟩
    · simp only at h1 h2; subst h1 h2; exact .panic
    · simp only at h1 h2; subst h1 h2; simp only [hk]
      cases e'.kind with
      | btrack ip off =>
        obtain ⟨_, hr, _⟩ := h.pop (P := c.par) hP hT rfl rfl
        exact .next ((hr.push _).upd (e9 := hr.src) (e10 := hr.errs) (e11 := hr.cst) (e12 := hr.rng))
      | _ => exact .panic
  | span cs =>
    simp only [SCfg.exec1, Cfg.exec1, spanLoop_eq (T := T)]
    exact .next h.upd
  | backCommit l =>
    simp only [SCfg.exec1, Cfg.exec1]
    rcases h.stk with ⟨h1, h2⟩ | ⟨e, r, e', r', h1, h2, hk, _⟩
    · simp only at h1 h2; subst h1 h2; exact .panic
    · simp only at h1 h2; subst h1 h2; simp only [hk]
      cases e'.kind with
      | btrack ip off =>
        obtain ⟨_, hr, _⟩ := h.pop (P := c.par) hP hT rfl rfl
        exact .next (hr.upd (e8 := by first | rfl | exact hr.ip) (e9 := by first | rfl | exact hr.src) (e10 := hr.errs) (e11 := hr.cst) (e12 := hr.rng))
      | _ => exact .panic
  | failTwice =>
    simp only [SCfg.exec1, Cfg.exec1]
    rcases h.stk with ⟨h1, h2⟩ | ⟨e, r, e', r', h1, h2, hk, _⟩
    · simp only at h1 h2; subst h1 h2; exact fail_rel hT h
    · simp only at h1 h2; subst h1 h2
      exact fail_rel hT (h.drop rfl rfl)
  | emptyOp op =>
    simp only [SCfg.exec1, Cfg.exec1]
    show ORel R (if emptyOpContext _ (c.inp.peek src).1 &&& op ≠ 0 then _ else _)
      (if emptyOpContext (c.inp.peekBefore src) (c.inp.peek src).1 &&& op ≠ 0 then _ else _)
    split
    · exact .next h.upd
    · exact fail_rel hT h.upd
  | testChar b l =>
    have := test_rel (c := c) (nxt := nxt) h (fun b' => decide (b' = b)) (tgt l)
    simp only [decide_eq_true_eq] at this
    exact this
  | testCharNC b l =>
    have := testNC_rel (c := c) (nxt := nxt) h (fun b' => decide (b' = b)) (tgt l)
    simp only [decide_eq_true_eq] at this
    exact this
  | testSet cs l => exact test_rel (c := c) (nxt := nxt) h (fun b => cs.has b) (tgt l)
  | testSetNC cs l => exact testNC_rel (c := c) (nxt := nxt) h (fun b => cs.has b) (tgt l)
  | testAny n l =>
    simp only [SCfg.exec1, Cfg.exec1]
    show ORel R (match c.inp.advance src n.toNat with | (true, src) => _ | (false, src) => _)
      (match c.inp.advance src n.toNat with | (true, src) => _ | (false, src) => _)
    rcases c.inp.advance src n.toNat with ⟨_ | _, src⟩
    · exact .next h.upd
    · exact .next (h.push _).upd
  | captureBegin id =>
    simp only [SCfg.exec1, Cfg.exec1]
    exact .next (h.push _).upd
  | captureLate back id =>
    simp only [SCfg.exec1, Cfg.exec1]
    exact .next (h.push _).upd
  | captureFull back id =>
    simp only [SCfg.exec1, Cfg.exec1]
    show ORel R (if overlapsIv c.intrvl _ _ = true then _ else _)
      (if overlapsIv c.intrvl (c.inp.pos src - back.toNat) (c.inp.pos src) = true then _ else _)
    split
    · obtain ⟨_, hr⟩ := (h.setRng ⟨min rng.low (c.inp.pos src - back.toNat),
        max rng.high (c.inp.pos src)⟩).addCapt1 (P := c.par) hP hT
        (x := .node id (c.inp.pos src - back.toNat) back.toNat {})
        (d := .node id (c.inp.pos src - back.toNat) back.toNat [])
        (.node (Nat.zero_le _) (DenS.nil _ _).den)
      exact .next (hr.upd (e8 := by first | rfl | exact hr.ip) (e9 := by first | rfl | exact hr.src) (e10 := hr.errs) (e11 := hr.cst) (e12 := hr.rng))
    · exact .next h.upd
  | captureEnd =>
    simp only [SCfg.exec1, Cfg.exec1]
    rcases h.stk with ⟨h1, h2⟩ | ⟨e, r, e', r', h1, h2, hk, _⟩
    · simp only at h1 h2; subst h1 h2; exact .panic
    · simp only at h1 h2; subst h1 h2; simp only [hk]
      cases e'.kind with
      | capt id pos =>
        show ORel R (if overlapsIv c.intrvl _ _ = true then _ else _)
          (if overlapsIv c.intrvl pos (c.inp.pos src) = true then _ else _)
        split
        · have h' := h.raise hT rfl
          have hl := h'.live
          obtain ⟨_, hr⟩ := ((h'.drop rfl rfl).setRng ⟨min rng.low pos,
            max rng.high (c.inp.pos src)⟩).addCapt1 (P := c.par) hP hT
            (x := .node id pos (c.inp.pos src - pos) e.capt)
            (d := .node id pos (c.inp.pos src - pos) e'.capt)
            (.node (raise_self ..) hl.head.den)
          exact .next (hr.upd (e8 := by first | rfl | exact hr.ip) (e9 := by first | rfl | exact hr.src) (e10 := hr.errs) (e11 := hr.cst) (e12 := hr.rng))
        · exact .next (h.drop rfl rfl).upd
      | _ => exact .panic
  | endI fl =>
    have hbase : ∃ fz', Rel R fz' (⟨ip, stk, capt, src, tbl, errs, cst, rng, heap⟩ : SVM ι τ' σ)
        (⟨ip, stk', capt', src, tbl', errs, cst, rng⟩ : VM ι τ σ) ∧ capt.len ≤ fz' capt.arr ∧
        DenL heap fz' (cells heap capt) capt' := h.freeze_base hT
    obtain ⟨fz', h', hf, hd⟩ := hbase
    simp only [SCfg.exec1, Cfg.exec1]
    show ORel R (.halt _ (some (match c.intrvl with | some _ => _ | none => _)) _)
      (.halt _ (some (match c.intrvl with | some _ => _ | none => _)) _)
    cases c.intrvl with
    | none => exact .halt (fz := fz') (.dummy hf hd) h'
    | some i => exact .halt (fz := fz') (.dummy hf hd) h'
  | memoOpen l id =>
    simp only [SCfg.exec1, Cfg.exec1]
    have hg := hT.get (id := id) (pos := c.inp.pos src) h.tab
    show ORel R (match c.tab.get tbl id (c.inp.pos src) with | (some m, t') => _ | (none, t') => _)
      (match T.get tbl' id (c.inp.pos src) with | (some m, t') => _ | (none, t') => _)
    simp only at hg
    revert hg
    rcases c.tab.get tbl id (c.inp.pos src) with ⟨_ | m, a⟩
    · rcases T.get tbl' id (c.inp.pos src) with ⟨_ | m', b⟩ <;> intro hg
      · have h' : Rel R fz ⟨ip, stk, capt, src, a, errs, cst, rng, heap⟩ ⟨ip, stk', capt', src, b, errs, cst, rng⟩ := { h with tab := hg.2 }
        exact .next (h'.push _).upd
      · exact hg.1.elim
    · rcases T.get tbl' id (c.inp.pos src) with ⟨_ | m', b⟩ <;> intro hg
      · exact hg.1.elim
      · have h' : Rel R fz ⟨ip, stk, capt, src, a, errs, cst, rng, heap⟩ ⟨ip, stk', capt', src, b, errs, cst, rng⟩ := { h with tab := hg.2 }
        obtain ⟨⟨e1, e2, e3, e4, e5⟩, _⟩ := hg
        simp only [e1]
        cases m'.length with
        | none => exact fail_rel hT h'
        | some n =>
          have := h'.hit hP hT e3 e4 e5
          exact .next (this.upd (e8 := rfl) (e9 := rfl) (e10 := this.errs) (e11 := this.cst) (e12 := this.rng))
  | memoClose =>
    simp only [SCfg.exec1, Cfg.exec1]
    rcases h.stk with ⟨h1, h2⟩ | ⟨e, r, e', r', h1, h2, hk, _⟩
    · simp only at h1 h2; subst h1 h2; exact .panic
    · simp only at h1 h2; subst h1 h2; simp only [hk]
      cases e'.kind with
      | memo id pos =>
        obtain ⟨_, hr, hf, hd⟩ := h.pop (P := c.par) hP hT rfl rfl
        have := hr.memoize hT id pos (some (c.inp.pos src - pos)) 1 hd hf
        simp only [addCapt_src, VM.addCapt_src]
        exact .next (this.upd (e8 := rfl) (e9 := this.src) (e10 := this.errs) (e11 := this.cst) (e12 := this.rng))
      | _ => exact .panic
  | memoTreeOpen l id =>
    simp only [SCfg.exec1, Cfg.exec1]
    have hg := hT.get (id := id) (pos := c.inp.pos src) h.tab
    show ORel R (match c.tab.get tbl id (c.inp.pos src) with | (some m, t') => _ | (none, t') => _)
      (match T.get tbl' id (c.inp.pos src) with | (some m, t') => _ | (none, t') => _)
    simp only at hg
    revert hg
    rcases c.tab.get tbl id (c.inp.pos src) with ⟨_ | m, a⟩
    · rcases T.get tbl' id (c.inp.pos src) with ⟨_ | m', b⟩ <;> intro hg
      · have h' : Rel R fz ⟨ip, stk, capt, src, a, errs, cst, rng, heap⟩ ⟨ip, stk', capt', src, b, errs, cst, rng⟩ := { h with tab := hg.2 }
        exact .next (h'.push _).upd
      · exact hg.1.elim
    · rcases T.get tbl' id (c.inp.pos src) with ⟨_ | m', b⟩ <;> intro hg
      · exact hg.1.elim
      · have h' : Rel R fz ⟨ip, stk, capt, src, a, errs, cst, rng, heap⟩ ⟨ip, stk', capt', src, b, errs, cst, rng⟩ := { h with tab := hg.2 }
        obtain ⟨⟨e1, e2, e3, e4, e5⟩, _⟩ := hg
        simp only [e1, e2]
        cases m'.length with
        | none => exact fail_rel hT h'
        | some n =>
          have := (h'.push (.memoTree id (c.inp.pos src) m'.count)).hit hP hT e3 e4 e5
          simp only [addCapt_src, VM.addCapt_src, SVM.push, VM.push]
          exact .next (this.upd (e8 := rfl) (e9 := rfl) (e10 := this.errs) (e11 := this.cst) (e12 := this.rng))
  | memoTreeClose id =>
    obtain ⟨_, hr⟩ := treeClose_rel hP hT id stk stk' (s := ⟨ip, stk, capt, src, tbl, errs, cst, rng, heap⟩) rfl h
    exact .next (hr.upd (e8 := by first | rfl | exact hr.ip) (e9 := by first | rfl | exact hr.src) (e10 := hr.errs) (e11 := hr.cst) (e12 := hr.rng))
  | memoTreeInsert =>
    simp only [SCfg.exec1, Cfg.exec1]
    rcases h.stk with ⟨h1, h2⟩ | ⟨e, r, e', r', h1, h2, hk, hks, _⟩
    · simp only at h1 h2; subst h1 h2; exact .panic
    · simp only at h1 h2; subst h1 h2; simp only [hk]
      cases e'.kind with
      | memoTree id pos count =>
        have h' := h.raise hT rfl
        have hl := h'.live
        have h'' : Rel R (raise fz e.capt) ⟨ip, ⟨.memoTree id pos (count + 1), e.capt⟩ :: r, capt, src, tbl, errs, cst, rng, heap⟩
            ⟨ip, ⟨.memoTree id pos (count + 1), e'.capt⟩ :: r', capt', src, tbl', errs, cst, rng⟩ :=
          { h' with kinds := by simp [hks], live := hl }
        exact .next (h''.memoize hT id pos (some (c.inp.pos src - pos)) (count + 1) hl.head (raise_self ..)).upd
      | _ => exact .panic
  | memoTree =>
    simp only [SCfg.exec1, Cfg.exec1]
    rcases h.stk with ⟨h1, h2⟩ | ⟨e, r, e', r', h1, h2, hk, hks, _⟩
    · simp only at h1 h2; subst h1 h2
      exact .next h.upd
    · simp only at h1 h2; subst h1 h2
      obtain ⟨_, hr⟩ := treeLoop_rel hP hT r r' (s := ⟨ip, e :: r, capt, src, tbl, errs, cst, rng, heap⟩)
        (t := ⟨ip, e' :: r', capt', src, tbl', errs, cst, rng⟩) [] [] 0 e e' rfl h
      exact .next (hr.upd (e8 := by first | rfl | exact hr.ip) (e9 := by first | rfl | exact hr.src) (e10 := hr.errs) (e11 := hr.cst) (e12 := hr.rng))
  | checkBegin id flag =>
    simp only [SCfg.exec1, Cfg.exec1]
    exact .next (h.push _).upd
  | checkEnd k =>
    simp only [SCfg.exec1, Cfg.exec1]
    rcases h.stk with ⟨h1, h2⟩ | ⟨e, r, e', r', h1, h2, hk, hks, _⟩
    · simp only at h1 h2; subst h1 h2; exact .panic
    · simp only at h1 h2; subst h1 h2; simp only [hk]
      cases e'.kind with
      | check id pos flag =>
        obtain ⟨_, hr, _⟩ := h.pop (P := c.par) hP hT rfl rfl
        simp only [addCapt_src, VM.addCapt_src, addCapt_cst, VM.addCapt_cst]
        show ORel R (match c.chk k cst (c.inp.slice src pos (c.inp.pos src)) (c.inp.data src) (c.inp.pos src) id flag with
            | (none, cst) => _ | (some n, cst) => _)
          (match c.chk k cst (c.inp.slice src pos (c.inp.pos src)) (c.inp.data src) (c.inp.pos src) id flag with
            | (none, cst) => _ | (some n, cst) => _)
        rcases c.chk k cst (c.inp.slice src pos (c.inp.pos src)) (c.inp.data src) (c.inp.pos src) id flag with
          ⟨_ | n, cst'⟩
        · exact fail_rel hT (hr.upd (e8 := hr.ip) (e9 := rfl) (e10 := hr.errs) (e11 := rfl) (e12 := hr.rng) (s' := { SVM.addCapt c.par ⟨ip, r, capt, src, tbl, errs, cst, rng, heap⟩ e.capt with src := src, cst := cst' })
          (t' := { VM.addCapt ⟨ip, r', capt', src, tbl', errs, cst, rng⟩ e'.capt with src := src, cst := cst' }))
        · exact .next (hr.upd (e8 := rfl) (e9 := rfl) (e10 := hr.errs) (e11 := rfl) (e12 := hr.rng))
      | _ => exact .panic
  | error msg =>
    simp only [SCfg.exec1, Cfg.exec1]
    exact .next { h with ip := rfl, errs := rfl }
  | openCall _ => exact .panic

theorem stepB_rel (hP : AlOK c.par.al) (hT : TabSim c.par.al c.tab T R) (code : Code) (h : Rel R fz s t) :
    ORel R (sstepB c code s) (stepB (c.toCfg T) code t) := by
  unfold sstepB stepB
  rw [h.ip]
  rcases decode code t.ip with _ | ⟨insn, sz⟩
  · exact .panic
  · exact exec1_rel hP hT insn h

/-- The machine with slices takes as many steps as the machine with lists and stops with a corresponding outcome. -/
theorem run_rel (hP : AlOK c.par.al) (hT : TabSim c.par.al c.tab T R) (code : Code) : ∀ (k : Nat) {fz : Nat → Nat}
    {s : SVM ι τ' σ} {t : VM ι τ σ}, Rel R fz s t →
    (srunOut (sstepB c code) k s = none ∧ runOut (stepB (c.toCfg T) code) k t = none) ∨
    ∃ o o', srunOut (sstepB c code) k s = some o ∧ runOut (stepB (c.toCfg T) code) k t = some o' ∧ ORel R o o'
  | 0, _, _, _, _ => .inl ⟨rfl, rfl⟩
  | k + 1, fz, s, t, h => by
    have hs := stepB_rel hP hT code h
    unfold srunOut runOut
    generalize sstepB c code s = o at hs
    generalize stepB (c.toCfg T) code t = o' at hs
    cases hs with
    | next h' => exact run_rel hP hT code k h'
    | halt h1 h2 => exact .inr ⟨_, _, rfl, rfl, .halt h1 h2⟩
    | panic => exact .inr ⟨_, _, rfl, rfl, .panic⟩

end
end Gpeg.Slice
