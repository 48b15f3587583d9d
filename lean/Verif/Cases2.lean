import Verif.Cases
/-! # Compiler correctness: predicates, options, captures, checkers, errors and calls -/
namespace Gpeg
variable {τ σ : Type} {P : Par τ σ} {m : Mode} {k : Nat}

/-! ## Congruences -/

theorem refP_star {p p' : Pat} (h : RefP σ p p') : RefP σ (.star p) (.star p') := by
  constructor
  · intro n
    induction n with
    | zero => intro c env pos w e he; cases he
    | succ n ih =>
      intro c env pos w e he
      simp only [eval] at he ⊢
      obtain ⟨x, hx, he⟩ := Option.bind_eq_some_iff.1 he
      rw [h.le _ _ _ _ _ _ hx, Option.bind_some]
      obtain ⟨res, f, w'⟩ := x
      cases res with
      | ok pos' cs =>
        simp only at he ⊢
        obtain ⟨y, hy, rfl⟩ := Option.map_eq_some_iff.1 he
        rw [ih _ _ _ _ _ hy]; rfl
      | fail => exact he
      | abort q => exact he
  · rintro c env pos w e ⟨n, he⟩
    induction n generalizing pos w e with
    | zero => cases he
    | succ n ih =>
      simp only [eval] at he
      obtain ⟨x, hx, he⟩ := Option.bind_eq_some_iff.1 he
      refine evals_star.2 ⟨x, h.ge _ _ _ _ _ ⟨n, hx⟩, ?_⟩
      obtain ⟨res, f, w'⟩ := x
      cases res with
      | ok pos' cs =>
        simp only at he
        obtain ⟨y, hy, rfl⟩ := Option.map_eq_some_iff.1 he
        exact ⟨y, ih _ _ _ hy, rfl⟩
      | fail => exact (Option.some.inj he).symm
      | abort q => exact (Option.some.inj he).symm

/-- An optional is a choice with the empty pattern. -/
theorem refP_opt_alt {p p' : Pat} (h : RefP σ p p') : RefP σ (.opt p) (.alt p' .empty) := by
  constructor
  · intro n c env pos w e he
    cases n with
    | zero => cases he
    | succ n =>
      obtain ⟨x, hx, he'⟩ := Option.bind_eq_some_iff.1 he
      show (eval n c env p' pos w).bind (fun e => e.orElse fun w' => eval n c env .empty pos w') = _
      rw [h.le _ _ _ _ _ _ hx, Option.bind_some]
      cases n with
      | zero => cases hx
      | succ n => exact he'
  · intro c env pos w e he
    obtain ⟨x, hx, he⟩ := evals_alt.1 he
    refine evals_opt.2 ⟨x, h.ge _ _ _ _ _ hx, ?_⟩
    obtain ⟨res, f, w'⟩ := x
    cases res with
    | ok pos' cs => exact he
    | fail =>
      obtain ⟨y, hy, rfl⟩ := he
      rw [evals_empty] at hy
      subst hy
      exact ⟨_, rfl, rfl⟩
    | abort q => exact he

/-! ## One or more -/

theorem plus_sim (hP : P.Ok) (hy : Hyp P m k) (p : Pat) : SimPat P m.succ (k + 1) (.plus p) := by
  intro tl env lbls cst cst' raw a j pos w s hcomp hg hocc hsc hseg hmat hpre htrk htail
  obtain ⟨st, s1, sub, h1, h2, rfl⟩ := comp_plus hcomp
  have hos : ∀ o ∈ memoOcc k env (.star (get p)) cst, OccOK P o := fun o ho => hocc o (by
    simp only [memoOcc]; exact List.mem_append_left _ ho)
  have hop : ∀ o ∈ memoOcc k env (get p) s1, OccOK P o := fun o ho => hocc o (by
    simp only [memoOcc]; rw [stAfter_eq h1]; exact List.mem_append_right _ ho)
  refine Sim.unshift rfl ?_
  refine seq_core hP (r := .star p) (hy.runs h2 hg hop hsc) (scans_get h2 hsc) ?_ ?_
    (compile_stat k h1).head hseg hmat hpre htrk htail
  · intro tl a j pos w s g1 g2 g3 g4 g5
    exact Sim.ref (refP_star (refP_get p)) (hy.sub k (Nat.le_refl k) _ tl env lbls _ _ _ a j pos w s
      h1 hg hos (get_Scoped hsc) g1 g2 g3 g4 g5)
  · intro i pos w b hst
    exact ((star_complex h1).stop hst).elim

/-! ## Optionals -/

theorem optTest_sim (hP : P.Ok) {p : Pat} {env : Env} {lbls : String → Option Nat} {x t : Insn}
    {l1 a pos : Nat} {w : World σ} {s : VM Flat τ σ}
    (ht : (∃ b, x = .char b ∧ t = .testCharNC b l1) ∨ (∃ cs, x = .set cs ∧ t = .testSetNC cs l1))
    (hsc : Scans P env [x] p) (hseg : Seg P.prog lbls false 0 a [t, .label l1])
    (hpre : Pre P s a pos w) :
    Sim P.step m (.next s) (fun n => eval n P.ctx env (.opt p) pos w)
      (Good P (Exit false (a + 2) s.stk s.capt) s.stk s.capt s.src.furthest) := by
  have i0 := hseg.at2 (idx := a) [] [.label l1] rfl
    (by rcases ht with ⟨_, _, rfl⟩ | ⟨_, _, rfl⟩ <;> nofun) rfl
  have i1 := hseg.at2 (idx := a + 1) [t] [] rfl nofun rfl
  have hsx : ∃ b, simpleAt P.data pos x = some b := by
    rcases ht with ⟨_, rfl, _⟩ | ⟨_, rfl, _⟩ <;> exact ⟨_, rfl⟩
  obtain ⟨b, hb⟩ := hsx
  obtain ⟨u, g1, g2, g3, g4, g5, g6⟩ := test_step hP hpre i0 ht hb
  cases b with
  | true =>
    simp only [if_true] at g2
    obtain ⟨far, hev, hfar⟩ := hsc 1 pos w true ⟨⟨by simp, fun i hi => by
      have : i = 0 := by omega
      subst this; exact ⟨x, rfl, hb⟩⟩, rfl⟩
    rw [farB_ok] at hfar
    have hfar := Nat.le_trans hfar (noted_le _ _ _)
    refine Sim.evals (evals_opt.2 ⟨_, hev, rfl⟩) (g1.trans (reach_label g2.ip i1))
      ⟨_, [], rfl, ⟨rfl, ?_, ?_⟩, g2.pos, hP.cr_nil, g2.data, g5, fun _ => ?_, g2.tinv, g2.errs, g2.cst⟩
    · rw [stkAdd_nil]; exact g3
    · rw [baseAdd_nil]; exact g4
    · show far ≤ u.src.furthest + 1; omega
  | false =>
    simp only [Bool.false_eq_true, if_false] at g2
    obtain ⟨far, hev, hfar⟩ := hsc 0 pos w false ⟨matched_zero _ _ _, x, rfl, hb⟩
    rw [farB_fail] at hfar
    have hfar := Nat.le_trans hfar (noted_le _ _ _)
    refine Sim.evals (evals_opt.2 ⟨_, hev, _, rfl, rfl⟩) (g1.trans (reach_to_label hP g2.ip i1))
      ⟨_, [], rfl, ⟨rfl, ?_, ?_⟩, g2.pos, hP.cr_nil, g2.data, g5, fun _ => ?_, g2.tinv, g2.errs, g2.cst⟩
    · rw [stkAdd_nil]; exact g3
    · rw [baseAdd_nil]; exact g4
    · show max far 0 ≤ u.src.furthest + 1; omega

theorem opt_sim (hP : P.Ok) (hy : Hyp P m k) (p : Pat) : SimPat P m.succ (k + 1) (.opt p) := by
  by_cases hl : (∃ b, get p = .lit [b]) ∨ ∃ cs, get p = .cls cs
  · refine simPat_of_normal ?_ ?_
    · intro cst raw cst' h
      rcases comp_opt h with ⟨b, hg, rfl, rfl⟩ | ⟨cs, hg, rfl, rfl⟩ | ⟨h1, h2, h3⟩
      · exact noTailOpen_of_no (by simp)
      · exact noTailOpen_of_no (by simp)
      · rcases hl with ⟨b, hb⟩ | ⟨cs, hb⟩
        · exact absurd hb (h1 b)
        · exact absurd hb (h2 cs)
    · intro env lbls cst cst' raw a j pos w s hcomp hg hocc hsc hseg hmat hpre htrk htail
      rcases comp_opt hcomp with ⟨b, hgp, rfl, rfl⟩ | ⟨cs, hgp, rfl, rfl⟩ | ⟨h1, h2, h3⟩
      · have hj : j = 0 := hmat.head (fun _ => rfl)
        subst hj
        refine optTest_sim hP (x := .char b) (Or.inl ⟨b, rfl, rfl⟩) ?_ hseg hpre
        have h1 : CM.Ok (compileF 1 (get p)) cst [.char b] cst := by rw [hgp]; exact rfl
        exact scans_get h1 hsc
      · have hj : j = 0 := hmat.head (fun _ => rfl)
        subst hj
        refine optTest_sim hP (x := .set cs) (Or.inr ⟨cs, rfl, rfl⟩) ?_ hseg hpre
        have h1 : CM.Ok (compileF 1 (get p)) cst [.set cs] cst := by rw [hgp]; exact rfl
        exact scans_get h1 hsc
      · rcases hl with ⟨b, hb⟩ | ⟨cs, hb⟩
        · exact absurd hb (h1 b)
        · exact absurd hb (h2 cs)
  · intro tl env lbls cst cst' raw a j pos w s hcomp hg hocc hsc hseg hmat hpre htrk htail
    rcases comp_opt hcomp with ⟨b, hgp, _, _⟩ | ⟨cs, hgp, _, _⟩ | ⟨h1, h2, h3⟩
    · exact absurd (Or.inl ⟨b, hgp⟩) hl
    · exact absurd (Or.inr ⟨cs, hgp⟩) hl
    · cases k with
      | zero => exact (comp_zero h3).elim
      | succ k =>
        refine Sim.ref (refP_opt_alt (refP_get p)) ?_
        refine alt_sim hP (hy.down (Nat.le_succ k)) (get p) .empty tl env lbls cst cst' raw a j pos w s
          h3 hg ?_ ⟨get_Scoped hsc, trivial⟩ hseg hmat hpre htrk htail
        intro o ho
        refine hocc o ?_
        rw [memoOcc]
        split
        · rename_i b hb; exact absurd hb (h1 b)
        · rename_i cs hb; exact absurd hb (h2 cs)
        · exact ho

/-! ## Predicates -/

theorem not_sim (hP : P.Ok) (hy : Hyp P m k) (p : Pat) : SimPat P m.succ (k + 1) (.not p) := by
  refine simPat_of_normal ?_ ?_
  · intro cst raw cst' h
    obtain ⟨sub, s1, h1, rfl, _⟩ := comp_not h
    exact noTailOpen_app (insn := .failTwice) nofun rfl (by simp)
  · intro env lbls cst cst' raw a j pos w s hcomp hg hocc hsc hseg hmat hpre htrk htail
    obtain ⟨sub, s1, h1, hraw, _⟩ := comp_not hcomp
    generalize s1.lbl + 1 = l1 at *
    have hj : j = 0 := (show Complex raw from ⟨_, _, by rw [hraw]; rfl, fun _ _ => rfl⟩).matched hmat
    subst hj
    have hlen : a + raw.length = a + sub.length + 2 + 1 := by rw [hraw]; simp; omega
    have i0 := hseg.at2 (idx := a) [] (sub ++ [.failTwice, .label l1]) (insn := .choice l1)
      (by rw [hraw]; simp) nofun rfl
    have i1 := hseg.at2 (idx := a + 1 + sub.length) (.choice l1 :: sub) [.label l1]
      (insn := .failTwice) (by rw [hraw]; simp) nofun (by simp; omega)
    have i2 := hseg.at2 (idx := a + sub.length + 2) (.choice l1 :: (sub ++ [.failTwice])) []
      (insn := .label l1) (by rw [hraw]; simp) nofun (by simp; omega)
    have ss : Seg P.prog lbls false 0 (a + 1) sub := hseg.mid [.choice l1] sub
      [.failTwice, .label l1] (by rw [hraw]; simp) (Or.inr rfl) (by simp)
    refine Sim.unshift rfl ?_
    refine Sim.reach (reach_at hpre.ip i0 rfl) ?_
    have hl := hy.get (q := p) (tl := false) (w := w) (pos := pos)
      (s := { s.push (.btrack (labelIdx P.prog l1) s.src.pos) with ip := a + 1 }) h1 hg hocc hsc ss
      (matched_zero _ _ _) ⟨rfl, hpre.data, hpre.pos, hpre.le, hpre.tinv, hpre.errs, hpre.cst,
        topOK_push nofun⟩ (fun _ => noted_start _ _ _) (fun h => by cases h)
    rw [hlen]
    refine Sim.map hl ?_
    rintro ⟨res, f, w'⟩ o' hn hgd
    cases res with
    | ok pos' cs =>
      obtain ⟨t, caps, rfl, ⟨hip, hstk, hcapt⟩, hpos, hcr, hpost⟩ := hgd
      refine ⟨_, reach_at hip i1 rfl, { t with stk := s.stk }, ?_, fun _ => hcapt,
        ⟨hpost.data, hpost.fle, hpost.far, hpost.tinv, hpost.errs, hpost.cst⟩⟩
      simp only [Cfg.exec1, hstk, VM.push, stkAdd, Cfg.fail]
    | fail =>
      obtain ⟨t, rfl, hcapt, hpost⟩ := hgd
      refine ⟨_, reach_to_label hP (s := { t with
        ip := labelIdx P.prog l1, stk := s.stk, src := flatOps.seekTo t.src s.src.pos }) rfl i2, ?_⟩
      exact ⟨_, [], rfl, ⟨rfl, by rw [stkAdd_nil], by rw [baseAdd_nil]; exact hcapt (by simp [VM.push])⟩,
        hpre.pos, hP.cr_nil, ⟨hpost.data, hpost.fle, hpost.far, hpost.tinv, hpost.errs, hpost.cst⟩⟩
    | abort q => exact ⟨o', Reach.refl _, hgd⟩

theorem and_sim (hP : P.Ok) (hy : Hyp P m k) (p : Pat) : SimPat P m.succ (k + 1) (.and p) := by
  refine simPat_of_normal ?_ ?_
  · intro cst raw cst' h
    obtain ⟨sub, s1, h1, rfl, _⟩ := comp_and h
    exact noTailOpen_app (insn := .backCommit (s1.lbl + 2)) nofun rfl (by simp)
  · intro env lbls cst cst' raw a j pos w s hcomp hg hocc hsc hseg hmat hpre htrk htail
    obtain ⟨sub, s1, h1, hraw, _⟩ := comp_and hcomp
    generalize s1.lbl + 1 = l1 at *
    generalize s1.lbl + 2 = l2 at *
    have hj : j = 0 := (show Complex raw from ⟨_, _, by rw [hraw]; rfl, fun _ _ => rfl⟩).matched hmat
    subst hj
    have hlen : a + raw.length = a + sub.length + 4 + 1 := by rw [hraw]; simp; omega
    have i0 := hseg.at2 (idx := a) [] (sub ++ [.backCommit l2, .label l1, .fail, .label l2])
      (insn := .choice l1) (by rw [hraw]; simp) nofun rfl
    have i1 := hseg.at2 (idx := a + 1 + sub.length) (.choice l1 :: sub) [.label l1, .fail, .label l2]
      (insn := .backCommit l2) (by rw [hraw]; simp) nofun (by simp; omega)
    have i2 := hseg.at2 (idx := a + sub.length + 2) (.choice l1 :: (sub ++ [.backCommit l2]))
      [.fail, .label l2] (insn := .label l1) (by rw [hraw]; simp) nofun (by simp; omega)
    have i3 := hseg.at2 (idx := a + sub.length + 2 + 1) (.choice l1 :: (sub ++ [.backCommit l2, .label l1]))
      [.label l2] (insn := .fail) (by rw [hraw]; simp) nofun (by simp; omega)
    have i4 := hseg.at2 (idx := a + sub.length + 4) (.choice l1 :: (sub ++ [.backCommit l2, .label l1, .fail]))
      [] (insn := .label l2) (by rw [hraw]; simp) nofun (by simp; omega)
    have ss : Seg P.prog lbls false 0 (a + 1) sub := hseg.mid [.choice l1] sub
      [.backCommit l2, .label l1, .fail, .label l2] (by rw [hraw]; simp) (Or.inr rfl) (by simp)
    refine Sim.unshift rfl ?_
    refine Sim.reach (reach_at hpre.ip i0 rfl) ?_
    have hl := hy.get (q := p) (tl := false) (w := w) (pos := pos)
      (s := { s.push (.btrack (labelIdx P.prog l1) s.src.pos) with ip := a + 1 }) h1 hg hocc hsc ss
      (matched_zero _ _ _) ⟨rfl, hpre.data, hpre.pos, hpre.le, hpre.tinv, hpre.errs, hpre.cst,
        topOK_push nofun⟩ (fun _ => noted_start _ _ _) (fun h => by cases h)
    rw [hlen]
    refine Sim.map hl ?_
    rintro ⟨res, f, w'⟩ o' hn hgd
    cases res with
    | ok pos' cs =>
      obtain ⟨t, caps, rfl, ⟨hip, hstk, hcapt⟩, hpos, hcr, hpost⟩ := hgd
      refine ⟨_, (reach_at (o := .next { t with
          ip := labelIdx P.prog l2, stk := stkAdd s.stk caps, capt := baseAdd s.stk s.capt caps, src := flatOps.seekTo t.src s.src.pos }) hip i1 ?_).trans
        (reach_to_label hP rfl i4), _, caps, rfl, ⟨rfl, rfl, rfl⟩, hpre.pos, hcr,
        ⟨hpost.data, hpost.fle, hpost.far, hpost.tinv, hpost.errs, hpost.cst⟩⟩
      simp only [Cfg.exec1, hstk, VM.push, stkAdd, addCapt_eq, List.nil_append]
      rw [hcapt]; rfl
    | fail =>
      obtain ⟨t, rfl, hcapt, hpost⟩ := hgd
      refine ⟨_, (reach_to_label hP (s := { t with
        ip := labelIdx P.prog l1, stk := s.stk, src := flatOps.seekTo t.src s.src.pos }) rfl i2).trans
        (reach_at rfl i3 rfl), { t with
        ip := a + sub.length + 2 + 1, stk := s.stk, src := flatOps.seekTo t.src s.src.pos }, rfl,
        fun _ => hcapt (by simp [VM.push]),
        ⟨hpost.data, hpost.fle, hpost.far, hpost.tinv, hpost.errs, hpost.cst⟩⟩
    | abort q => exact ⟨o', Reach.refl _, hgd⟩

/-! ## Checkers -/

theorem check_sim (hP : P.Ok) (hy : Hyp P m k) (p : Pat) (ck : Nat) (id flag : Int) :
    SimPat P m.succ (k + 1) (.check p ck id flag) := by
  refine simPat_of_normal ?_ ?_
  · intro cst raw cst' h
    obtain ⟨sub, h1, rfl⟩ := comp_check h
    exact noTailOpen_app (insn := .checkEnd ck) nofun rfl (by simp)
  · intro env lbls cst cst' raw a j pos w s hcomp hg hocc hsc hseg hmat hpre htrk htail
    obtain ⟨sub, h1, hraw⟩ := comp_check hcomp
    generalize cst.lbl + 1 = l1 at *
    have hj : j = 0 := (show Complex raw from ⟨_, _, by rw [hraw]; rfl, fun _ _ => rfl⟩).matched hmat
    subst hj
    have hlen : a + raw.length = a + 1 + sub.length + 1 + 1 := by rw [hraw]; simp; omega
    have i0 := hseg.at2 (idx := a) [] (sub ++ [.checkEnd ck, .label l1])
      (insn := .checkBegin id flag) (by rw [hraw]; simp) nofun rfl
    have i1 := hseg.at2 (idx := a + 1 + sub.length) (.checkBegin id flag :: sub) [.label l1]
      (insn := .checkEnd ck) (by rw [hraw]; simp) nofun (by simp; omega)
    have i2 := hseg.at2 (idx := a + 1 + sub.length + 1) (.checkBegin id flag :: (sub ++ [.checkEnd ck]))
      [] (insn := .label l1) (by rw [hraw]; simp) nofun (by simp; omega)
    have ss : Seg P.prog lbls false 0 (a + 1) sub := hseg.mid [.checkBegin id flag] sub
      [.checkEnd ck, .label l1] (by rw [hraw]; simp) (Or.inr rfl) (by simp)
    refine Sim.unshift rfl ?_
    refine Sim.reach (reach_at hpre.ip i0 rfl) ?_
    have hl := hy.get (q := p) (tl := false) (w := w) (pos := pos)
      (s := { s.push (.check id s.src.pos flag) with ip := a + 1 }) h1 hg hocc hsc ss
      (matched_zero _ _ _) ⟨rfl, hpre.data, hpre.pos, hpre.le, hpre.tinv, hpre.errs, hpre.cst,
        topOK_push nofun⟩ (fun _ => noted_start _ _ _) (fun h => by cases h)
    rw [hlen]
    refine Sim.map hl ?_
    rintro ⟨res, f, w'⟩ o' hn hgd
    cases res with
    | ok pos' cs =>
      have hb := Evals.bounds hP.chkOK (show pos ≤ P.ctx.data.length from hpre.le) hn
      obtain ⟨t, caps, rfl, ⟨hip, hstk, hcapt⟩, hpos, hcr, hpost⟩ := hgd
      have hex : P.cfg.exec1 (labelIdx P.prog) (.checkEnd ck) (a + 1 + sub.length + 1) t =
          match P.chk ck w'.cst ((P.data.drop pos).take (pos' - pos)) P.data pos' id flag with
          | (none, st) => P.cfg.doFail { t with
            stk := stkAdd s.stk caps, capt := baseAdd s.stk s.capt caps, cst := st } (stkAdd s.stk caps)
          | (some n, st) => .next { t with
            stk := stkAdd s.stk caps, capt := baseAdd s.stk s.capt caps, cst := st, src := (Flat.advance t.src n).2, ip := a + 1 + sub.length + 1 } := by
        simp only [Cfg.exec1, hstk, VM.push, stkAdd, addCapt_eq, List.nil_append, Cfg.fail]
        rw [hcapt]
        simp only [Par.cfg, flatOps, readAt, hpost.data, hpos, hpost.cst, hpre.pos, VM.push,
          baseAdd]
        rfl
      have hck' : ∀ n st, P.chk ck w'.cst ((P.data.drop pos).take (pos' - pos)) P.data pos' id flag
          = (some n, st) → pos' + n ≤ P.data.length := fun n st h => hP.chk _ _ _ _ _ _ _ _ _ hb.2 h
      simp only [Par.ctx]
      cases hck : P.chk ck w'.cst ((P.data.drop pos).take (pos' - pos)) P.data pos' id flag with
      | mk ans st =>
        rw [hck] at hex
        cases ans with
        | none =>
          refine ⟨_, reach_at hip i1 hex, _, doFail_add _ _ _ _, ?_,
            ⟨hpost.data, hpost.fle, hpost.far, hpost.tinv, hpost.errs, rfl⟩⟩
          intro hS
          cases hs : s.stk with
          | nil => exact absurd hs hS
          | cons _ _ => rfl
        | some n =>
          have hle := hck' n st hck
          refine ⟨_, (reach_at hip i1 hex).trans (reach_label rfl i2), _, caps, rfl, ⟨rfl, rfl, rfl⟩,
            ?_, hcr, ⟨?_, ?_, fun h => ?_, ?_, hpost.errs, rfl⟩⟩
          · show (t.src.advance n).2.pos = pos' + n
            unfold Flat.advance
            rw [hpost.data, hpos]
            split
            · rfl
            · show t.src.pos = _
              omega
          · show (t.src.advance n).2.data = _
            unfold Flat.advance
            split <;> exact hpost.data
          · show _ ≤ (t.src.advance n).2.furthest
            unfold Flat.advance
            split <;> exact hpost.fle
          · have := hpost.far h
            show _ ≤ (t.src.advance n).2.furthest + 1
            unfold Flat.advance
            split <;> exact this
          · show P.TInv t.tbl (t.src.advance n).2.furthest
            unfold Flat.advance
            split <;> exact hpost.tinv
    | fail =>
      obtain ⟨t, rfl, hcapt, hpost⟩ := hgd
      exact ⟨_, Reach.refl _, t, rfl, fun _ => hcapt (by simp [VM.push]), hpost⟩
    | abort q => exact ⟨o', Reach.refl _, hgd⟩

/-! ## Error patterns, assertions -/

theorem err_sim (_hP : P.Ok) (msg : String) : SimPat P m (k + 1) (.err msg) := by
  refine simPat_of_normal ?_ ?_
  · intro cst raw cst' h
    obtain ⟨rfl, _⟩ := comp_err h
    exact noTailOpen_of_no (by simp)
  · intro env lbls cst cst' raw a j pos w s hcomp hg hocc hsc hseg hmat hpre htrk htail
    obtain ⟨rfl, _⟩ := comp_err hcomp
    have hj : j = 0 := hmat.head (fun _ => rfl)
    subst hj
    have i0 := hseg.at2 (idx := a) [] [.endI true] (insn := .error msg) rfl nofun rfl
    have i1 := hseg.at2 (idx := a + 1) [.error msg] [] (insn := .endI true) rfl nofun rfl
    refine Sim.evals (evals_err.2 rfl) ((reach_at hpre.ip i0 rfl).trans (reach_at rfl i1 rfl))
      ⟨_, _, rfl, hpre.pos, ⟨hpre.data, Nat.le_refl _, fun _ => Nat.zero_le _, hpre.tinv, ?_, hpre.cst⟩⟩
    show s.errs ++ [_] = w.errs ++ [_]
    rw [hpre.errs]
    have : P.cfg.inp.pos s.src = pos := hpre.pos
    rw [this]

theorem endsOpen_cons {i : Insn} {r : Program} (h : EndsOpen (i :: r)) (ho : ∀ n, i ≠ .openCall n) :
    EndsOpen r := by
  obtain ⟨x, n, z, h1, h2⟩ := h
  cases x with
  | nil => cases h1; exact absurd rfl (ho n)
  | cons y x => cases h1; exact ⟨x, n, z, rfl, h2⟩

theorem errRec_sim (_hP : P.Ok) (hy : Hyp P m k) (msg : String) (p : Pat) :
    SimPat P m.succ (k + 1) (.errRec msg p) := by
  intro tl env lbls cst cst' raw a j pos w s hcomp hg hocc hsc hseg hmat hpre htrk htail
  obtain ⟨sub, h1, hraw⟩ := comp_errRec hcomp
  have hj : j = 0 := (show Complex raw from ⟨_, _, by rw [hraw]; rfl, fun _ _ => rfl⟩).matched hmat
  subst hj
  have hlen : a + raw.length = a + 1 + sub.length := by rw [hraw]; simp; omega
  have i0 := hseg.at2 (idx := a) [] sub (insn := .error msg) (by rw [hraw]; simp) nofun rfl
  have ss : Seg P.prog lbls tl 0 (a + 1) sub := hseg.midTail [.error msg] sub [] (by rw [hraw]; simp)
    rfl rfl
  rw [hlen] at htail ⊢
  refine Sim.unshift rfl ?_
  refine Sim.reach (reach_at hpre.ip i0 rfl) ?_
  refine hy.get (q := p) (s := { s with errs := s.errs ++ [⟨msg, s.src.pos⟩], ip := a + 1 }) h1 hg
    hocc hsc ss (matched_zero _ _ _) ⟨rfl, hpre.data, hpre.pos, hpre.le, hpre.tinv, ?_, hpre.cst,
      hpre.top⟩ (fun _ => noted_start _ _ _) ?_
  · show s.errs ++ [_] = w.errs ++ [_]
    rw [hpre.errs]
    have : s.src.pos = pos := hpre.pos
    rw [this]
  · intro ht
    obtain ⟨hS, hr⟩ := htail ht
    exact ⟨hS, hr.imp id fun h => endsOpen_cons (by rw [hraw] at h; exact h) (fun _ h => by cases h)⟩

theorem emptyOp_sim (hP : P.Ok) (op : UInt8) : SimPat P m (k + 1) (.emptyOp op) := by
  refine simPat_of_normal ?_ ?_
  · intro cst raw cst' h
    obtain ⟨rfl, _⟩ := comp_emptyOp h
    exact noTailOpen_of_no (by simp)
  · intro env lbls cst cst' raw a j pos w s hcomp hg hocc hsc hseg hmat hpre htrk htail
    obtain ⟨rfl, _⟩ := comp_emptyOp hcomp
    have hj : j = 0 := hmat.head (fun _ => rfl)
    subst hj
    have i0 := hseg.at2 (idx := a) [] [] (insn := .emptyOp op) rfl nofun rfl
    obtain ⟨ip0, stk, capt, ⟨data, pos0, fur⟩, tbl, errs, cst, rng⟩ := s
    obtain ⟨h1, h2, h3, h4, h5, h6, h7, h8⟩ := hpre
    simp only [Nat.add_zero] at h1 h2 h3 h4 h5 h6 h7 h8
    subst h1 h2 h3
    have hex : P.cfg.exec1 (labelIdx P.prog) (.emptyOp op) (ip0 + 1)
        ⟨ip0, stk, capt, ⟨P.data, pos0, fur⟩, tbl, errs, cst, rng⟩ =
        if assertAt P.data pos0 op then
          .next ⟨ip0 + 1, stk, capt, ⟨P.data, pos0, max fur pos0⟩, tbl, errs, cst, rng⟩
        else P.cfg.doFail ⟨ip0, stk, capt, ⟨P.data, pos0, max fur pos0⟩, tbl, errs, cst, rng⟩ stk := by
      simp only [Cfg.exec1, Par.cfg, flatOps, Flat.peek, Flat.peekBefore, Cfg.fail, assertAt, bne_iff_ne]
    have hT := hP.tmono h5 (Nat.le_max_left fur pos0)
    cases ha : assertAt P.data pos0 op with
    | true =>
      rw [ha, if_pos rfl] at hex
      refine Sim.evals (e := (.ok pos0 [], pos0 + 1, w))
        (evals_emptyOp.2 (if_pos (show assertAt P.ctx.data pos0 op = true from ha)).symm) (reach_at rfl i0 hex)
        ⟨_, [], rfl, ⟨rfl, by rw [stkAdd_nil], by rw [baseAdd_nil]⟩, rfl, hP.cr_nil,
          ⟨rfl, Nat.le_max_left _ _, fun _ => Nat.succ_le_succ (Nat.le_max_right _ _), hT, h6, h7⟩⟩
    | false =>
      rw [ha, if_neg (by simp)] at hex
      refine Sim.evals (e := (.fail, pos0 + 1, w))
        (evals_emptyOp.2 (if_neg (show ¬ assertAt P.ctx.data pos0 op = true by simp [Par.ctx, ha])).symm) (reach_at rfl i0 hex)
        ⟨_, rfl, fun _ => rfl,
          ⟨rfl, Nat.le_max_left _ _, fun _ => Nat.succ_le_succ (Nat.le_max_right _ _), hT, h6, h7⟩⟩

/-! ## Non-terminals -/

theorem inl_sim (hy : Hyp P m k) (n : String) (b : Pat) : SimPat P m.succ (k + 1) (.inl n b) := by
  intro tl env lbls cst cst' raw a j pos w s hcomp hg hocc hsc hseg hmat hpre htrk htail
  refine Sim.unshift rfl ?_
  exact hy.sub k (Nat.le_refl k) b tl env lbls cst cst' raw a j pos w s (comp_inl hcomp) hg hocc hsc
    hseg hmat hpre htrk htail

/-- Running a definition from its label, with a return address on the stack. -/
theorem body_sim (hy : Hyp P m k) {env : Env} {lbls : String → Option Nat} {L k' : Nat} {body : Pat}
    {c1 c2 : CState} {raw' : Program} {tl : Bool} (hg : GOK P env lbls)
    (hcb : CM.Ok (compileF k' body) c1 raw' c2) (hob : ∀ o ∈ memoOcc k' env body c1, OccOK P o)
    (hsb : body.Scoped) (hsegb : Seg P.prog lbls tl 0 (labelIdx P.prog L + 1) raw')
    (hret : P.prog[labelIdx P.prog L + 1 + raw'.length]? = some .ret ∨ (tl = true ∧ EndsOpen raw'))
    {pos : Nat} {w : World σ} {s : VM Flat τ σ} (hpre : Pre P s (labelIdx P.prog L + 1) pos w)
    (hS : ∃ r c0 S', s.stk = ⟨.ret r, c0⟩ :: S') :
    SimS P.step m (.next s) (fun n => eval n P.ctx env body pos w)
      (Good P (Exit true (labelIdx P.prog L + 1 + raw'.length) s.stk s.capt) s.stk s.capt s.src.furthest) := by
  have hdrop : P.prog[labelIdx P.prog L + 1 + raw'.length]? = some .ret →
      nextInsn (P.prog.drop (labelIdx P.prog L + 1 + raw'.length)) = some .ret := by
    intro h
    obtain ⟨hlt, h⟩ := List.getElem?_eq_some_iff.1 h
    rw [List.drop_eq_getElem_cons hlt, h]; rfl
  cases tl with
  | true =>
    exact hy.call k' body true env lbls c1 c2 raw' (labelIdx P.prog L + 1) 0 pos w s hcb hg hob hsb hsegb
      (matched_zero _ _ _) hpre (fun _ => noted_start _ _ _) (fun _ => ⟨hS, hret.imp hdrop And.right⟩)
  | false =>
    have hr : P.prog[labelIdx P.prog L + 1 + raw'.length]? = some .ret :=
      hret.resolve_right fun h => nomatch h.1
    have := hy.call k' body false env lbls c1 c2 raw' (labelIdx P.prog L + 1) 0 pos w s hcb hg hob hsb hsegb
      (matched_zero _ _ _) hpre (fun _ => noted_start _ _ _) (fun h => nomatch h)
    exact this.weaken fun e o' _ hgd => Good.tailRet (hdrop hr) hS hgd

theorem nonterm_sim (hy : Hyp P m k) (nm : String) : SimPat P m.succ (k + 1) (.nonterm nm) := by
  intro tl env lbls cst cst' raw a j pos w s hcomp hg hocc hsc hseg hmat hpre htrk htail
  obtain ⟨rfl, _⟩ := comp_nonterm hcomp
  have hj : j = 0 := hmat.head (fun _ => rfl)
  subst hj
  obtain ⟨L, hL, hat⟩ := hseg 0 (.openCall nm) (Nat.le_refl 0) rfl
  obtain ⟨d, env0, body, k', c1, raw', c2, tb, rfl, hfind, hlab, hcb, hob, hsb, hsegb, hret⟩ := hg nm L hL
  have hlk : lookupNT nm (d :: env0) = some (body, d :: env0) := by simp only [lookupNT, hfind]
  refine Sim.unshift rfl ?_
  refine Sim.congr (F := fun n => eval n P.ctx (d :: env0) body pos w) ?_
    (fun n => by simp only [eval, hlk])
  simp only [Nat.add_zero] at hpre hat
  cases tl with
  | false =>
    simp only [Bool.false_and, Bool.false_eq_true, if_false] at hat
    refine Sim.reach (reach_at hpre.ip hat rfl) ?_
    refine Sim.of_strict ?_
    rw [step_at (ip := labelIdx P.prog L) rfl hlab]
    have := body_sim hy hg hcb hob hsb hsegb hret (pos := pos) (w := w)
      (s := { s.push (.ret (a + 1)) with ip := labelIdx P.prog L + 1 })
      ⟨rfl, hpre.data, hpre.pos, hpre.le, hpre.tinv, hpre.errs, hpre.cst, topOK_push nofun⟩ ⟨_, _, _, rfl⟩
    refine this.weaken ?_
    rintro ⟨res, f, w'⟩ o' _ hgd
    refine ⟨o', Reach.refl _, ?_⟩
    cases res with
    | ok pos' cs =>
      obtain ⟨t, caps, rfl, ⟨r, c0, S', hS, hip, hstk, hcapt⟩, hpos, hcr, hpost⟩ := hgd
      cases hS
      exact ⟨t, caps, rfl, ⟨hip, hstk, hcapt⟩, hpos, hcr, hpost⟩
    | fail =>
      obtain ⟨t, rfl, hcapt, hpost⟩ := hgd
      exact ⟨t, rfl, fun _ => hcapt (by simp [VM.push]), hpost⟩
    | abort q => exact hgd
  | true =>
    have hat : P.prog[a]? = some (.jump L) := hat
    obtain ⟨hS, _⟩ := htail rfl
    refine Sim.reach (reach_at hpre.ip hat rfl) ?_
    refine Sim.of_strict ?_
    rw [step_at (ip := labelIdx P.prog L) rfl hlab]
    exact body_sim hy hg hcb hob hsb hsegb hret (s := { s with ip := labelIdx P.prog L + 1 })
      ⟨rfl, hpre.data, hpre.pos, hpre.le, hpre.tinv, hpre.errs, hpre.cst, hpre.top⟩ hS

end Gpeg
