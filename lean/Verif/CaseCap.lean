import Verif.Cases2
/-! # Compiler correctness: captures -/
namespace Gpeg
variable {τ σ : Type} {P : Par τ σ} {m : Mode} {k : Nat}

theorem cap_end (hP : P.Ok) {t : VM Flat τ σ} {ip pos pos' f0 far : Nat} {id : Int}
    {S : List Entry} {cp caps : List Capture} {cs : List CTree} {w : World σ} (hip : t.ip = ip)
    (hat : P.prog[ip]? = some .captureEnd) (hstk : t.stk = ⟨.capt id pos, caps⟩ :: S)
    (hcapt : t.capt = cp) (hpos : t.src.pos = pos') (hle : pos ≤ pos') (hcr : P.cr caps cs)
    (hpost : Post P f0 t far w) :
    ∃ o', Reach P.step (.next t) o' ∧ Good P (Exit false (ip + 1) S cp) S cp f0
      (.ok pos' [.node id pos (pos' - pos) cs], far, w) o' := by
  refine ⟨_, reach_at hip hat rfl, ?_⟩
  have hp : P.cfg.inp.pos t.src = pos' := hpos
  simp only [Cfg.exec1, hstk, hp]
  have hpost' : ∀ S' cp' rng' ip', Post P f0 { t with
      stk := S', capt := cp', rng := rng', ip := ip' } far w := fun _ _ _ _ =>
    ⟨hpost.data, hpost.fle, hpost.far, hpost.tinv, hpost.errs, hpost.cst⟩
  split
  · rename_i hov
    rw [addCapt_eq]
    exact ⟨_, _, rfl, ⟨rfl, rfl, by rw [hcapt]⟩, hpos, hP.cr_node id hov hle hcr, hpost' _ _ _ _⟩
  · rename_i hov
    exact ⟨_, [], rfl, ⟨rfl, by rw [stkAdd_nil], by rw [baseAdd_nil]; exact hcapt⟩, hpos,
      hP.cr_skip id (by simpa [Par.cfg] using hov) hle hcr, hpost' _ t.capt t.rng _⟩

theorem capPrefix_spec (sub : Program) : ∀ q, q < (capPrefix sub).1 → ∃ insn, sub[q]? = some insn ∧
    ((∃ b, insn = .char b) ∨ (∃ cs, insn = .set cs) ∨ ∃ n, insn = .any n) := by
  induction sub with
  | nil => intro q hq; simp [capPrefix] at hq
  | cons i r ih =>
    intro q hq
    cases i with
    | char b =>
      cases q with
      | zero => exact ⟨_, rfl, Or.inl ⟨b, rfl⟩⟩
      | succ q => exact ih q (by simp only [capPrefix] at hq; omega)
    | set cs =>
      cases q with
      | zero => exact ⟨_, rfl, Or.inr (Or.inl ⟨cs, rfl⟩)⟩
      | succ q => exact ih q (by simp only [capPrefix] at hq; omega)
    | any n =>
      cases q with
      | zero => exact ⟨_, rfl, Or.inr (Or.inr ⟨n, rfl⟩)⟩
      | succ q => exact ih q (by simp only [capPrefix] at hq; omega)
    | _ => simp [capPrefix] at hq

theorem capPrefix_back (sub : Program)
    (h : ∀ q n, q < (capPrefix sub).1 → sub[q]? = some (.any n) → n = 1) :
    (capPrefix sub).2 = (capPrefix sub).1 := by
  induction sub with
  | nil => rfl
  | cons i r ih =>
    cases i with
    | char b =>
      simp only [capPrefix]
      rw [ih fun q n hq hr => h (q + 1) n (by simp only [capPrefix]; omega) hr]
    | set cs =>
      simp only [capPrefix]
      rw [ih fun q n hq hr => h (q + 1) n (by simp only [capPrefix]; omega) hr]
    | any n =>
      simp only [capPrefix]
      rw [ih fun q n hq hr => h (q + 1) n (by simp only [capPrefix]; omega) hr,
        h 0 n (by simp only [capPrefix]; omega) rfl]
      rfl
    | _ => rfl

theorem capCode_eq (sub : Program) (id : Int) :
    capCode sub id =
      if (capPrefix sub).1 = 0 ∨ (capPrefix sub).2 ≥ 256 then [.captureBegin id] ++ sub ++ [.captureEnd]
      else if (capPrefix sub).1 = sub.length then sub ++ [.captureFull (UInt8.ofNat (capPrefix sub).2) id]
      else sub.take (capPrefix sub).1 ++ [.captureLate (UInt8.ofNat (capPrefix sub).2) id] ++
        sub.drop (capPrefix sub).1 ++ [.captureEnd] := rfl

theorem capCode_noTail (sub : Program) (id : Int) : NoTailOpen (capCode sub id) := by
  rw [capCode_eq]
  split
  · exact noTailOpen_app (insn := .captureEnd) nofun rfl (by simp)
  · split
    · exact noTailOpen_app (insn := .captureFull _ id) nofun rfl (by simp)
    · exact noTailOpen_app (insn := .captureEnd) nofun rfl (by simp)

/-- Finishing a capture whose body ran with the capture entry on the stack. -/
theorem cap_close (hP : P.Ok) {p : Pat} {env : Env} {id : Int} {pos f0 f1 ip : Nat} {w : World σ}
    {S : List Entry} {cp : List Capture} {o : Out Flat τ σ}
    (hle : pos ≤ P.data.length) (hf : f0 ≤ f1)
    (hat : P.prog[ip]? = some .captureEnd)
    (h : Sim P.step m o (fun n => eval n P.ctx env p pos w)
      (Good P (Exit false ip (⟨.capt id pos, []⟩ :: S) cp) (⟨.capt id pos, []⟩ :: S) cp f1)) :
    Sim P.step m o (fun n => eval (n + 1) P.ctx env (.cap p id) pos w)
      (Good P (Exit false (ip + 1) S cp) S cp f0) := by
  refine Sim.map h ?_
  rintro ⟨res, f, w'⟩ o' hn hgd
  cases res with
  | ok pos' cs =>
    have hb := Evals.bounds hP.chkOK (show pos ≤ P.ctx.data.length from hle) hn
    obtain ⟨t, caps, rfl, ⟨hip, hstk, hcapt⟩, hpos, hcr, hpost⟩ := hgd
    exact cap_end hP hip hat hstk hcapt hpos hb.1 hcr (hpost.mono hf)
  | fail =>
    obtain ⟨t, rfl, hcapt, hpost⟩ := hgd
    exact ⟨_, Reach.refl _, t, rfl, fun _ => hcapt (by simp), hpost.mono hf⟩
  | abort q =>
    obtain ⟨t, cap, rfl, hpos, hpost⟩ := hgd
    exact ⟨_, Reach.refl _, t, cap, rfl, hpos, hpost.mono hf⟩

/-- Running the simple prefix of a captured pattern. -/
theorem cap_prefix (hP : P.Ok) {sub raw : Program} {i : Nat} {insn : Insn} {rest : Program}
    {lbls : String → Option Nat} {a j pos : Nat} {w : World σ} {s : VM Flat τ σ}
    (hi : (capPrefix sub).1 = i)
    (hraw : raw = sub.take i ++ insn :: rest) (hns : ∀ d q, simpleAt d q insn = none)
    (hseg : Seg P.prog lbls false j a raw) (hmat : Matched P.data j raw pos)
    (hpre : Pre P s (a + j) (pos + j) w) (htrk : P.trk → noted raw pos j ≤ s.src.furthest + 1) :
    (capPrefix sub).2 = i ∧ j ≤ i ∧ ∃ q b, Stop P.data q (sub.take i) pos b ∧
      if b then q = i ∧ ∃ t, Reach P.step (.next s) (.next t) ∧ Pre P t (a + i) (pos + i) w ∧
        t.stk = s.stk ∧ t.capt = s.capt ∧ s.src.furthest ≤ t.src.furthest ∧
        (P.trk → noted sub pos i ≤ t.src.furthest + 1)
      else ∃ t, Reach P.step (.next s) (P.cfg.doFail t s.stk) ∧ t.capt = s.capt ∧
        Post P s.src.furthest t (noted sub pos (q + 1)) w := by
  have hil : i ≤ sub.length := hi ▸ capPrefix_le sub
  have htl : (sub.take i).length = i := by simp [hil]
  have hj : j ≤ i := by
    rcases Nat.lt_or_ge i j with h | h
    · obtain ⟨x, h1, h2⟩ := hmat.2 i h
      rw [hraw, List.getElem?_append_right (by omega), htl, Nat.sub_self] at h1
      cases h1
      rw [hns] at h2
      cases h2
    · exact h
  have hget : ∀ q, q < i → raw[q]? = sub[q]? := by
    intro q hq
    rw [hraw, List.getElem?_append_left (by omega), List.getElem?_take_of_lt hq]
  have hone : ∀ q n, q < i → sub[q]? = some (.any n) → n = 1 := by
    intro q n hq hs
    rcases Nat.lt_or_ge q j with h | h
    · obtain ⟨x, h1, h2⟩ := hmat.2 q h
      rw [hget q hq, hs] at h1
      cases h1
      simp only [simpleAt] at h2
      split at h2
      · assumption
      · cases h2
    · have : P.prog[a + q]? = some (.any n) := hseg q (.any n) h (by rw [hget q hq]; exact hs)
      exact hP.any1 _ _ this
  refine ⟨?_, hj, ?_⟩
  · rw [capPrefix_back sub fun q n hq => hone q n (hi ▸ hq)]; exact hi
  · subst hraw
    obtain ⟨q, b, h1, h2⟩ := simple_code hP (raw := sub.take i) (a := a) (pos := pos) (w := w)
      (by
        intro q insn hq
        have hlt : q < i := by
          rcases Nat.lt_or_ge q i with h | h
          · exact h
          · rw [List.getElem?_eq_none (by omega)] at hq; cases hq
        obtain ⟨x, h1, h2⟩ := capPrefix_spec sub q (hi ▸ hlt)
        rw [List.getElem?_take_of_lt hlt] at hq
        rw [h1] at hq
        cases hq
        rcases h2 with ⟨b, rfl⟩ | ⟨cs, rfl⟩ | ⟨n, rfl⟩
        · exact ⟨_, rfl⟩
        · exact ⟨_, rfl⟩
        · rw [hone q n hlt h1]; exact ⟨_, rfl⟩) _ rfl
      (hseg.left (Or.inr rfl)) (hmat.left (by omega)) hpre (fun ht => by
        have := htrk ht
        rwa [noted_le_app _ _ _ _ (by omega)] at this)
    refine ⟨q, b, h1, ?_⟩
    cases b with
    | true =>
      simp only [if_true] at h2 ⊢
      have hq : q = i := by have := h1.2; simp only [if_true] at this; omega
      subst hq
      rw [htl, noted_take _ _ _ _ (Nat.le_refl _) hil] at h2
      exact ⟨rfl, h2⟩
    | false =>
      have hq := h1.lt
      simp only [Bool.false_eq_true, if_false] at h2 ⊢
      rw [noted_take _ _ _ _ (by omega) hil] at h2
      exact h2

theorem stop_take {data : List UInt8} {sub : Program} {q i pos : Nat} (h : Stop data q (sub.take i) pos false) :
    Stop data q sub pos false := by
  obtain ⟨⟨h1, h2⟩, x, h3, h4⟩ := h
  have key : ∀ {q : Nat} {x : Insn}, (sub.take i)[q]? = some x → sub[q]? = some x := by
    intro q x hq
    rcases Nat.lt_or_ge q i with h | h
    · rw [List.getElem?_take_of_lt h] at hq; exact hq
    · rw [List.getElem?_take_eq_none h] at hq; cases hq
  refine ⟨⟨Nat.le_trans h1 (by simp; omega), fun q hq => ?_⟩, x, key h3, h4⟩
  obtain ⟨y, g1, g2⟩ := h2 q hq
  exact ⟨y, key g1, g2⟩

theorem matched_take {data : List UInt8} {sub : Program} {i pos : Nat} (hi : i ≤ sub.length)
    (h : Matched data i (sub.take i) pos) : Matched data i sub pos := by
  refine ⟨hi, fun q hq => ?_⟩
  obtain ⟨x, h1, h2⟩ := h.2 q hq
  rw [List.getElem?_take_of_lt hq] at h1
  exact ⟨x, h1, h2⟩

theorem cap_sim (hP : P.Ok) (hy : Hyp P m k) (p : Pat) (id : Int) :
    SimPat P m.succ (k + 1) (.cap p id) := by
  refine simPat_of_normal ?_ ?_
  · intro cst raw cst' h
    obtain ⟨sub, h1, rfl⟩ := comp_cap h
    exact capCode_noTail _ _
  · intro env lbls cst cst' raw a j pos w s hcomp hg hocc hsc hseg hmat hpre htrk htail
    obtain ⟨sub, h1, hraw⟩ := comp_cap hcomp
    have hruns := hy.runs (q := p) h1 hg hocc hsc
    have hscan : Scans P env sub p := scans_get h1 hsc
    have hle : pos ≤ P.data.length := Nat.le_trans (Nat.le_add_right _ _) hpre.le
    refine Sim.unshift rfl ?_
    rw [capCode_eq] at hraw
    split at hraw
    · have hj : j = 0 := (show Complex raw from ⟨_, _, by rw [hraw]; rfl, fun _ _ => rfl⟩).matched hmat
      subst hj
      have hlen : a + raw.length = a + 1 + sub.length + 1 := by rw [hraw]; simp; omega
      have i0 := hseg.at2 (idx := a) [] (sub ++ [.captureEnd]) (insn := .captureBegin id)
        (by rw [hraw]; simp) nofun rfl
      have i1 := hseg.at2 (idx := a + 1 + sub.length) (.captureBegin id :: sub) []
        (insn := .captureEnd) (by rw [hraw]; simp) nofun (by simp; omega)
      have ss : Seg P.prog lbls false 0 (a + 1) sub := hseg.mid [.captureBegin id] sub
        [.captureEnd] (by rw [hraw]; simp) (Or.inr rfl) (by simp)
      rw [hlen]
      have hpos : s.src.pos = pos := hpre.pos
      refine Sim.reach (reach_at (o := .next { s with
        stk := ⟨.capt id pos, []⟩ :: s.stk, ip := a + 1 }) hpre.ip i0 (by rw [← hpos]; rfl)) ?_
      exact cap_close hP hle (Nat.le_refl _) i1 (hruns false (a + 1) 0 pos w { s with
        stk := ⟨.capt id pos, []⟩ :: s.stk, ip := a + 1 } ss (matched_zero _ _ _)
        ⟨rfl, hpre.data, hpre.pos, hpre.le, hpre.tinv, hpre.errs, hpre.cst, topOK_push nofun⟩
        (fun _ => noted_start _ _ _) (fun h => by cases h))
    · rename_i hnb
      have hi0 : (capPrefix sub).1 ≠ 0 := fun h => hnb (Or.inl h)
      have hil : (capPrefix sub).1 ≤ sub.length := capPrefix_le sub
      have hbk : (UInt8.ofNat (capPrefix sub).2).toNat = (capPrefix sub).2 := by
        simp only [UInt8.toNat_ofNat']
        have : ¬ (capPrefix sub).2 ≥ 256 := fun h => hnb (Or.inr h)
        omega
      split at hraw
      · rename_i hfull
        have hraw' : raw = sub.take (capPrefix sub).1 ++
            Insn.captureFull (UInt8.ofNat (capPrefix sub).2) id :: [] := by
          rw [hraw, hfull, List.take_length]
        obtain ⟨hback, hji, q, b, hst, hrun⟩ := cap_prefix hP rfl hraw' (fun _ _ => rfl) hseg hmat hpre htrk
        rw [hraw] at hseg
        have hat := hseg.at (by omega) nofun
        have hlen : a + raw.length = a + sub.length + 1 := by rw [hraw]; simp; omega
        rw [hlen]
        cases b with
        | false =>
          simp only [Bool.false_eq_true, if_false] at hrun
          obtain ⟨t, r1, r2, r3⟩ := hrun
          obtain ⟨far, hev, hfar⟩ := hscan q pos w false (stop_take hst)
          obtain ⟨n0, hn0⟩ := hev
          refine Sim.reach r1 (Sim.known ((fmono_eval _ _ _ _ _).shift) (n0 := n0)
            (e := (.fail, far, w)) (by simp only [eval, hn0]; rfl) ⟨t, rfl, fun _ => r2, ?_⟩)
          rw [farB_fail] at hfar
          exact ⟨r3.data, r3.fle, fun ht => Nat.le_trans hfar (r3.far ht), r3.tinv, r3.errs, r3.cst⟩
        | true =>
          simp only [if_true] at hrun
          obtain ⟨rfl, t, r1, r2, r3, r4, r5, r6⟩ := hrun
          rw [hfull] at r2 r6 hback
          obtain ⟨far, hev, hfar⟩ := hscan sub.length pos w true
            ⟨matched_take (Nat.le_refl _) (by have := hst.1; rw [hfull] at this; exact this), rfl⟩
          obtain ⟨n0, hn0⟩ := hev
          rw [farB_ok] at hfar
          have hfar' : P.trk → far ≤ t.src.furthest + 1 := fun ht => Nat.le_trans hfar (r6 ht)
          have hp : P.cfg.inp.pos t.src = pos + sub.length := r2.pos
          refine Sim.reach (r1.trans (reach_at r2.ip hat rfl)) (Sim.known ((fmono_eval _ _ _ _ _).shift)
            (n0 := n0) (e := (.ok (pos + sub.length) [.node id pos (pos + sub.length - pos) []], far, w))
            (by simp only [eval, hn0]; rfl) ?_)
          rw [hback] at hbk
          simp only [Cfg.exec1, hp, hback, hbk, Nat.add_sub_cancel]
          have hpost' : ∀ S' cp' rng' ip', Post P s.src.furthest { t with
              stk := S', capt := cp', rng := rng', ip := ip' } far w := fun _ _ _ _ =>
            ⟨r2.data, r5, hfar', r2.tinv, r2.errs, r2.cst⟩
          have hlen2 : pos + sub.length - pos = sub.length := by omega
          split
          · rename_i hov
            rw [addCapt_eq]
            refine ⟨_, [.node id pos (pos + sub.length - pos) []], rfl, ⟨rfl, ?_, ?_⟩, r2.pos,
              hP.cr_node id hov (Nat.le_add_right _ _) hP.cr_nil, hpost' _ _ _ _⟩
            · rw [hlen2]; simp only [r3]
            · rw [hlen2]; simp only [r3, r4]
          · rename_i hov
            refine ⟨_, [], rfl, ⟨rfl, by rw [stkAdd_nil]; exact r3, by rw [baseAdd_nil]; exact r4⟩, r2.pos,
              hP.cr_skip id (by simpa [Par.cfg] using hov) (Nat.le_add_right _ _) hP.cr_nil,
              hpost' t.stk t.capt t.rng _⟩
      · rename_i hnf
        have hilt : (capPrefix sub).1 < sub.length := by omega
        have hraw' : raw = sub.take (capPrefix sub).1 ++
            Insn.captureLate (UInt8.ofNat (capPrefix sub).2) id ::
              (sub.drop (capPrefix sub).1 ++ [.captureEnd]) := by
          rw [hraw]; simp
        obtain ⟨hback, hji, q, b, hst, hrun⟩ := cap_prefix hP rfl hraw' (fun _ _ => rfl) hseg hmat hpre htrk
        generalize hii : (capPrefix sub).1 = i at *
        have htl : (sub.take i).length = i := by simp; omega
        have hlen : a + raw.length = a + 1 + sub.length + 1 := by
          rw [hraw']; simp; omega
        rw [hlen]
        have i0 : P.prog[a + i]? = some (.captureLate (UInt8.ofNat (capPrefix sub).2) id) := by
          have := hseg i (.captureLate (UInt8.ofNat (capPrefix sub).2) id) hji (by
            rw [hraw', List.getElem?_append_right (by omega), htl, Nat.sub_self]; rfl)
          exact this
        have i1 : P.prog[a + 1 + sub.length]? = some .captureEnd := by
          have := hseg (sub.length + 1) .captureEnd (by omega) (by
            rw [hraw', List.getElem?_append_right (by omega), htl,
              show sub.length + 1 - i = (sub.length - i) + 1 by omega, List.getElem?_cons_succ,
              List.getElem?_append_right (by simp)]
            simp)
          rw [show a + 1 + sub.length = a + (sub.length + 1) by omega]
          exact this
        have ss : Seg P.prog lbls false i (a + 1) sub := by
          intro q insn hq hs
          have hql : q < sub.length := by
            rcases Nat.lt_or_ge q sub.length with h | h
            · exact h
            · rw [List.getElem?_eq_none h] at hs; cases hs
          have := hseg (q + 1) insn (by omega) (by
            rw [hraw', List.getElem?_append_right (by omega), htl,
              show q + 1 - i = (q - i) + 1 by omega, List.getElem?_cons_succ,
              List.getElem?_append_left (by simp; omega), List.getElem?_drop,
              show i + (q - i) = q by omega]
            exact hs)
          rw [Bool.false_and] at this ⊢
          rw [show a + 1 + q = a + (q + 1) by omega]
          exact this
        cases b with
        | false =>
          simp only [Bool.false_eq_true, if_false] at hrun
          obtain ⟨t, r1, r2, r3⟩ := hrun
          obtain ⟨far, hev, hfar⟩ := hscan q pos w false (stop_take hst)
          obtain ⟨n0, hn0⟩ := hev
          refine Sim.reach r1 (Sim.known ((fmono_eval _ _ _ _ _).shift) (n0 := n0)
            (e := (.fail, far, w)) (by simp only [eval, hn0]; rfl) ⟨t, rfl, fun _ => r2, ?_⟩)
          rw [farB_fail] at hfar
          exact ⟨r3.data, r3.fle, fun ht => Nat.le_trans hfar (r3.far ht), r3.tinv, r3.errs, r3.cst⟩
        | true =>
          simp only [if_true] at hrun
          obtain ⟨rfl, t, r1, r2, r3, r4, r5, r6⟩ := hrun
          have hm : Matched P.data q sub pos := matched_take (Nat.le_of_lt hilt) hst.1
          have hpos : t.src.pos = pos + q := r2.pos
          refine Sim.reach (r1.trans (reach_at (o := .next { t with
            stk := ⟨.capt id pos, []⟩ :: s.stk, ip := a + 1 + q }) r2.ip i0 ?_)) ?_
          · rw [hback] at hbk
            simp only [Cfg.exec1, VM.push, r3, hback, hbk]
            have : P.cfg.inp.pos t.src - q = pos := by
              show t.src.pos - q = pos
              omega
            rw [this, show a + q + 1 = a + 1 + q by omega]
          · have := hruns false (a + 1) q pos w { t with
              stk := ⟨.capt id pos, []⟩ :: s.stk, ip := a + 1 + q } ss hm
              ⟨rfl, r2.data, r2.pos, r2.le, r2.tinv, r2.errs, r2.cst, topOK_push nofun⟩ r6 (fun h => by cases h)
            rw [← r4]
            exact cap_close hP hle r5 i1 this

end Gpeg
