import Verif.CaseStar
/-! # Compiler correctness: memoization -/
namespace Gpeg
variable {τ σ : Type} {P : Par τ σ} {m : Mode} {k : Nat}

theorem memoize_eq (t : VM Flat τ σ) (id : Int) (pos : Nat) (len : Option Nat) (count : Nat)
    (capt : List Capture) : P.cfg.memoize t id pos len count capt = { t with
      tbl := P.tab.put t.tbl id pos len (max t.src.furthest t.src.pos + 1 - pos) count
        (if P.iv.isSome then [] else capt) } := rfl

theorem advance_pos {s : Flat} {n : Nat} (h : s.pos + n ≤ s.data.length) :
    (s.advance n).2 = ⟨s.data, s.pos + n, s.furthest⟩ := by
  unfold Flat.advance
  obtain ⟨d, p, f⟩ := s
  split
  · rfl
  · rename_i hh
    simp only at h hh
    have : n = 0 := by omega
    subst this
    simp

theorem memo_sim (hP : P.Ok) (hA : ∀ id, P.Ask id) (hy : Hyp P m k) (p : Pat) (id : Int) :
    SimPat P m.succ (k + 1) (.memo p id) := by
  refine simPat_of_normal ?_ ?_
  · intro cst raw cst' h
    obtain ⟨sub, h1, rfl⟩ := comp_memo h
    exact noTailOpen_app (insn := .memoClose) nofun rfl (by simp)
  · intro env lbls cst cst' raw a j pos w s hcomp hg hocc hsc hseg hmat hpre htrk htail
    obtain ⟨sub, h1, hraw⟩ := comp_memo hcomp
    have hM : MemoOK P id p env := by
      have := hocc ⟨id, false, p, env⟩ (by simp only [memoOcc]; exact List.mem_cons_self)
      exact this
    have hocc' : ∀ o ∈ memoOcc k env (get p) (cst.bump 1), OccOK P o := fun o ho => hocc o (by
      simp only [memoOcc]; exact List.mem_cons_of_mem _ ho)
    generalize cst.lbl + 1 = l1 at *
    have hj : j = 0 := (show Complex raw from ⟨_, _, by rw [hraw]; rfl, fun _ _ => rfl⟩).matched hmat
    subst hj
    have hlen : a + raw.length = a + 1 + sub.length + 1 + 1 := by rw [hraw]; simp; omega
    have i0 := hseg.at2 (idx := a) [] (sub ++ [.memoClose, .label l1])
      (insn := .memoOpen l1 id) (by rw [hraw]; simp) nofun rfl
    have i1 := hseg.at2 (idx := a + 1 + sub.length) (.memoOpen l1 id :: sub) [.label l1]
      (insn := .memoClose) (by rw [hraw]; simp) nofun (by simp; omega)
    have i2 := hseg.at2 (idx := a + 1 + sub.length + 1) (.memoOpen l1 id :: (sub ++ [.memoClose]))
      [] (insn := .label l1) (by rw [hraw]; simp) nofun (by simp; omega)
    have ss : Seg P.prog lbls false 0 (a + 1) sub := hseg.mid [.memoOpen l1 id] sub
      [.memoClose, .label l1] (by rw [hraw]; simp) (Or.inr rfl) (by simp)
    have hpos0 : s.src.pos = pos := hpre.pos
    have hip0 : s.ip = a := hpre.ip
    have hle : pos ≤ P.data.length := hpre.le
    rw [hlen]
    cases hget : P.tab.get s.tbl id pos with
    | mk r t' =>
      obtain ⟨hT, hm⟩ := hP.get hpre.tinv hget (hA id)
      cases r with
      | some me =>
        obtain ⟨res, far, hev, hres, hfar⟩ := hM.get w hle (hm me rfl)
        cases hl : me.length with
        | none =>
          rw [hl] at hres
          subst hres
          refine Sim.evals (evals_memo.2 ⟨_, hev, rfl⟩) (reach_at hip0 i0 (o := P.cfg.doFail { s with tbl := t' } s.stk) ?_)
            (Good.veil (P := P) ⟨_, rfl, fun _ => rfl, ⟨hpre.data, Nat.le_refl _, hfar, hT, hpre.errs, hpre.cst⟩⟩)
          have : P.cfg.tab.get s.tbl id (P.cfg.inp.pos s.src) = (some me, t') := by
            rw [← hget, ← hpos0]; rfl
          simp only [Cfg.exec1, this, hl]
          rfl
        | some n =>
          rw [hl] at hres
          obtain ⟨cs, rfl, hcr⟩ := hres
          have hb := Evals.bounds hP.chkOK (show pos ≤ P.ctx.data.length from hle) hev
          have hadv := advance_pos (s := s.src) (n := n)
            (by have := hb.2; rw [hpre.data, hpos0]; exact this)
          refine Sim.evals (evals_memo.2 ⟨_, hev, rfl⟩) (Reach.trans (reach_at hip0 i0 (o := .next { s with
            stk := stkAdd s.stk me.captures, capt := baseAdd s.stk s.capt me.captures, tbl := t', src := ⟨s.src.data, s.src.pos + n, s.src.furthest⟩, ip := labelIdx P.prog l1 }) ?_)
              (reach_to_label hP rfl i2))
            (Good.veil (P := P) ⟨_, me.captures, rfl, ⟨rfl, rfl, rfl⟩, by rw [← hpos0], hcr,
              ⟨hpre.data, Nat.le_refl _, hfar, hT, hpre.errs, hpre.cst⟩⟩)
          have : P.cfg.tab.get s.tbl id (P.cfg.inp.pos s.src) = (some me, t') := by
            rw [← hget, ← hpos0]; rfl
          simp only [Cfg.exec1, this, hl, addCapt_eq]
          rw [show P.cfg.inp.advance s.src n = s.src.advance n from rfl, hadv]
      | none =>
        refine Sim.unshift rfl ?_
        show Sim P.step m (.next s) (fun n => (eval n P.ctx env p pos w).map (Ev.veil P.lo)) _
        refine Sim.reach (reach_at hip0 i0 (o := .next { s with
          stk := ⟨.memo id pos, []⟩ :: s.stk, tbl := t', ip := a + 1 }) ?_) ?_
        · have : P.cfg.tab.get s.tbl id (P.cfg.inp.pos s.src) = (none, t') := by
            rw [← hget, ← hpos0]; rfl
          simp only [Cfg.exec1, this, VM.push]
          rw [show P.cfg.inp.pos s.src = pos from hpos0]
        have hl := hy.get (q := p) (tl := false) (w := w) (pos := pos)
          (s := { s with stk := ⟨.memo id pos, []⟩ :: s.stk, tbl := t', ip := a + 1 }) h1 hg hocc' hsc ss
          (matched_zero _ _ _) ⟨rfl, hpre.data, hpre.pos, hpre.le, hT, hpre.errs, hpre.cst,
            topOK_push nofun⟩ (fun _ => noted_start _ _ _) (fun h => by cases h)
        refine Sim.map hl ?_
        rintro ⟨res, f, w'⟩ o' hn hgd
        have hfl : ∀ t : VM Flat τ σ, Post P s.src.furthest t f w' →
            (P.trk → (if P.lo then 0 else f) ≤ t.src.furthest + 1) := fun t h ht => by
          have := h.far ht
          split <;> omega
        rw [Ev.veil_mk]
        cases res with
        | ok pos' cs =>
          have hb := Evals.bounds hP.chkOK (show pos ≤ P.ctx.data.length from hpre.le) hn
          obtain ⟨t, caps, rfl, ⟨hip, hstk, hcapt⟩, hpos, hcr, hpost⟩ := hgd
          have hput : P.Mput id pos ⟨some (pos' - pos), max t.src.furthest t.src.pos + 1 - pos, 1,
              if P.iv.isSome then [] else caps⟩ t.src.furthest := by
            refine hM.put 1 hn hle ⟨rfl, hcr⟩ (fun ht => ?_) ?_
            · have := hpost.far ht
              omega
            · intro n hn
              cases hn
              omega
          refine ⟨_, Reach.trans (reach_at hip i1 (o := .next { t with
            stk := stkAdd s.stk caps, capt := baseAdd s.stk s.capt caps, tbl := P.tab.put t.tbl id pos (some (pos' - pos)) (max t.src.furthest t.src.pos + 1 - pos) 1 (if P.iv.isSome then [] else caps), ip := a + 1 + sub.length + 1 }) ?_)
            (reach_label rfl i2), _, caps, rfl, ⟨rfl, rfl, rfl⟩, hpos, hcr,
            ⟨hpost.data, hpost.fle, hfl t hpost, hP.put hpost.tinv hput, hpost.errs, hpost.cst⟩⟩
          simp only [Cfg.exec1, hstk, stkAdd, addCapt_eq, List.nil_append, memoize_eq]
          rw [hcapt]
          rw [show P.cfg.inp.pos t.src = pos' from hpos]
          rfl
        | fail =>
          obtain ⟨t, rfl, hcapt, hpost⟩ := hgd
          have hput : P.Mput id pos ⟨none, max t.src.furthest t.src.pos + 1 - pos, 0,
              if P.iv.isSome then [] else []⟩ t.src.furthest := by
            refine hM.put 0 hn hle ⟨rfl, rfl⟩ (fun ht => ?_) nofun
            have := hpost.far ht
            omega
          exact ⟨_, Reach.refl _, P.cfg.memoize t id pos none 0 [], rfl, fun _ => hcapt (by simp),
            ⟨hpost.data, hpost.fle, hfl t hpost, hP.put hpost.tinv hput, hpost.errs, hpost.cst⟩⟩
        | abort q =>
          obtain ⟨t, cap, rfl, hpos, hpost⟩ := hgd
          exact ⟨_, Reach.refl _, t, cap, rfl, hpos,
            ⟨hpost.data, hpost.fle, hfl t hpost, hpost.tinv, hpost.errs, hpost.cst⟩⟩

/-! ## Iterations -/

variable {c : Ctx σ} {env : Env} {q : Pat}

theorem prepend_app (a b : List CTree) (r : Res) : (r.prepend b).prepend a = r.prepend (a ++ b) := by
  cases r <;> simp [Res.prepend]

theorem Iter.star {pos pos' far : Nat} {w w' : World σ} {cs : List CTree}
    (h : Iter c env q pos w pos' cs far w') : ∀ {e : Ev σ}, Evals c env (.star q) pos' w' e →
    Evals c env (.star q) pos w (e.1.prepend cs, max far e.2.1, e.2.2) := by
  induction h with
  | one hev => intro e he; exact evals_star.2 ⟨_, hev, e, he, rfl⟩
  | trans _ _ ih1 ih2 =>
    intro e he
    have := ih1 (ih2 he)
    simpa [prepend_app, Nat.max_assoc] using this

theorem Iter.fwd {pos pos' far : Nat} {w w' : World σ} {cs : List CTree}
    (h : Iter c env q pos w pos' cs far w') : ∀ {n : Nat} {e : Ev σ},
    eval (n + 1) c env (.star q) pos w = some e → ∃ e', eval n c env (.star q) pos' w' = some e' ∧
      e = (e'.1.prepend cs, max far e'.2.1, e'.2.2) := by
  induction h with
  | one hev =>
    intro n e he
    simp only [eval] at he
    obtain ⟨x, hx, he⟩ := Option.bind_eq_some_iff.1 he
    have := Evals.det ⟨n, hx⟩ hev
    subst this
    obtain ⟨y, hy, rfl⟩ := Option.map_eq_some_iff.1 he
    exact ⟨y, hy, rfl⟩
  | trans _ _ ih1 ih2 =>
    intro n e he
    obtain ⟨e1, h1, rfl⟩ := ih1 he
    cases n with
    | zero => cases h1
    | succ n =>
      obtain ⟨e2, h2, rfl⟩ := ih2 h1
      exact ⟨e2, eval_mono (Nat.le_succ n) h2, by simp [prepend_app, Nat.max_assoc]⟩

theorem Iter.bounds (hc : ChkOK c) {pos pos' far : Nat} {w w' : World σ} {cs : List CTree}
    (h : Iter c env q pos w pos' cs far w') : pos ≤ c.data.length → pos ≤ pos' ∧ pos' ≤ c.data.length := by
  induction h with
  | one hev => intro hle; exact Evals.bounds hc hle hev
  | trans _ _ ih1 ih2 =>
    intro hle
    have h1 := ih1 hle
    have h2 := ih2 h1.2
    exact ⟨Nat.le_trans h1.1 h2.1, h2.2⟩

/-- Skip some iterations of a repetition. -/
theorem Sim.iter {ι : Type} {step : VM ι τ σ → Out ι τ σ} {o : Out ι τ σ} {G : Ev σ → Out ι τ σ → Prop}
    {pos pos' far : Nat} {w w' : World σ} {cs : List CTree} (h : Iter c env q pos w pos' cs far w')
    (hs : Sim step m o (fun n => eval n c env (.star q) pos' w')
      (fun e => G (e.1.prepend cs, max far e.2.1, e.2.2))) :
    Sim step m o (fun n => eval (n + 1) c env (.star q) pos w) G := by
  have hf : ∀ n, Fwd step n o (fun n => eval n c env (.star q) pos' w')
      (fun e => G (e.1.prepend cs, max far e.2.1, e.2.2)) →
      Fwd step n o (fun n => eval (n + 1) c env (.star q) pos w) G := by
    intro n hn e he
    obtain ⟨e', he', rfl⟩ := h.fwd he
    exact hn e' he'
  cases m with
  | fwd n => exact hf n hs
  | rev K =>
    refine ⟨fun n => hf n (hs.1 n), fun hst => ?_⟩
    obtain ⟨n, e, he⟩ := hs.2 hst
    obtain ⟨n', hn'⟩ := h.star ⟨n, he⟩
    exact ⟨n', _, eval_mono (Nat.le_succ n') hn'⟩

/-! ## The stack of a memoized repetition -/

/-- The entries of a memoized repetition cover consecutive groups of iterations. -/
inductive Chain (P : Par τ σ) (env : Env) (q : Pat) (id : Int) (p0 : Nat) (w0 : World σ) :
    List Entry → Nat → World σ → List CTree → Nat → Prop
  | nil : Chain P env q id p0 w0 [] p0 w0 [] 0
  | cons {C pos w cs far pos' cs' far' w' capt} (cnt : Nat) : Chain P env q id p0 w0 C pos w cs far →
      Iter P.ctx env q pos w pos' cs' far' w' → P.cr capt cs' →
      Chain P env q id p0 w0 (⟨.memoTree id pos cnt, capt⟩ :: C) pos' w' (cs ++ cs') (max far far')

/-- The captures of some entries, bottommost first. -/
def chainCapt (C : List Entry) : List Capture := (C.reverse.map Entry.capt).flatten

theorem chainCapt_cons (e : Entry) (C : List Entry) : chainCapt (e :: C) = chainCapt C ++ e.capt := by
  simp [chainCapt]

variable {id : Int} {p0 : Nat} {w0 : World σ}

theorem Chain.split {B : List Entry} {pos : Nat} {w : World σ} {cs : List CTree} {far : Nat} :
    ∀ {A : List Entry}, Chain P env q id p0 w0 (A ++ B) pos w cs far →
    ∃ p1 w1 cs1 far1 cs2 far2, Chain P env q id p0 w0 B p1 w1 cs1 far1 ∧
      Chain P env q id p1 w1 A pos w cs2 far2 ∧ cs = cs1 ++ cs2 ∧ far = max far1 far2 := by
  intro A
  induction A generalizing pos w cs far with
  | nil => intro h; exact ⟨pos, w, cs, far, [], 0, h, .nil, by simp, by simp⟩
  | cons e A ih =>
    intro h
    cases h with
    | cons cnt h1 h2 h3 =>
      obtain ⟨p1, w1, cs1, far1, cs2, far2, g1, g2, rfl, rfl⟩ := ih h1
      exact ⟨p1, w1, cs1, far1, _, _, g1, .cons cnt g2 h2 h3, by simp, by rw [Nat.max_assoc]⟩

theorem Chain.cr (hP : P.Ok) {C : List Entry} {pos : Nat} {w : World σ} {cs : List CTree} {far : Nat}
    (h : Chain P env q id p0 w0 C pos w cs far) : P.cr (chainCapt C) cs := by
  induction h with
  | nil => exact hP.cr_nil
  | cons cnt h1 h2 h3 ih =>
    rw [chainCapt_cons]
    exact hP.cr_app ih h3

theorem Chain.iter {C : List Entry} {pos : Nat} {w : World σ} {cs : List CTree} {far : Nat}
    (h : Chain P env q id p0 w0 C pos w cs far) (hne : C ≠ []) :
    Iter P.ctx env q p0 w0 pos cs far w := by
  induction h with
  | nil => exact absurd rfl hne
  | cons cnt h1 h2 h3 ih =>
    rename_i C _ _ _ _ _ _ _ _ _
    cases C with
    | nil => cases h1; simpa using h2
    | cons e C => exact .trans (ih (by simp)) h2

theorem Chain.bounds (hP : P.Ok) {C : List Entry} {pos : Nat} {w : World σ} {cs : List CTree} {far : Nat}
    (h : Chain P env q id p0 w0 C pos w cs far) (hle : p0 ≤ P.data.length) : pos ≤ P.data.length := by
  cases C with
  | nil => cases h; exact hle
  | cons e C => exact ((h.iter (by simp)).bounds hP.chkOK hle).2

theorem treeLoop_spec (hP : P.Ok) (hS : StarOK P id q env) {S : List Entry} (htop : TopOK S) {w : World σ}
    {cs : List CTree} {far : Nat} (hle : p0 ≤ P.data.length) : ∀ (R : List Entry) (s : VM Flat τ σ)
    (passed : List Entry) (accum : Nat) (top : Entry),
    Chain P env q id p0 w0 (passed ++ top :: R) s.src.pos w cs far →
    P.TInv s.tbl s.src.furthest → (P.trk ∧ P.lo = false → far ≤ s.src.furthest + 1) →
    ∃ C t', P.cfg.treeLoop s passed accum top (R ++ S) = { s with stk := C ++ S, tbl := t' } ∧
      P.TInv t' s.src.furthest ∧ Chain P env q id p0 w0 C s.src.pos w cs far := by
  intro R
  induction R with
  | nil =>
    intro s passed accum top hch hT hfar
    refine ⟨passed ++ [top], s.tbl, ?_, hT, hch⟩
    cases S with
    | nil => simp [Cfg.treeLoop]
    | cons e r =>
      have hk := htop e r rfl
      obtain ⟨kd, c0⟩ := e
      obtain ⟨tk, tc⟩ := top
      simp only [List.nil_append, Cfg.treeLoop]
      cases kd <;> cases tk <;> first | exact absurd rfl (hk _ _ _) | simp
  | cons nx R ih =>
    intro s passed accum top hch hT hfar
    have hch2 : Chain P env q id p0 w0 ((passed ++ [top]) ++ (nx :: R)) s.src.pos w cs far := by simpa using hch
    obtain ⟨p1, w1, cs1, far1, cs2, far2, g1, g2, hcs, hfr⟩ := hch2.split
    have htk : ∃ tpos tcount tc, top = ⟨.memoTree id tpos tcount, tc⟩ := by
      have := hch.split (A := passed)
      obtain ⟨_, _, _, _, _, _, h, _⟩ := this
      cases h
      exact ⟨_, _, _, rfl⟩
    obtain ⟨tpos, tcount, tc, rfl⟩ := htk
    cases g1 with
    | cons ncount c1 it1 cr1 =>
      rename_i npos nw ncs nfar ncs' nfar' ncapt
      simp only [List.cons_append, Cfg.treeLoop]
      split
      · exact ih s (passed ++ [_]) _ _ (by simpa using hch) hT hfar
      · have hit := Iter.trans it1 (g2.iter (by simp))
        have hcr2 : P.cr (tc ++ (List.map Entry.capt passed.reverse).flatten) cs2 := by
          have := g2.cr hP
          simpa [chainCapt] using this
        generalize hec : tc ++ (List.map Entry.capt passed.reverse).flatten = ecapt at hcr2
        generalize hnc : (if ecapt.length > 0 then
            if P.cfg.intrvl.isNone then ncapt ++ [Capture.dummy tpos (P.cfg.inp.pos s.src - tpos) ecapt]
            else ncapt ++ ecapt
          else ncapt) = ncapt'
        have hcr : P.cr ncapt' (ncs' ++ cs2) := by
          rw [← hnc]
          split
          · split
            · rename_i hiv
              exact hP.cr_app cr1 (hP.cr_dummy _ _ (by simpa [Par.cfg] using hiv) hcr2)
            · exact hP.cr_app cr1 hcr2
          · rename_i hl
            have : ecapt = [] := List.eq_nil_of_length_eq_zero (by omega)
            subst this
            simpa using hP.cr_app cr1 hcr2
        have hnle := c1.bounds hP hle
        have hput := hS.put (exam := max s.src.furthest s.src.pos + 1 - npos) (f := s.src.furthest)
          (accum + tcount + ncount) hit hnle hcr (fun ht => by have := hfar ht; omega) (by
            have := (hit.bounds hP.chkOK hnle).1
            omega)
        rw [memoize_eq]
        obtain ⟨C, t', e1, e2, e3⟩ := ih { s with
          tbl := P.tab.put s.tbl id npos (some (P.cfg.inp.pos s.src - npos)) (max s.src.furthest s.src.pos + 1 - npos) (accum + tcount + ncount) (if P.iv.isSome then [] else ncapt') }
          [] 0 ⟨.memoTree id npos (accum + tcount + ncount), ncapt'⟩
          (by
            have := Chain.cons (accum + tcount + ncount) c1 hit hcr
            rw [hcs, hfr, List.append_assoc, Nat.max_assoc]
            exact this) (hP.put hT hput) hfar
        exact ⟨C, t', e1, e2, e3⟩

theorem treeClose_spec {S : List Entry} (htop : TopOK S) (n : Nat) : ∀ (C : List Entry) (s : VM Flat τ σ),
    C.length = n → (∀ e ∈ C, ∃ pos cnt, e.kind = .memoTree id pos cnt) → s.stk = C ++ S →
    Cfg.treeClose id s (C ++ S) = { s with
      stk := stkAdd S (chainCapt C), capt := baseAdd S s.capt (chainCapt C) } := by
  have base : ∀ (S : List Entry), TopOK S → ∀ s : VM Flat τ σ, s.stk = S → Cfg.treeClose id s S = s := by
    intro S htop s hs
    cases S with
    | nil => simp [Cfg.treeClose]
    | cons e r =>
      have hk := htop e r rfl
      obtain ⟨kd, c0⟩ := e
      unfold Cfg.treeClose
      cases kd <;> first | exact absurd rfl (hk _ _ _) | rfl
  induction n with
  | zero =>
    intro C s hn _ hs
    have : C = [] := List.eq_nil_of_length_eq_zero hn
    subst this
    rw [List.nil_append] at hs ⊢
    rw [base S htop s hs]
    obtain ⟨ip0, stk, capt, src, tbl, errs, cst, rng⟩ := s
    cases hs
    simp [chainCapt]
  | succ n ih =>
    intro C s hn hk hs
    cases C with
    | nil => cases hn
    | cons e C =>
      obtain ⟨kd, c0⟩ := e
      obtain ⟨pos, cnt, hkd⟩ := hk _ List.mem_cons_self
      simp only at hkd
      subst hkd
      cases C with
      | nil =>
        cases S with
        | nil =>
          obtain ⟨ip0, stk, capt, src, tbl, errs, cst, rng⟩ := s
          simp [Cfg.treeClose, chainCapt, stkAdd, baseAdd]
        | cons e r =>
          simp only [List.cons_append, List.nil_append]
          unfold Cfg.treeClose
          simp only [if_true]
          rw [base _ (by exact htop.add c0) _ rfl]
          simp [chainCapt, stkAdd, baseAdd]
      | cons e' C =>
        simp only [List.cons_append]
        unfold Cfg.treeClose
        simp only [if_true]
        have := ih (⟨e'.kind, e'.capt ++ c0⟩ :: C) { s with stk := ⟨e'.kind, e'.capt ++ c0⟩ :: (C ++ S) }
          (by simpa using hn) (by
            intro x hx
            rcases List.mem_cons.1 hx with rfl | hx
            · exact hk e' (by simp)
            · exact hk x (by simp [hx])) rfl
        rw [List.cons_append] at this
        rw [this]
        simp [chainCapt_cons]

theorem Chain.kinds {C : List Entry} {pos : Nat} {w : World σ} {cs : List CTree} {far : Nat}
    (h : Chain P env q id p0 w0 C pos w cs far) : ∀ e ∈ C, ∃ pos cnt, e.kind = .memoTree id pos cnt := by
  induction h with
  | nil => simp
  | cons cnt h1 h2 h3 ih =>
    intro e he
    rcases List.mem_cons.1 he with rfl | he
    · exact ⟨_, _, rfl⟩
    · exact ih e he

/-! ## Memoized repetitions -/

/-- The machine during a memoized repetition that started with stack `S`. -/
structure TreeSt (P : Par τ σ) (env : Env) (q : Pat) (id : Int) (p0 : Nat) (w0 : World σ) (S : List Entry)
    (cp : List Capture) (f0 : Nat) (t : VM Flat τ σ) (C : List Entry) (ps : Nat) (w : World σ)
    (cs : List CTree) (fr : Nat) : Prop where
  data : t.src.data = P.data
  pos : t.src.pos = ps
  tinv : P.TInv t.tbl t.src.furthest
  errs : t.errs = w.errs
  cst : t.cst = w.cst
  stk : t.stk = C ++ S
  capt : t.capt = cp
  fle : f0 ≤ t.src.furthest
  chain : Chain P env q id p0 w0 C ps w cs fr
  far : P.trk ∧ P.lo = false → fr ≤ t.src.furthest + 1

/-- The machine at the head of the loop of a memoized repetition. -/
structure AtTree (P : Par τ σ) (env : Env) (q : Pat) (id : Int) (p0 : Nat) (w0 : World σ) (S : List Entry)
    (cp : List Capture) (f0 a : Nat) where
  t : VM Flat τ σ
  C : List Entry
  pos : Nat
  w : World σ
  cs : List CTree
  far : Nat
  ip : t.ip = a
  st : TreeSt P env q id p0 w0 S cp f0 t C pos w cs far

theorem starTree_sim (hP : P.Ok) (hSt : StarOK P id q env) {lbls : String → Option Nat} {sub : Program}
    {a l1 l2 l3 l4 : Nat} {S : List Entry} {cp : List Capture} {f0 : Nat} (htop : TopOK S)
    (hle0 : p0 ≤ P.data.length) (hruns : Runs P m env lbls sub q)
    (hseg : Seg P.prog lbls false 0 a ([.label l1, .memoTreeOpen l3 id, .choice l2] ++ sub ++
        [.commit l4, .label l4, .memoTreeInsert, .label l3, .memoTree, .jump l1, .label l2,
          .memoTreeClose id])) :
    ∀ x : AtTree P env q id p0 w0 S cp f0 a,
      Sim P.step m.succ (.next x.t) (fun n => eval n P.ctx env (.star q) x.pos x.w)
      (fun e => Good P.loose (Exit false (a + sub.length + 11) S cp) S cp f0
        (e.1.prepend x.cs, max x.far e.2.1, e.2.2)) := by
  have j0 := hseg.at2 (idx := a) [] _ (insn := .label l1) (by simp; rfl) nofun rfl
  have j1 := hseg.at2 (idx := a + 1) [.label l1] _ (insn := .memoTreeOpen l3 id) (by simp; rfl) nofun rfl
  have j2 := hseg.at2 (idx := a + 2) [.label l1, .memoTreeOpen l3 id] _ (insn := .choice l2)
    (by simp; rfl) nofun rfl
  have hpl : ([.label l1, .memoTreeOpen l3 id, .choice l2] ++ sub : Program).length = sub.length + 3 := by
    simp
  have ss : Seg P.prog lbls false 0 (a + 3) sub := hseg.mid [.label l1, .memoTreeOpen l3 id, .choice l2] sub
    _ (by simp; rfl) (Or.inr rfl) rfl
  have st : Seg P.prog lbls false 0 (a + 3 + sub.length) [.commit l4, .label l4, .memoTreeInsert, .label l3,
      .memoTree, .jump l1, .label l2, .memoTreeClose id] := by
    have := hseg.right
    rw [Nat.zero_sub, hpl] at this
    rw [show a + 3 + sub.length = a + (sub.length + 3) by omega]
    exact this
  generalize hn : a + 3 + sub.length = b at *
  have k0 := st.at2 (idx := b) [] _ (insn := .commit l4) rfl nofun rfl
  have k1 := st.at2 (idx := b + 1) [_] _ (insn := .label l4) rfl nofun rfl
  have k2 := st.at2 (idx := b + 2) [_, _] _ (insn := .memoTreeInsert) rfl nofun rfl
  have k3 := st.at2 (idx := b + 3) [_, _, _] _ (insn := .label l3) rfl nofun rfl
  have k4 := st.at2 (idx := b + 4) [_, _, _, _] _ (insn := .memoTree) rfl nofun rfl
  have k5 := st.at2 (idx := b + 5) [_, _, _, _, _] _ (insn := .jump l1) rfl nofun rfl
  have k6 := st.at2 (idx := b + 6) [_, _, _, _, _, _] _ (insn := .label l2) rfl nofun rfl
  have k7 := st.at2 (idx := b + 7) [_, _, _, _, _, _, _] _ (insn := .memoTreeClose id) rfl nofun rfl
  have hend : a + sub.length + 11 = b + 8 := by omega
  rw [hend]
  refine Sim.loop (o := fun x : AtTree P env q id p0 w0 S cp f0 a => Out.next x.t)
    (F := fun x n => eval n P.ctx env (.star q) x.pos x.w)
    (G := fun x e => Good P.loose (Exit false (b + 8) S cp) S cp f0
        (e.1.prepend x.cs, max x.far e.2.1, e.2.2)) (fun x => rfl) ?_
  intro m' hm' ih
  -- from `l3` back to the head of the loop
  have back : ∀ (u : VM Flat τ σ) (e : Entry) (C : List Entry) (pos : Nat) (w : World σ) (cs : List CTree)
      (far : Nat), u.ip = b + 3 → TreeSt P env q id p0 w0 S cp f0 u (e :: C) pos w cs far →
      Sim P.step m' (.next u) (fun n => eval n P.ctx env (.star q) pos w)
        (fun e => Good P.loose (Exit false (b + 8) S cp) S cp f0 (e.1.prepend cs, max far e.2.1, e.2.2)) := by
    intro u e C pos w cs far hip hst
    refine Sim.reach (reach_label hip k3) ?_
    obtain ⟨C', t', e1, e2, e3⟩ := treeLoop_spec hP hSt htop (cs := cs) (far := far) (w := w) (p0 := p0) (w0 := w0) hle0 C
      { u with ip := b + 3 + 1 } [] 0 e (by rw [List.nil_append]; rw [show _ = pos from hst.pos]; exact hst.chain)
      hst.tinv hst.far
    refine Sim.reach (reach_at rfl k4 (o := .next { u with stk := C' ++ S, tbl := t', ip := b + 5 }) ?_) ?_
    · have hstk : u.stk = e :: (C ++ S) := hst.stk
      rw [hstk] at e1
      simp only [Cfg.exec1, hstk]
      rw [e1]
    refine Sim.of_strict ?_
    rw [step_at rfl k5]
    exact ih ⟨{ u with stk := C' ++ S, tbl := t', ip := labelIdx P.prog l1 }, C', pos, w, cs, far,
      hP.lab _ _ j0, ⟨hst.data, hst.pos, e2, hst.errs, hst.cst, rfl, hst.capt, hst.fle,
        by rw [← show _ = pos from hst.pos]; exact e3, hst.far⟩⟩
  intro ⟨t, C, pos, w, cs, far, hip, hst⟩
  have hle : pos ≤ P.data.length := hst.chain.bounds hP hle0
  have hpos0 : t.src.pos = pos := hst.pos
  refine Sim.reach (reach_label hip j0) ?_
  simp only
  cases hget : P.tab.get t.tbl id pos with
  | mk r t' =>
    obtain ⟨hT, hm⟩ := hP.get hst.tinv hget hSt.ask
    have hget' : ∀ u : VM Flat τ σ, u.tbl = t.tbl → u.src = t.src →
        P.cfg.tab.get u.tbl id (P.cfg.inp.pos u.src) = (r, t') := by
      intro u h1 h2
      rw [h1, h2, ← hget, ← hpos0]; rfl
    cases r with
    | some me =>
      obtain ⟨n, cs', far', hlen, hit, hcr, hfar'⟩ := hSt.get w hle (hm me rfl)
      have hb := hit.bounds hP.chkOK hle
      have hadv := advance_pos (s := t.src) (n := n) (by rw [hst.data, hpos0]; exact hb.2)
      refine Sim.iter hit ?_
      have hch := Chain.cons me.count hst.chain hit hcr
      refine Sim.reach (reach_at rfl j1 (o := .next { t with
        stk := ⟨.memoTree id pos me.count, me.captures⟩ :: t.stk, tbl := t', src := ⟨t.src.data, pos + n, max t.src.furthest (pos + n)⟩, ip := labelIdx P.prog l3 }) ?_) ?_
      · simp only [Cfg.exec1, hget' _ rfl rfl, hlen, VM.push, VM.addCapt, List.nil_append]
        rw [show P.cfg.inp.advance t.src n = t.src.advance n from rfl, hadv,
          show P.cfg.inp.pos t.src = pos from hpos0, hpos0]
        rfl
      have hfl : t.src.furthest ≤ max t.src.furthest (pos + n) := Nat.le_max_left _ _
      refine Sim.weaken (back _ ⟨.memoTree id pos me.count, me.captures⟩ C (pos + n) w (cs ++ cs') (max far far') (hP.lab _ _ k3)
        ⟨hst.data, rfl, hP.tmono hT hfl, hst.errs, hst.cst, by simp only [hst.stk]; rfl, hst.capt,
          Nat.le_trans hst.fle hfl, hch, fun ht => ?_⟩) ?_
      · have h1 := hst.far ht
        have h2 := hfar' ht
        show _ ≤ max t.src.furthest (pos + n) + 1
        omega
      · intro e o' _ hg
        refine ⟨o', Reach.refl _, ?_⟩
        simpa only [prepend_app, Nat.max_assoc] using hg
    | none =>
      refine Sim.reach (reach_at rfl j1 (o := .next { t with
        stk := ⟨.memoTree id pos 0, []⟩ :: t.stk, tbl := t', ip := a + 2 }) ?_) ?_
      · simp only [Cfg.exec1, hget' _ rfl rfl, VM.push]
        rw [show P.cfg.inp.pos t.src = pos from hpos0]
      refine Sim.reach (reach_at rfl j2 (o := .next { t with
        stk := ⟨.btrack (labelIdx P.prog l2) pos, []⟩ :: ⟨.memoTree id pos 0, []⟩ :: t.stk, tbl := t', ip := a + 3 }) ?_) ?_
      · simp only [Cfg.exec1, VM.push]
        rw [show P.cfg.inp.pos t.src = pos from hpos0]
      have hl := (hruns.down hm') false (a + 3) 0 pos w { t with
        stk := ⟨.btrack (labelIdx P.prog l2) pos, []⟩ :: ⟨.memoTree id pos 0, []⟩ :: t.stk, tbl := t', ip := a + 3 } ss
        (matched_zero _ _ _) ⟨rfl, hst.data, hst.pos, hle, hT, hst.errs, hst.cst, topOK_push nofun⟩
        (fun _ => noted_start _ _ _) (fun h => by cases h)
      refine Sim.bind (fmono_eval _ _ _ _ _) ?_ hl ?_
      · rintro ⟨res, f, w'⟩
        cases res with
        | ok pos' cs => exact (fmono_eval _ _ _ _ _).map
        | fail => exact fmono_const _
        | abort q => exact fmono_const _
      · rintro ⟨res, f, w'⟩ o' hev hgd
        cases res with
        | ok pos' cs' =>
          obtain ⟨u, caps, rfl, ⟨hip, hstk, hcapt⟩, hpos, hcr, hpost⟩ := hgd
          rw [hn] at hip
          have hit : Iter P.ctx env q pos w pos' cs' f w' := .one hev
          have hput := hSt.put (exam := max u.src.furthest u.src.pos + 1 - pos) (f := u.src.furthest)
            (0 + 1) hit hle hcr (fun ht => by have := hpost.far ht.1; omega) (by
              have := (hit.bounds hP.chkOK hle).1
              omega)
          have hch := Chain.cons (0 + 1) hst.chain hit hcr
          refine Sim.reach (reach_at hip k0 (o := .next { u with
            stk := ⟨.memoTree id pos 0, caps⟩ :: t.stk, capt := cp, ip := labelIdx P.prog l4 }) ?_) ?_
          · simp only [Cfg.exec1, hstk, stkAdd, addCapt_eq, List.nil_append, baseAdd]
            rw [hcapt, baseAdd, hst.capt]
          refine Sim.reach (reach_to_label hP rfl k1) ?_
          refine Sim.reach (reach_at rfl k2 (o := .next { u with
            stk := ⟨.memoTree id pos (0 + 1), caps⟩ :: t.stk, capt := cp, ip := b + 3, tbl := P.tab.put u.tbl id pos (some (pos' - pos)) (max u.src.furthest u.src.pos + 1 - pos) (0 + 1) (if P.iv.isSome then [] else caps) }) ?_) ?_
          · simp only [Cfg.exec1, memoize_eq]
            rw [show P.cfg.inp.pos u.src = pos' from hpos]
          refine Sim.map (back _ ⟨.memoTree id pos (0 + 1), caps⟩ C pos' w' (cs ++ cs') (max far f) rfl
            ⟨hpost.data, hpos, hP.put hpost.tinv hput, hpost.errs, hpost.cst, by simp only [hst.stk]; rfl, rfl,
              Nat.le_trans hst.fle hpost.fle, hch, fun ht => ?_⟩) ?_
          · have h1 := hst.far ht
            have h2 := hpost.far ht.1
            have h3 : t.src.furthest ≤ u.src.furthest := hpost.fle
            show _ ≤ u.src.furthest + 1
            omega
          · intro e o' _ hg
            refine ⟨o', Reach.refl _, ?_⟩
            simpa only [prepend_app, Nat.max_assoc] using hg
        | fail =>
          obtain ⟨u, rfl, hcapt, hpost⟩ := hgd
          refine Sim.reach (reach_to_label hP (s := { u with
            ip := labelIdx P.prog l2, stk := ⟨.memoTree id pos 0, []⟩ :: t.stk, src := flatOps.seekTo u.src pos }) rfl k6) ?_
          have hcl := treeClose_spec (id := id) htop _ (⟨.memoTree id pos 0, []⟩ :: C) { u with
            ip := b + 6 + 1, stk := ⟨.memoTree id pos 0, []⟩ :: t.stk, src := flatOps.seekTo u.src pos } rfl
            (by
              intro e he
              rcases List.mem_cons.1 he with rfl | he
              · exact ⟨_, _, rfl⟩
              · exact hst.chain.kinds e he) (by simp only [hst.stk]; rfl)
          rw [chainCapt_cons, List.append_nil, List.cons_append, ← hst.stk] at hcl
          have hcp : u.capt = cp := (hcapt (by simp)).trans hst.capt
          refine Sim.reach (reach_at rfl k7 (o := .next { u with
            ip := b + 8, stk := stkAdd S (chainCapt C), capt := baseAdd S cp (chainCapt C), src := flatOps.seekTo u.src pos }) ?_) (Sim.pure _ ?_)
          · simp only [Cfg.exec1]
            rw [hcl]
            simp only [hcp]
          refine ⟨_, chainCapt C, rfl, ⟨rfl, rfl, rfl⟩, rfl, ?_, ⟨hpost.data, Nat.le_trans hst.fle hpost.fle, fun ht => ?_,
            hpost.tinv, hpost.errs, hpost.cst⟩⟩
          · show P.cr (chainCapt C) _
            simpa [Res.prepend] using hst.chain.cr hP
          · have h1 := hst.far ht
            have h2 := hpost.far ht.1
            have h3 : t.src.furthest ≤ u.src.furthest := hpost.fle
            show max far f ≤ u.src.furthest + 1
            omega
        | abort p =>
          obtain ⟨u, cap, rfl, hpos, hpost⟩ := hgd
          refine Sim.pure _ ⟨u, cap, rfl, hpos, ⟨hpost.data, Nat.le_trans hst.fle hpost.fle, fun ht => ?_,
            hpost.tinv, hpost.errs, hpost.cst⟩⟩
          have h1 := hst.far ht
          have h2 := hpost.far ht.1
          have h3 : t.src.furthest ≤ u.src.furthest := hpost.fle
          show max far f ≤ u.src.furthest + 1
          omega

theorem eval_star_memo (q : Pat) (id : Int) (c : Ctx σ) (env : Env) : ∀ (n pos : Nat) (w : World σ) (e : Ev σ),
    eval n c env (.star (.memo q id)) pos w = some e →
    ∃ e', eval n c env (.star q) pos w = some e' ∧ e = e'.veil c.lo := by
  intro n
  induction n with
  | zero => intro pos w e h; cases h
  | succ n ih =>
    intro pos w e h
    simp only [eval] at h ⊢
    obtain ⟨x, hx, h⟩ := Option.bind_eq_some_iff.1 h
    cases n with
    | zero => cases hx
    | succ n =>
      simp only [eval, Option.map_eq_some_iff] at hx
      obtain ⟨⟨res, f, w'⟩, hx, rfl⟩ := hx
      rw [eval_mono (Nat.le_succ n) hx]
      rw [Ev.veil_mk] at h
      simp only [Option.bind_some]
      cases res with
      | ok p1 c1 =>
        obtain ⟨y, hy, rfl⟩ := Option.map_eq_some_iff.1 h
        obtain ⟨⟨r2, f2, w2⟩, hz, rfl⟩ := ih _ _ _ hy
        simp only [hz, Ev.veil_mk, Option.map_some]
        exact ⟨_, rfl, by rw [Ev.veil_mk]; cases c.lo <;> simp⟩
      | fail => cases h; exact ⟨_, rfl, by rw [Ev.veil_mk]⟩
      | abort p1 => cases h; exact ⟨_, rfl, by rw [Ev.veil_mk]⟩

theorem evals_star_memo (q : Pat) (id : Int) (c : Ctx σ) (env : Env) : ∀ (n pos : Nat) (w : World σ) (e : Ev σ),
    eval n c env (.star q) pos w = some e → eval (n + 1) c env (.star (.memo q id)) pos w = some (e.veil c.lo) := by
  intro n
  induction n with
  | zero => intro pos w e h; cases h
  | succ n ih =>
    intro pos w e h
    rw [eval] at h ⊢
    obtain ⟨⟨res, f, w'⟩, hx, h⟩ := Option.bind_eq_some_iff.1 h
    rw [show eval (n + 1) c env (.memo q id) pos w = some (Ev.veil c.lo (res, f, w')) by simp [eval, hx], Ev.veil_mk]
    simp only [Option.bind_some]
    cases res with
    | ok p1 c1 =>
      obtain ⟨⟨r2, f2, w2⟩, hy, rfl⟩ := Option.map_eq_some_iff.1 h
      simp only [ih _ _ _ hy, Ev.veil_mk, Option.map_some]
      cases c.lo <;> simp
    | fail => cases h; simp only [Ev.veil_mk]
    | abort p1 => cases h; simp only [Ev.veil_mk]

theorem Sim.star_memo {ι : Type} {step : VM ι τ σ → Out ι τ σ} {o : Out ι τ σ} {G : Ev σ → Out ι τ σ → Prop}
    {pos : Nat} {w : World σ} (id : Int)
    (hs : Sim step m o (fun n => eval n c env (.star q) pos w) (fun e => G (e.veil c.lo))) :
    Sim step m o (fun n => eval n c env (.star (.memo q id)) pos w) G := by
  have hf : ∀ n, Fwd step n o (fun n => eval n c env (.star q) pos w) (fun e => G (e.veil c.lo)) →
      Fwd step n o (fun n => eval n c env (.star (.memo q id)) pos w) G := by
    intro n hn e he
    obtain ⟨e', he', rfl⟩ := eval_star_memo q id c env n pos w e he
    exact hn e' he'
  cases m with
  | fwd n => exact hf n hs
  | rev K =>
    refine ⟨fun n => hf n (hs.1 n), fun hst => ?_⟩
    obtain ⟨n, e, he⟩ := hs.2 hst
    exact ⟨n + 1, _, evals_star_memo q id c env n pos w e he⟩

theorem star_sim (hP : P.Ok) (hy : Hyp P m k) (p : Pat) : SimPat P m.succ (k + 1) (.star p) := by
  refine simPat_of_normal ?_ ?_
  · intro cst raw cst' h
    cases comp_star h with
    | cls cs hg hraw hs => subst hraw; exact noTailOpen_of_no (by simp)
    | memo q id hg sub s1 h hraw hs =>
      subst hraw
      exact noTailOpen_app (insn := .commit _) nofun rfl (by simp)
    | plain hm hcl sub s1 h hraw hs =>
      subst hraw
      exact noTailOpen_app (insn := .partialCommit _) nofun rfl (by simp)
  · intro env lbls cst cst' raw a j pos w s hcomp hg hocc hsc hseg hmat hpre htrk htail
    have hj : j = 0 := (star_complex hcomp).matched hmat
    subst hj
    simp only [Nat.add_zero] at hpre
    cases comp_star hcomp with
    | cls cs hgp hraw hs =>
      subst hraw
      exact span_sim hP hgp (hseg.at2 [] [] rfl nofun rfl) hpre
    | memo q id hgp sub s1 h hraw hs =>
      have hscq : q.Scoped := by
        have := get_Scoped (p := p) hsc
        rw [hgp] at this
        exact this
      have hSt : StarOK P (s1.memo + 1) q env := by
        have := hocc ⟨s1.memo + 1, true, q, env⟩ (by
          simp only [memoOcc, hgp]; rw [stAfter_eq h]; exact List.mem_cons_self)
        exact this
      have hocc' : ∀ o ∈ memoOcc k env (get q) cst, OccOK P o := fun o ho => hocc o (by
        simp only [memoOcc, hgp]; exact List.mem_cons_of_mem _ ho)
      have hr : RefP σ (.star p) (.star (.memo q id)) := by
        have := refP_star (refP_get (σ := σ) p)
        rwa [hgp] at this
      have hlen : a + raw.length = a + sub.length + 11 := by rw [hraw]; simp; omega
      rw [hlen]
      rw [hraw] at hseg
      refine Sim.ref hr (Sim.star_memo id ?_)
      have := starTree_sim hP hSt (S := s.stk) (cp := s.capt) (f0 := s.src.furthest) hpre.top hpre.le (hy.runs h hg hocc' hscq) hseg
        ⟨s, [], pos, w, [], 0, hpre.ip, ⟨hpre.data, hpre.pos, hpre.tinv, hpre.errs, hpre.cst, rfl, rfl,
          Nat.le_refl _, .nil, fun _ => Nat.zero_le _⟩⟩
      refine this.weaken ?_
      intro e o' _ hg
      refine ⟨o', Reach.refl _, ?_⟩
      obtain ⟨res, f, w'⟩ := e
      have : res.prepend [] = res := by cases res <;> rfl
      exact Good.veil (P := P) (by simpa [this] using hg)
    | plain hm hcl sub s1 h hraw hs =>
      have hocc' : ∀ o ∈ memoOcc k env (get p) cst, OccOK P o := fun o ho => hocc o (by
        simp only [memoOcc]
        exact ho)
      have hlen : a + raw.length = a + sub.length + 3 + 1 := by rw [hraw]; simp; omega
      rw [hlen]
      rw [hraw] at hseg
      exact starPlain_sim hP (hy.runs h hg hocc' hsc) hseg hpre

end Gpeg
