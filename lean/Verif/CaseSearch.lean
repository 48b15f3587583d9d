import Verif.CaseGrammar
/-! # Compiler correctness: searches -/
namespace Gpeg
variable {τ σ : Type} {P : Par τ σ} {m : Mode} {k : Nat}

/-- The search from `pos` on. -/
def searchF (P : Par τ σ) (env : Env) (p : Pat) (pos : Nat) (w : World σ) (n : Nat) : Option (Ev σ) :=
  searchLoop (eval n P.ctx env p) (P.data.length - pos) pos w

theorem searchF_zero {env : Env} {p : Pat} {pos : Nat} {w : World σ} (h : P.data.length - pos = 0) (n : Nat) :
    searchF P env p pos w n = (eval n P.ctx env p pos w).bind fun e =>
      e.orElse fun w' => some (.fail, pos + 1, w') := by
  unfold searchF; rw [h]; rfl

theorem searchF_succ {env : Env} {p : Pat} {pos : Nat} {w : World σ} (h : pos < P.data.length) (n : Nat) :
    searchF P env p pos w n = (eval n P.ctx env p pos w).bind fun e =>
      e.orElse fun w' => searchF P env p (pos + 1) w' n := by
  unfold searchF
  rw [show P.data.length - pos = (P.data.length - (pos + 1)) + 1 by omega]
  rfl

theorem fmono_searchF (env : Env) (p : Pat) (pos : Nat) (w : World σ) : FMono (searchF P env p pos w) :=
  fun _ _ _ hnm he => searchLoop_mono (fun _ _ _ h => eval_mono hnm h) _ _ _ _ he

/-- Positions where the pattern fails without effect may be skipped. -/
theorem Sim.skip {o : Out Flat τ σ} {G : Ev σ → Out Flat τ σ → Prop}
    (hG : ∀ e o f, G e o → G (e.1, f, e.2.2) o) {env : Env} {p : Pat} {w : World σ} {pos' : Nat}
    (hle : pos' ≤ P.data.length) (d : Nat) : ∀ {pos : Nat}, pos' - pos = d → pos ≤ pos' →
    (∀ i, pos ≤ i → i < pos' → ∃ far, Evals P.ctx env p i w (.fail, far, w)) →
    Sim P.step m o (searchF P env p pos' w) G → Sim P.step m o (searchF P env p pos w) G := by
  induction d with
  | zero =>
    intro pos hd h _ hs
    have : pos = pos' := by omega
    subst this
    exact hs
  | succ d ih =>
    intro pos hd h hf hs
    obtain ⟨far, n0, hn0⟩ := hf pos (Nat.le_refl _) (by omega)
    have hs := ih (pos := pos + 1) (by omega) (by omega) (fun i h1 h2 => hf i (by omega) h2) hs
    refine Sim.congr ?_ (searchF_succ (P := P) (env := env) (p := p) (w := w) (pos := pos) (by omega))
    refine Sim.bind (G := fun e o' => e = (.fail, far, w) ∧ o' = o) (fmono_eval _ _ _ _ _)
      (fun e => fmono_orElse (fun w => fmono_searchF _ _ _ _)) (Sim.known (fmono_eval _ _ _ _ _) hn0 ⟨rfl, rfl⟩) ?_
    rintro e o' _ ⟨rfl, rfl⟩
    refine Sim.map hs ?_
    intro e o' _ hg
    exact ⟨o', Reach.refl _, hG _ _ _ hg⟩

theorem Good.unnote {X : VM Flat τ σ → List Capture → Prop} {S : List Entry} {cp : List Capture} {f0 : Nat} {e : Ev σ}
    {o : Out Flat τ σ} (h : Good P X S cp f0 e o) : Good P X S cp f0 e.unnoted o := by
  have key : ∀ {t : VM Flat τ σ} {far : Nat} {w : World σ}, Post P f0 t far w → Post P f0 t 0 w :=
    fun h => ⟨h.data, h.fle, fun _ => Nat.zero_le _, h.tinv, h.errs, h.cst⟩
  obtain ⟨res, far, w⟩ := e
  cases res with
  | ok pos cs =>
    obtain ⟨t, caps, h1, h2, h3, h4, h5⟩ := h
    exact ⟨t, caps, h1, h2, h3, h4, key h5⟩
  | fail =>
    obtain ⟨t, h1, h2, h3⟩ := h
    exact ⟨t, h1, h2, key h3⟩
  | abort q =>
    obtain ⟨t, cap, h1, h2, h3⟩ := h
    exact ⟨t, cap, h1, h2, key h3⟩

/-- The part of the search code between `any` and the jump back, or the call (with `x` pushed). -/
def SkipOK (P : Par τ σ) (env : Env) (p : Pat) (b lS : Nat) (x : List Entry) : Prop :=
  ∀ (u : VM Flat τ σ), u.ip = b → u.src.data = P.data → u.src.pos ≤ P.data.length →
    ∃ pos' fur', Reach P.step (.next u) (.next { u with
        ip := labelIdx P.prog lS, stk := x ++ u.stk, src := ⟨P.data, pos', fur'⟩ }) ∧
      u.src.pos ≤ pos' ∧ pos' ≤ P.data.length ∧ u.src.furthest ≤ fur' ∧
      ∀ i, u.src.pos ≤ i → i < pos' → ∀ w, ∃ far, Evals P.ctx env p i w (.fail, far, w)

theorem search_loop (hP : P.Ok) {env : Env} {p : Pat} {lbls : String → Option Nat} {lc : Program}
    {aS lS l1 l2 b d : Nat} (hb : b = aS + 2 + lc.length) (hruns : Runs P m env lbls lc p)
    (ss : Seg P.prog lbls false 0 (aS + 2) lc)
    (i0 : P.prog[aS]? = some (.label lS)) (i1 : P.prog[aS + 1]? = some (.choice l1))
    (i2 : P.prog[b]? = some (.commit l2)) (i3 : P.prog[b + 1]? = some (.label l1))
    (i4 : P.prog[b + 2]? = some (.any 1)) {x : List Entry}
    (hx : x = [] ∨ x = [⟨.ret d, []⟩]) (hskip : SkipOK P env p (b + 3) lS x)
    (i5 : P.prog[d]? = some (.label l2)) (i6 : P.prog[d + 1]? = some .ret)
    {cp : List Capture} (K : Nat) : ∀ {r : Nat} {S : List Entry} {pos : Nat} {w : World σ} {t : VM Flat τ σ}, P.data.length - pos = K →
    Pre P t (labelIdx P.prog lS) pos w → t.stk = ⟨.ret r, []⟩ :: S → t.capt = cp →
    Sim P.step m (.next t) (searchF P env p pos w)
      (fun e => Good P (Exit true d (⟨.ret r, []⟩ :: S) cp) (⟨.ret r, []⟩ :: S) cp t.src.furthest e.unnoted) := by
  have hret : nextInsn (P.prog.drop (d + 1)) = some .ret := by
    obtain ⟨hlt, h⟩ := List.getElem?_eq_some_iff.1 i6
    rw [List.drop_eq_getElem_cons hlt, h]; rfl
  induction K using Nat.strongRecOn with
  | ind K ih =>
    intro r S pos w t hK hpre hstk hcp
    refine Sim.reach (reach_to_label hP hpre.ip i0) ?_
    refine Sim.reach (reach_at rfl i1 (o := .next { t with
      stk := ⟨.btrack (labelIdx P.prog l1) pos, []⟩ :: t.stk, ip := aS + 2 }) ?_) ?_
    · simp only [Cfg.exec1, VM.push]
      rw [show P.cfg.inp.pos t.src = pos from hpre.pos]
    have hl := hruns false (aS + 2) 0 pos w { t with
      stk := ⟨.btrack (labelIdx P.prog l1) pos, []⟩ :: t.stk, ip := aS + 2 } ss (matched_zero _ _ _)
      ⟨rfl, hpre.data, hpre.pos, hpre.le, hpre.tinv, hpre.errs, hpre.cst, topOK_push nofun⟩
      (fun _ => noted_start _ _ _) (fun h => by cases h)
    rw [← hb] at hl
    have hok : ∀ pos' cs f w' o', Good P (Exit false b (⟨.btrack (labelIdx P.prog l1) pos, []⟩ :: t.stk) t.capt)
        (⟨.btrack (labelIdx P.prog l1) pos, []⟩ :: t.stk) t.capt t.src.furthest (.ok pos' cs, f, w') o' →
        ∃ o'', Reach P.step o' o'' ∧ Good P (Exit true d (⟨.ret r, []⟩ :: S) cp) (⟨.ret r, []⟩ :: S) cp
          t.src.furthest (Ev.unnoted (.ok pos' cs, f, w')) o'' := by
      intro pos' cs f w' o' hgd
      obtain ⟨u, caps, rfl, ⟨hip, hstk', hcapt⟩, hpos, hcr, hpost⟩ := hgd
      have hr1 : Reach P.step (.next u) (.next { u with
          stk := stkAdd t.stk caps, capt := baseAdd t.stk t.capt caps, ip := d + 1 }) := by
        refine Reach.trans (reach_at hip i2 (o := .next { u with
          stk := stkAdd t.stk caps, capt := baseAdd t.stk t.capt caps, ip := labelIdx P.prog l2 }) ?_)
          (reach_to_label hP rfl i5)
        simp only [Cfg.exec1, hstk', hcapt, stkAdd, baseAdd, addCapt_eq, List.nil_append]
      obtain ⟨o'', h1, h2⟩ := Good.tailRet (e := (.ok pos' cs, f, w')) (f0 := t.src.furthest) hret ⟨r, [], S, hstk⟩
        (cp := t.capt) ⟨{ u with
          stk := stkAdd t.stk caps, capt := baseAdd t.stk t.capt caps, ip := d + 1 }, caps, rfl, ⟨rfl, rfl, rfl⟩, hpos, hcr,
          ⟨hpost.data, hpost.fle, hpost.far, hpost.tinv, hpost.errs, hpost.cst⟩⟩
      refine ⟨o'', hr1.trans h1, ?_⟩
      rw [hstk, hcp] at h2
      exact h2.unnote
    have habort : ∀ q f w' o', Good P (Exit false b (⟨.btrack (labelIdx P.prog l1) pos, []⟩ :: t.stk) t.capt)
        (⟨.btrack (labelIdx P.prog l1) pos, []⟩ :: t.stk) t.capt t.src.furthest (.abort q, f, w') o' →
        Good P (Exit true d (⟨.ret r, []⟩ :: S) cp) (⟨.ret r, []⟩ :: S) cp
          t.src.furthest (Ev.unnoted (.abort q, f, w')) o' := fun q f w' o' h => h.unnote
    have hfail : ∀ (u : VM Flat τ σ), Reach P.step (P.cfg.doFail u (⟨.btrack (labelIdx P.prog l1) pos, []⟩ :: t.stk))
        (.next { u with ip := b + 2, stk := t.stk, src := flatOps.seekTo u.src pos }) := fun u =>
      reach_to_label hP (s := { u with ip := labelIdx P.prog l1, stk := t.stk, src := flatOps.seekTo u.src pos }) rfl i3
    rcases Nat.lt_or_ge pos P.data.length with hlt | hge
    · refine Sim.congr ?_ (searchF_succ hlt)
      refine Sim.orElse (fmono_eval _ _ _ _ _) (fun w => fmono_searchF _ _ _ _) hl
        (fun pos' cs f w' o' _ h => hok _ _ _ _ _ h) ?_ habort
      intro f w' o' _ hgd
      obtain ⟨u, rfl, hcapt, hpost⟩ := hgd
      refine Sim.reach (hfail u) ?_
      refine Sim.reach (reach_at rfl i4 (o := .next { u with
        ip := b + 3, stk := t.stk, src := ⟨P.data, pos + 1, u.src.furthest⟩ }) ?_) ?_
      · simp only [Cfg.exec1, Par.cfg, flatOps, Flat.advance, hpost.data]
        rw [show (1 : UInt8).toNat = 1 from rfl, if_pos hlt, decide_eq_true (show pos + 1 ≤ P.data.length from hlt)]
      obtain ⟨pos', fur', h1, h2, h3, h4, h5⟩ := hskip { u with
        ip := b + 3, stk := t.stk, src := ⟨P.data, pos + 1, u.src.furthest⟩ } rfl rfl hlt
      refine Sim.reach h1 ?_
      have h2' : pos + 1 ≤ pos' := h2
      have h4' : u.src.furthest ≤ fur' := h4
      have hgg : t.src.furthest ≤ u.src.furthest := hpost.fle
      refine Sim.skip (fun _ _ _ h => h) h3 _ rfl h2' (fun i hi hi' => h5 i hi hi' w') ?_
      rcases hx with rfl | rfl
      · have := ih (P.data.length - pos') (by omega) (pos := pos') (w := w') (t := { u with
          ip := labelIdx P.prog lS, stk := t.stk, src := ⟨P.data, pos', fur'⟩ }) rfl
          ⟨rfl, rfl, rfl, h3, hP.tmono hpost.tinv h4', hpost.errs, hpost.cst, hpre.top⟩ hstk
          ((hcapt (by simp)).trans hcp)
        exact this.weaken fun e o' _ hg => ⟨o', Reach.refl _, hg.mono (Nat.le_trans hgg h4')⟩
      · have := ih (P.data.length - pos') (by omega) (r := d) (S := t.stk) (pos := pos') (w := w') (t := { u with
          ip := labelIdx P.prog lS, stk := ⟨.ret d, []⟩ :: t.stk, src := ⟨P.data, pos', fur'⟩ }) rfl
          ⟨rfl, rfl, rfl, h3, hP.tmono hpost.tinv h4', hpost.errs, hpost.cst, topOK_push nofun⟩ rfl
          ((hcapt (by simp)).trans hcp)
        refine this.weaken fun e o' _ hg => ?_
        have hg := hg.mono (Nat.le_trans hgg h4')
        obtain ⟨res, f', w2⟩ := e
        cases res with
        | ok pos2 cs =>
          obtain ⟨u2, caps, rfl, ⟨r', c0, S', he, hip, hstk2, hcapt2⟩, hpos, hcr, hpost2⟩ := hg
          cases he
          obtain ⟨o'', g1, g2⟩ := Good.tailRet (e := (.ok pos2 cs, 0, w2)) (f0 := t.src.furthest) hret ⟨r, [], S, hstk⟩
            (cp := cp) ⟨{ u2 with ip := d + 1 }, caps, rfl, ⟨rfl, hstk2, hcapt2⟩, hpos, hcr,
              ⟨hpost2.data, hpost2.fle, hpost2.far, hpost2.tinv, hpost2.errs, hpost2.cst⟩⟩
          refine ⟨o'', (reach_label hip i5).trans g1, ?_⟩
          rw [hstk] at g2
          exact g2
        | fail =>
          obtain ⟨u2, rfl, hc2, hpost2⟩ := hg
          exact ⟨_, Reach.refl _, u2, by rw [← hstk]; rfl, fun _ => hc2 (by simp), hpost2⟩
        | abort q => exact ⟨o', Reach.refl _, hg⟩
    · refine Sim.congr ?_ (searchF_zero (by omega))
      refine Sim.orElse (fmono_eval _ _ _ _ _) (fun w => fmono_const _) hl
        (fun pos' cs f w' o' _ h => hok _ _ _ _ _ h) ?_ habort
      intro f w' o' _ hgd
      obtain ⟨u, rfl, hcapt, hpost⟩ := hgd
      refine Sim.reach (hfail u) ?_
      refine Sim.reach (reach_at rfl i4 (o := P.cfg.doFail { u with
        ip := b + 2, stk := t.stk, src := ⟨P.data, pos, u.src.furthest⟩ } t.stk) ?_) (Sim.pure _ ?_)
      · simp only [Cfg.exec1, Par.cfg, flatOps, Flat.advance, hpost.data, Cfg.fail]
        rw [show (1 : UInt8).toNat = 1 from rfl, if_neg (by omega)]
      · refine ⟨{ u with
          ip := b + 2, stk := t.stk, src := ⟨P.data, pos, u.src.furthest⟩ }, by rw [hstk], fun _ => (hcapt (by simp)).trans hcp,
          ⟨rfl, hpost.fle, fun _ => Nat.zero_le _, hpost.tinv, hpost.errs, hpost.cst⟩⟩

/-! ## The code of a search -/

theorem searchRc {sub rc : Program} {s s' : CState}
    (h : CM.Ok (compileF k (get (.seq (.dot 1) (searchRest sub)))) s rc s') :
    s' = s ∧ (rc = [.any 1, .openCall "S"] ∨ ∃ cs, rc = [.any 1, .span cs, .openCall "S"] ∧
      ((∃ b, nextInsn sub = some (.char b) ∧ cs = (CSet.new [b]).complement) ∨
        ∃ cs0, nextInsn sub = some (.set cs0) ∧ cs = cs0.complement)) := by
  have hg : ∀ sub, get (.seq (.dot 1) (searchRest sub)) = .seq (.dot 1) (searchRest sub) := by
    intro sub
    unfold searchRest
    split
    · rfl
    · split <;> rfl
    · rfl
  rw [hg] at h
  cases k with
  | zero => exact (comp_zero h).elim
  | succ k =>
    obtain ⟨lc, s1, rc', h1, h2, rfl⟩ := comp_seq h
    have h1 : CM.Ok (compileF k (.dot 1)) s lc s1 := h1
    cases k with
    | zero => exact (comp_zero h1).elim
    | succ k =>
      obtain ⟨rfl, rfl⟩ := comp_dot h1
      have hnt : ∀ {k : Nat} {s s' : CState} {rc : Program}, CM.Ok (compileF k (get (.nonterm "S"))) s rc s' →
          rc = [.openCall "S"] ∧ s' = s := by
        intro k s s' rc h
        cases k with
        | zero => exact (comp_zero h).elim
        | succ k => exact comp_nonterm h
      have hsp : ∀ {s s' : CState} {rc : Program} {cs : CSet},
          CM.Ok (compileF (k + 1) (get (.seq (.star (.cls cs)) (.nonterm "S")))) s rc s' →
          rc = [.span cs, .openCall "S"] ∧ s' = s := by
        intro s s' rc cs h
        obtain ⟨l, s2, r, g1, g2, rfl⟩ := comp_seq
          (show CM.Ok (compileF (k + 1) (.seq (.star (.cls cs)) (.nonterm "S"))) s rc s' from h)
        obtain ⟨rfl, rfl⟩ := hnt g2
        have g1 : CM.Ok (compileF k (.star (.cls cs))) s l s' := g1
        cases k with
        | zero => exact (comp_zero g1).elim
        | succ k =>
          cases comp_star g1 with
          | cls cs' hg hraw hs => cases hg; subst hraw; exact ⟨rfl, hs⟩
          | memo q id hg => cases hg
          | plain hm hcl => exact absurd rfl (hcl cs)
      unfold searchRest at h2
      split at h2
      · rename_i b hb
        obtain ⟨rfl, rfl⟩ := hsp h2
        exact ⟨rfl, Or.inr ⟨_, rfl, Or.inl ⟨b, hb, rfl⟩⟩⟩
      · rename_i cs hcs
        split at h2
        · obtain ⟨rfl, rfl⟩ := hsp h2
          exact ⟨rfl, Or.inr ⟨_, rfl, Or.inr ⟨cs, hcs, rfl⟩⟩⟩
        · obtain ⟨rfl, rfl⟩ := hnt h2
          exact ⟨rfl, Or.inl rfl⟩
      · obtain ⟨rfl, rfl⟩ := hnt h2
        exact ⟨rfl, Or.inl rfl⟩

/-- The compiled search, before the calls are resolved. -/
theorem comp_search_code {p : Pat} {s s' : CState} {raw : Program}
    (h : CM.Ok (compileF (k + 1) (.search p)) s raw s') :
    ∃ k2 sub s1 lc s2 rc l1 l2 code, k = k2 + 2 ∧ CM.Ok (compileF k (get p)) s sub s1 ∧
      CM.Ok (compileF k2 (get (get p))) (s1.bump 2) lc s2 ∧
      (rc = [.any 1, .openCall "S"] ∨ ∃ cs, rc = [.any 1, .span cs, .openCall "S"] ∧
        ((∃ b, nextInsn sub = some (.char b) ∧ cs = (CSet.new [b]).complement) ∨
          ∃ cs0, nextInsn sub = some (.set cs0) ∧ cs = cs0.complement)) ∧
      resolve s1.tco [("S", s1.lbl + 2)] ([.openCall "S", .jump (s1.lbl + 1), .label (s1.lbl + 2), .choice l1] ++
        (lc ++ ([.commit l2, .label l1] ++ (rc ++ [.label l2, .ret])))) = .ok code ∧
      raw = code ++ [.label (s1.lbl + 1)] ∧ l1 = s2.lbl + 1 ∧ l2 = s2.lbl + 2 ∧ s' = s2.bump 2 := by
  obtain ⟨sub, s1, h1, h2⟩ := comp_search h
  cases k with
  | zero => exact (comp_zero h1).elim
  | succ k1 =>
    cases comp_grammar h2 with
    | unused hu b hb h =>
      rw [search_inline] at hu
      exact absurd hu (search_nts _ _)
    | used hu labels fns code h3 hr hraw =>
      rw [search_inline] at h3
      obtain ⟨fn, s2, ls', code', h4, h5, h6, h7⟩ := compDefs_cons (by simp) h3
      obtain ⟨rfl, rfl, rfl⟩ := compDefs_nil h5
      cases k1 with
      | zero => exact (comp_zero h4).elim
      | succ k2 =>
        cases hc : combine (get (get p)) (get (.seq (.dot 1) (searchRest sub))) with
        | some cs =>
          exfalso
          have hg : get (.seq (.dot 1) (searchRest sub)) = .seq (.dot 1) (searchRest sub) := by
            unfold searchRest
            split
            · rfl
            · split <;> rfl
            · rfl
          rw [hg] at hc
          unfold combine at hc
          split at hc <;> rename_i h1 h2 <;> first | cases h2 | cases hc
        | none =>
          obtain ⟨lc, s3, rc, s4, g1, g2, g3, g4⟩ := comp_alt_none hc h4
          obtain ⟨rfl, hrc⟩ := searchRc g2
          have hat : altTest lc rc (s4.lbl + 1) = none := by
            have : nextInsn rc = some (.any 1) := by rcases hrc with rfl | ⟨cs, rfl, _⟩ <;> rfl
            unfold altTest
            rw [this]
            split <;> first | rfl | simp_all
          rw [altCode_choice hat] at g3
          refine ⟨k2, sub, s1, lc, s4, rc, s4.lbl + 1, s4.lbl + 2, code, rfl, h1, g1, hrc, ?_, hraw, rfl, rfl, g4⟩
          rw [h6, h7, g3] at hr
          simpa [CState.bump] using hr

theorem search_skip {env : Env} {p : Pat} {sub : Program} {s s' : CState} {b lS : Nat} {cs : CSet}
    (hc : CM.Ok (compileF k (get p)) s sub s') (hsc : p.Scoped)
    (hcs : (∃ b, nextInsn sub = some (.char b) ∧ cs = (CSet.new [b]).complement) ∨
      ∃ cs0, nextInsn sub = some (.set cs0) ∧ cs = cs0.complement)
    (i1 : P.prog[b]? = some (.span cs)) {x : List Entry}
    (i2 : ∀ u : VM Flat τ σ, u.ip = b + 1 →
      Reach P.step (.next u) (.next { u with ip := labelIdx P.prog lS, stk := x ++ u.stk })) :
    SkipOK P env p b lS x := by
  have hfail : ∀ (i : Nat), inSet P.data i cs = true → ∀ w, ∃ far, Evals P.ctx env p i w (.fail, far, w) := by
    intro i hi w
    have hlt := lt_of_inSet hi
    unfold inSet at hi
    rw [List.getElem?_eq_getElem hlt] at hi
    have hst : Stop P.data 0 sub i false := by
      rcases hcs with ⟨c, hn, rfl⟩ | ⟨cs0, hn, rfl⟩
      · obtain ⟨r, rfl⟩ := (compile_stat _ hc).head.first hn nofun
        refine ⟨matched_zero _ _ _, .char c, rfl, ?_⟩
        simp only [CSet.has_complement, CSet.has_new] at hi
        simp only [simpleAt, Nat.add_zero, List.getElem?_eq_getElem hlt, Option.some.injEq, decide_eq_false_iff_not]
        intro he
        rw [he] at hi
        simp at hi
      · obtain ⟨r, rfl⟩ := (compile_stat _ hc).head.first hn nofun
        refine ⟨matched_zero _ _ _, .set cs0, rfl, ?_⟩
        simp only [CSet.has_complement] at hi
        simp only [simpleAt, Nat.add_zero, inSet, List.getElem?_eq_getElem hlt, Option.some.injEq]
        simpa using hi
    obtain ⟨far, h1, _⟩ := scans_get (P := P) (env := env) hc hsc 0 i w false hst
    exact ⟨far, h1⟩
  have hspan : ∀ (d : Nat) {pos fur fuel : Nat}, P.data.length - pos = d → pos ≤ P.data.length → d < fuel →
      ∃ pos' fur', P.cfg.spanLoop cs fuel ⟨P.data, pos, fur⟩ = ⟨P.data, pos', fur'⟩ ∧ pos ≤ pos' ∧
        pos' ≤ P.data.length ∧ fur ≤ fur' ∧ ∀ i, pos ≤ i → i < pos' → inSet P.data i cs = true := by
    intro d
    induction d with
    | zero =>
      intro pos fur fuel hd hle hfuel
      cases fuel with
      | zero => omega
      | succ fuel =>
        refine ⟨pos, max fur pos, ?_, Nat.le_refl _, hle, Nat.le_max_left _ _, fun i h1 h2 => by omega⟩
        have hnone : P.data[pos]? = none := List.getElem?_eq_none (by omega)
        simp only [Cfg.spanLoop, Par.cfg, flatOps, Flat.peek, hnone]
    | succ d ih =>
      intro pos fur fuel hd hle hfuel
      cases fuel with
      | zero => omega
      | succ fuel =>
        have hlt : pos < P.data.length := by omega
        have hget : P.data[pos]? = some P.data[pos] := List.getElem?_eq_getElem hlt
        cases hh : cs.has P.data[pos] with
        | true =>
          obtain ⟨pos', fur', h1, h2, h3, h4, h5⟩ := ih (pos := pos + 1) (fur := max fur pos)
            (fuel := fuel) (by omega) hlt (by omega)
          refine ⟨pos', fur', ?_, by omega, h3, Nat.le_trans (Nat.le_max_left _ _) h4, ?_⟩
          · simp only [Cfg.spanLoop, Par.cfg, flatOps, Flat.peek, hget, hh, if_true, Flat.advance, hlt]
            exact h1
          · intro i hi hi'
            by_cases hip : i = pos
            · subst hip
              unfold inSet; rw [hget]; exact hh
            · exact h5 i (by omega) hi'
        | false =>
          refine ⟨pos, max fur pos, ?_, Nat.le_refl _, hle, Nat.le_max_left _ _, fun i h1 h2 => by omega⟩
          simp only [Cfg.spanLoop, Par.cfg, flatOps, Flat.peek, hget, hh, Bool.false_eq_true, if_false]
  intro u hip hdata hle
  obtain ⟨ip0, stk, capt, ⟨data, pos0, fur⟩, tbl, errs, cst, rng⟩ := u
  dsimp only at hip hdata hle
  subst hip hdata
  obtain ⟨pos', fur', h1, h2, h3, h4, h5⟩ := hspan _ (pos := pos0) (fur := fur) (fuel := P.data.length + 1) rfl hle
    (by omega)
  refine ⟨pos', fur', Reach.trans (reach_at (o := .next ⟨ip0 + 1, stk, capt, ⟨P.data, pos', fur'⟩, tbl, errs, cst, rng⟩)
    rfl i1 ?_) (i2 ⟨ip0 + 1, stk, capt, ⟨P.data, pos', fur'⟩, tbl, errs, cst, rng⟩ rfl), h2, h3, h4,
    fun i g1 g2 => hfail i (h5 i g1 g2)⟩
  simp only [Cfg.exec1]
  rw [show P.cfg.inp.data (⟨P.data, pos0, fur⟩ : Flat) = P.data from rfl, h1]

theorem search_sim (hP : P.Ok) (hy : Hyp P m k) (p : Pat) : SimPat P m.succ (k + 1) (.search p) := by
  refine simPat_of_normal ?_ ?_
  · intro cst raw cst' h
    obtain ⟨sub, s1, h1, h2⟩ := comp_search h
    exact noTailOpen_of_no fun n => grammar_noOpen n h2
  · intro env lbls cst cst' raw a j pos w s hcomp hg hocc hsc hseg hmat hpre htrk htail
    obtain ⟨hS, hsc⟩ := hsc
    have hno : ∀ n, Insn.openCall n ∉ raw := by
      obtain ⟨sub, s1, h1, h2⟩ := comp_search hcomp
      exact fun n => grammar_noOpen n h2
    obtain ⟨k2, sub, s1, lc, s2, rc, l1, l2, code, rfl, h1, h2, hrc, hr, hraw, _, _, _⟩ := comp_search_code hcomp
    have hj : j = 0 := by
      rw [hraw] at hmat
      exact (resolve_complex hr).matched hmat
    subst hj
    simp only [Nat.add_zero] at hpre
    have hlen : raw.length = code.length + 1 := by rw [hraw]; simp
    have hat : ∀ (i : Nat) insn, code[i]? = some insn → P.prog[a + i]? = some insn := by
      intro i insn hi
      have hlt : i < code.length := by
        rcases Nat.lt_or_ge i code.length with hlt | hge
        · exact hlt
        · rw [List.getElem?_eq_none hge] at hi; cases hi
      have hi' : raw[i]? = some insn := by
        rw [hraw, List.getElem?_append_left hlt]; exact hi
      have := hseg i insn (Nat.zero_le _) hi'
      cases insn with
      | openCall n => exact absurd (List.mem_of_getElem? hi') (hno n)
      | _ => exact this
    have hle : P.prog[a + code.length]? = some (.label (s1.lbl + 1)) :=
      hseg.at2 code [] (insn := .label (s1.lbl + 1)) hraw nofun rfl
    have hres := resolve_spec _ hr
    generalize hX : [Insn.openCall "S", .jump (s1.lbl + 1), .label (s1.lbl + 2), .choice l1] = X at hr hres
    have hXl : X.length = 4 := by rw [← hX]; rfl
    obtain ⟨L, hL, hcall⟩ := hres 0 (.openCall "S") (by rw [← hX]; rfl)
    have hL' : L = s1.lbl + 2 := by
      simp only [List.lookup_cons, beq_self_eq_true, Option.some.injEq] at hL
      exact hL.symm
    subst hL'
    have k0 : P.prog[a]? = some (.call (s1.lbl + 2)) := by
      refine hat 0 _ (hcall.trans ?_)
      rw [← hX, if_neg (fun h => nomatch h.2)]
    have k1 : P.prog[a + 1]? = some (.jump (s1.lbl + 1)) := hat _ _ (hres 1 (.jump (s1.lbl + 1)) (by rw [← hX]; rfl))
    have k2' : P.prog[a + 2]? = some (.label (s1.lbl + 2)) := hat _ _ (hres 2 (.label (s1.lbl + 2)) (by rw [← hX]; rfl))
    have k3 : P.prog[a + 3]? = some (.choice l1) := hat _ _ (hres 3 (.choice l1) (by rw [← hX]; rfl))
    have hlcno : ∀ n, Insn.openCall n ∉ lc := by
      intro n hn
      obtain ⟨i, hi, hie⟩ := List.getElem_of_mem hn
      obtain ⟨l, hl, _⟩ := hres (X.length + i) (.openCall n) (getElem?_mid (by
        rw [List.getElem?_append_left hi, List.getElem?_eq_getElem hi, hie]))
      have : n = "S" := by
        refine Decidable.byContradiction fun hne => ?_
        simp only [List.lookup_cons, List.lookup_nil] at hl
        rw [show (n == "S") = false from beq_eq_false_iff_ne.2 hne] at hl
        cases hl
      subst this
      exact hS (get_nts (get_nts (compile_open h2 hn)))
    have ss : Seg P.prog (fun _ => none) false 0 (a + 2 + 2) lc := by
      intro i insn _ hi
      have hlt : i < lc.length := by
        rcases Nat.lt_or_ge i lc.length with hlt | hge
        · exact hlt
        · rw [List.getElem?_eq_none hge] at hi; cases hi
      have := hres (X.length + i) insn (getElem?_mid (by rw [List.getElem?_append_left hlt]; exact hi))
      rw [show a + 2 + 2 + i = a + (X.length + i) by omega]
      cases insn with
      | openCall n => exact absurd (List.mem_of_getElem? hi) (hlcno n)
      | ret =>
        rcases this with h | ⟨_, h⟩
        · exact hat _ _ h
        · rw [List.take_length_add_append, List.take_append_of_le_length (by omega), ← hX] at h
          refine absurd h (not_endsOpen_app (x := [.openCall "S"]) (y := .jump (s1.lbl + 1) :: .label (s1.lbl + 2) ::
            .choice l1 :: lc.take i) ?_ (i := .jump (s1.lbl + 1)) (by simp) nofun)
          intro n hn
          simp only [List.mem_cons, reduceCtorEq, false_or] at hn
          exact hlcno n (List.mem_of_mem_take hn)
      | _ => exact hat _ _ this
    -- the code after the body
    have hpost : ∀ (i : Nat) insn, ([.commit l2, .label l1] ++ (rc ++ [.label l2, .ret]) : Program)[i]? = some insn →
        ResolvedAt s1.tco [("S", s1.lbl + 2)] (X ++ (lc ++ ([.commit l2, .label l1] ++ (rc ++ [.label l2, .ret])))) code
          (X.length + (lc.length + i)) insn := fun i insn hi => hres _ _ (getElem?_mid (getElem?_mid hi))
    have hpa : ∀ i, a + (X.length + (lc.length + i)) = a + 4 + lc.length + i := by intro i; omega
    have k4 : P.prog[a + 4 + lc.length]? = some (.commit l2) := by
      have := hat _ _ (hpost 0 (.commit l2) rfl); rwa [hpa] at this
    have k5 : P.prog[a + 4 + lc.length + 1]? = some (.label l1) := by
      have := hat _ _ (hpost 1 (.label l1) rfl); rwa [hpa] at this
    have k6 : P.prog[a + 4 + lc.length + 2]? = some (.any 1) := by
      have := hat _ _ (hpost 2 (.any 1) (by rcases hrc with rfl | ⟨cs, rfl, _⟩ <;> rfl)); rwa [hpa] at this
    have hr2 : (rc ++ [Insn.label l2, .ret])[rc.length]? = some (.label l2) := by simp
    have hr3 : (rc ++ [Insn.label l2, .ret])[rc.length + 1]? = some .ret := by
      rw [List.getElem?_append_right (by omega)]; simp
    have k7 : P.prog[a + 4 + lc.length + 2 + rc.length]? = some (.label l2) := by
      have := hat _ _ (hpost (2 + rc.length) (.label l2) (getElem?_mid (x := [.commit l2, .label l1]) hr2))
      rw [hpa] at this
      rwa [Nat.add_assoc (a + 4 + lc.length)]
    have k8 : P.prog[a + 4 + lc.length + 2 + rc.length + 1]? = some .ret := by
      have := hpost (2 + (rc.length + 1)) .ret (getElem?_mid (x := [.commit l2, .label l1]) hr3)
      rcases this with h | ⟨_, h⟩
      · have := hat _ _ h
        rw [hpa] at this
        rwa [show a + 4 + lc.length + 2 + rc.length + 1 = a + 4 + lc.length + (2 + (rc.length + 1)) by omega]
      · exfalso
        rw [List.take_length_add_append, List.take_length_add_append,
          show 2 + (rc.length + 1) = [Insn.commit l2, .label l1].length + (rc.length + 1) from rfl,
          List.take_length_add_append, List.take_length_add_append] at h
        simp only [List.take_succ_cons, List.take_zero, ← List.append_assoc] at h
        exact not_endsOpen_label _ _ h
    have hsk : ∃ x, (x = [] ∨ x = [⟨.ret (a + 4 + lc.length + 2 + rc.length), []⟩]) ∧
        SkipOK P env p (a + 4 + lc.length + 3) (s1.lbl + 2) x := by
      have hjmp : ∃ x : List Entry, (x = [] ∨ x = [⟨.ret (a + 4 + lc.length + 2 + rc.length), []⟩]) ∧
          ∀ i, i + 1 = 2 + rc.length →
          ([.commit l2, .label l1] ++ (rc ++ [.label l2, .ret]) : Program)[i]? = some (.openCall "S") →
          ([.commit l2, .label l1] ++ (rc ++ [.label l2, .ret]) : Program).drop (i + 1) = [.label l2, .ret] →
          ∀ u : VM Flat τ σ, u.ip = a + 4 + lc.length + i →
          Reach P.step (.next u) (.next { u with ip := labelIdx P.prog (s1.lbl + 2), stk := x ++ u.stk }) := by
        have hins : ∀ i, i + 1 = 2 + rc.length →
            ([.commit l2, .label l1] ++ (rc ++ [.label l2, .ret]) : Program)[i]? = some (.openCall "S") →
            ([.commit l2, .label l1] ++ (rc ++ [.label l2, .ret]) : Program).drop (i + 1) = [.label l2, .ret] →
            P.prog[a + 4 + lc.length + i]? =
              some (if s1.tco = true then .jump (s1.lbl + 2) else .call (s1.lbl + 2)) := by
          intro i _ hi hd
          obtain ⟨l, hl, h⟩ := hpost i _ hi
          have : l = s1.lbl + 2 := by
            rw [hL] at hl; exact (Option.some.inj hl).symm
          subst this
          rw [← hpa]
          refine hat _ _ (h.trans ?_)
          rw [show X.length + (lc.length + i) + 1 = X.length + (lc.length + (i + 1)) by omega,
            List.drop_length_add_append, List.drop_length_add_append, hd]
          cases s1.tco <;> rfl
        cases ht : s1.tco with
        | true =>
          refine ⟨[], Or.inl rfl, fun i hi h1 h2 u hip => ?_⟩
          have := hins i hi h1 h2
          rw [ht, if_pos rfl] at this
          exact reach_at hip this rfl
        | false =>
          refine ⟨_, Or.inr rfl, fun i hi h1 h2 u hip => ?_⟩
          have := hins i hi h1 h2
          rw [ht, if_neg (by simp)] at this
          refine reach_at hip this ?_
          simp only [Cfg.exec1, VM.push]
          rw [show a + 4 + lc.length + i + 1 = a + 4 + lc.length + 2 + rc.length by omega]
          rfl
      obtain ⟨x, hx, hjmp⟩ := hjmp
      refine ⟨x, hx, ?_⟩
      rcases hrc with rfl | ⟨cs, rfl, hcs⟩
      · have hj := hjmp 3 rfl rfl rfl
        intro u hip hdata hle
        refine ⟨u.src.pos, u.src.furthest, ?_, Nat.le_refl _, hle, Nat.le_refl _, fun i h1 h2 => by omega⟩
        have := hj u hip
        rw [← hdata]
        exact this
      · have hj := hjmp 4 rfl rfl rfl
        have hsp : P.prog[a + 4 + lc.length + 3]? = some (.span cs) := by
          have := hat _ _ (hpost 3 (.span cs) rfl); rwa [hpa] at this
        exact search_skip h1 hsc hcs hsp hj
    obtain ⟨x, hx, hsk⟩ := hsk
    have hruns : Runs P m env (fun _ => none) lc p := by
      have hr := (hy.down (k' := k2) (by omega)).runs (env := env) (lbls := fun _ => none) h2
        (fun n L h => by cases h) (fun o ho => hocc o (by
          simp only [memoOcc]; rw [stAfter_eq h1]; exact ho)) (get_Scoped hsc)
      exact fun tl a j pos w s g1 g2 g3 g4 g5 => Sim.ref (refP_get p) (hr tl a j pos w s g1 g2 g3 g4 g5)
    refine Sim.unshift rfl ?_
    refine Sim.reach (reach_at hpre.ip k0 (o := .next { s with
      stk := ⟨.ret (a + 1), []⟩ :: s.stk, ip := labelIdx P.prog (s1.lbl + 2) }) rfl) ?_
    have := search_loop hP (m := m) (b := a + 4 + lc.length) (d := a + 4 + lc.length + 2 + rc.length) (by omega) hruns ss
      k2' k3 k4 k5 k6 hx hsk k7 k8 (r := a + 1) (S := s.stk) (cp := s.capt) (P.data.length - pos) (pos := pos) (w := w)
      (t := { s with stk := ⟨.ret (a + 1), []⟩ :: s.stk, ip := labelIdx P.prog (s1.lbl + 2) }) rfl
      ⟨rfl, hpre.data, hpre.pos, hpre.le, hpre.tinv, hpre.errs, hpre.cst, topOK_push nofun⟩ rfl rfl
    refine Sim.map this ?_
    rintro ⟨res, f, w'⟩ o' _ hgd
    cases res with
    | ok pos' cs =>
      obtain ⟨t, caps, rfl, ⟨r, c0, S', he, hip, hstk, hcapt⟩, hpos, hcr, hpost⟩ := hgd
      cases he
      refine ⟨_, Reach.trans (reach_at hip k1 rfl) (reach_to_label hP rfl hle), _, caps, rfl, ⟨?_, hstk, hcapt⟩,
        hpos, hcr, ⟨hpost.data, hpost.fle, hpost.far, hpost.tinv, hpost.errs, hpost.cst⟩⟩
      show a + code.length + 1 = a + raw.length
      omega
    | fail =>
      obtain ⟨t, rfl, hcapt, hpost⟩ := hgd
      exact ⟨_, Reach.refl _, t, rfl, fun _ => hcapt (by simp), hpost⟩
    | abort q => exact ⟨o', Reach.refl _, hgd⟩

end Gpeg
