import Verif.CaseCap
/-! # Compiler correctness: repetitions (not memoized) -/
namespace Gpeg
variable {τ σ : Type} {P : Par τ σ} {m : Mode} {k : Nat}

theorem Runs.down {m' : Mode} {env : Env} {lbls : String → Option Nat} {raw : Program} {p : Pat}
    (h : Runs P m env lbls raw p) (hle : m'.Le m) : Runs P m' env lbls raw p :=
  fun tl a j pos w s h1 h2 h3 h4 h5 => (h tl a j pos w s h1 h2 h3 h4 h5).down (fmono_eval _ _ _ _ _) hle

/-! ## Spans -/

theorem span_eval (P : Par τ σ) {env : Env} (cs : CSet) (w : World σ) (d : Nat) : ∀ {pos fur fuel : Nat},
    P.data.length - pos = d → pos ≤ P.data.length → d < fuel →
    ∃ pos' fur', P.cfg.spanLoop cs fuel ⟨P.data, pos, fur⟩ = ⟨P.data, pos', fur'⟩ ∧
      pos' ≤ P.data.length ∧ fur ≤ fur' ∧
      ∃ far, Evals P.ctx env (.star (.cls cs)) pos w (.ok pos' [], far, w) ∧ far ≤ fur' + 1 := by
  induction d with
  | zero =>
    intro pos fur fuel hd hle hfuel
    cases fuel with
    | zero => omega
    | succ fuel =>
      have hpos : pos = P.data.length := by omega
      have hnone : P.data[pos]? = none := List.getElem?_eq_none (by omega)
      refine ⟨pos, max fur pos, ?_, hle, Nat.le_max_left _ _, pos + 1, ?_, ?_⟩
      · simp only [Cfg.spanLoop, Par.cfg, flatOps, Flat.peek, hnone]
      · refine evals_star.2 ⟨_, evals_cls.2 rfl, ?_⟩
        have : inSet P.ctx.data pos cs = false := by
          show inSet P.data pos cs = false
          unfold inSet; rw [hnone]
        unfold clsEv
        rw [if_neg (by simp [this])]
        rfl
      · exact Nat.succ_le_succ (Nat.le_max_right _ _)
  | succ d ih =>
    intro pos fur fuel hd hle hfuel
    cases fuel with
    | zero => omega
    | succ fuel =>
      have hlt : pos < P.data.length := by omega
      have hget : P.data[pos]? = some P.data[pos] := List.getElem?_eq_getElem hlt
      cases hh : cs.has P.data[pos] with
      | true =>
        obtain ⟨pos', fur', h1, h2, h3, far, h4, h5⟩ := ih (pos := pos + 1) (fur := max fur pos)
          (fuel := fuel) (by omega) hlt (by omega)
        refine ⟨pos', fur', ?_, h2, Nat.le_trans (Nat.le_max_left _ _) h3, max (pos + 1) far, ?_, ?_⟩
        · simp only [Cfg.spanLoop, Par.cfg, flatOps, Flat.peek, hget, hh, if_true, Flat.advance, hlt]
          exact h1
        · refine evals_star.2 ⟨_, evals_cls.2 rfl, ?_⟩
          have : inSet P.ctx.data pos cs = true := by
            show inSet P.data pos cs = true
            unfold inSet; rw [hget]; exact hh
          unfold clsEv
          rw [if_pos this]
          exact ⟨_, h4, rfl⟩
        · have : pos ≤ fur' := Nat.le_trans (Nat.le_max_right _ _) h3
          omega
      | false =>
        refine ⟨pos, max fur pos, ?_, hle, Nat.le_max_left _ _, pos + 1, ?_, ?_⟩
        · simp only [Cfg.spanLoop, Par.cfg, flatOps, Flat.peek, hget, hh, Bool.false_eq_true, if_false]
        · refine evals_star.2 ⟨_, evals_cls.2 rfl, ?_⟩
          have : inSet P.ctx.data pos cs = false := by
            show inSet P.data pos cs = false
            unfold inSet; rw [hget]; exact hh
          unfold clsEv
          rw [if_neg (by simp [this])]
          rfl
        · exact Nat.succ_le_succ (Nat.le_max_right _ _)

theorem span_sim (hP : P.Ok) {p : Pat} {cs : CSet} (hgp : get p = .cls cs) {env : Env} {a pos : Nat}
    {w : World σ} {s : VM Flat τ σ} (hat : P.prog[a]? = some (.span cs)) (hpre : Pre P s a pos w) :
    Sim P.step m (.next s) (fun n => eval n P.ctx env (.star p) pos w)
      (Good P (Exit false (a + 1) s.stk s.capt) s.stk s.capt s.src.furthest) := by
  obtain ⟨ip0, stk, capt, ⟨data, pos0, fur⟩, tbl, errs, cst, rng⟩ := s
  obtain ⟨h1, h2, h3, h4, h5, h6, h7, h8⟩ := hpre
  dsimp only at h1 h2 h3 h5 h6 h7 h8
  subst h1 h2 h3
  obtain ⟨pos', fur', g1, g2, g3, far, g4, g5⟩ := span_eval P (env := env) cs w _ (fur := fur)
    (fuel := P.data.length + 1) rfl h4 (by omega)
  have hev : Evals P.ctx env (.star p) pos0 w (.ok pos' [], far, w) :=
    (refP_star (refP_get p)).ge _ _ _ _ _ (by rw [hgp]; exact g4)
  refine Sim.evals hev (reach_at (o := .next ⟨ip0 + 1, stk, capt, ⟨P.data, pos', fur'⟩, tbl, errs, cst, rng⟩)
    rfl hat ?_) ⟨_, [], rfl, ⟨rfl, by rw [stkAdd_nil], by rw [baseAdd_nil]⟩, rfl, hP.cr_nil,
      ⟨rfl, g3, fun _ => g5, hP.tmono h5 g3, h6, h7⟩⟩
  simp only [Cfg.exec1]
  have : P.cfg.inp.data (⟨P.data, pos0, fur⟩ : Flat) = P.data := rfl
  rw [this, g1]

/-! ## Plain repetitions -/

/-- The machine at the head of the loop of a repetition. -/
structure AtLoop (P : Par τ σ) (a l2 : Nat) where
  t : VM Flat τ σ
  S : List Entry
  cp : List Capture
  pos : Nat
  w : World σ
  pre : Pre P t (a + 1) pos w
  stk : t.stk = ⟨.btrack (labelIdx P.prog l2) pos, []⟩ :: S
  capt : t.capt = cp
  top : TopOK S

theorem starLoop_sim (hP : P.Ok) {p : Pat} {env : Env} {lbls : String → Option Nat} {sub : Program}
    {a l1 l2 : Nat} (hruns : Runs P m env lbls sub p) (ss : Seg P.prog lbls false 0 (a + 2) sub)
    (i1 : P.prog[a + 1]? = some (.label l1))
    (i2 : P.prog[a + 2 + sub.length]? = some (.partialCommit l1))
    (i3 : P.prog[a + sub.length + 3]? = some (.label l2)) :
    ∀ x : AtLoop P a l2, Sim P.step m.succ (.next x.t) (fun n => eval n P.ctx env (.star p) x.pos x.w)
      (Good P (Exit false (a + sub.length + 3 + 1) x.S x.cp) x.S x.cp x.t.src.furthest) := by
  refine Sim.loop (o := fun x : AtLoop P a l2 => Out.next x.t)
    (F := fun x n => eval n P.ctx env (.star p) x.pos x.w)
    (G := fun x => Good P (Exit false (a + sub.length + 3 + 1) x.S x.cp) x.S x.cp x.t.src.furthest)
    (fun x => rfl) ?_
  intro m' hm' ih ⟨t, S, cp, pos, w, pre, stk, capt, top⟩
  refine Sim.reach (reach_label pre.ip i1) ?_
  have hl := (hruns.down hm') false (a + 2) 0 pos w { t with ip := a + 1 + 1 } ss (matched_zero _ _ _)
    ⟨rfl, pre.data, pre.pos, pre.le, pre.tinv, pre.errs, pre.cst, pre.top⟩ (fun _ => noted_start _ _ _)
    (fun h => by cases h)
  simp only [stk, capt] at hl ⊢
  refine Sim.bind (fmono_eval _ _ _ _ _) ?_ hl ?_
  · rintro ⟨res, f, w'⟩
    cases res with
    | ok pos' cs => exact (fmono_eval _ _ _ _ _).map
    | fail => exact fmono_const _
    | abort q => exact fmono_const _
  · rintro ⟨res, f, w'⟩ o' hn hgd
    cases res with
    | ok pos' cs =>
      have hb := Evals.bounds hP.chkOK (show pos ≤ P.ctx.data.length from pre.le) hn
      obtain ⟨u, caps, rfl, ⟨hip, hstk, hcapt⟩, hpos, hcr, hpost⟩ := hgd
      have hst : P.step u = .next { u with
          stk := ⟨.btrack (labelIdx P.prog l2) pos', []⟩ :: stkAdd S caps, capt := baseAdd S cp caps, ip := labelIdx P.prog l1 } := by
        rw [step_at hip i2]
        simp only [Cfg.exec1, hstk, stkAdd, addCapt_eq, List.nil_append]
        rw [hcapt]
        have : P.cfg.inp.pos u.src = pos' := hpos
        rw [this]; rfl
      let x' : AtLoop P a l2 := ⟨{ u with
          stk := ⟨.btrack (labelIdx P.prog l2) pos', []⟩ :: stkAdd S caps, capt := baseAdd S cp caps, ip := labelIdx P.prog l1 },
        stkAdd S caps, baseAdd S cp caps, pos', w', ⟨hP.lab _ _ i1, hpost.data, hpos, hb.2, hpost.tinv, hpost.errs, hpost.cst,
          topOK_push nofun⟩, rfl, rfl, top.add _⟩
      have hs : Sim P.step m' (.next u) (fun n => eval n P.ctx env (.star p) pos' w') _ :=
        Sim.of_strict (by rw [hst]; exact ih x')
      refine Sim.map hs ?_
      intro e o _ hg
      refine ⟨o, Reach.refl _, ?_⟩
      exact Good.prepend hP (S := S) (cp := cp) hg hcr hpost.fle hpost.far
    | fail =>
      obtain ⟨u, rfl, hcapt, hpost⟩ := hgd
      refine Sim.reach (reach_to_label hP (s := { u with
        ip := labelIdx P.prog l2, stk := S, src := flatOps.seekTo u.src pos }) rfl i3) (Sim.pure _ ?_)
      exact ⟨_, [], rfl, ⟨rfl, by rw [stkAdd_nil], by rw [baseAdd_nil]; exact hcapt (by simp)⟩,
        rfl, hP.cr_nil, ⟨hpost.data, hpost.fle, hpost.far, hpost.tinv, hpost.errs, hpost.cst⟩⟩
    | abort q => exact Sim.pure _ hgd

theorem starPlain_sim (hP : P.Ok) {p : Pat} {env : Env} {lbls : String → Option Nat} {sub : Program}
    {a l1 l2 pos : Nat} {w : World σ} {s : VM Flat τ σ} (hruns : Runs P m env lbls sub p)
    (hseg : Seg P.prog lbls false 0 a
      ([.choice l2, .label l1] ++ sub ++ [.partialCommit l1, .label l2]))
    (hpre : Pre P s a pos w) :
    Sim P.step m.succ (.next s) (fun n => eval n P.ctx env (.star p) pos w)
      (Good P (Exit false (a + sub.length + 3 + 1) s.stk s.capt) s.stk s.capt s.src.furthest) := by
  have i0 := hseg.at2 (idx := a) [] (.label l1 :: (sub ++ [.partialCommit l1, .label l2]))
    (insn := .choice l2) (by simp) nofun rfl
  have i1 := hseg.at2 (idx := a + 1) [.choice l2] (sub ++ [.partialCommit l1, .label l2])
    (insn := .label l1) (by simp) nofun rfl
  have i2 := hseg.at2 (idx := a + 2 + sub.length) (.choice l2 :: .label l1 :: sub) [.label l2]
    (insn := .partialCommit l1) (by simp) nofun (by simp; omega)
  have i3 := hseg.at2 (idx := a + sub.length + 3) (.choice l2 :: .label l1 :: (sub ++ [.partialCommit l1])) []
    (insn := .label l2) (by simp) nofun (by simp; omega)
  have ss : Seg P.prog lbls false 0 (a + 2) sub := hseg.mid [.choice l2, .label l1] sub
    [.partialCommit l1, .label l2] (by simp) (Or.inr rfl) (by simp)
  have hpos : s.src.pos = pos := hpre.pos
  refine Sim.reach (reach_at (o := .next { s with
    stk := ⟨.btrack (labelIdx P.prog l2) pos, []⟩ :: s.stk, ip := a + 1 }) hpre.ip i0 (by rw [← hpos]; rfl)) ?_
  let x : AtLoop P a l2 := ⟨{ s with
    stk := ⟨.btrack (labelIdx P.prog l2) pos, []⟩ :: s.stk, ip := a + 1 }, s.stk, s.capt, pos, w,
    ⟨rfl, hpre.data, hpre.pos, hpre.le, hpre.tinv, hpre.errs, hpre.cst, topOK_push nofun⟩, rfl, rfl, hpre.top⟩
  exact starLoop_sim hP hruns ss i1 i2 i3 x

end Gpeg
