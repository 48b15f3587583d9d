import Verif.Scan
/-! # Compiler correctness: the constructs without loops, calls and memoization -/
namespace Gpeg
variable {τ σ : Type} {P : Par τ σ} {m : Mode} {k : Nat}

/-- Induction hypotheses: for code compiled with less fuel, and, after a step of the machine, for
all code. -/
structure Hyp (P : Par τ σ) (m : Mode) (k : Nat) : Prop where
  sub : ∀ k', k' ≤ k → ∀ q, SimPat P m k' q
  call : ∀ k' q, SimPatS P m k' q

theorem Par.Ok.chkOK (hP : P.Ok) : ChkOK P.ctx := fun k st m _ _ _ _ _ => hP.chk k st m _ _ _ _ _ _

theorem Hyp.down {k' : Nat} (h : Hyp P m k) (hk : k' ≤ k) : Hyp P m k' :=
  ⟨fun k'' hk' => h.sub k'' (Nat.le_trans hk' hk), h.call⟩

/-- The hypothesis for the code of `Get(q)`. -/
theorem Hyp.get (h : Hyp P m k) {q : Pat} {tl : Bool} {env : Env} {lbls : String → Option Nat}
    {cst cst' : CState} {raw : Program} {a j pos : Nat} {w : World σ} {s : VM Flat τ σ}
    (hc : CM.Ok (compileF k (get q)) cst raw cst') (hg : GOK P env lbls)
    (ho : ∀ o ∈ memoOcc k env (Gpeg.get q) cst, OccOK P o) (hs : q.Scoped)
    (hseg : Seg P.prog lbls tl j a raw) (hm : Matched P.data j raw pos)
    (hpre : Pre P s (a + j) (pos + j) w) (hf : P.trk → noted raw pos j ≤ s.src.furthest + 1)
    (ht : tl = true → TailOK P.prog (a + raw.length) raw s.stk) :
    Sim P.step m (.next s) (fun n => eval n P.ctx env q pos w)
      (Good P (Exit tl (a + raw.length) s.stk s.capt) s.stk s.capt s.src.furthest) :=
  Sim.ref (refP_get q) (h.sub k (Nat.le_refl k) _ tl env lbls cst cst' raw a j pos w s hc hg ho (get_Scoped hs) hseg
    hm hpre hf ht)

/-- A known result. -/
theorem Sim.evals {ι : Type} {step : VM ι τ σ → Out ι τ σ} {o o' : Out ι τ σ} {c : Ctx σ} {env : Env}
    {p : Pat} {pos : Nat} {w : World σ} {e : Ev σ} {G : Ev σ → Out ι τ σ → Prop}
    (h : Evals c env p pos w e) (hr : Reach step o o') (hg : G e o') :
    Sim step m o (fun n => eval n c env p pos w) G := by
  obtain ⟨n, hn⟩ := h
  exact Sim.reach hr (Sim.known (fmono_eval c env p pos w) hn hg)

theorem matched_zero (data : List UInt8) (raw : Program) (pos : Nat) : Matched data 0 raw pos :=
  ⟨Nat.zero_le _, fun i hi => absurd hi (Nat.not_lt_zero i)⟩

/-! ## Simple instructions -/

theorem Pre.post {s : VM Flat τ σ} {ip pos : Nat} {w : World σ} (h : Pre P s ip pos w) {far : Nat}
    (hf : P.trk → far ≤ s.src.furthest + 1) : Post P s.src.furthest s far w :=
  ⟨h.data, Nat.le_refl _, hf, h.tinv, h.errs, h.cst⟩

theorem simple_ok (hP : P.Ok) {s : VM Flat τ σ} {ip pos : Nat} {w : World σ} {insn : Insn}
    (hpre : Pre P s ip pos w) (hat : P.prog[ip]? = some insn)
    (h : simpleAt P.data pos insn = some true) :
    ∃ t, Reach P.step (.next s) (.next t) ∧ Pre P t (ip + 1) (pos + 1) w ∧ t.stk = s.stk ∧
      t.capt = s.capt ∧ s.src.furthest ≤ t.src.furthest ∧
      (P.trk → insn.note pos ≤ t.src.furthest + 1) := by
  obtain ⟨ip0, stk, capt, ⟨data, pos0, fur⟩, tbl, errs, cst, rng⟩ := s
  obtain ⟨h1, h2, h3, h4, h5, h6, h7, h8⟩ := hpre
  dsimp only at h1 h2 h3 h5 h6 h7 h8
  subst h1 h2 h3
  cases insn with
  | char b =>
    simp only [simpleAt, Option.some.injEq, decide_eq_true_eq] at h
    have hlt : pos0 < P.data.length := by
      rcases Nat.lt_or_ge pos0 P.data.length with hlt | hge
      · exact hlt
      · rw [List.getElem?_eq_none hge] at h; cases h
    refine ⟨⟨ip0 + 1, stk, capt, ⟨P.data, pos0 + 1, max fur pos0⟩, tbl, errs, cst, rng⟩,
      reach_at rfl hat ?_, ⟨rfl, rfl, rfl, hlt, hP.tmono h5 (Nat.le_max_left _ _), h6, h7, h8⟩, rfl,
      rfl, Nat.le_max_left _ _, fun _ => Nat.succ_le_succ (Nat.le_max_right _ _)⟩
    simp only [Cfg.exec1, Par.cfg, flatOps, Flat.peek, h, Flat.advance, hlt, if_true]
  | set cs =>
    simp only [simpleAt, Option.some.injEq] at h
    have hlt := lt_of_inSet h
    unfold inSet at h
    rw [List.getElem?_eq_getElem hlt] at h
    refine ⟨⟨ip0 + 1, stk, capt, ⟨P.data, pos0 + 1, max fur pos0⟩, tbl, errs, cst, rng⟩,
      reach_at rfl hat ?_, ⟨rfl, rfl, rfl, hlt, hP.tmono h5 (Nat.le_max_left _ _), h6, h7, h8⟩, rfl,
      rfl, Nat.le_max_left _ _, fun _ => Nat.succ_le_succ (Nat.le_max_right _ _)⟩
    simp only [Cfg.exec1, Par.cfg, flatOps, Flat.peek, List.getElem?_eq_getElem hlt, h, Flat.advance,
      hlt, if_true]
  | any n =>
    obtain rfl := hP.any1 _ _ hat
    simp only [simpleAt, if_true, Option.some.injEq, decide_eq_true_eq] at h
    refine ⟨⟨ip0 + 1, stk, capt, ⟨P.data, pos0 + 1, fur⟩, tbl, errs, cst, rng⟩,
      reach_at rfl hat ?_, ⟨rfl, rfl, rfl, h, h5, h6, h7, h8⟩, rfl, rfl, Nat.le_refl _,
      fun _ => Nat.zero_le _⟩
    have h1 : pos0 + UInt8.toNat 1 ≤ P.data.length := h
    simp only [Cfg.exec1, Par.cfg, flatOps, Flat.advance, h, if_true, h1, decide_true]
    rfl
  | _ => cases h

theorem simple_fail (hP : P.Ok) {s : VM Flat τ σ} {ip pos : Nat} {w : World σ} {insn : Insn}
    (hpre : Pre P s ip pos w) (hat : P.prog[ip]? = some insn)
    (h : simpleAt P.data pos insn = some false) :
    ∃ t, Reach P.step (.next s) (P.cfg.doFail t s.stk) ∧ t.capt = s.capt ∧
      Post P s.src.furthest t (insn.note pos) w := by
  obtain ⟨ip0, stk, capt, ⟨data, pos0, fur⟩, tbl, errs, cst, rng⟩ := s
  obtain ⟨h1, h2, h3, h4, h5, h6, h7, h8⟩ := hpre
  dsimp only at h1 h2 h3 h5 h6 h7 h8
  subst h1 h2 h3
  cases insn with
  | char b =>
    simp only [simpleAt, Option.some.injEq, decide_eq_false_iff_not] at h
    refine ⟨⟨ip0, stk, capt, ⟨P.data, pos0, max fur pos0⟩, tbl, errs, cst, rng⟩,
      reach_at rfl hat ?_, rfl, ⟨rfl, Nat.le_max_left _ _, fun _ => Nat.succ_le_succ
        (Nat.le_max_right _ _), hP.tmono h5 (Nat.le_max_left _ _), h6, h7⟩⟩
    simp only [Cfg.exec1, Par.cfg, flatOps, Flat.peek]
    cases hd : P.data[pos0]? with
    | none => rfl
    | some b' =>
      rw [hd] at h
      have : ¬ b = b' := fun hb => h (by rw [hb])
      simp only [this, if_false]; rfl
  | set cs =>
    simp only [simpleAt, Option.some.injEq] at h
    unfold inSet at h
    refine ⟨⟨ip0, stk, capt, ⟨P.data, pos0, max fur pos0⟩, tbl, errs, cst, rng⟩,
      reach_at rfl hat ?_, rfl, ⟨rfl, Nat.le_max_left _ _, fun _ => Nat.succ_le_succ
        (Nat.le_max_right _ _), hP.tmono h5 (Nat.le_max_left _ _), h6, h7⟩⟩
    simp only [Cfg.exec1, Par.cfg, flatOps, Flat.peek]
    cases hd : P.data[pos0]? with
    | none => rfl
    | some b' =>
      rw [hd] at h
      simp only at h
      simp only [h, Bool.false_eq_true, if_false]; rfl
  | any n =>
    obtain rfl := hP.any1 _ _ hat
    simp only [simpleAt, if_true, Option.some.injEq, decide_eq_false_iff_not] at h
    refine ⟨⟨ip0, stk, capt, ⟨P.data, pos0, fur⟩, tbl, errs, cst, rng⟩,
      reach_at rfl hat ?_, rfl, ⟨rfl, Nat.le_refl _, fun _ => Nat.zero_le _, h5, h6, h7⟩⟩
    simp only [Cfg.exec1, Par.cfg, flatOps, Flat.advance, h, if_false]
    rfl
  | _ => cases h

/-- Running simple code from its `j`-th instruction. -/
theorem simple_code (hP : P.Ok) {raw : Program} {lbls : String → Option Nat} {tl : Bool} {a pos : Nat}
    {w : World σ} (hsim : ∀ i insn, raw[i]? = some insn → ∃ b, simpleAt P.data (pos + i) insn = some b)
    (d : Nat) : ∀ {j : Nat} {s : VM Flat τ σ}, raw.length - j = d → Seg P.prog lbls tl j a raw →
    Matched P.data j raw pos → Pre P s (a + j) (pos + j) w →
    (P.trk → noted raw pos j ≤ s.src.furthest + 1) →
    ∃ i b, Stop P.data i raw pos b ∧
      if b then ∃ t, Reach P.step (.next s) (.next t) ∧ Pre P t (a + raw.length) (pos + i) w ∧
        t.stk = s.stk ∧ t.capt = s.capt ∧ s.src.furthest ≤ t.src.furthest ∧
        (P.trk → noted raw pos i ≤ t.src.furthest + 1)
      else ∃ t, Reach P.step (.next s) (P.cfg.doFail t s.stk) ∧ t.capt = s.capt ∧
        Post P s.src.furthest t (noted raw pos (i + 1)) w := by
  induction d with
  | zero =>
    intro j s hd hseg hm hpre hf
    have hj : j = raw.length := by have := hm.1; omega
    subst hj
    exact ⟨raw.length, true, ⟨hm, by simp⟩, s, Reach.refl _, hpre, rfl, rfl, Nat.le_refl _, hf⟩
  | succ d ih =>
    intro j s hd hseg hm hpre hf
    have hlt : j < raw.length := by omega
    have hget := List.getElem?_eq_getElem hlt
    obtain ⟨b, hb⟩ := hsim j _ hget
    have hat : P.prog[a + j]? = some raw[j] := by
      have := hseg j _ (Nat.le_refl _) hget
      generalize raw[j] = x at *
      cases x <;> first | exact this | (simp only [simpleAt] at hb; cases hb)
    cases b with
    | false =>
      obtain ⟨t, h1, h2, h3⟩ := simple_fail hP hpre hat hb
      refine ⟨j, false, ⟨hm, by simpa using ⟨_, hget, hb⟩⟩, ?_⟩
      simp only [Bool.false_eq_true, if_false]
      refine ⟨t, h1, h2, h3.data, h3.fle, fun ht => ?_, h3.tinv, h3.errs, h3.cst⟩
      have g1 := hf ht
      have g2 := h3.far ht
      have g3 := h3.fle
      rw [noted_succ raw hget]
      omega
    | true =>
      obtain ⟨t, h1, h2, h3, h4, h5, h6⟩ := simple_ok hP hpre hat hb
      have hm' : Matched P.data (j + 1) raw pos := by
        refine ⟨hlt, fun i hi => ?_⟩
        by_cases hij : i = j
        · subst hij; exact ⟨_, hget, hb⟩
        · exact hm.2 i (by omega)
      obtain ⟨i, b, h7, h8⟩ := ih (j := j + 1) (s := t) (by omega) (hseg.skip (Nat.le_succ j)) hm' h2
        (fun ht => by
          have g1 := hf ht
          have g2 := h6 ht
          rw [noted_succ raw hget]
          omega)
      refine ⟨i, b, h7, ?_⟩
      cases b with
      | true =>
        simp only [if_true] at h8 ⊢
        obtain ⟨u, g1, g2, g3, g4, g5, g6⟩ := h8
        exact ⟨u, h1.trans g1, g2, g3.trans h3, g4.trans h4, Nat.le_trans h5 g5, g6⟩
      | false =>
        simp only [Bool.false_eq_true, if_false] at h8 ⊢
        obtain ⟨u, g1, g2, g3⟩ := h8
        rw [h3] at g1
        exact ⟨u, h1.trans g1, g2.trans h4, g3.mono h5⟩

/-- Patterns compiled to simple instructions only. -/
theorem sim_simple (hP : P.Ok) {p : Pat}
    (hsim : ∀ cst raw cst' lbls a j pos, CM.Ok (compileF k p) cst raw cst' →
      Seg P.prog lbls false j a raw → Matched P.data j raw pos →
      ∀ i insn, raw[i]? = some insn → ∃ b, simpleAt P.data (pos + i) insn = some b) :
    SimPatT P m false k p := by
  intro env lbls cst cst' raw a j pos w s hcomp hg hocc hsc hseg hmat hpre htrk htail
  obtain ⟨i, b, hst, hrun⟩ := simple_code hP (hsim _ _ _ _ _ _ _ hcomp hseg hmat) _ rfl hseg hmat
    hpre htrk
  obtain ⟨far, hev, hfar⟩ := scan (c := P.ctx) k (env := env) (w := w) hcomp hsc hst
  cases b with
  | true =>
    simp only [if_true] at hrun hev hfar
    obtain ⟨t, h1, h2, h3, h4, h5, h6⟩ := hrun
    refine Sim.evals hev h1 ⟨t, [], rfl, ⟨h2.ip, ?_, ?_⟩, h2.pos, hP.cr_nil, h2.data, h5, ?_, h2.tinv,
      h2.errs, h2.cst⟩
    · rw [h3, stkAdd_nil]
    · rw [h4, baseAdd_nil]
    · intro ht
      exact Nat.le_trans hfar (h6 ht)
  | false =>
    simp only [Bool.false_eq_true, if_false] at hrun hev hfar
    obtain ⟨t, h1, h2, h3⟩ := hrun
    exact Sim.evals hev h1 ⟨t, rfl, fun _ => h2, h3.data, h3.fle,
      fun ht => Nat.le_trans hfar (h3.far ht), h3.tinv, h3.errs, h3.cst⟩

theorem empty_sim (hP : P.Ok) : SimPat P m (k + 1) .empty := by
  refine simPat_of_normal ?_ (sim_simple hP ?_)
  · intro cst raw cst' h; obtain ⟨rfl, _⟩ := comp_empty h
    intro x n z h; simp at h
  · intro cst raw cst' lbls a j pos h hseg hmat i insn hi
    obtain ⟨rfl, _⟩ := comp_empty h
    cases hi

theorem noTailOpen_of_no {raw : Program} (h : ∀ n, Insn.openCall n ∉ raw) : NoTailOpen raw := by
  intro x n z hx
  exact absurd (by rw [hx]; simp) (h n)

theorem lit_sim (hP : P.Ok) (l : List UInt8) : SimPat P m (k + 1) (.lit l) := by
  refine simPat_of_normal ?_ (sim_simple hP ?_)
  · intro cst raw cst' h; obtain ⟨rfl, _⟩ := comp_lit h
    exact noTailOpen_of_no (lit_noOpen l)
  · intro cst raw cst' lbls a j pos h hseg hmat i insn hi
    obtain ⟨rfl, _⟩ := comp_lit h
    rw [List.getElem?_map, Option.map_eq_some_iff] at hi
    obtain ⟨b, _, rfl⟩ := hi
    exact ⟨_, rfl⟩

theorem getElem?_one {x insn : Insn} {i : Nat} (h : [x][i]? = some insn) : insn = x ∧ i = 0 := by
  cases i with
  | zero => simp at h; exact ⟨h.symm, rfl⟩
  | succ i => simp at h

theorem cls_sim (hP : P.Ok) (cs : CSet) : SimPat P m (k + 1) (.cls cs) := by
  refine simPat_of_normal ?_ (sim_simple hP ?_)
  · intro cst raw cst' h; obtain ⟨rfl, _⟩ := comp_cls h
    exact noTailOpen_of_no (by simp)
  · intro cst raw cst' lbls a j pos h hseg hmat i insn hi
    obtain ⟨rfl, _⟩ := comp_cls h
    obtain ⟨rfl, rfl⟩ := getElem?_one hi
    exact ⟨_, rfl⟩

theorem dot_sim (hP : P.Ok) (n : UInt8) : SimPat P m (k + 1) (.dot n) := by
  refine simPat_of_normal ?_ (sim_simple hP ?_)
  · intro cst raw cst' h; obtain ⟨rfl, _⟩ := comp_dot h
    exact noTailOpen_of_no (by simp)
  · intro cst raw cst' lbls a j pos h hseg hmat i insn hi
    obtain ⟨rfl, _⟩ := comp_dot h
    obtain ⟨rfl, rfl⟩ := getElem?_one hi
    have : n = 1 := by
      cases j with
      | zero => exact hP.any1 _ _ (hseg.at (x := []) (Nat.le_refl 0) (by simp))
      | succ j =>
        obtain ⟨insn, h1, h2⟩ := hmat.2 0 (Nat.succ_pos j)
        simp only [List.getElem?_cons_zero, Option.some.injEq] at h1
        subst h1
        simp only [simpleAt] at h2
        split at h2
        · assumption
        · cases h2
    subst this
    exact ⟨_, rfl⟩

theorem altSome_sim (hP : P.Ok) {l r : Pat} {cs : CSet} (hc : combine (get l) (get r) = some cs) :
    SimPat P m (k + 1) (.alt l r) := by
  refine simPat_of_normal ?_ (sim_simple hP ?_)
  · intro cst raw cst' h; obtain ⟨rfl, _⟩ := comp_alt_some hc h
    exact noTailOpen_of_no (by simp)
  · intro cst raw cst' lbls a j pos h hseg hmat i insn hi
    obtain ⟨rfl, _⟩ := comp_alt_some hc h
    obtain ⟨rfl, rfl⟩ := getElem?_one hi
    exact ⟨_, rfl⟩

/-! ## Combinators for sequencing and choice -/

theorem fmono_andThen {e : Ev σ} {K : Nat → Nat → List CTree → World σ → Option (Ev σ)}
    (h : ∀ pos cs w, FMono (fun n => K n pos cs w)) : FMono (fun n => e.andThen (K n)) := by
  obtain ⟨res, f, w⟩ := e
  cases res with
  | ok pos cs => exact (h pos cs w).map
  | fail => exact fmono_const _
  | abort q => exact fmono_const _

theorem fmono_orElse {e : Ev σ} {K : Nat → World σ → Option (Ev σ)}
    (h : ∀ w, FMono (fun n => K n w)) : FMono (fun n => e.orElse (K n)) := by
  obtain ⟨res, f, w⟩ := e
  cases res with
  | ok pos cs => exact fmono_const _
  | fail => exact (h w).map
  | abort q => exact fmono_const _

section comb
variable {ι : Type} {step : VM ι τ σ → Out ι τ σ} {o : Out ι τ σ} {F : Nat → Option (Ev σ)}
  {G G1 : Ev σ → Out ι τ σ → Prop}

theorem Sim.andThen {K : Nat → Nat → List CTree → World σ → Option (Ev σ)} (hm : FMono F)
    (hK : ∀ pos cs w, FMono (fun n => K n pos cs w)) (h1 : Sim step m o F G1)
    (hok : ∀ pos cs f w o', (∃ n, F n = some (.ok pos cs, f, w)) → G1 (.ok pos cs, f, w) o' →
      Sim step m o' (fun n => K n pos cs w) (fun e o => G (e.1, max f e.2.1, e.2.2) o))
    (hfail : ∀ f w o', G1 (.fail, f, w) o' → G (.fail, f, w) o')
    (habort : ∀ q f w o', G1 (.abort q, f, w) o' → G (.abort q, f, w) o') :
    Sim step m o (fun n => (F n).bind fun e => e.andThen (K n)) G := by
  refine Sim.bind hm (fun e => fmono_andThen hK) h1 ?_
  rintro ⟨res, f, w⟩ o' hn hg
  cases res with
  | ok pos cs => exact (hok pos cs f w o' hn hg).map fun e o'' _ hg => ⟨o'', Reach.refl _, hg⟩
  | fail => exact Sim.pure _ (hfail _ _ _ hg)
  | abort q => exact Sim.pure _ (habort _ _ _ _ hg)

theorem Sim.orElse {K : Nat → World σ → Option (Ev σ)} (hm : FMono F)
    (hK : ∀ w, FMono (fun n => K n w)) (h1 : Sim step m o F G1)
    (hok : ∀ pos cs f w o', (∃ n, F n = some (.ok pos cs, f, w)) → G1 (.ok pos cs, f, w) o' →
      ∃ o'', Reach step o' o'' ∧ G (.ok pos cs, f, w) o'')
    (hfail : ∀ f w o', (∃ n, F n = some (.fail, f, w)) → G1 (.fail, f, w) o' →
      Sim step m o' (fun n => K n w) (fun e o => G (e.1, max f e.2.1, e.2.2) o))
    (habort : ∀ q f w o', G1 (.abort q, f, w) o' → G (.abort q, f, w) o') :
    Sim step m o (fun n => (F n).bind fun e => e.orElse (K n)) G := by
  refine Sim.bind hm (fun e => fmono_orElse hK) h1 ?_
  rintro ⟨res, f, w⟩ o' hn hg
  cases res with
  | ok pos cs =>
    obtain ⟨o'', h2, h3⟩ := hok _ _ _ _ _ hn hg
    exact Sim.reach h2 (Sim.pure _ h3)
  | fail => exact (hfail f w o' hn hg).map fun e o'' _ hg => ⟨o'', Reach.refl _, hg⟩
  | abort q => exact Sim.pure _ (habort _ _ _ _ hg)

end comb

/-! ## Sequences -/

theorem Post.pre {f0 b pos far : Nat} {t : VM Flat τ σ} {w : World σ} (h : Post P f0 t far w)
    (hip : t.ip = b) (hpos : t.src.pos = pos) (hle : pos ≤ P.data.length) (htop : TopOK t.stk) :
    Pre P t b pos w := ⟨hip, h.data, hpos, hle, h.tinv, h.errs, h.cst, htop⟩

theorem endsOpen_right {x y : Program} (h : EndsOpen (x ++ y)) (hy : nextInsn y ≠ none) :
    EndsOpen y := by
  obtain ⟨u, n, z, h1, h2⟩ := h
  rcases List.append_eq_append_iff.1 h1 with ⟨a, h3, h4⟩ | ⟨a, h3, h4⟩
  · exact ⟨a, n, z, h4, h2⟩
  · cases a with
    | nil => exact ⟨[], n, z, h4.symm, h2⟩
    | cons i a =>
      simp only [List.cons_append, List.cons.injEq] at h4
      exact absurd (nextInsn_nops fun i hi => h2 i (by rw [h4.2]; simp [hi])) hy

theorem nextInsn_cons_none {i : Insn} {r : Program} (h : nextInsn (i :: r) = none) :
    i.isSkip = true ∧ nextInsn r = none := by
  simp only [nextInsn] at h
  split at h
  · exact ⟨by assumption, h⟩
  · cases h

/-- The rest of a sequence, after the first part has matched. -/
theorem seq_rest (hP : P.Ok) {rp : Pat} {tl : Bool} {env : Env} {pos : Nat} {w : World σ} {b : Nat}
    {S : List Entry} {cp c1 : List Capture} {cs1 : List CTree} {f0 far : Nat} {t : VM Flat τ σ}
    (hS : t.stk = stkAdd S c1) (hcp : t.capt = baseAdd S cp c1) (hc : P.cr c1 cs1)
    (hf0 : f0 ≤ t.src.furthest) (hfar : P.trk → far ≤ t.src.furthest + 1)
    (h : Sim P.step m (.next t) (fun n => eval n P.ctx env rp pos w)
      (Good P (Exit tl b t.stk t.capt) t.stk t.capt t.src.furthest)) :
    Sim P.step m (.next t) (fun n => (eval n P.ctx env rp pos w).map fun (r, f) => (r.prepend cs1, f))
      (fun e o => Good P (Exit tl b S cp) S cp f0 (e.1, max far e.2.1, e.2.2) o) := by
  rw [hS, hcp] at h
  exact h.map fun e o _ hg => ⟨o, Reach.refl _, hg.prepend hP hc hf0 hfar⟩

/-- The code `raw` runs the pattern `p`, wherever it stands. -/
def Runs (P : Par τ σ) (m : Mode) (env : Env) (lbls : String → Option Nat) (raw : Program) (p : Pat) :
    Prop :=
  ∀ (tl : Bool) (a j pos : Nat) (w : World σ) (s : VM Flat τ σ), Seg P.prog lbls tl j a raw →
    Matched P.data j raw pos → Pre P s (a + j) (pos + j) w →
    (P.trk → noted raw pos j ≤ s.src.furthest + 1) →
    (tl = true → TailOK P.prog (a + raw.length) raw s.stk) →
    Sim P.step m (.next s) (fun n => eval n P.ctx env p pos w)
      (Good P (Exit tl (a + raw.length) s.stk s.capt) s.stk s.capt s.src.furthest)

/-- Simple code decides the pattern. -/
def Scans (P : Par τ σ) (env : Env) (raw : Program) (p : Pat) : Prop :=
  ∀ (i pos : Nat) (w : World σ) (b : Bool), Stop P.data i raw pos b →
    ∃ far, Evals P.ctx env p pos w (if b then .ok (pos + i) [] else .fail, far, w) ∧
      far ≤ farB raw pos i b

theorem Hyp.runs (h : Hyp P m k) {q : Pat} {env : Env} {lbls : String → Option Nat}
    {cst cst' : CState} {raw : Program} (hc : CM.Ok (compileF k (Gpeg.get q)) cst raw cst')
    (hg : GOK P env lbls) (ho : ∀ o ∈ memoOcc k env (Gpeg.get q) cst, OccOK P o) (hs : q.Scoped) :
    Runs P m env lbls raw q := fun _ _ _ _ _ _ h1 h2 h3 h4 h5 => h.get hc hg ho hs h1 h2 h3 h4 h5

theorem scans_get {q : Pat} {env : Env} {cst cst' : CState} {raw : Program}
    (hc : CM.Ok (compileF k (get q)) cst raw cst') (hs : q.Scoped) : Scans P env raw q := by
  intro i pos w b hst
  obtain ⟨far, h1, h2⟩ := scan (c := P.ctx) k (env := env) (w := w) hc (get_Scoped hs) hst
  exact ⟨far, (refP_get q).ge _ _ _ _ _ h1, h2⟩

theorem seq_core (hP : P.Ok) {l r : Pat} {env : Env} {lbls : String → Option Nat} {lc rc : Program}
    (hl : Runs P m env lbls lc l) (hls : Scans P env lc l) (hr : Runs P m env lbls rc r)
    (hrs : Scans P env rc r) (hhd : Head rc) {tl : Bool} {a j pos : Nat} {w : World σ}
    {s : VM Flat τ σ} (hseg : Seg P.prog lbls tl j a (lc ++ rc))
    (hmat : Matched P.data j (lc ++ rc) pos) (hpre : Pre P s (a + j) (pos + j) w)
    (htrk : P.trk → noted (lc ++ rc) pos j ≤ s.src.furthest + 1)
    (htail : tl = true → TailOK P.prog (a + (lc ++ rc).length) (lc ++ rc) s.stk) :
    Sim P.step m (.next s) (fun n => (eval n P.ctx env l pos w).bind fun e =>
        e.andThen fun pos' cs w' => (eval n P.ctx env r pos' w').map fun (r, f) => (r.prepend cs, f))
      (Good P (Exit tl (a + (lc ++ rc).length) s.stk s.capt) s.stk s.capt s.src.furthest) := by
  have hlen : a + (lc ++ rc).length = a + lc.length + rc.length := by
    rw [List.length_append, Nat.add_assoc]
  rcases Nat.lt_or_ge j lc.length with hj | hj
  · by_cases hrc : nextInsn rc = none
    · have hrc0 : rc = [] := hhd.none hrc
      subst hrc0
      simp only [List.append_nil] at *
      refine Sim.andThen (fmono_eval _ _ _ _ _) (fun pos cs w => (fmono_eval _ _ _ _ _).map)
        (hl _ _ _ _ _ _ hseg hmat hpre htrk htail) ?_ (fun _ _ _ h => h)
        (fun _ _ _ _ h => h)
      rintro pos' cs f w' o' hn ⟨t, caps, rfl, hx, hpos, hcr, hpost⟩
      obtain ⟨far, hev, hfar⟩ := hrs 0 pos' w' true ⟨matched_zero _ _ _, rfl⟩
      rw [farB_zero] at hfar
      have hfar0 : far = 0 := by omega
      subst hfar0
      obtain ⟨n0, hn0⟩ := hev
      refine Sim.known (fmono_eval _ _ _ _ _).map (n0 := n0)
        (by simp only [hn0, Option.map_some]; rfl) ?_
      refine ⟨t, caps, rfl, hx, hpos, ?_, ?_⟩
      · simpa using hcr
      · simpa using hpost
    · refine Sim.andThen (fmono_eval _ _ _ _ _) (fun pos cs w => (fmono_eval _ _ _ _ _).map)
        (hl false _ _ _ _ _ (hseg.left (Or.inl hrc))
          (hmat.left (Nat.le_of_lt hj)) hpre (fun ht => by
            have := htrk ht
            rwa [noted_le_app _ _ _ _ (Nat.le_of_lt hj)] at this) (fun h => by cases h)) ?_ (fun _ _ _ h => h)
        (fun _ _ _ _ h => h)
      rintro pos' cs f w' o' hn ⟨t, caps, rfl, ⟨hip, hstk, hcapt⟩, hpos, hcr, hpost⟩
      have hb := Evals.bounds hP.chkOK (show pos ≤ P.ctx.data.length from
        Nat.le_trans (Nat.le_add_right pos j) hpre.le) hn
      refine seq_rest hP hstk hcapt hcr hpost.fle hpost.far ?_
      rw [hlen]
      have hs' := hseg.right
      rw [show j - lc.length = 0 by omega] at hs'
      refine hr _ _ 0 _ _ _ hs' (matched_zero _ _ _)
        (hpost.pre hip hpos hb.2 (by rw [hstk]; exact hpre.top.add _)) (fun _ => noted_start _ _ _) ?_
      intro ht
      obtain ⟨⟨r0, c0, S', hS⟩, hret⟩ := htail ht
      refine ⟨⟨r0, c0 ++ caps, S', by rw [hstk, hS]; rfl⟩, ?_⟩
      rw [← hlen]
      exact hret.imp id fun h => endsOpen_right h hrc
  · obtain ⟨far, hev, hfar⟩ := hls lc.length pos w true
      ⟨(hmat.le hj).left (Nat.le_refl _), rfl⟩
    obtain ⟨n0, hn0⟩ := hev
    refine Sim.andThen (G1 := fun e o => e = (.ok (pos + lc.length) [], far, w) ∧ o = .next s)
      (fmono_eval _ _ _ _ _) (fun pos cs w => (fmono_eval _ _ _ _ _).map)
      (Sim.known (fmono_eval _ _ _ _ _) hn0 ⟨rfl, rfl⟩) ?_
      (fun _ _ _ h => by cases h.1) (fun _ _ _ _ h => by cases h.1)
    rintro pos' cs f w' o' hn ⟨he, rfl⟩
    cases he
    have hpj : pos + lc.length + (j - lc.length) = pos + j := by omega
    have haj : a + lc.length + (j - lc.length) = a + j := by omega
    refine seq_rest hP (c1 := []) (by rw [stkAdd_nil]) (by rw [baseAdd_nil]) hP.cr_nil
      (Nat.le_refl _) ?_ ?_
    · intro ht
      have := htrk ht
      rw [noted_app _ _ _ _ hj] at this
      rw [farB_ok] at hfar
      omega
    · rw [hlen]
      refine hr _ _ _ _ _ _ hseg.right (hmat.right hj) (by rw [hpj, haj]; exact hpre) ?_ ?_
      · intro ht
        have := htrk ht
        rw [noted_app _ _ _ _ hj] at this
        omega
      · intro ht
        obtain ⟨hS, hret⟩ := htail ht
        refine ⟨hS, ?_⟩
        rw [← hlen]
        rcases hret with h | h
        · exact Or.inl h
        · by_cases hrc : nextInsn rc = none
          · have hrc0 : rc = [] := hhd.none hrc
            subst hrc0
            rw [List.append_nil] at h hmat
            obtain ⟨x, n, z, hx, _⟩ := h
            obtain ⟨insn, hi1, hi2⟩ := hmat.2 x.length (by
              have := congrArg List.length hx
              simp only [List.length_append, List.length_cons] at this; omega)
            rw [hx] at hi1
            simp at hi1
            subst hi1
            cases hi2
          · exact Or.inr (endsOpen_right h hrc)

theorem seq_sim (hP : P.Ok) (hy : Hyp P m k) (l r : Pat) : SimPat P m.succ (k + 1) (.seq l r) := by
  intro tl env lbls cst cst' raw a j pos w s hcomp hg hocc hsc hseg hmat hpre htrk htail
  obtain ⟨lc, s1, rc, h1, h2, rfl⟩ := comp_seq hcomp
  have hol : ∀ o ∈ memoOcc k env (get l) cst, OccOK P o := fun o ho => hocc o (by
    simp only [memoOcc]; exact List.mem_append_left _ ho)
  have hor : ∀ o ∈ memoOcc k env (get r) s1, OccOK P o := fun o ho => hocc o (by
    simp only [memoOcc]; rw [stAfter_eq h1]; exact List.mem_append_right _ ho)
  refine Sim.unshift rfl ?_
  exact seq_core hP (hy.runs h1 hg hol hsc.1) (scans_get h1 hsc.1) (hy.runs h2 hg hor hsc.2)
    (scans_get h2 hsc.2) (compile_stat k h2).head hseg hmat hpre htrk htail

/-! ## Helpers for code with several parts -/

theorem Seg.at2 {prog : Program} {lbls : String → Option Nat} {tl : Bool} {a idx : Nat}
    {raw : Program} (h : Seg prog lbls tl 0 a raw) (x z : Program) {insn : Insn}
    (hr : raw = x ++ insn :: z) (ho : ∀ n, insn ≠ .openCall n) (hi : idx = a + x.length) :
    prog[idx]? = some insn := by
  subst hr hi
  exact h.at (Nat.zero_le _) ho

theorem Seg.mid {prog : Program} {lbls : String → Option Nat} {tl : Bool} {a a' : Nat}
    {raw : Program} (h : Seg prog lbls tl 0 a raw) (x y z : Program) (hr : raw = x ++ (y ++ z))
    (hz : nextInsn z ≠ none ∨ tl = false) (ha : a' = a + x.length) : Seg prog lbls false 0 a' y := by
  subst hr ha
  have := h.right
  rw [Nat.zero_sub] at this
  exact this.left hz

theorem Seg.midTail {prog : Program} {lbls : String → Option Nat} {tl : Bool} {a a' : Nat}
    {raw : Program} (h : Seg prog lbls tl 0 a raw) (x y z : Program) (hr : raw = x ++ (y ++ z))
    (hz : nextInsn z = none) (ha : a' = a + x.length) : Seg prog lbls tl 0 a' y := by
  subst hr ha
  have := h.right
  rw [Nat.zero_sub] at this
  exact this.leftTail hz

/-- From the normal exit at the end to the exit required. -/
theorem Good.finish {tl : Bool} {b : Nat} {raw : Program} {S : List Entry} {cp : List Capture}
    {f0 : Nat} {e : Ev σ} {o : Out Flat τ σ} (ht : tl = true → TailOK P.prog b raw S)
    (hno : ¬ EndsOpen raw) (h : Good P (Exit false b S cp) S cp f0 e o) :
    ∃ o', Reach P.step o o' ∧ Good P (Exit tl b S cp) S cp f0 e o' := by
  cases tl with
  | false => exact ⟨o, Reach.refl _, h⟩
  | true =>
    obtain ⟨hS, hr⟩ := ht rfl
    exact Good.tailRet (hr.resolve_right hno) hS h

theorem not_endsOpen_label (x : Program) (l : Nat) : ¬ EndsOpen (x ++ [.label l]) := by
  rintro ⟨u, n, z, h1, h2⟩
  rcases List.eq_nil_or_concat z with rfl | ⟨z', i, rfl⟩
  · have := congrArg List.getLast? h1
    simp at this
  · have := congrArg List.getLast? h1
    simp only [List.concat_eq_append, List.getLast?_append, List.getLast?_singleton, Option.some_or,
      ← List.cons_append, ← List.append_assoc, Option.some.injEq] at this
    have h3 := h2 i (by simp)
    rw [h3] at this
    cases this

/-- Code of a part that may stand in tail position, followed by a label. -/
theorem tailOK_label {tl : Bool} {a b l : Nat} {raw rc : Program} {S : List Entry}
    (ht : tl = true → TailOK P.prog (b + 1) raw S) (hno : ¬ EndsOpen raw)
    (hl : P.prog[b]? = some (.label l)) (ha : b = a + rc.length) :
    tl = true → TailOK P.prog (a + rc.length) rc S := by
  intro h
  obtain ⟨hS, hr⟩ := ht h
  refine ⟨hS, Or.inl ?_⟩
  have hr := hr.resolve_right hno
  subst ha
  obtain ⟨hlt, hl⟩ := List.getElem?_eq_some_iff.1 hl
  rw [List.drop_eq_getElem_cons hlt, hl]
  exact hr

/-- Step over a label at the end, if it was reached. -/
theorem Good.endLabel {tl : Bool} {b l : Nat} {S : List Entry} {cp : List Capture} {f0 : Nat}
    {e : Ev σ} {o : Out Flat τ σ} (hl : P.prog[b]? = some (.label l))
    (h : Good P (Exit tl b S cp) S cp f0 e o) :
    ∃ o', Reach P.step o o' ∧ Good P (Exit tl (b + 1) S cp) S cp f0 e o' := by
  obtain ⟨res, far, w⟩ := e
  cases res with
  | ok pos cs =>
    obtain ⟨t, caps, rfl, hx, hpos, hcr, hpost⟩ := h
    cases tl with
    | true => exact ⟨_, Reach.refl _, t, caps, rfl, hx, hpos, hcr, hpost⟩
    | false =>
      obtain ⟨hip, hstk, hcapt⟩ := hx
      exact ⟨_, reach_label hip hl, _, caps, rfl, ⟨rfl, hstk, hcapt⟩, hpos, hcr,
        ⟨hpost.data, hpost.fle, hpost.far, hpost.tinv, hpost.errs, hpost.cst⟩⟩
  | fail => exact ⟨o, Reach.refl _, h⟩
  | abort q => exact ⟨o, Reach.refl _, h⟩

theorem topOK_push {S : List Entry} {kd : EKind} {c0 : List Capture}
    (h : ∀ id pos count, kd ≠ .memoTree id pos count) : TopOK (⟨kd, c0⟩ :: S) := by
  intro e r he
  cases he
  exact h

/-! ## Ordered choice -/

/-- What the head-fail optimization guarantees. -/
theorem altTest_spec {lc rc : Program} {l1 : Nat} {t : Insn} (h : altTest lc rc l1 = some t)
    (hl : Head lc) (hr : Head rc) :
    ∃ x lc' y rc', lc = x :: lc' ∧ rc = y :: rc' ∧
      (∀ data pos, simpleAt data pos x = some true → simpleAt data pos y = some false) ∧
      ((∃ b, x = .char b ∧ t = .testCharNC b l1) ∨ (∃ cs, x = .set cs ∧ t = .testSetNC cs l1)) := by
  unfold altTest at h
  split at h
  · rename_i a b ha hb
    obtain ⟨lc', rfl⟩ := hl.first ha nofun
    obtain ⟨rc', rfl⟩ := hr.first hb nofun
    split at h
    · cases h
    · rename_i hn
      cases h
      refine ⟨_, _, _, _, rfl, rfl, ?_, Or.inr ⟨a, rfl, rfl⟩⟩
      intro data pos hx
      simp only [simpleAt, inSet, Option.some.injEq, decide_eq_false_iff_not] at hx ⊢
      intro hd
      rw [hd] at hx
      exact hn hx
  · rename_i a b ha hb
    obtain ⟨lc', rfl⟩ := hl.first ha nofun
    obtain ⟨rc', rfl⟩ := hr.first hb nofun
    split at h
    · cases h
    · rename_i hn
      cases h
      refine ⟨_, _, _, _, rfl, rfl, ?_, Or.inl ⟨a, rfl, rfl⟩⟩
      intro data pos hx
      simp only [simpleAt, Option.some.injEq, decide_eq_false_iff_not, decide_eq_true_eq] at hx ⊢
      intro hd
      rw [hd] at hx
      cases hx
      exact hn rfl
  · rename_i a b ha hb
    obtain ⟨lc', rfl⟩ := hl.first ha nofun
    obtain ⟨rc', rfl⟩ := hr.first hb nofun
    split at h
    · cases h
    · rename_i hn
      cases h
      refine ⟨_, _, _, _, rfl, rfl, ?_, Or.inl ⟨a, rfl, rfl⟩⟩
      intro data pos hx
      simp only [simpleAt, inSet, Option.some.injEq, decide_eq_true_eq] at hx ⊢
      rw [hx]
      simpa using hn
  · cases h

/-- The effect of a `Test*NoChoice` instruction. -/
theorem test_step (hP : P.Ok) {s : VM Flat τ σ} {ip pos l1 : Nat} {w : World σ} {x t : Insn}
    {b : Bool} (hpre : Pre P s ip pos w) (hat : P.prog[ip]? = some t)
    (ht : (∃ b, x = .char b ∧ t = .testCharNC b l1) ∨ (∃ cs, x = .set cs ∧ t = .testSetNC cs l1))
    (h : simpleAt P.data pos x = some b) :
    ∃ u, Reach P.step (.next s) (.next u) ∧
      (if b then Pre P u (ip + 1) (pos + 1) w else Pre P u (labelIdx P.prog l1) pos w) ∧
      u.stk = s.stk ∧ u.capt = s.capt ∧ s.src.furthest ≤ u.src.furthest ∧
      pos ≤ u.src.furthest := by
  obtain ⟨ip0, stk, capt, ⟨data, pos0, fur⟩, tbl, errs, cst, rng⟩ := s
  obtain ⟨h1, h2, h3, h4, h5, h6, h7, h8⟩ := hpre
  dsimp only at h1 h2 h3 h5 h6 h7 h8
  subst h1 h2 h3
  rcases ht with ⟨c, rfl, rfl⟩ | ⟨cs, rfl, rfl⟩
  · simp only [simpleAt, Option.some.injEq] at h
    cases b with
    | true =>
      simp only [decide_eq_true_eq] at h
      have hlt : pos0 < P.data.length := (List.getElem?_eq_some_iff.1 h).1
      refine ⟨⟨ip0 + 1, stk, capt, ⟨P.data, pos0 + 1, max fur pos0⟩, tbl, errs, cst, rng⟩,
        reach_at rfl hat ?_, ⟨rfl, rfl, rfl, hlt, hP.tmono h5 (Nat.le_max_left _ _), h6, h7, h8⟩,
        rfl, rfl, Nat.le_max_left _ _, Nat.le_max_right _ _⟩
      simp only [Cfg.exec1, Par.cfg, flatOps, Flat.peek, h, Flat.advance, hlt, if_true]
    | false =>
      simp only [decide_eq_false_iff_not] at h
      refine ⟨⟨labelIdx P.prog l1, stk, capt, ⟨P.data, pos0, max fur pos0⟩, tbl, errs, cst, rng⟩,
        reach_at rfl hat ?_, ⟨rfl, rfl, rfl, h4, hP.tmono h5 (Nat.le_max_left _ _), h6, h7, h8⟩,
        rfl, rfl, Nat.le_max_left _ _, Nat.le_max_right _ _⟩
      simp only [Cfg.exec1, Par.cfg, flatOps, Flat.peek]
      cases hd : P.data[pos0]? with
      | none => rfl
      | some b' =>
        rw [hd] at h
        have : ¬ b' = c := fun hb => h (by rw [hb])
        simp only [this, if_false]
  · simp only [simpleAt, Option.some.injEq] at h
    cases b with
    | true =>
      have hlt := lt_of_inSet h
      unfold inSet at h
      rw [List.getElem?_eq_getElem hlt] at h
      refine ⟨⟨ip0 + 1, stk, capt, ⟨P.data, pos0 + 1, max fur pos0⟩, tbl, errs, cst, rng⟩,
        reach_at rfl hat ?_, ⟨rfl, rfl, rfl, hlt, hP.tmono h5 (Nat.le_max_left _ _), h6, h7, h8⟩,
        rfl, rfl, Nat.le_max_left _ _, Nat.le_max_right _ _⟩
      simp only [Cfg.exec1, Par.cfg, flatOps, Flat.peek, List.getElem?_eq_getElem hlt, h,
        Flat.advance, hlt, if_true]
    | false =>
      unfold inSet at h
      refine ⟨⟨labelIdx P.prog l1, stk, capt, ⟨P.data, pos0, max fur pos0⟩, tbl, errs, cst, rng⟩,
        reach_at rfl hat ?_, ⟨rfl, rfl, rfl, h4, hP.tmono h5 (Nat.le_max_left _ _), h6, h7, h8⟩,
        rfl, rfl, Nat.le_max_left _ _, Nat.le_max_right _ _⟩
      simp only [Cfg.exec1, Par.cfg, flatOps, Flat.peek]
      cases hd : P.data[pos0]? with
      | none => rfl
      | some b' =>
        rw [hd] at h
        simp only at h
        simp only [h, Bool.false_eq_true, if_false]

theorem Seg.head {prog : Program} {lbls : String → Option Nat} {tl : Bool} {a : Nat} {x y : Insn}
    {r : Program} (h : Seg prog lbls tl 0 a (x :: r)) : Seg prog lbls tl 1 a (y :: r) := by
  intro i insn hi hr
  cases i with
  | zero => omega
  | succ i => exact h (i + 1) insn (Nat.zero_le _) hr

/-- The second alternative, from the label in front of it. -/
theorem alt_right (hP : P.Ok) (hy : Hyp P m k) {r : Pat} {tl : Bool} {env : Env}
    {lbls : String → Option Nat} {s1 s2 : CState} {rc raw : Program} {ar l1 l2 pos : Nat}
    {w : World σ} {S : List Entry} {cp : List Capture} {f0 far : Nat} {t : VM Flat τ σ}
    (hc : CM.Ok (compileF k (get r)) s1 rc s2) (hg : GOK P env lbls)
    (ho : ∀ o ∈ memoOcc k env (get r) s1, OccOK P o) (hs : r.Scoped)
    (hseg : Seg P.prog lbls tl 0 (ar + 1) rc) (hl1 : P.prog[ar]? = some (.label l1))
    (hl2 : P.prog[ar + 1 + rc.length]? = some (.label l2))
    (htail : tl = true → TailOK P.prog (ar + 1 + rc.length + 1) raw S) (hno : ¬ EndsOpen raw)
    (hpre : Pre P t (labelIdx P.prog l1) pos w) (hS : t.stk = S) (hcp : t.capt = cp)
    (hf0 : f0 ≤ t.src.furthest) (hfar : P.trk → far ≤ t.src.furthest + 1) :
    Sim P.step m (.next t) (fun n => eval n P.ctx env r pos w)
      (fun e o => Good P (Exit tl (ar + 1 + rc.length + 1) S cp) S cp f0
        (e.1, max far e.2.1, e.2.2) o) := by
  subst hS hcp
  refine Sim.reach (reach_to_label hP hpre.ip hl1) ?_
  have h0 := hy.get (s := { t with ip := ar + 1 }) (w := w) (pos := pos) hc hg ho hs hseg
    (matched_zero _ _ _) ⟨rfl, hpre.data, hpre.pos, hpre.le, hpre.tinv, hpre.errs, hpre.cst, hpre.top⟩
    (fun _ => noted_start _ _ _) (tailOK_label htail hno hl2 rfl)
  refine h0.weaken fun e o _ hg => ?_
  obtain ⟨o', h1, h2⟩ := Good.endLabel hl2 hg
  exact ⟨o', h1, h2.far hf0 hfar⟩

theorem altCode_choice {lc rc : Program} {l1 l2 : Nat} (h : altTest lc rc l1 = none) :
    altCode lc rc l1 l2 =
      .choice l1 :: (lc ++ .commit l2 :: .label l1 :: (rc ++ [.label l2])) := by
  simp [altCode, h]

theorem altCode_test {x t : Insn} {lc rc : Program} {l1 l2 : Nat}
    (h : altTest (x :: lc) rc l1 = some t) :
    altCode (x :: lc) rc l1 l2 =
      t :: (lc ++ .jump l2 :: .label l1 :: (rc ++ [.label l2])) := by
  simp [altCode, h]

theorem alt_sim (hP : P.Ok) (hy : Hyp P m k) (l r : Pat) : SimPat P m.succ (k + 1) (.alt l r) := by
  cases hcb : combine (get l) (get r) with
  | some cs => exact altSome_sim hP hcb
  | none =>
  intro tl env lbls cst cst' raw a j pos w s hcomp hg hocc hsc hseg hmat hpre htrk htail
  obtain ⟨lc, s1, rc, s2, h1, h2, hraw, _⟩ := comp_alt_none hcb hcomp
  have hol : ∀ o ∈ memoOcc k env (get l) cst, OccOK P o := fun o ho => hocc o (by
    simp only [memoOcc, hcb]; exact List.mem_append_left _ ho)
  have hor : ∀ o ∈ memoOcc k env (get r) s1, OccOK P o := fun o ho => hocc o (by
    simp only [memoOcc, hcb]; rw [stAfter_eq h1]; exact List.mem_append_right _ ho)
  have hj : j = 0 := (altCode_complex lc rc (s2.lbl + 1) (s2.lbl + 2)).matched (hraw ▸ hmat)
  subst hj
  refine Sim.unshift rfl ?_
  generalize s2.lbl + 1 = l1 at *
  generalize s2.lbl + 2 = l2 at *
  cases hat : altTest lc rc l1 with
  | none =>
    rw [altCode_choice hat] at hraw
    have hno : ¬ EndsOpen raw := by
      rw [hraw]
      have := not_endsOpen_label (.choice l1 :: (lc ++ .commit l2 :: .label l1 :: rc)) l2
      simpa using this
    have hlen : a + raw.length = a + lc.length + 2 + 1 + rc.length + 1 := by
      rw [hraw]; simp; omega
    have i0 := hseg.at2 (idx := a) [] _ hraw nofun rfl
    have i1 := hseg.at2 (idx := a + lc.length + 1) (.choice l1 :: lc)
      (.label l1 :: (rc ++ [.label l2])) (insn := .commit l2) (by rw [hraw]; simp) nofun (by simp; omega)
    have i2 := hseg.at2 (idx := a + lc.length + 2) (.choice l1 :: (lc ++ [.commit l2]))
      (rc ++ [.label l2]) (insn := .label l1) (by rw [hraw]; simp) nofun (by simp; omega)
    have i3 := hseg.at2 (idx := a + lc.length + 2 + 1 + rc.length)
      (.choice l1 :: (lc ++ .commit l2 :: .label l1 :: rc)) []
      (insn := .label l2) (by rw [hraw]; simp) nofun (by simp; omega)
    have sl : Seg P.prog lbls false 0 (a + 1) lc := hseg.mid [.choice l1] lc
      (.commit l2 :: .label l1 :: (rc ++ [.label l2])) (by rw [hraw]; simp) (Or.inl (by simp [nextInsn, Insn.isSkip]))
      (by simp)
    have sr : Seg P.prog lbls tl 0 (a + lc.length + 2 + 1) rc := hseg.midTail
      (.choice l1 :: (lc ++ .commit l2 :: [.label l1])) rc [.label l2] (by rw [hraw]; simp) rfl
      (by simp; omega)
    rw [hlen] at htail ⊢
    refine Sim.reach (reach_at hpre.ip i0 rfl) ?_
    have hl := hy.get (tl := false) (w := w) (pos := pos)
      (s := { s.push (.btrack (labelIdx P.prog l1) s.src.pos) with ip := a + 1 }) h1 hg hol hsc.1 sl
      (matched_zero _ _ _) ⟨rfl, hpre.data, hpre.pos, hpre.le, hpre.tinv, hpre.errs, hpre.cst,
        topOK_push nofun⟩ (fun _ => noted_start _ _ _) (fun h => by cases h)
    refine Sim.orElse (fmono_eval _ _ _ _ _) (fun w => fmono_eval _ _ _ _ _) hl ?_ ?_
      (fun _ _ _ _ h => h)
    · rintro pos' cs f w' o' hn ⟨t, caps, rfl, ⟨hip, hstk, hcapt⟩, hpos, hcr, hpost⟩
      have hre : Reach P.step (.next t) (.next { t with
          ip := a + lc.length + 2 + 1 + rc.length + 1, stk := stkAdd s.stk caps, capt := baseAdd s.stk s.capt caps }) := by
        refine Reach.trans (reach_at (hip.trans (Nat.add_right_comm a 1 lc.length)) i1 ?_)
          (reach_to_label hP (s := { t with
          ip := labelIdx P.prog l2, stk := stkAdd s.stk caps, capt := baseAdd s.stk s.capt caps }) rfl i3)
        simp only [Cfg.exec1, hstk, VM.push, stkAdd, addCapt_eq, List.nil_append]
        rw [hcapt]; rfl
      obtain ⟨o2, g1, g2⟩ := Good.finish (e := (.ok pos' cs, f, w')) htail hno
        (⟨_, caps, rfl, ⟨rfl, rfl, rfl⟩, hpos, hcr,
          ⟨hpost.data, hpost.fle, hpost.far, hpost.tinv, hpost.errs, hpost.cst⟩⟩ :
          Good P (Exit false _ s.stk s.capt) s.stk s.capt s.src.furthest (.ok pos' cs, f, w') (.next { t with
          ip := a + lc.length + 2 + 1 + rc.length + 1, stk := stkAdd s.stk caps, capt := baseAdd s.stk s.capt caps }))
      exact ⟨o2, hre.trans g1, g2⟩
    · rintro f w' o' hn ⟨t, rfl, hcapt, hpost⟩
      refine alt_right hP hy (raw := raw) (t := { t with
        ip := labelIdx P.prog l1, stk := s.stk, src := flatOps.seekTo t.src s.src.pos })
        h2 hg hor hsc.2 sr i2 i3 htail hno
        ⟨rfl, hpost.data, hpre.pos, hpre.le, hpost.tinv, hpost.errs, hpost.cst, hpre.top⟩ rfl
        (hcapt (by simp [VM.push])) hpost.fle hpost.far
  | some t =>
    obtain ⟨x, lc', y, rc', rfl, rfl, hdis, htest⟩ := altTest_spec hat (compile_stat k h1).head
      (compile_stat k h2).head
    rw [altCode_test hat] at hraw
    have hno : ¬ EndsOpen raw := by
      rw [hraw]
      have := not_endsOpen_label (t :: (lc' ++ .jump l2 :: .label l1 :: y :: rc')) l2
      simpa using this
    have hlen : a + raw.length = a + lc'.length + 2 + 1 + (y :: rc').length + 1 := by
      rw [hraw]; simp; omega
    have i0 := hseg.at2 (idx := a) [] _ hraw
      (by rcases htest with ⟨_, _, rfl⟩ | ⟨_, _, rfl⟩ <;> nofun) rfl
    have i1 := hseg.at2 (idx := a + lc'.length + 1) (t :: lc')
      (.label l1 :: (y :: rc' ++ [.label l2])) (insn := .jump l2) (by rw [hraw]; simp) nofun (by simp; omega)
    have i2 := hseg.at2 (idx := a + lc'.length + 2) (t :: (lc' ++ [.jump l2]))
      (y :: rc' ++ [.label l2]) (insn := .label l1) (by rw [hraw]; simp) nofun (by simp; omega)
    have i3 := hseg.at2 (idx := a + lc'.length + 2 + 1 + (y :: rc').length)
      (t :: (lc' ++ .jump l2 :: .label l1 :: y :: rc')) []
      (insn := .label l2) (by rw [hraw]; simp) nofun (by simp; omega)
    have sl : Seg P.prog lbls false 1 a (x :: lc') := Seg.head (x := t) (hseg.mid [] (t :: lc')
      (.jump l2 :: .label l1 :: (y :: rc' ++ [.label l2])) (by rw [hraw]; simp) (Or.inl (by simp [nextInsn, Insn.isSkip]))
      (by simp))
    have sr : Seg P.prog lbls tl 0 (a + lc'.length + 2 + 1) (y :: rc') := hseg.midTail
      (t :: (lc' ++ .jump l2 :: [.label l1])) (y :: rc') [.label l2] (by rw [hraw]; simp) rfl
      (by simp; omega)
    rw [hlen] at htail ⊢
    have hsx : ∃ b, simpleAt P.data pos x = some b := by
      rcases htest with ⟨_, rfl, _⟩ | ⟨_, rfl, _⟩ <;> exact ⟨_, rfl⟩
    obtain ⟨b, hb⟩ := hsx
    obtain ⟨u, g1, g2, g3, g4, g5, g6⟩ := test_step hP hpre i0 htest hb
    refine Sim.reach g1 ?_
    cases b with
    | true =>
      simp only [if_true] at g2
      have hm1 : Matched P.data 1 (x :: lc') pos := by
        refine ⟨by simp, fun i hi => ?_⟩
        have : i = 0 := by omega
        subst this
        exact ⟨x, rfl, hb⟩
      have hl := hy.get (tl := false) (w := w) (pos := pos) (s := u) h1 hg hol hsc.1 sl hm1 g2
        (fun _ => Nat.le_trans (noted_le _ _ _) (Nat.succ_le_succ g6)) (fun h => by cases h)
      refine Sim.orElse (fmono_eval _ _ _ _ _) (fun w => fmono_eval _ _ _ _ _) hl ?_ ?_ ?_
      · rintro pos' cs f w' o' hn ⟨v, caps, rfl, ⟨hip, hstk, hcapt⟩, hpos, hcr, hpost⟩
        have hre : Reach P.step (.next v) (.next { v with ip := a + lc'.length + 2 + 1 + (y :: rc').length + 1 }) := by
          refine Reach.trans (reach_at (hip.trans (by simp; omega)) i1 rfl) ?_
          exact reach_to_label hP (s := { v with ip := labelIdx P.prog l2 }) rfl i3
        rw [g3] at hstk hcapt
        rw [g4] at hcapt
        obtain ⟨o2, e1, e2⟩ := Good.finish (e := (.ok pos' cs, f, w')) htail hno
          (⟨_, caps, rfl, ⟨rfl, hstk, hcapt⟩, hpos, hcr,
            ⟨hpost.data, Nat.le_trans g5 hpost.fle, hpost.far, hpost.tinv, hpost.errs, hpost.cst⟩⟩ :
            Good P (Exit false _ s.stk s.capt) s.stk s.capt s.src.furthest (.ok pos' cs, f, w')
              (.next { v with ip := a + lc'.length + 2 + 1 + (y :: rc').length + 1 }))
        exact ⟨o2, hre.trans e1, e2⟩
      · rintro f w' o' hn ⟨v, rfl, hcapt, hpost⟩
        obtain ⟨far, hev, hfar⟩ := scan (c := P.ctx) k (env := env) (w := w') (pos := pos)
          (i := 0) (b := false) h2 (get_Scoped hsc.2) ⟨matched_zero _ _ _, y, rfl, hdis _ _ hb⟩
        have hev := (refP_get r).ge _ _ _ _ _ hev
        rw [g3, g4] at hcapt
        refine Sim.evals hev (Reach.refl _) ⟨v, by rw [g3], hcapt, ?_⟩
        have := (hpost.mono g5).max (far' := far) (fun _ => by
          rw [farB_fail] at hfar; have := hpost.fle; have := Nat.le_trans hfar (noted_le _ _ _); omega)
        rw [Nat.max_comm]; exact this
      · rintro q f w' o' ⟨v, cap, rfl, hpos, hpost⟩
        exact ⟨v, cap, rfl, hpos, hpost.mono g5⟩
    | false =>
      simp only [Bool.false_eq_true, if_false] at g2
      obtain ⟨far, hev, hfar⟩ := scan (c := P.ctx) k (env := env) (w := w) (pos := pos)
        (i := 0) (b := false) h1 (get_Scoped hsc.1) ⟨matched_zero _ _ _, x, rfl, hb⟩
      have hev := (refP_get l).ge _ _ _ _ _ hev
      obtain ⟨n0, hn0⟩ := hev
      refine Sim.orElse (G1 := fun e o => e = (.fail, far, w) ∧ o = .next u)
        (fmono_eval _ _ _ _ _) (fun w => fmono_eval _ _ _ _ _)
        (Sim.known (fmono_eval _ _ _ _ _) hn0 ⟨rfl, rfl⟩) ?_ ?_ (fun _ _ _ _ h => by cases h.1)
      · rintro pos' cs f w' o' hn ⟨he, _⟩; cases he
      · rintro f w' o' hn ⟨he, rfl⟩
        cases he
        rw [farB_fail] at hfar
        have := Nat.le_trans hfar (noted_le _ _ _)
        exact alt_right hP hy (raw := raw) h2 hg hor hsc.2 sr i2 i3 htail hno g2 g3 g4 g5
          (fun _ => by omega)

end Gpeg
