import Verif.CaseMemo
/-! # Compiler correctness: grammars -/
namespace Gpeg
variable {τ σ : Type} {P : Par τ σ} {m : Mode} {k : Nat}

/-- No call placeholder, and something that is not a `nop`. -/
theorem not_endsOpen_app {x y : Program} (ho : ∀ n, Insn.openCall n ∉ y) {i : Insn} (hi : i ∈ y)
    (hn : i ≠ .nop) : ¬ EndsOpen (x ++ y) := by
  rintro ⟨u, n, z, h1, h2⟩
  rcases List.append_eq_append_iff.1 h1 with ⟨a, _, h4⟩ | ⟨a, _, h4⟩
  · refine absurd ?_ (ho n)
    rw [h4]; simp
  · cases a with
    | nil => exact absurd (by rw [← show _ = y from h4]; simp) (ho n)
    | cons b a =>
      simp only [List.cons_append, List.cons.injEq] at h4
      exact hn (h2 i (by rw [h4.2]; simp [hi]))

theorem endsOpen_right_label {x y : Program} {l : Nat} (h : EndsOpen (x ++ .label l :: y)) :
    EndsOpen y := by
  obtain ⟨u, n, z, h1, h2⟩ := h
  rcases List.append_eq_append_iff.1 h1 with ⟨a, _, h4⟩ | ⟨a, _, h4⟩
  · cases a with
    | nil => cases h4
    | cons b a =>
      simp only [List.cons_append, List.cons.injEq] at h4
      exact ⟨a, n, z, h4.2, h2⟩
  · cases a with
    | nil => cases h4
    | cons b a =>
      simp only [List.cons_append, List.cons.injEq] at h4
      have := h2 (.label l) (by rw [h4.2]; simp)
      cases this

/-- Where the code of a definition stands. -/
theorem compDefs_lookup {start : String} {used : List String} {n : String} {L : Nat} {env : Env}
    (ds : Defs) : ∀ {s s' : CState} {labels : List (String × Nat)} {fns : Program},
    CM.Ok (compileDefs (compileF k) start used ds) s (labels, fns) s' → labels.lookup n = some L →
    ∃ pre fn post body s1 s2, fns = pre ++ (.label L :: (fn ++ .ret :: post)) ∧ ds.find n = some body ∧
      CM.Ok (compileF k body) s1 fn s2 ∧
      ∀ o ∈ memoOcc k env body s1, o ∈ occDefs (memoOcc k env) (stAfter k) start used ds s := by
  induction ds using Defs.rec (motive_1 := fun _ => True) with
  | nil =>
    intro s s' labels fns h hl
    obtain ⟨rfl, _, _⟩ := compDefs_nil h
    cases hl
  | cons nm v rest _ ih =>
    intro s s' labels fns h hl
    by_cases hn : nm ≠ start ∧ nm ∉ used
    · have h := compDefs_skip hn h
      obtain ⟨pre, fn, post, body, s1, s2, h1, h2, h3, h4⟩ := ih h hl
      refine ⟨pre, fn, post, body, s1, s2, h1, ?_, h3, ?_⟩
      · unfold Defs.find
        rw [if_neg]
        · exact h2
        · rintro rfl
          have : ∀ (ds : Defs) {s s' : CState} {labels : List (String × Nat)} {fns : Program},
              CM.Ok (compileDefs (compileF k) start used ds) s (labels, fns) s' →
              labels.lookup nm = none := by
            intro ds
            induction ds using Defs.rec (motive_1 := fun _ => True) with
            | nil => intro s s' labels fns h; obtain ⟨rfl, _, _⟩ := compDefs_nil h; rfl
            | cons nm' v' rest' _ ih' =>
              intro s s' labels fns h
              by_cases hn' : nm' ≠ start ∧ nm' ∉ used
              · exact ih' (compDefs_skip hn' h)
              · obtain ⟨fn, s1, ls', code', h1, h2, rfl, _⟩ := compDefs_cons hn' h
                have hne : (nm == nm') = false := by
                  rw [beq_eq_false_iff_ne]
                  rintro rfl
                  exact hn' hn
                rw [List.lookup_cons, hne]
                exact ih' h2
            | _ => trivial
          rw [this _ h] at hl
          cases hl
      · intro o ho
        unfold occDefs
        rw [if_pos hn]
        exact h4 o ho
    · obtain ⟨fn, s1, ls', code', h1, h2, rfl, rfl⟩ := compDefs_cons hn h
      rw [List.lookup_cons] at hl
      by_cases hnn : n = nm
      · subst hnn
        rw [show (n == n) = true by simp] at hl
        cases hl
        refine ⟨[], fn, code', v, s.bump 1, s1, by simp, ?_, h1, ?_⟩
        · unfold Defs.find; rw [if_pos rfl]
        · intro o ho
          unfold occDefs
          rw [if_neg hn]
          exact List.mem_append_left _ ho
      · rw [show (n == nm) = false from beq_eq_false_iff_ne.2 hnn] at hl
        obtain ⟨pre, fn', post, body, s1', s2, g1, g2, g3, g4⟩ := ih h2 hl
        refine ⟨[.label (s.lbl + 1)] ++ fn ++ [.ret] ++ pre, fn', post, body, s1', s2, by rw [g1]; simp, ?_, g3, ?_⟩
        · unfold Defs.find; rw [if_neg (fun h => hnn h.symm)]; exact g2
        · intro o ho
          unfold occDefs
          rw [if_neg hn, stAfter_eq h1]
          exact List.mem_append_right _ (g4 o ho)
  | _ => trivial

theorem getElem?_mid {x y : Program} {i : Nat} {insn : Insn} (h : y[i]? = some insn) :
    (x ++ y)[x.length + i]? = some insn := by
  rw [List.getElem?_append_right (by omega), Nat.add_sub_cancel_left]; exact h

/-- The definitions of a compiled grammar are in place. -/
theorem grammar_gok (hP : P.Ok) {start : String} {D : Defs} {env : Env} {s s' : CState}
    {tco : Bool} {labels : List (String × Nat)} {fns code : Program} {lend a : Nat} (hsc : D.Scoped)
    (h : CM.Ok (compileDefs (compileF k) start D.nts D) s (labels, fns) s')
    (hr : resolve tco labels ([.openCall start, .jump lend] ++ fns) = .ok code)
    (hat : ∀ (i : Nat) insn, code[i]? = some insn → P.prog[a + i]? = some insn)
    (hocc : ∀ o ∈ occDefs (memoOcc k (D :: env)) (stAfter k) start D.nts D s, OccOK P o) :
    GOK P (D :: env) (fun n => labels.lookup n) := by
  intro n L hL
  obtain ⟨pre, fn, post, body, s1, s2, rfl, hfind, hcb, hocb⟩ := compDefs_lookup (env := D :: env) D h hL
  have hres := resolve_spec _ hr
  have hst := compile_stat k hcb
  -- the position of the label
  generalize hX : [Insn.openCall start, .jump lend] ++ pre = X
  have hcode : [Insn.openCall start, .jump lend] ++ (pre ++ (.label L :: (fn ++ .ret :: post))) =
      X ++ (.label L :: (fn ++ .ret :: post)) := by rw [← hX]; simp
  rw [hcode] at hres
  have hlab : P.prog[a + X.length]? = some (.label L) := by
    have := hres X.length (.label L) (by simp)
    exact hat _ _ this
  have hidx : labelIdx P.prog L = a + X.length := hP.lab _ _ hlab
  have hfn : ∀ (i : Nat) insn, fn[i]? = some insn →
      (X ++ (.label L :: (fn ++ .ret :: post)))[X.length + 1 + i]? = some insn := by
    intro i insn hi
    have hlt : i < fn.length := by
      rcases Nat.lt_or_ge i fn.length with hlt | hge
      · exact hlt
      · rw [List.getElem?_eq_none hge] at hi; cases hi
    have : (Insn.label L :: (fn ++ .ret :: post))[1 + i]? = some insn := by
      rw [Nat.add_comm 1 i, List.getElem?_cons_succ, List.getElem?_append_left hlt]; exact hi
    have := getElem?_mid (x := X) this
    rw [← Nat.add_assoc] at this
    exact this
  have hdrop : ∀ i, i ≤ fn.length → (X ++ (.label L :: (fn ++ .ret :: post))).drop (X.length + 1 + i) =
      fn.drop i ++ .ret :: post := by
    intro i hi
    rw [show X.length + 1 + i = X.length + (1 + i) by omega, List.drop_length_add_append,
      Nat.add_comm 1 i, List.drop_succ_cons, List.drop_append_of_le_length hi]
  have htake : ∀ i, i ≤ fn.length → (X ++ (.label L :: (fn ++ .ret :: post))).take (X.length + 1 + i) =
      X ++ .label L :: fn.take i := by
    intro i hi
    rw [show X.length + 1 + i = X.length + (1 + i) by omega, List.take_length_add_append,
      Nat.add_comm 1 i, List.take_succ_cons, List.take_append_of_le_length hi]
  refine ⟨D, env, body, k, s1, fn, s2, tco, rfl, hfind, by rw [hidx]; exact hlab, hcb,
    fun o ho => hocc o (hocb o ho), Defs.find_Scoped hfind hsc, ?_, ?_⟩
  · intro i insn _ hi
    have hlt : i < fn.length := by
      rcases Nat.lt_or_ge i fn.length with hlt | hge
      · exact hlt
      · rw [List.getElem?_eq_none hge] at hi; cases hi
    have hsplit : fn = fn.take i ++ insn :: fn.drop (i + 1) := by
      rw [List.getElem?_eq_getElem hlt] at hi
      rw [← Option.some.inj hi, List.getElem_cons_drop, List.take_append_drop]
    have := hres _ insn (hfn i insn hi)
    rw [hidx, show a + X.length + 1 + i = a + (X.length + 1 + i) by omega]
    cases insn with
    | openCall n' =>
      obtain ⟨l, h1, h2⟩ := this
      refine ⟨l, h1, hat _ _ ?_⟩
      rw [h2, show X.length + 1 + i + 1 = X.length + 1 + (i + 1) by omega, hdrop _ hlt, nextInsn_app]
      have hok : nextInsn (fn.drop (i + 1)) ≠ some .ret := by
        have := hst.okRet
        rw [hsplit] at this
        exact this.at
      cases hn : nextInsn (fn.drop (i + 1)) with
      | none => cases tco <;> rfl
      | some y =>
        rw [hn] at hok
        simp only [Option.some_or, Option.isNone_some, Bool.and_false]
        exact congrArg some (if_neg (fun h => hok h.2))
    | ret =>
      rcases this with h | ⟨_, h⟩
      · exact hat _ _ h
      · rw [htake i (by omega)] at h
        obtain ⟨u, n', z, h1, h2⟩ := endsOpen_right_label h
        rw [hsplit, h1, List.append_assoc, List.cons_append] at hst
        refine absurd ?_ hst.okRet.at
        rw [nextInsn_app, nextInsn_nops h2]; rfl
    | _ => exact hat _ _ this
  · have := hres (X.length + 1 + fn.length) .ret (by
      have : (Insn.label L :: (fn ++ .ret :: post))[1 + fn.length]? = some .ret := by
        rw [Nat.add_comm 1, List.getElem?_cons_succ]; simp
      have := getElem?_mid (x := X) this
      rw [← Nat.add_assoc] at this
      exact this)
    rcases this with h | ⟨ht, h⟩
    · left
      rw [hidx, show a + X.length + 1 + fn.length = a + (X.length + 1 + fn.length) by omega]
      exact hat _ _ h
    · right
      rw [htake _ (Nat.le_refl _), List.take_length] at h
      exact ⟨ht, endsOpen_right_label h⟩

theorem grammar_sim (hP : P.Ok) (hy : Hyp P m k) (start : String) (ds : Defs) :
    SimPat P m.succ (k + 1) (.grammar start ds) := by
  refine simPat_of_normal ?_ ?_
  · intro cst raw cst' h
    exact noTailOpen_of_no fun n => grammar_noOpen n h
  · intro env lbls cst cst' raw a j pos w s hcomp hg hocc hsc hseg hmat hpre htrk htail
    obtain ⟨hnc, hds⟩ := hsc
    have hrel := inlRel_inline ds
    have hno : ∀ n, Insn.openCall n ∉ raw := fun n => grammar_noOpen n hcomp
    refine Sim.congr (F := fun n => eval n P.ctx env (.grammar start ds.inline) pos w) ?_
      (fun n => (eval_inline P.ctx hnc n env start pos w).symm)
    rcases comp_grammar hcomp with ⟨hu, b, hb, h1⟩ | ⟨hu, labels, fns, code, h1, hr, hraw⟩
    · refine Sim.unshift rfl ?_
      simp only [eval, hb]
      refine hy.sub k (Nat.le_refl k) b false (ds.inline :: env) (fun _ => none) cst cst' raw a j pos w s h1
        (fun n L h => by cases h) ?_ (Defs.find_Scoped hb (hrel.scp hds)) ?_ hmat hpre htrk htail
      · intro o ho
        refine hocc o ?_
        simp only [memoOcc, hu, hb, if_true]
        exact ho
      · intro i insn hi h
        have := hseg i insn hi h
        cases insn with
        | openCall n => exact absurd (List.mem_of_getElem? h) (hno n)
        | _ => exact this
    · have hj : j = 0 := by
        rw [hraw] at hmat
        exact (resolve_complex hr).matched hmat
      subst hj
      simp only [Nat.add_zero] at hpre
      have hlen : raw.length = code.length + 1 := by rw [hraw]; simp
      have hat : ∀ (i : Nat) insn, code[i]? = some insn → P.prog[a + i]? = some insn := by
        intro i insn hi
        have hlt : i < code.length := by
          rcases Nat.lt_or_ge i code.length with hlt | hge
          · exact hlt
          · rw [List.getElem?_eq_none hge] at hi; cases hi
        have hi' : raw[i]? = some insn := by
          rw [hraw, List.getElem?_append_left hlt]; exact hi
        have := hseg i insn (Nat.zero_le _) hi'
        cases insn with
        | openCall n => exact absurd (List.mem_of_getElem? hi') (hno n)
        | _ => exact this
      have hgok := grammar_gok hP (env := env) (hrel.scp hds) h1 hr hat (fun o ho => hocc o (by
        simp only [memoOcc, hu, if_false]; exact ho))
      have hres := resolve_spec _ hr
      have h0 := hres 0 (.openCall start) rfl
      have h1' : P.prog[a + 1]? = some (.jump (cst.lbl + 1)) := hat _ _ (hres 1 (.jump (cst.lbl + 1)) rfl)
      have hle : P.prog[a + code.length]? = some (.label (cst.lbl + 1)) :=
        hseg.at2 code [] (insn := .label (cst.lbl + 1)) hraw nofun rfl
      obtain ⟨L, hL, hcall⟩ := h0
      have hcall : P.prog[a]? = some (.call L) := hat 0 _ (hcall.trans (by rw [if_neg (fun h => nomatch h.2)]))
      have hs : Seg P.prog (fun n => labels.lookup n) false 0 a [.openCall start] := by
        intro i insn _ hi
        cases i with
        | succ i => simp at hi
        | zero =>
          cases hi
          exact ⟨L, hL, by simpa using hcall⟩
      have := nonterm_sim hy start false (ds.inline :: env) (fun n => labels.lookup n) cst cst [.openCall start] a 0 pos w s
        rfl hgok (by simp [memoOcc]) trivial hs (matched_zero _ _ _) hpre (fun _ => noted_start _ _ _) (fun h => by cases h)
      have hF : ∀ n, eval n P.ctx env (.grammar start ds.inline) pos w =
          eval n P.ctx (ds.inline :: env) (.nonterm start) pos w := by
        intro n
        cases n with
        | zero => rfl
        | succ n =>
          obtain ⟨d, _, body, _, _, _, _, _, he, hf, _⟩ := hgok start L hL
          cases he
          simp only [eval, lookupNT, hf]
      refine Sim.weaken (this.congr hF) ?_
      rintro ⟨res, f, w'⟩ o' _ hgd
      cases res with
      | ok pos' cs =>
        obtain ⟨t, caps, rfl, ⟨hip, hstk, hcapt⟩, hpos, hcr, hpost⟩ := hgd
        refine ⟨_, Reach.trans (reach_at hip h1' rfl) (reach_to_label hP rfl hle), _, caps, rfl, ⟨?_, hstk, hcapt⟩,
          hpos, hcr, ⟨hpost.data, hpost.fle, hpost.far, hpost.tinv, hpost.errs, hpost.cst⟩⟩
        show a + code.length + 1 = a + raw.length
        omega
      | fail => exact ⟨o', Reach.refl _, hgd⟩
      | abort q => exact ⟨o', Reach.refl _, hgd⟩

end Gpeg
