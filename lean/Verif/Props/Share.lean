import Verif.Build
/-!
# C73: several programs share a memo table

The ids of memoized patterns are unique in the process, so that programs may share a table. `Memo` takes the value of the counter and
then increments it; the compilation of a memoized repetition increments it and takes the new value, which the next `Memo` takes again.
-/
namespace Gpeg
variable {σ : Type}

theorem nodup_mids {p : Pat} : ∀ {L : List Pat}, (L.flatMap Pat.mids).Nodup → p ∈ L → p.mids.Nodup := by
  intro L
  induction L with
  | nil => intro _ h; cases h
  | cons q L ih =>
    intro hn hm
    rw [List.flatMap_cons, List.nodup_append] at hn
    rcases List.mem_cons.1 hm with rfl | hm
    · exact hn.1
    · exact ih hn.2.1 hm

/-- **C73** (one program): a pattern whose memoized parts were made with `Memo`, or with `MemoId` and new ids, meets the condition on ids
of C27 and the theorems that build on it. -/
theorem C73_ids {t : Int} {us : List (Int × Int)} {L : List Pat} {ps : List (Pat × Code)} {p : Pat} (h : Sess t us L ps) (hp : p ∈ L)
    (hs : ∀ x ∈ ps, x.1.Scoped) (hpure : p.Pure) : p.MemosOK chk t := by
  obtain ⟨D, h⟩ := h.ids hs
  have hp : p ∈ L ++ D := List.mem_append_left _ hp
  exact Pat.memosOK_of_pure hpure (nodup_mids h.nodup hp) fun o ho =>
    Int.le_of_lt (h.lt _ (List.mem_flatMap.2 ⟨p, hp, List.mem_map.2 ⟨o, ho, rfl⟩⟩)).1

/-- The tables that arise from running any of the programs on `data`, in any order, any number of times. -/
inductive WarmBy (chk : CheckFn σ) (ps : List (Pat × Code)) (data : List UInt8) : TreeTable → Prop
  | new (threshold : Int) : WarmBy chk ps data (TreeTable.new threshold)
  | run {T T' : TreeTable} {x : Pat × Code} {bufsz : Nat} {st st' : σ} {ok : Bool} {cap : Option Capture} {src : Input}
      {errs : List PErr} : WarmBy chk ps data T → x ∈ ps → 0 < bufsz →
      RunsTree chk x.2 bufsz data T st (.done ok cap src errs T' st') → WarmBy chk ps data T'

section
variable {chk : CheckFn σ} {data : List UInt8}

/-- The meanings of the nodes `os`. -/
def Among (σ : Type) (os : List Occ) (o : Occ) : Prop :=
  ∃ o0 ∈ os, o0.id = o.id ∧ ∀ (n : Nat) (c : Ctx σ) (pos : Nat) (w : World σ), eval n c o.env o.q pos w = eval n c o0.env o0.q pos w

theorem occsOK_of_occsOf {os : List Occ} {s s' : CState} {l : List Occ}
    (h : OccsOf (Among σ os) s s' l)
    (hq : ∀ o ∈ os, o.Quiet chk) (hsame : ∀ o ∈ os, ∀ o' ∈ os, o.id = o'.id → o.Same σ o') (hne : ∀ o ∈ os, ∀ o' ∈ l, o'.star = true → o.id ≠ o'.id) : OccsOK chk l := by
  refine ⟨?_, ?_⟩
  · intro o ho
    cases hst : o.star with
    | false =>
      obtain ⟨o0, h0, h1, h2⟩ := h.plain o ho hst
      exact (hq o0 h0).congr h2
    | true =>
      obtain ⟨⟨id, o0, h0, h1, h2⟩, _⟩ := h.star o ho hst
      exact (hq o0 h0).congr h2
  · have key : ∀ o ∈ l, ∀ o' ∈ l, o.star = false → o.id = o'.id → o.Same σ o' := by
      intro o ho o' ho' hst hid
      obtain ⟨o0, h0, h1, h2⟩ := h.plain o ho hst
      cases hst' : o'.star with
      | false =>
        obtain ⟨o0', h0', h1', h2'⟩ := h.plain o' ho' hst'
        have := (hsame o0 h0 o0' h0' (by rw [h1, h1', hid])).2
        exact ⟨hst.trans hst'.symm, fun n c pos w => by rw [h2, h2', this]⟩
      | true =>
        exact absurd (h1.trans hid) (hne o0 h0 o' ho' hst')
    intro o ho o' ho' hid
    cases hst : o.star with
    | false => exact key o ho o' ho' hst hid
    | true =>
      cases hst' : o'.star with
      | false => exact (key o' ho' o ho hst' hid.symm).symm
      | true =>
        have := pairwise_forall (R := fun o o' : Occ => o.star = true → o'.star = true → o.id = o'.id → o.Same σ o')
          (fun a b hab h1 h2 h3 => (hab h2 h1 h3.symm).symm) (fun x _ _ _ _ => ⟨rfl, fun _ _ _ _ => rfl⟩)
          (h.dist.imp fun hab h1 h2 h3 => absurd h3 (hab h1 h2)) ho ho'
        exact this hst hst' hid

/-- Compiler correctness with a table that is right for more memoized nodes than those of the program. -/
theorem exec_tree_sub {k : Nat} {p : Pat} {cst cst' : CState} {raw : Program} {code : Code} {bufsz : Nat} {occs : List Occ}
    (hchk : CheckOK chk) (hd : p.Dots1) (hs : p.Scoped) (hc : CM.Ok (compileF k p) cst raw cst')
    (he : encode (optimize raw) = some code) (hb : 0 < bufsz) (hocc : OccsOK chk occs) (hsub : ∀ o ∈ memoOcc k [] p cst, o ∈ occs) (T : TreeTable)
    (hT : TabInv false T (SlotOK ⟨data, chk, false⟩ False occs 0)) (st : σ) :
    (∀ e, Evals ⟨data, chk, false⟩ [] p 0 ⟨[], st⟩ e →
      ∃ r, RunsTree chk code bufsz data T st r ∧ ExecRes none e r) ∧
    (∀ r, RunsTree chk code bufsz data T st r →
      ∃ e, Evals ⟨data, chk, false⟩ [] p 0 ⟨[], st⟩ e ∧ ExecRes none e r ∧
        TabAfter (memoPar data chk (withEnd raw) False occs false) r) := by
  have hP := memoPar_ok (trk := False) (data := data) (occs := occs) (b := false) hchk (progOK_raw hd hc)
  have hno : ∀ n, .openCall n ∉ raw := fun n hn => encode_openCall he n (optimize_openCall hn)
  have hch := chain treeTable chk none (dots1_raw hd hc) he (i := Input.new bufsz data) (f := ⟨data, 0, 0⟩)
    ⟨Input.new_inv hb data, rfl, rfl, rfl⟩ T st
  have ho := fun o (hm : o ∈ memoOcc k [] p cst) =>
    memoPar_occ (data := data) (prog := withEnd raw) (trk := False) (b := false) hchk hocc o (hsub o hm)
  refine ⟨fun e hev => ?_, fun r hr => ?_⟩
  · obtain ⟨x, hx, hres⟩ := (top_sim hP rfl hc ho hs hno T st hT).1 e hev
    obtain ⟨r, hr, rfl⟩ := (hch x).2 hx
    exact ⟨r, hr, execRes_of rfl hres⟩
  · have hx := (hch (r.map Input.flat)).1 ⟨r, hr, rfl⟩
    obtain ⟨e, hev, hres⟩ := top_sim' hP rfl hc ho hs hno T st hT hx
    exact ⟨e, hev, execRes_of rfl hres, tabAfter_of hres⟩

/-- What is needed of a program whose nodes are among `occs`. -/
def ProgIn (occs : List Occ) (x : Pat × Code) : Prop :=
  ∃ k cst raw cst', CM.Ok (compileF k x.1) cst raw cst' ∧ encode (optimize raw) = some x.2 ∧ ∀ o ∈ memoOcc k [] x.1 cst, o ∈ occs

theorem Sess.add {os : List Occ} {t t' : Int} {us : List (Int × Int)} {ps : List (Pat × Code)} {p : Pat} {code : Code}
    (hc : CompiledFrom t p code t') (hs : p.Scoped) (hos : ∀ o ∈ p.memos [], o ∈ os)
    (h : ∃ occs t0, OccsOf (Among σ os) ⟨0, t0, true⟩ ⟨0, t, true⟩ occs ∧ (∀ x ∈ ps, ProgIn occs x) ∧
      ∀ o ∈ occs, o.star = true → ¬ Free us o.id) :
    ∃ occs t0, OccsOf (Among σ os) ⟨0, t0, true⟩ ⟨0, t', true⟩ occs ∧ (∀ x ∈ (p, code) :: ps, ProgIn occs x) ∧
      ∀ o ∈ occs, o.star = true → ¬ Free ((t, t') :: us) o.id := by
  obtain ⟨occs, t0, h1, h2, h3⟩ := h
  obtain ⟨k, cst, prog, cst', rfl, rfl, hc, he⟩ := hc
  obtain ⟨raw, s1, hF, h4⟩ := cm_bind.1 hc
  obtain ⟨rfl, rfl⟩ := cm_pure.1 h4
  have hP : OccInv σ (Among σ os) := by
    rintro id q e q' e' he ⟨o0, h0, h1, h2⟩
    exact ⟨o0, h0, h1, fun n c pos w => (he n c pos w).trans (h2 n c pos w)⟩
  have h := memoOcc_of hP k (env := []) hF hs fun o ho => ⟨o, hos o ho, rfl, fun _ _ _ _ => rfl⟩
  refine ⟨occs ++ memoOcc k [] p cst, t0, h1.app (h.weaken (Int.le_refl _) (Int.le_refl _)), fun x hx => ?_, fun o ho hst => ?_⟩
  · rcases List.mem_cons.1 hx with rfl | hx
    · exact ⟨k, cst, raw, _, hF, he, fun o ho => List.mem_append_right _ ho⟩
    · obtain ⟨k, cst, raw, cst', g1, g2, g3⟩ := h2 x hx
      exact ⟨k, cst, raw, cst', g1, g2, fun o ho => List.mem_append_left _ (g3 o ho)⟩
  · rcases List.mem_append.1 ho with ho | ho
    · exact fun g => h3 o ho hst fun u hu => g u (List.mem_cons_of_mem _ hu)
    · exact fun g => g _ List.mem_cons_self (h.star o ho hst).2

theorem Sess.occs {os : List Occ} {t : Int} {us : List (Int × Int)} {L : List Pat} {ps : List (Pat × Code)} (h : Sess t us L ps)
    (hs : ∀ x ∈ ps, x.1.Scoped) (hos : ∀ x ∈ ps, ∀ o ∈ x.1.memos [], o ∈ os) :
    ∃ occs t0, OccsOf (Among σ os) ⟨0, t0, true⟩ ⟨0, t, true⟩ occs ∧ (∀ x ∈ ps, ProgIn occs x) ∧
      ∀ o ∈ occs, o.star = true → ¬ Free us o.id := by
  induction h with
  | start t => exact ⟨[], t, .nil (Int.le_refl _), nofun, nofun⟩
  | node _ _ ih => exact ih hs hos
  | memo _ _ ih =>
    obtain ⟨occs, t0, h1, h2, h3⟩ := ih hs hos
    exact ⟨occs, t0, h1.weaken (Int.le_refl _) (by simp only [mkMemo]; omega), h2, h3⟩
  | memoId id _ _ _ ih =>
    obtain ⟨occs, t0, h1, h2, h3⟩ := ih hs hos
    exact ⟨occs, t0, h1.weaken (Int.le_refl _) (by simp only [mkMemoId]; omega), h2, h3⟩
  | compile _ hc ih =>
    exact Sess.add hc (hs _ List.mem_cons_self) (hos _ List.mem_cons_self)
      (ih (fun x hx => hs x (List.mem_cons_of_mem _ hx)) fun x hx => hos x (List.mem_cons_of_mem _ hx))
  | @again t t' us x L ps code _ _ hc ih =>
    exact Sess.add hc (hs (x.1, code) List.mem_cons_self) (hos (x.1, code) List.mem_cons_self)
      (ih (fun x hx => hs x (List.mem_cons_of_mem _ hx)) fun x hx => hos x (List.mem_cons_of_mem _ hx))
  | perm _ _ ih => exact ih hs hos
  | other _ ht ih =>
    obtain ⟨occs, t0, h1, h2, h3⟩ := ih hs hos
    exact ⟨occs, t0, h1.weaken (Int.le_refl _) ht, h2, h3⟩

theorem WarmBy.inv {ps : List (Pat × Code)} {occs : List Occ} {T : TreeTable} (hocc : OccsOK chk occs) (hps : ∀ x ∈ ps, ProgIn occs x)
    (hd : ∀ x ∈ ps, x.1.Dots1) (hs : ∀ x ∈ ps, x.1.Scoped) (hchk : CheckOK chk) (h : WarmBy chk ps data T) :
    TabInv false T (SlotOK ⟨data, chk, false⟩ False occs 0) := by
  induction h with
  | new th => exact tabInv_new _ _
  | run _ hx hb hr ih =>
    obtain ⟨k, cst, raw, cst', hc, he, hsub⟩ := hps _ hx
    obtain ⟨e, _, _, h⟩ := (exec_tree_sub hchk (hd _ hx) (hs _ hx) hc he hb hocc hsub _ ih _).2 _ hr
    refine TabInv.weaken h ?_
    rintro s ⟨pos, h1, h2, _, h3⟩
    refine ⟨pos, h1, h2, False.elim, fun o ho hid => ?_⟩
    obtain ⟨far, _, h4⟩ := h3 o ho hid
    exact ⟨far, False.elim, h4⟩

/-- **C73** (several programs): programs may share a table: whatever was parsed with it before, with whichever of the programs, each parse stops iff it
stops with `NoneTable`, and callers see the same. The patterns are without errors and checkers, and no call of `Memo` gets an id that a compilation took.
Missing: such calls, which are possible, and for which it is false, see `C73_false`. -/
theorem C73_shared_partial {t : Int} {us : List (Int × Int)} {L : List Pat} {ps : List (Pat × Code)} {p : Pat} {code : Code} {bufsz : Nat} {st : σ}
    {T : TreeTable} (hsess : Sess t us L ps) (hpure : ∀ x ∈ ps, x.1.Pure) (hd : ∀ x ∈ ps, x.1.Dots1) (hs : ∀ x ∈ ps, x.1.Scoped)
    (hchk : CheckOK chk) (hT : WarmBy chk ps data T) (hp : (p, code) ∈ ps) (hb : 0 < bufsz) :
    (∀ r, RunsTree chk code bufsz data T st r → ∃ r', RunsTo chk none code bufsz data st r' ∧ r.view = r'.view) ∧
    (∀ r', RunsTo chk none code bufsz data st r' → ∃ r, RunsTree chk code bufsz data T st r ∧ r.view = r'.view) := by
  obtain ⟨D, hD⟩ := hsess.ids hs
  have hDp : ∀ q ∈ D, q.Pure := fun q hq => by
    obtain ⟨x, hx, rfl⟩ := List.mem_map.1 (hD.sup q hq)
    exact hpure x hx
  have hids : D.flatMap Pat.mids = (D.flatMap fun q => q.memos []).map Occ.id := by
    simp only [List.map_flatMap]
    rfl
  have hnd : (D.flatMap Pat.mids).Nodup := by
    have := hD.nodup
    rw [List.flatMap_append, List.nodup_append] at this
    exact this.2.1
  obtain ⟨occs, t0, ho, hps, hst⟩ := hsess.occs (σ := σ) (os := D.flatMap fun q => q.memos []) hs
    fun x hx o ho => List.mem_flatMap.2 ⟨x.1, hD.sub x hx, ho⟩
  have hocc : OccsOK chk occs := by
    refine occsOK_of_occsOf ho ?_ ?_ ?_
    · intro o ho
      obtain ⟨q, hq, ho⟩ := List.mem_flatMap.1 ho
      have h := q.memos_pure (hDp q hq) (fun _ h => by cases h) o ho
      exact Occ.quiet_of_pure h.1 h.2
    · intro o ho o' ho' hid
      rw [hids] at hnd
      have := pairwise_forall (R := fun o o' : Occ => o.id = o'.id → o.Same σ o')
        (fun a b hab h => (hab h.symm).symm) (fun x _ _ => ⟨rfl, fun _ _ _ _ => rfl⟩)
        ((List.pairwise_map.1 hnd).imp fun hab h => absurd h hab) ho ho'
      exact this hid
    · intro o ho o' ho' hst' hid
      have : o.id ∈ D.flatMap Pat.mids := hids ▸ List.mem_map.2 ⟨o, ho, rfl⟩
      refine hst o' ho' hst' (hid ▸ (hD.lt _ ?_).2)
      rw [List.flatMap_append]
      exact List.mem_append_right _ this
  have hTi := hT.inv hocc hps hd hs hchk
  obtain ⟨k, cst, raw, cst', hc, he, hsub⟩ := hps _ hp
  have g1 := exec_tree_sub hchk (hd _ hp) (hs _ hp) hc he hb hocc hsub T hTi st
  have g2 := exec_none (data := data) (iv := none) hchk (hd _ hp) (hs _ hp) hc he hb st
  refine ⟨fun r hr => ?_, fun r' hr => ?_⟩
  · obtain ⟨e, hev, hx, _⟩ := g1.2 r hr
    obtain ⟨r', hr', hx'⟩ := g2.1 e hev
    exact ⟨r', hr', hx.view_eq hx'⟩
  · obtain ⟨e, hev, hx'⟩ := g2.2 r' hr
    obtain ⟨r, hr, hx⟩ := g1.1 e hev
    exact ⟨r, hr, hx.view_eq hx'⟩

end

/-- `Star(Memo('a'))` is made and compiled, then (after another call of `Memo`) `Star(Memo('a')) Memo('b')`; the first one is compiled again. -/
example : ∃ (t : Int) (us : List (Int × Int)) (ps : List (Pat × Code)), ps.length = 3 ∧ Sess t us [] ps ∧
    (∀ x ∈ ps, x.1.Pure) ∧ (∀ x ∈ ps, x.1.Dots1) ∧ (∀ x ∈ ps, x.1.Scoped) := by
  have a0 := Sess.node (parts := []) (.start 0) (.lit [97])
  have a1 := a0.memo nofun
  have a2 := Sess.node (parts := [_]) a1 (.star _)
  have a3 := a2.compile (t' := 2) ⟨10, ⟨0, 1, true⟩, _, _, rfl, rfl, rfl, rfl⟩
  have a4 := a3.other (t' := 3) (by decide)
  have a5 := (Sess.node (parts := []) a4 (.lit [97])).memo (by simp [Free])
  have a6 := Sess.node (parts := [_]) a5 (.star _)
  have a7 := (Sess.node (parts := []) a6 (.lit [98])).memo (by simp [Free, mkMemo])
  have a8 := Sess.node (parts := [_, _]) (a7.perm (List.Perm.swap ..)) (.seq _ _)
  have a9 := a8.compile (t' := 6) ⟨10, ⟨0, 5, true⟩, _, _, rfl, rfl, rfl, rfl⟩
  have b0 := a9.again (t' := 7) (List.mem_cons_of_mem _ List.mem_cons_self) ⟨10, ⟨0, 6, true⟩, _, _, rfl, rfl, rfl, rfl⟩
  refine ⟨_, _, _, rfl, b0, ?_, ?_, ?_⟩
  all_goals
    intro x hx
    simp only [List.mem_cons, List.not_mem_nil, or_false] at hx
    rcases hx with rfl | rfl | rfl <;> simp [Pat.Pure, Pat.Dots1, Pat.Scoped, Pat.leaves, mkMemo]

/-- **C73** is false for patterns made after others were compiled: with the counter at 0, `Memo('a')` is made and its repetition compiled, and
then `Memo('b')` is made and compiled; it gets the id of the repetition, and after `a` was parsed with the first program, the second one
matches `a`. -/
theorem C73_false : ∃ (t2 : Int) (code1 code2 : Code) (T : TreeTable),
    CompiledFrom (mkMemo (.lit [97]) 0).2 (.star (mkMemo (.lit [97]) 0).1) code1 t2 ∧
    CompiledAt (mkMemo (.lit [98]) t2).2 (mkMemo (.lit [98]) t2).1 code2 ∧
    Warm noChk code1 [97] T ∧
    (∃ src, RunsTo noChk none code2 4096 [97] () (.done false none src [] () ())) ∧
    ∃ src T', RunsTree noChk code2 4096 [97] T () (.done true (some (.dummy 0 1 [])) src [] T' ()) := by
  refine ⟨2, ⟨[], [], [], [29, 0, 18, 0, 2, 0, 14, 0, 97, 0, 24, 0, 4, 0, 16, 0, 30, 0, 31, 0, 1, 0, 0, 0, 32, 0, 2, 0, 19, 0]⟩,
    ⟨[], [], [], [27, 0, 10, 0, 2, 0, 0, 98, 28, 0, 19, 0]⟩,
    ⟨⟨.node ⟨0, 0, 2, 2, [⟨0, 2, ⟨0, ⟨some 1, 2, 1, []⟩⟩⟩], 0, 1⟩ .nil .nil, [], 0, 1⟩, 0⟩,
    ⟨10, ⟨0, 1, true⟩, _, _, rfl, rfl, rfl, rfl⟩, ⟨10, ⟨0, 3, true⟩, _, _, rfl, rfl, rfl⟩, ?_, ?_, ?_⟩
  · exact .run (bufsz := 4096) (st := ()) (.new 0) (by decide) ⟨40, _, rfl, by with_unfolding_all rfl⟩
  · exact ⟨_, ⟨20, _, rfl, rfl⟩⟩
  · exact ⟨_, _, ⟨20, _, rfl, rfl⟩⟩

end Gpeg
