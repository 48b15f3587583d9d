import Verif.ConcLemmas
import Verif.Props.Memo
/-! # C71: parses that share a memo table -/
namespace Gpeg
variable {σ : Type}

section
variable {data : List UInt8} {chk : CheckFn σ} {prog : Program} {occs : List Occ}

/-- The entry tells the truth about the text. -/
def TruePut (data : List UInt8) (chk : CheckFn σ) (occs : List Occ) (id : Int) (pos : Nat) (e : MEntry) : Prop :=
  ∀ o ∈ occs, o.id = id → EntOK ⟨data, chk, false⟩ False o pos e 0

/-- Entries found tell the truth. -/
def TrueAns (data : List UInt8) (chk : CheckFn σ) (occs : List Occ) (ans : Answers) : Prop :=
  ∀ L id pos e, ans L id pos = some e → TruePut data chk occs id pos e

/-- Entries stored tell the truth. -/
def TrueLog (data : List UInt8) (chk : CheckFn σ) (occs : List Occ) (L : List TEv) : Prop :=
  ∀ id pos len exam count capt, TEv.put id pos len exam count capt ∈ L → TruePut data chk occs id pos ⟨len, exam, count, capt⟩

/-- A run of a thread. -/
def threadPar (data : List UInt8) (chk : CheckFn σ) (prog : Program) (occs : List Occ) (ans : Answers) : Par (List TEv) σ where
  data := data
  tab := logTable ans
  chk := chk
  iv := none
  prog := prog
  trk := False
  lo := false
  cr caps cs := Capture.treesL caps = CTree.pruneL none cs
  TInv L _ := TrueLog data chk occs L
  Mget id pos e f := ∀ o ∈ occs, o.id = id → EntOK ⟨data, chk, false⟩ False o pos e f
  Mput id pos e f := ∀ o ∈ occs, o.id = id → EntOK ⟨data, chk, false⟩ False o pos e f

theorem EntOK.any {c : Ctx σ} {o : Occ} {pos f f' : Nat} {e : MEntry} (h : EntOK c False o pos e f) : EntOK c False o pos e f' := by
  obtain ⟨far, _, h⟩ := h
  exact ⟨far, False.elim, h⟩

theorem threadPar_ok {ans : Answers} (hchk : CheckOK chk) (hp : ProgOK prog) (ha : TrueAns data chk occs ans) : (threadPar data chk prog occs ans).Ok where
  lab := hp.lab
  any1 := hp.any1
  chk := hchk
  cr_nil := by simp [threadPar, Capture.treesL, CTree.pruneL]
  cr_app := (cr_ok none).1
  cr_node id h1 h2 h3 := (cr_ok none).2.1 id h1 h2 h3
  cr_skip id h1 h2 _ := (cr_ok none).2.2.1 id h1 h2
  cr_dummy s l _ h := (cr_ok none).2.2.2 s l h
  tmono h _ := h
  get {t f id pos r t'} h hg _ := by
    cases hg
    refine ⟨fun id' pos' len exam count capt hm => ?_, fun m hm o ho hid => (ha _ _ _ _ hm o ho hid).any⟩
    rcases List.mem_append.1 hm with hm | hm
    · exact h _ _ _ _ _ _ hm
    · simp at hm
  put {t f id pos len exam count capt} h hm := by
    intro id' pos' len' exam' count' capt' hm'
    rcases List.mem_append.1 hm' with hm' | hm'
    · exact h _ _ _ _ _ _ hm'
    · cases List.mem_singleton.1 hm'
      exact fun o ho hid => (hm o ho hid).any

theorem threadPar_occ {ans : Answers} (hchk : CheckOK chk) (ho : OccsOK chk occs) (o : Occ) (hm : o ∈ occs) : OccOK (threadPar data chk prog occs ans) o := by
  have h := memoPar_occ (data := data) (prog := prog) (trk := False) (b := false) hchk ho o hm
  unfold OccOK at h ⊢
  split
  · rename_i hs
    rw [if_pos hs] at h
    exact ⟨h.put, h.get, trivial⟩
  · rename_i hs
    rw [if_neg hs] at h
    exact ⟨h.put, h.get, trivial⟩

theorem logAfter_of {P : Par (List TEv) σ} {e : Ev σ} {r : XRes Input (List TEv) σ} (h : TopRes P e (r.map Input.flat)) :
    ∃ ok cap src errs L st, r = .done ok cap src errs L st ∧ P.TInv L src.flat.furthest := by
  obtain ⟨res, far, w⟩ := e
  cases r with
  | panic =>
    cases res with
    | ok pos cs => obtain ⟨a, b, ch, src, tbl, h, _⟩ := h; cases h
    | fail => obtain ⟨src, tbl, h, _⟩ := h; cases h
    | abort pos => obtain ⟨cap, src, tbl, h, _⟩ := h; cases h
  | done ok cap src errs tbl cst =>
    refine ⟨ok, cap, src, errs, tbl, cst, rfl, ?_⟩
    cases res with
    | ok pos cs =>
      obtain ⟨a, b, ch, src', tbl', h, h1, h2, h3, h4, h5, h6⟩ := h
      cases h
      exact h5
    | fail => obtain ⟨src', tbl', h, h1, h2, _⟩ := h; cases h; exact h2
    | abort pos => obtain ⟨cap', src', tbl', h, h1, h2, h3, _⟩ := h; cases h; exact h3

/-- A thread whose answers are true does what the evaluator says, and stores true entries. -/
theorem exec_thread {k : Nat} {p : Pat} {cst cst' : CState} {raw : Program} {code : Code} {bufsz : Nat} {ans : Answers}
    (hchk : CheckOK chk) (hd : p.Dots1) (hs : p.Scoped) (hc : CM.Ok (compileF k p) cst raw cst') (he : encode (optimize raw) = some code) (hb : 0 < bufsz)
    (hocc : OccsOK chk (memoOcc k [] p cst)) (ha : TrueAns data chk (memoOcc k [] p cst) ans) (st : σ) :
    (∀ e, Evals ⟨data, chk, false⟩ [] p 0 ⟨[], st⟩ e →
      ∃ r, Execs (Thread.cfg chk ans) code (Input.new bufsz data) [] st r ∧ ExecRes none e r ∧
        ∃ ok cap src errs L st', r = .done ok cap src errs L st' ∧ TrueLog data chk (memoOcc k [] p cst) L) ∧
    (∀ r, Execs (Thread.cfg chk ans) code (Input.new bufsz data) [] st r →
      ∃ e, Evals ⟨data, chk, false⟩ [] p 0 ⟨[], st⟩ e ∧ ExecRes none e r) := by
  have hP := threadPar_ok (data := data) (occs := memoOcc k [] p cst) hchk (progOK_raw hd hc) ha
  have hno : ∀ n, .openCall n ∉ raw := fun n hn => encode_openCall he n (optimize_openCall hn)
  have hch := chain (logTable ans) chk none (dots1_raw hd hc) he (i := Input.new bufsz data) (f := ⟨data, 0, 0⟩)
    ⟨Input.new_inv hb data, rfl, rfl, rfl⟩ [] st
  have ho := fun o (hm : o ∈ memoOcc k [] p cst) =>
    threadPar_occ (data := data) (prog := withEnd raw) (ans := ans) hchk hocc o hm
  have hT : TrueLog data chk (memoOcc k [] p cst) [] := fun _ _ _ _ _ _ h => by cases h
  refine ⟨fun e hev => ?_, fun r hr => ?_⟩
  · obtain ⟨x, hx, hres⟩ := (top_sim hP rfl hc ho hs hno [] st hT).1 e hev
    obtain ⟨r, hr, rfl⟩ := (hch x).2 hx
    exact ⟨r, hr, execRes_of rfl hres, logAfter_of hres⟩
  · have hx := (hch (r.map Input.flat)).1 ⟨r, hr, rfl⟩
    obtain ⟨e, hev, hres⟩ := top_sim' hP rfl hc ho hs hno [] st hT hx
    exact ⟨e, hev, execRes_of rfl hres⟩

/-- What is known of a call if the table and the threads are right. -/
def TrueEv (data : List UInt8) (chk : CheckFn σ) (occs : List Occ) : TEv → Prop
  | .get id pos a => ∀ e, a = some e → TruePut data chk occs id pos e
  | .put id pos len exam count capt => TruePut data chk occs id pos ⟨len, exam, count, capt⟩

/-- A thread that got true answers can go on alone to the end, as without a table, and has stored true entries so far. -/
theorem thread_true {k : Nat} {p : Pat} {cst cst' : CState} {raw : Program} {code : Code} {t : Thread σ} {E : List TEv}
    (hchk : CheckOK chk) (hd : p.Dots1) (hs : p.Scoped) (hc : CM.Ok (compileF k p) cst raw cst') (he : encode (optimize raw) = some code) (hb : 0 < t.bufsz)
    (hocc : OccsOK chk (memoOcc k [] p cst)) (hstop : ∃ r', RunsTo chk none code t.bufsz data t.st r') (hE : t.Performs chk code data E)
    (ha : ∀ id pos e, .get id pos (some e) ∈ E → TruePut data chk (memoOcc k [] p cst) id pos e) :
    TrueLog data chk (memoOcc k [] p cst) E ∧
    ∃ ok cap src errs L st', Execs (Thread.cfg chk (replay E)) code (Input.new t.bufsz data) [] t.st (.done ok cap src errs L st') ∧ E <+: L := by
  obtain ⟨r', hr'⟩ := hstop
  obtain ⟨e, hev, _⟩ := (exec_none (data := data) (iv := none) hchk hd hs hc he hb t.st).2 r' hr'
  have hans : TrueAns data chk (memoOcc k [] p cst) (replay E) := fun L id pos e h => ha _ _ _ (replay_mem h)
  obtain ⟨r, hr, _, ok, cap, src, errs, L, st', rfl, hL⟩ := (exec_thread hchk hd hs hc he hb hocc hans t.st).1 e hev
  have hpre : E <+: L := by
    obtain ⟨ans, j, hj⟩ := hE
    have hj' := (agreeOn_replay E ans).after hj
    obtain ⟨n, o, ho, hres⟩ := hr
    cases o with
    | next s => cases hres
    | panic => cases hres
    | halt b c s =>
      cases hres
      exact hj'.trans (after_runOut ho (fun h => nomatch h) [])
  refine ⟨fun id pos len exam count capt hm => hL _ _ _ _ _ _ (hpre.subset hm), ok, cap, src, errs, L, st', hr, hpre⟩

theorem callsOf_snoc (i : Nat) (h : List (Nat × TEv)) (j : Nat) (ev : TEv) : callsOf i (h ++ [(j, ev)]) = if j = i then callsOf i h ++ [ev] else callsOf i h := by
  unfold callsOf
  by_cases hj : j = i <;> simp [List.filter_append, hj]

theorem mem_callsOf {i : Nat} {h : List (Nat × TEv)} {ev : TEv} (hm : ev ∈ callsOf i h) : (i, ev) ∈ h := by
  unfold callsOf at hm
  obtain ⟨⟨j, ev'⟩, h1, rfl⟩ := List.mem_map.1 hm
  obtain ⟨h1, h2⟩ := List.mem_filter.1 h1
  have : j = i := by simpa using h2
  exact this ▸ h1

theorem Thread.Performs.prefix {code : Code} {t : Thread σ} {E E' : List TEv} (h : t.Performs chk code data E) (hp : E' <+: E) : t.Performs chk code data E' := by
  obtain ⟨ans, k, h⟩ := h
  exact ⟨ans, k, hp.trans h⟩

/-- All calls of a concurrent run are right, and so is the table at every moment. -/
theorem Concurrent.inv {k : Nat} {p : Pat} {cst cst' : CState} {raw : Program} {code : Code} {threads : List (Thread σ)} {T T' : TreeTable}
    {h : List (Nat × TEv)} (hchk : CheckOK chk) (hd : p.Dots1) (hs : p.Scoped) (hc : CM.Ok (compileF k p) cst raw cst')
    (he : encode (optimize raw) = some code) (hocc : OccsOK chk (memoOcc k [] p cst)) (hb : ∀ t ∈ threads, 0 < t.bufsz)
    (hstop : ∀ t ∈ threads, ∃ r', RunsTo chk none code t.bufsz data t.st r')
    (hT : TabInv false T (SlotOK ⟨data, chk, false⟩ False (memoOcc k [] p cst) 0)) (H : Concurrent chk code data threads T h T') :
    TabInv false T' (SlotOK ⟨data, chk, false⟩ False (memoOcc k [] p cst) 0) ∧ ∀ c ∈ h, TrueEv data chk (memoOcc k [] p cst) c.2 := by
  have hok := memoPar_ok (data := data) (trk := False) (occs := memoOcc k [] p cst) (b := false) hchk (progOK_raw hd hc)
  obtain ⟨hserve, hknown, hperf⟩ := H
  induction hserve with
  | nil => exact ⟨hT, fun c hc => by cases hc⟩
  | @get h T1 T2 i id pos a hsv hg ih =>
    obtain ⟨h1, h2⟩ := ih (fun c hc => hknown c (List.mem_append_left _ hc)) (fun j t ht => by
      refine (hperf j t ht).prefix ?_
      rw [callsOf_snoc]
      split
      · exact List.prefix_append _ _
      · exact List.prefix_rfl)
    obtain ⟨h3, h4⟩ := hok.get (f := 0) h1 hg trivial
    refine ⟨h3, fun c hc => ?_⟩
    rcases List.mem_append.1 hc with hc | hc
    · exact h2 c hc
    · cases List.mem_singleton.1 hc
      exact h4
  | @put h T1 i id pos len exam count capt hsv ih =>
    obtain ⟨h1, h2⟩ := ih (fun c hc => hknown c (List.mem_append_left _ hc)) (fun j t ht => by
      refine (hperf j t ht).prefix ?_
      rw [callsOf_snoc]
      split
      · exact List.prefix_append _ _
      · exact List.prefix_rfl)
    have hi : i < threads.length := hknown (i, _) (List.mem_append_right _ (List.mem_singleton.2 rfl))
    have ht := List.getElem?_eq_getElem hi
    have hP := hperf i _ ht
    rw [callsOf_snoc, if_pos rfl] at hP
    have htrue := (thread_true hchk hd hs hc he (hb _ (List.mem_of_getElem? ht)) hocc (hstop _ (List.mem_of_getElem? ht)) hP (by
      intro id' pos' e hm
      rcases List.mem_append.1 hm with hm | hm
      · exact h2 _ (mem_callsOf hm) e rfl
      · simp at hm)).1
    have hput := htrue _ _ _ _ _ _ (List.mem_append_right _ (List.mem_singleton.2 rfl))
    refine ⟨hok.put (f := 0) h1 hput, fun c hc => ?_⟩
    rcases List.mem_append.1 hc with hc | hc
    · exact h2 c hc
    · cases List.mem_singleton.1 hc
      exact hput

end

section
variable {p : Pat} {code : Code} {chk : CheckFn σ} {data : List UInt8} {top : Int}

/-- **C71**. Threads parse one text with one tree table. For every schedule and at every moment of it: no thread panics; a thread that has stopped has the
result it would have without a table; every other thread, left alone, goes on to that result; and the table gives later parses the right results. -/
theorem C71_shared_table_partial (hc : CompiledAt top p code) (hd : p.Dots1) (hs : p.Scoped) (hchk : CheckOK chk) (hm : p.MemosOK chk top) {T T' : TreeTable}
    (hT : Warm chk code data T) {threads : List (Thread σ)} (hb : ∀ t ∈ threads, 0 < t.bufsz)
    (hstop : ∀ t ∈ threads, ∃ r', RunsTo chk none code t.bufsz data t.st r') {h : List (Nat × TEv)} (H : Concurrent chk code data threads T h T') :
    (∀ (i : Nat) (t : Thread σ), threads[i]? = some t → ∀ r', RunsTo chk none code t.bufsz data t.st r' →
      ¬ t.Panics chk code data (callsOf i h) ∧
      (∀ r, t.Finishes chk code data (callsOf i h) r → r.view = r'.view) ∧
      ∃ E r, callsOf i h <+: E ∧ t.Finishes chk code data E r ∧ r.view = r'.view) ∧
    ∀ bufsz st r', 0 < bufsz → RunsTo chk none code bufsz data st r' → ∃ r, RunsTree chk code bufsz data T' st r ∧ r.view = r'.view := by
  obtain ⟨k, cst, raw, cst', rfl, hc, he⟩ := hc.raw
  have hocc := occsOK_of hc hs hm
  obtain ⟨hT', hev⟩ := H.inv hchk hd hs hc he hocc hb hstop (hT.inv hc he hd hs hchk hm)
  refine ⟨fun i t ht r' hr' => ?_, fun bufsz st r' hb hr' => ?_⟩
  · have ht' := List.mem_of_getElem? ht
    have hans : ∀ id pos e, .get id pos (some e) ∈ callsOf i h → TruePut data chk (memoOcc k [] p cst) id pos e :=
      fun id pos e hm => hev _ (mem_callsOf hm) e rfl
    have htrue : TrueAns data chk (memoOcc k [] p cst) (replay (callsOf i h)) := fun L id pos e h => hans _ _ _ (replay_mem h)
    obtain ⟨_, ok, cap, src, errs, L, st', hrun, hpre⟩ := thread_true hchk hd hs hc he (hb t ht') hocc (hstop t ht') (H.perf i t ht) hans
    have hview : ∀ r, Execs (Thread.cfg chk (replay (callsOf i h))) code (Input.new t.bufsz data) [] t.st r → r.view = r'.view := by
      intro r hr
      obtain ⟨e, hev, hx⟩ := (exec_thread hchk hd hs hc he (hb t ht') hocc htrue t.st).2 r hr
      obtain ⟨r'', hr'', hx'⟩ := (exec_none (data := data) (iv := none) hchk hd hs hc he (hb t ht') t.st).1 e hev
      rw [hr'.unique hr'']
      exact hx.view_eq hx'
    refine ⟨?_, ?_, L, _, hpre, ⟨_, hrun, ok, cap, src, errs, st', rfl⟩, hview _ hrun⟩
    · rintro ⟨ans, j, h1, h2⟩
      have h3 := (agreeOn_replay (callsOf i h) ans).panic h1 (h2 ▸ List.prefix_rfl)
      have := Yields.unique hrun ⟨j, _, h3, rfl⟩
      cases this
    · rintro r ⟨ans, ⟨j, o, ho, hres⟩, ok, cap, src, errs, st', rfl⟩
      refine hview _ ⟨j, o, ?_, hres⟩
      cases o with
      | next s => cases hres
      | panic => cases hres
      | halt b c s =>
        have e : s.tbl = callsOf i h := by
          simp only [Out.res, Option.some.injEq, XRes.done.injEq] at hres
          exact hres.2.2.2.2.1
        exact (agreeOn_replay (callsOf i h) ans).run (d := []) ho (fun h => nomatch h) (by rw [← e]; exact List.prefix_rfl)
  · obtain ⟨e, hev, hx'⟩ := (exec_none (data := data) (iv := none) hchk hd hs hc he hb st).2 r' hr'
    obtain ⟨r, hr, hx, _⟩ := (exec_tree hchk hd hs hc he hb (progOK_raw hd hc) hocc T' hT' st).1 e hev
    exact ⟨r, hr, hx.view_eq hx'⟩

end
/-! ## One thread -/

theorem runOut_after {ι τ : Type} {step : VM ι τ σ → Out ι τ σ} {k : Nat} {s s' : VM ι τ σ} {b : Bool} {c : Option Capture}
    (h : runOut step k s = some (.halt b c s')) : after step k s = s' := by
  induction k generalizing s with
  | zero => cases h
  | succ k ih =>
    unfold runOut at h
    unfold after
    cases hs : step s with
    | next s1 => rw [hs] at h; exact ih h
    | halt b c s1 => rw [hs] at h; cases h; rfl
    | panic => rw [hs] at h; cases h

/-- The table after a call. -/
def served (T : TreeTable) : TEv → TreeTable
  | .get id pos _ => (T.get id pos).2
  | .put id pos len exam count capt => T.put id pos len exam count capt

/-- The calls of a thread that is alone with the table `T`. -/
def aloneTable (T : TreeTable) : TableOps { L : List TEv // Serves T (L.map (Prod.mk 0)) (L.foldl served T) } where
  get L id pos := (((L.1.foldl served T).get id pos).1, ⟨L.1 ++ [.get id pos ((L.1.foldl served T).get id pos).1], by
    rw [List.map_append, List.foldl_append]
    exact .get L.2 rfl⟩)
  put L id pos len exam count capt := ⟨L.1 ++ [.put id pos len exam count capt], by
    rw [List.map_append, List.foldl_append]
    exact .put L.2⟩
  applyEdit L _ := L

/-- **C71**: a run of `Exec` with a tree table is a concurrent run of one thread. -/
theorem C71_alone {chk : CheckFn σ} {code : Code} {bufsz : Nat} {data : List UInt8} {T T' : TreeTable} {st st' : σ} {ok : Bool} {cap : Option Capture}
    {src : Input} {errs : List PErr} (hr : RunsTree chk code bufsz data T st (.done ok cap src errs T' st')) :
    ∃ h, Concurrent chk code data [⟨bufsz, st⟩] T h T' ∧
      Thread.Finishes chk code data ⟨bufsz, st⟩ (callsOf 0 h) (.done ok cap src errs (callsOf 0 h) st') := by
  let ans : Answers := fun L id pos => ((L.foldl served T).get id pos).1
  have h1 : TabHom (aloneTable T) treeTable (fun L => L.1.foldl served T) := by
    refine ⟨fun t id pos => ?_, fun t id pos len exam count capt => ?_⟩
    · simp only [aloneTable, List.foldl_append, List.foldl_cons, List.foldl_nil, served]; rfl
    · simp only [aloneTable, List.foldl_append, List.foldl_cons, List.foldl_nil, served]; rfl
  have h2 : TabHom (aloneTable T) (logTable ans) (fun L => L.1) := ⟨fun _ _ _ => rfl, fun _ _ _ _ _ _ _ => rfl⟩
  obtain ⟨k, o, ho, hres⟩ := hr
  have e1 := h1.runOut (inp := chunkedOps) (chk := chk) (iv := none) (code := code) k
    (initVM ⟨chunkedOps, aloneTable T, chk, none⟩ (Input.new bufsz data) ⟨[], .nil⟩ st)
  have e2 := h2.runOut (inp := chunkedOps) (chk := chk) (iv := none) (code := code) k
    (initVM ⟨chunkedOps, aloneTable T, chk, none⟩ (Input.new bufsz data) ⟨[], .nil⟩ st)
  have e1 := e1.symm.trans ho
  obtain ⟨o', ho', rfl⟩ := Option.map_eq_some_iff.1 e1
  rw [ho'] at e2
  cases o' with
  | next s => cases hres
  | panic => cases hres
  | halt b c s =>
    obtain ⟨ip, stk, capt, src', ⟨L, hL⟩, errs', cst', rng⟩ := s
    simp only [Out.mapT, VM.mapT, Out.res, Option.some.injEq, XRes.done.injEq] at hres
    obtain ⟨rfl, rfl, rfl, rfl, rfl, rfl⟩ := hres
    have hc : callsOf 0 (L.map (Prod.mk 0)) = L := by
      unfold callsOf
      rw [List.filter_eq_self.2 (by simp), List.map_map]
      exact List.map_id _
    refine ⟨L.map (Prod.mk 0), ⟨hL, ?_, ?_⟩, ?_⟩
    · intro c hc
      obtain ⟨_, _, rfl⟩ := List.mem_map.1 hc
      exact Nat.zero_lt_one
    · intro i t ht
      cases i with
      | succ i => simp at ht
      | zero =>
        cases ht
        rw [hc]
        refine ⟨ans, k, ?_⟩
        have := runOut_after e2
        rw [show after (stepB (Thread.cfg chk ans) code) k (initVM (Thread.cfg chk ans) (Input.new bufsz data) [] st) = _ from this]
        exact List.prefix_rfl
    · rw [hc]
      exact ⟨ans, ⟨k, _, e2, rfl⟩, _, _, _, _, _, rfl⟩

/-! ## An example

Two threads miss the same entry and both store it; a third finds the one stored first while the second has not stored its own yet. -/

/-- `{{'a'}}` with id 1. -/
def memoA : Pat := .memo (.lit [97]) 1

example : ∃ code, CompiledAt 1 memoA code ∧ memoA.Dots1 ∧ memoA.Scoped ∧ memoA.MemosOK noChk 1 ∧
    (∀ t ∈ [(⟨4096, ()⟩ : Thread Unit), ⟨1, ()⟩, ⟨2, ()⟩], 0 < t.bufsz ∧ ∃ r', RunsTo noChk none code t.bufsz [97, 98] t.st r') ∧
    ∃ T', Concurrent noChk code [97, 98] [⟨4096, ()⟩, ⟨1, ()⟩, ⟨2, ()⟩] (TreeTable.new 0) [(0, .get 1 0 none), (1, .get 1 0 none),
      (0, .put 1 0 (some 1) 2 1 []), (2, .get 1 0 (some ⟨some 1, 2, 1, []⟩)), (1, .put 1 0 (some 1) 2 1 [])] T' := by
  have hsv : ∃ T', Serves (TreeTable.new 0) [(0, .get 1 0 none), (1, .get 1 0 none), (0, .put 1 0 (some 1) 2 1 []), (2, .get 1 0 (some ⟨some 1, 2, 1, []⟩)),
      (1, .put 1 0 (some 1) 2 1 [])] T' :=
    ⟨_, .put (h := [(0, .get 1 0 none), (1, .get 1 0 none), (0, .put 1 0 (some 1) 2 1 []), (2, .get 1 0 (some ⟨some 1, 2, 1, []⟩))])
      (.get (h := [(0, .get 1 0 none), (1, .get 1 0 none), (0, .put 1 0 (some 1) 2 1 [])])
        (.put (h := [(0, .get 1 0 none), (1, .get 1 0 none)]) (.get (h := [(0, .get 1 0 none)]) (.get (h := []) .nil rfl) rfl)) rfl)⟩
  obtain ⟨T', hsv⟩ := hsv
  refine ⟨_, ⟨10, ⟨0, 1, true⟩, _, _, rfl, rfl, rfl⟩, ?_, ?_, Pat.memosOK_of_pure ?_ ?_ ?_, ?_, T', ⟨hsv, by simp, ?_⟩⟩
  · intro n hn
    simp [memoA, Pat.leaves] at hn
  · simp [memoA, Pat.Scoped]
  · simp [memoA, Pat.Pure, Pat.leaves]
  · simp [memoA, Pat.memos]
  · simp [memoA, Pat.memos]
  · intro t ht
    simp only [List.mem_cons, List.not_mem_nil, or_false] at ht
    rcases ht with rfl | rfl | rfl <;> exact ⟨by decide, _, 20, _, rfl, rfl⟩
  · intro i t ht
    match i, ht with
    | 0, ht => cases ht; exact ⟨fun _ _ _ => none, 10, [], rfl⟩
    | 1, ht => cases ht; exact ⟨fun _ _ _ => none, 10, [], rfl⟩
    | 2, ht => cases ht; exact ⟨fun _ _ _ => some ⟨some 1, 2, 1, []⟩, 10, [], rfl⟩
    | i + 3, ht => simp at ht

end Gpeg
