import Verif.SliceSim
/-!
# Runs of the machine with slices follow runs of the machine with lists
-/
namespace Gpeg.Slice
variable {ι τ τ' σ : Type}

/-- The machine with lists that corresponds to `c`, with table operations `T`. -/
def SCfg.toCfg (c : SCfg ι τ' σ) (T : TableOps τ) : Cfg ι τ σ := ⟨c.inp, T, c.chk, c.intrvl⟩

/-- Two look-ups give the same, with captures that nobody will write to. -/
def EntRel (al : Sl → Sl) (h : Heap) (fz : Nat → Nat) : Option SMEnt → Option MEntry → Prop
  | none, none => True
  | some m, some m' => m.length = m'.length ∧ m.count = m'.count ∧ DenS h fz m.captures m'.captures ∧
      m.captures.len ≤ fz m.captures.arr ∧ (al m.captures).cap ≤ m.captures.len
  | _, _ => False

/-- `R` relates the states of a table of slices with those of a table of lists: look-ups and insertions respect it,
and it only depends on what is frozen. -/
structure TabSim (al : Sl → Sl) (S : STab τ') (T : TableOps τ) (R : Heap → (Nat → Nat) → τ' → τ → Prop) : Prop where
  mono : ∀ {h h' fz fz' a b}, Le h fz h' fz' → R h fz a b → R h' fz' a b
  get : ∀ {h fz a b id pos}, R h fz a b →
    EntRel al h fz (S.get a id pos).1 (T.get b id pos).1 ∧ R h fz (S.get a id pos).2 (T.get b id pos).2
  put : ∀ {h fz a b id start length examined count s cs}, R h fz a b → DenS h fz s cs → s.len ≤ fz s.arr →
    R h fz (S.put a id start length examined count s) (T.put b id start length examined count cs)

/-- Corresponding states. -/
structure Rel (R : Heap → (Nat → Nat) → τ' → τ → Prop) (fz : Nat → Nat) (s : SVM ι τ' σ) (t : VM ι τ σ) : Prop where
  ip : s.ip = t.ip
  src : s.src = t.src
  errs : s.errs = t.errs
  cst : s.cst = t.cst
  rng : s.rng = t.rng
  kinds : s.stk.map SEntry.kind = t.stk.map Entry.kind
  wf : WF s.heap fz
  live : Live s.heap fz (s.stk.map SEntry.capt ++ [s.capt]) (t.stk.map Entry.capt ++ [t.capt])
  tab : R s.heap fz s.tbl t.tbl

/-- Corresponding captures of a stopped machine. -/
def CapRel (h : Heap) (fz : Nat → Nat) : Option SCap → Option Capture → Prop
  | none, none => True
  | some x, some c => DenC h fz x c
  | _, _ => False

/-- Corresponding outcomes. -/
inductive ORel (R : Heap → (Nat → Nat) → τ' → τ → Prop) : SOut ι τ' σ → Out ι τ σ → Prop
  | next {fz s t} : Rel R fz s t → ORel R (.next s) (.next t)
  | halt {fz b x c s t} : CapRel s.heap fz x c → Rel R fz s t → ORel R (.halt b x s) (.halt b c t)
  | panic : ORel R .panic .panic

section
variable {R : Heap → (Nat → Nat) → τ' → τ → Prop} {c : SCfg ι τ' σ} {T : TableOps τ} {fz : Nat → Nat}
  {s : SVM ι τ' σ} {t : VM ι τ σ}

theorem Rel.push (h : Rel R fz s t) (k : EKind) : Rel R fz (s.push k) (t.push k) :=
  { h with
    kinds := by simp [SVM.push, VM.push, h.kinds]
    live := by simpa [SVM.push, VM.push] using h.live.nil_cons }

/-- The stacks of corresponding states. -/
theorem Rel.stk (h : Rel R fz s t) : (s.stk = [] ∧ t.stk = []) ∨ ∃ e r e' r', s.stk = e :: r ∧ t.stk = e' :: r' ∧
    e.kind = e'.kind ∧ r.map SEntry.kind = r'.map Entry.kind ∧ DenS s.heap fz e.capt e'.capt ∧
    Live s.heap fz (e.capt :: (r.map SEntry.capt ++ [s.capt])) (e'.capt :: (r'.map Entry.capt ++ [t.capt])) := by
  have hk := h.kinds
  have hl := h.live
  cases hs : s.stk with
  | nil =>
    cases ht : t.stk with
    | nil => exact .inl ⟨rfl, rfl⟩
    | cons e' r' => rw [hs, ht] at hk; cases hk
  | cons e r =>
    cases ht : t.stk with
    | nil => rw [hs, ht] at hk; cases hk
    | cons e' r' =>
      rw [hs, ht] at hk hl
      simp only [List.map_cons, List.cons.injEq] at hk
      exact .inr ⟨e, r, e', r', rfl, rfl, hk.1, hk.2, hl.head, hl⟩

/-- Forget the topmost entry. -/
theorem Rel.drop (h : Rel R fz s t) {e : SEntry} {r : List SEntry} {e' : Entry} {r' : List Entry} (hs : s.stk = e :: r)
    (ht : t.stk = e' :: r') : Rel R fz { s with stk := r } { t with stk := r' } := by
  have hk := h.kinds
  have hl := h.live
  rw [hs, ht] at hk hl
  simp only [List.map_cons, List.cons.injEq] at hk
  exact { h with kinds := hk.2, live := hl.tail }

theorem Rel.raise {S : STab τ'} {al : Sl → Sl} (hT : TabSim al S T R) (h : Rel R fz s t) {e : SEntry}
    {r : List SEntry} (hs : s.stk = e :: r) : Rel R (raise fz e.capt) s t := by
  rcases h.stk with h' | ⟨e1, r1, e', r', h1, h2, _, _, _, hl⟩
  · rw [h'.1] at hs; cases hs
  rw [hs] at h1
  cases h1
  have := hl.freeze h.wf
  exact { h with
    wf := this.1
    live := by rw [hs, h2]; exact this.2
    tab := hT.mono (le_raised ..) h.tab }

/-- `stack.addCapt`. -/
theorem Rel.addCapt {P : Par} {S : STab τ'} {al : Sl → Sl} (hT : TabSim al S T R) (h : Rel R fz s t) {x : Sl}
    {ds : List Capture} (hd : DenS s.heap fz x ds)
    (hal : ∀ e r e' r', s.stk = e :: r → t.stk = e' :: r' → x.len ≠ 0 →
      Live s.heap fz (P.al x :: (r.map SEntry.capt ++ [s.capt])) (ds :: (r'.map Entry.capt ++ [t.capt]))) :
    Rel R fz (s.addCapt P x) (t.addCapt ds) ∧ Le s.heap fz (s.addCapt P x).heap fz := by
  have hl := h.live
  rcases h.stk with ⟨h1, h2⟩ | ⟨e, r, e', r', h1, h2, hk, hks, _, _⟩
  · rw [h1, h2] at hl
    simp only [SVM.addCapt, VM.addCapt, h1, h2]
    obtain ⟨hw, hle, hl'⟩ := append_ok (grow := P.grow) h.wf hl hd.den rfl
    exact ⟨{ h with
      kinds := rfl
      wf := hw
      live := hl'
      tab := hT.mono hle h.tab }, hle⟩
  · rw [h1, h2] at hl
    simp only [SVM.addCapt, VM.addCapt, h1, h2]
    obtain ⟨hw, hle, hl'⟩ := addE_ok (P := P) (s' := (addE P s.heap e.capt x).2) (h' := (addE P s.heap e.capt x).1) h.wf hl hd
      (hal e r e' r' h1 h2) rfl
    exact ⟨{ h with
      kinds := by simp [hk, hks]
      wf := hw
      live := hl'
      tab := hT.mono hle h.tab }, hle⟩

/-- `pop(true)`. -/
theorem Rel.pop {P : Par} {S : STab τ'} {al : Sl → Sl} (hP : AlOK P.al) (hT : TabSim al S T R) (h : Rel R fz s t)
    {e : SEntry} {r : List SEntry} {e' : Entry} {r' : List Entry} (hs : s.stk = e :: r) (ht : t.stk = e' :: r') :
    ∃ fz', Rel R fz' ({ s with stk := r }.addCapt P e.capt) ({ t with stk := r' }.addCapt e'.capt) ∧
      e.capt.len ≤ fz' e.capt.arr ∧ DenS ({ s with stk := r }.addCapt P e.capt).heap fz' e.capt e'.capt := by
  have h' := h.raise hT hs
  have hl := h'.live
  rw [hs, ht] at hl
  have hf := raise_self fz e.capt
  have := (h'.drop hs ht).addCapt (P := P) hT (x := e.capt) (ds := e'.capt) hl.head (by
    intro e1 r1 e1' r1' h1 h2 _
    simp only at h1 h2
    subst h1 h2
    exact hl.drop2.alias hP hf)
  exact ⟨_, this.1, hf, hl.head.mono this.2 hf⟩

/-- `stack.addCapt` of one new capture. -/
theorem Rel.addCapt1 {P : Par} {S : STab τ'} {al : Sl → Sl} (hP : AlOK P.al) (hT : TabSim al S T R)
    (h : Rel R fz s t) {x : SCap} {d : Capture} (hd : DenC s.heap fz x d) :
    ∃ fz', Rel R fz' (s.addCapt1 P x) (t.addCapt [d]) := by
  obtain ⟨hw, hle, hl⟩ := alloc_ok h.wf h.live hd
  obtain ⟨hw', hl'⟩ := hl.freeze hw
  have hle' := hle.trans (le_raised _ _ ⟨s.heap.length, 1, 1⟩)
  have hrel : Rel R (Slice.raise fz ⟨s.heap.length, 1, 1⟩) { s with heap := s.heap ++ [[x]] } t :=
    { h with wf := hw', live := hl'.tail, tab := hT.mono hle' h.tab }
  refine ⟨_, (hrel.addCapt (P := P) hT (x := ⟨s.heap.length, 1, 1⟩) hl'.head ?_).1⟩
  intro e r e' r' h1 h2 _
  simp only at h1
  rw [h1, h2] at hl'
  exact hl'.drop2.alias hP (raise_self ..)

theorem Rel.memoize (hT : TabSim c.par.al c.tab T R) (h : Rel R fz s t) (id : Int) (pos : Nat) (mlen : Option Nat)
    (count : Nat) {x : Sl} {ds : List Capture} (hd : DenS s.heap fz x ds) (hf : x.len ≤ fz x.arr) :
    Rel R fz (c.memoize s id pos mlen count x) ((c.toCfg T).memoize t id pos mlen count ds) := by
  unfold SCfg.memoize Cfg.memoize
  refine { h with tab := ?_ }
  simp only [SCfg.toCfg, h.src]
  by_cases hi : c.intrvl.isSome = true
  · simp only [hi, if_true]
    exact hT.put h.tab (.nil _ _) (Nat.zero_le _)
  · simp only [hi]
    exact hT.put h.tab hd hf

theorem doFail_rel (hT : TabSim c.par.al c.tab T R) : ∀ (l : List SEntry) (l' : List Entry) {s : SVM ι τ' σ}
    {t : VM ι τ σ}, Rel R fz { s with stk := l } { t with stk := l' } → ORel R (c.doFail s l) ((c.toCfg T).doFail t l')
  | [], [], s, t, h => .halt (fz := fz) trivial h
  | [], _ :: _, s, t, h => by cases h.kinds
  | _ :: _, [], s, t, h => by cases h.kinds
  | e :: l, e' :: l', s, t, h => by
    have hk := h.kinds
    simp only [List.map_cons, List.cons.injEq] at hk
    have hdrop := h.drop rfl rfl
    unfold SCfg.doFail Cfg.doFail
    rw [hk.1]
    cases e'.kind with
    | ret _ => exact doFail_rel hT l l' hdrop
    | capt _ _ => exact doFail_rel hT l l' hdrop
    | check _ _ _ => exact doFail_rel hT l l' hdrop
    | memoTree _ _ _ => exact .next hdrop
    | btrack ip off => exact .next { hdrop with ip := rfl, src := by simp only [SCfg.toCfg]; rw [show s.src = t.src from h.src] }
    | memo id pos =>
      refine doFail_rel hT l l' ?_
      exact hdrop.memoize hT id pos none 0 (.nil _ _) (Nat.zero_le _)

theorem fail_rel (hT : TabSim c.par.al c.tab T R) (h : Rel R fz s t) : ORel R (c.fail s) ((c.toCfg T).fail t) :=
  doFail_rel hT _ _ h

theorem spanLoop_eq (cs : CSet) : ∀ (k : Nat) (src : ι), c.spanLoop cs k src = (c.toCfg T).spanLoop cs k src
  | 0, _ => rfl
  | k + 1, src => by
    unfold SCfg.spanLoop Cfg.spanLoop
    simp only [spanLoop_eq cs k]
    rfl

/-! ## Memo trees -/

theorem popInto_ok {P : Par} (hP : AlOK P.al) : ∀ (passed : List SEntry) (passed' : List Entry) {h : Heap}
    {fz : Nat → Nat} {top : Sl} {L : List Sl} {tc : List Capture} {Cs : List (List Capture)},
    passed.length = passed'.length → WF h fz →
    Live h fz (passed.map SEntry.capt ++ top :: L) (passed'.map Entry.capt ++ tc :: Cs) →
    ∃ fz', WF (SCfg.popInto P top h passed).1 fz' ∧ Le h fz (SCfg.popInto P top h passed).1 fz' ∧
      Live (SCfg.popInto P top h passed).1 fz' ((SCfg.popInto P top h passed).2 :: L)
        ((tc ++ (passed'.reverse.map Entry.capt).flatten) :: Cs)
  | [], [], h, fz, top, L, tc, Cs, _, hw, hl => by
    unfold SCfg.popInto
    exact ⟨fz, hw, Le.refl _ _, by simpa using hl⟩
  | [e], [e'], h, fz, top, L, tc, Cs, _, hw, hl => by
    unfold SCfg.popInto
    obtain ⟨hw', hl'⟩ := Live.freeze hw hl
    obtain ⟨a, b, d⟩ := popE_ok (h' := (addE P h top e.capt).1) (s' := (addE P h top e.capt).2) hP hw' hl'
      (raise_self ..) rfl
    exact ⟨_, a, (le_raised ..).trans b, by simpa using d⟩
  | e :: e1 :: rest, e' :: e1' :: rest', h, fz, top, L, tc, Cs, hlen, hw, hl => by
    unfold SCfg.popInto
    obtain ⟨hw', hl'⟩ := Live.freeze hw hl
    obtain ⟨a, b, d⟩ := popE_ok (h' := (addE P h e1.capt e.capt).1) (s' := (addE P h e1.capt e.capt).2) hP hw' hl'
      (raise_self ..) rfl
    obtain ⟨fz', a', b', d'⟩ := popInto_ok hP ({ e1 with capt := (addE P h e1.capt e.capt).2 } :: rest)
      (⟨e1'.kind, e1'.capt ++ e'.capt⟩ :: rest') (by simpa using hlen) a d
    exact ⟨fz', a', ((le_raised ..).trans b).trans b', by simpa using d'⟩
  | [], _ :: _, _, _, _, _, _, _, h, _, _ | _ :: _, [], _, _, _, _, _, _, h, _, _
  | [_], _ :: _ :: _, _, _, _, _, _, _, h, _, _ | _ :: _ :: _, [_], _, _, _, _, _, _, h, _, _ => by simp at h
termination_by l => l.length

theorem treeClose_rel (hP : AlOK c.par.al) (hT : TabSim c.par.al c.tab T R) (id : Int) : ∀ (l : List SEntry)
    (l' : List Entry) {fz : Nat → Nat} {s : SVM ι τ' σ} {t : VM ι τ σ}, t.stk = l' →
    Rel R fz { s with stk := l } t →
    ∃ fz', Rel R fz' (SCfg.treeClose c.par id l s) (Cfg.treeClose id t l')
  | [], [], fz, s, t, ht, h => by
    unfold SCfg.treeClose Cfg.treeClose
    exact ⟨fz, h⟩
  | [], _ :: _, fz, s, t, ht, h => by have := h.kinds; rw [ht] at this; cases this
  | _ :: _, [], fz, s, t, ht, h => by have := h.kinds; rw [ht] at this; cases this
  | e :: l, e' :: l', fz, s, t, ht, h => by
    have hk := h.kinds
    rw [ht] at hk
    simp only [List.map_cons, List.cons.injEq] at hk
    unfold SCfg.treeClose Cfg.treeClose
    rw [hk.1]
    cases hk' : e'.kind with
    | memoTree id' a b =>
      simp only
      by_cases hid : id' = id
      · simp only [if_pos hid]
        obtain ⟨fz', hr, _, _⟩ := h.pop (P := c.par) hP hT rfl ht
        cases l with
        | nil =>
          cases l' with
          | cons x y => cases hk.2
          | nil => exact ⟨fz', hr⟩
        | cons e1 l =>
          cases l' with
          | nil => cases hk.2
          | cons e1' l' => exact treeClose_rel hP hT id _ _ rfl hr
      · simp only [if_neg hid]
        exact ⟨fz, h⟩
    | ret _ => exact ⟨fz, h⟩
    | capt _ _ => exact ⟨fz, h⟩
    | check _ _ _ => exact ⟨fz, h⟩
    | btrack _ _ => exact ⟨fz, h⟩
    | memo _ _ => exact ⟨fz, h⟩
termination_by l => l.length

theorem treeLoop_rel (hP : AlOK c.par.al) (hT : TabSim c.par.al c.tab T R) : ∀ (rest : List SEntry)
    (rest' : List Entry) {fz : Nat → Nat} {s : SVM ι τ' σ} {t : VM ι τ σ} (passed : List SEntry)
    (passed' : List Entry) (accum : Nat) (top : SEntry) (top' : Entry), passed.length = passed'.length →
    Rel R fz { s with stk := passed ++ top :: rest } { t with stk := passed' ++ top' :: rest' } →
    ∃ fz', Rel R fz' (c.treeLoop s passed accum top rest) ((c.toCfg T).treeLoop t passed' accum top' rest')
  | [], rest', fz, s, t, passed, passed', accum, top, top', hlen, h => by
    have hk := h.kinds
    simp only [List.map_append, List.map_cons] at hk
    obtain ⟨h1, h2⟩ := List.append_inj hk (by simpa using hlen)
    simp only [List.cons.injEq] at h2
    cases rest' with
    | cons x y => cases h2.2
    | nil =>
      unfold SCfg.treeLoop Cfg.treeLoop
      exact ⟨fz, h⟩
  | nxt :: rest, rest', fz, s, t, passed, passed', accum, top, top', hlen, h => by
    have hk := h.kinds
    simp only [List.map_append, List.map_cons] at hk
    obtain ⟨h1, h2⟩ := List.append_inj hk (by simpa using hlen)
    cases rest' with
    | nil => simp at h2
    | cons nxt' rest' =>
    simp only [List.map_cons, List.cons.injEq] at h2
    obtain ⟨htk, hnk, hrk⟩ := h2
    unfold SCfg.treeLoop Cfg.treeLoop
    rw [htk, hnk]
    generalize top'.kind = k1
    generalize nxt'.kind = k2
    cases k1 <;> cases k2
    case memoTree.memoTree a tpos tcount nid npos ncount =>
      by_cases hacc : accum + tcount < ncount
      · simp only [if_pos hacc]
        refine treeLoop_rel hP hT rest rest' _ _ _ _ _ (by simp [hlen]) (fz := fz) ?_
        simpa using h
      · simp only [if_neg hacc]
        have hl := h.live
        simp only [List.map_append, List.map_cons, List.append_assoc, List.cons_append] at hl
        obtain ⟨fz1, w1, le1, l1⟩ := popInto_ok hP passed passed' hlen h.wf hl
        generalize SCfg.popInto c.par top.capt s.heap passed = q at w1 le1 l1
        obtain ⟨w2, l2⟩ := l1.freeze w1
        have le2 : Le s.heap fz q.1 (Slice.raise fz1 q.2) := le1.trans (le_raised _ fz1 q.2)
        have hf := raise_self fz1 q.2
        generalize hfz2 : Slice.raise fz1 q.2 = fz2 at w2 l2 le2 hf
        generalize hec : top'.capt ++ (passed'.reverse.map Entry.capt).flatten = ec at l1 l2
        have hsrc : s.src = t.src := h.src
        have hnext : ∀ (r : Heap × Sl) (nc : List Capture) (fz3 : Nat → Nat), WF r.1 fz3 → Le q.1 fz2 r.1 fz3 →
            Live r.1 fz3 (r.2 :: (rest.map SEntry.capt ++ [s.capt])) (nc :: (rest'.map Entry.capt ++ [t.capt])) →
            ∃ fz', Rel R fz' (c.treeLoop (c.memoize { s with heap := r.1 } nid npos
                (some (c.inp.pos s.src - npos)) (accum + tcount + ncount) r.2) [] 0
                ⟨.memoTree nid npos (accum + tcount + ncount), r.2⟩ rest)
              ((c.toCfg T).treeLoop ((c.toCfg T).memoize t nid npos (some (c.inp.pos s.src - npos))
                (accum + tcount + ncount) nc) [] 0 ⟨.memoTree nid npos (accum + tcount + ncount), nc⟩ rest') := by
          intro r nc fz3 w3 le3 l3
          obtain ⟨w4, l4⟩ := l3.freeze w3
          have le4 := (le2.trans le3).trans (le_raised _ fz3 r.2)
          refine treeLoop_rel hP hT rest rest' [] [] _ _ _ rfl (fz := Slice.raise fz3 r.2) ?_
          have hbase : Rel R (Slice.raise fz3 r.2)
              { s with heap := r.1, stk := ⟨.memoTree nid npos (accum + tcount + ncount), r.2⟩ :: rest }
              { t with stk := ⟨.memoTree nid npos (accum + tcount + ncount), nc⟩ :: rest' } :=
            { ip := h.ip, src := h.src, errs := h.errs, cst := h.cst, rng := h.rng
              kinds := by simp [hrk]
              wf := w4
              live := l4
              tab := hT.mono le4 h.tab }
          exact hbase.memoize hT nid npos _ _ l4.head (raise_self ..)
        have hpos : (c.toCfg T).inp.pos t.src = c.inp.pos s.src := by rw [hsrc]; rfl
        have hlq : ec.length = q.2.len := l2.head.length
        rw [hpos]
        by_cases h0 : q.2.len > 0
        · have h0' : ec.length > 0 := by omega
          simp only [if_pos h0, if_pos h0']
          cases hi : c.intrvl.isNone with
          | true =>
            have hi' : (c.toCfg T).intrvl.isNone = true := hi
            simp only [hi', if_true]
            have hd : DenC q.1 fz2 (.dummy tpos (c.inp.pos s.src - tpos) q.2)
                (.dummy tpos (c.inp.pos s.src - tpos) ec) := .dummy hf l2.head.den
            obtain ⟨w3, le3, l3⟩ := alloc_ok w2 l2.tail hd
            obtain ⟨w4, l4⟩ := l3.freeze w3
            obtain ⟨w5, le5, l5⟩ := popE_ok (P := c.par) hP w4 l4 (raise_self ..) rfl
            exact hnext _ _ _ w5 (le3.trans ((le_raised ..).trans le5)) l5
          | false =>
            have hi' : (c.toCfg T).intrvl.isNone = false := hi
            simp only [hi', Bool.false_eq_true, if_false]
            obtain ⟨w3, le3, l3⟩ := popE_ok (P := c.par) hP w2 l2 hf rfl
            exact hnext _ _ _ w3 le3 l3
        · have h0' : ¬ ec.length > 0 := by omega
          simp only [if_neg h0, if_neg h0']
          exact hnext (q.1, nxt.capt) _ _ w2 (Le.refl _ _) l2.tail
    all_goals exact ⟨fz, h⟩

end
end Gpeg.Slice
