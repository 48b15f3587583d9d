import Verif.LazyLogEach
import Verif.Props.LazyLogEager
/-! # C83: the interval tree with shifts applied lazily -/
namespace Gpeg.LazyLog
variable {α : Type}

/-- The invariant of histories in which no node becomes empty and no position is asked for. -/
structure Lazy (st : St α) : Prop where
  wf : WfS st.tree.shifts
  time : st.tree.tstamp = st.tree.shifts.length
  lz : Lz st.tree.shifts st.tree.root
  ord : st.tree.root.Ord st.tree.shifts
  nodup : ((st.tree.root.flat st.tree.shifts).map Fl.addr).Nodup
  fresh : ∀ f ∈ st.tree.root.flat st.tree.shifts, f.addr < st.tree.next
  perm : ((st.tree.root.flat st.tree.shifts).flatMap Fl.slots).Perm st.live

theorem lazy_init : Lazy ({} : St α) :=
  ⟨(fun i s h => by simp at h), rfl, .nil, .nil, .nil, (fun _ h => by cases h), .refl _⟩

theorem lazy_add {st : St α} (h : Lazy st) {id low high : Int} {v : α} (h0 : 0 ≤ low) (hlh : low ≤ high) :
    Lazy (st.step (.add id low high v)) := by
  obtain ⟨hs, ht, hz, hr, hn, hf, hp⟩ := h
  have e : (st.tree.add id low high v) =
      ({ root := (add st.tree.shifts st.tree.shifts.length st.tree.next low id ⟨low, high, v⟩ st.tree.root).1, shifts := st.tree.shifts,
         tstamp := st.tree.tstamp, next := st.tree.next + 1 },
        (add st.tree.shifts st.tree.shifts.length st.tree.next low id ⟨low, high, v⟩ st.tree.root).2) := by
    simp only [Tree.add, ht]
  obtain ⟨hz', -, hrel⟩ := add_lz hs st.tree.next low id ⟨low, high, v⟩ rfl (by simp only []; omega) hlh st.tree.root hz hr
  refine ⟨?_, ?_, ?_, ?_, ?_, ?_, ?_⟩
  · simp only [St.step, e]; exact hs
  · simp only [St.step, e]; exact ht
  · simp only [St.step, e]; exact hz'
  · simp only [St.step, e]; exact hrel.ord hr
  · simp only [St.step, e]
    rcases hrel with ⟨A, B, e1, e2, e3, -⟩ | ⟨A, g, B, e1, e2, e3, e4, e5⟩
    · rw [e2]
      rw [e1] at hn hf
      simp only [List.map_append, List.map_cons] at hn ⊢
      refine (List.perm_middle.nodup_iff).2 (List.nodup_cons.2 ⟨?_, hn⟩)
      intro hm
      rw [← List.map_append] at hm
      obtain ⟨f, hf', e⟩ := List.mem_map.1 hm
      have := hf f hf'
      omega
    · rw [e2]
      rw [e1] at hn
      simpa using hn
  · simp only [St.step, e]
    intro f hf'
    rcases hrel with ⟨A, B, e1, e2, e3, -⟩ | ⟨A, g, B, e1, e2, e3, e4, e5⟩
    · rw [e1] at hf
      rw [e2, List.mem_append, List.mem_cons] at hf'
      rcases hf' with hf' | rfl | hf'
      · have := hf f (List.mem_append_left _ hf'); omega
      · exact Nat.lt_succ_self _
      · have := hf f (List.mem_append_right _ hf'); omega
    · rw [e1] at hf
      rw [e2, List.mem_append, List.mem_cons] at hf'
      rcases hf' with hf' | rfl | hf'
      · have := hf f (List.mem_append_left _ hf'); omega
      · have := hf g (List.mem_append_right _ List.mem_cons_self)
        simp only []
        omega
      · have := hf f (List.mem_append_right _ (List.mem_cons_of_mem _ hf')); omega
  · simp only [St.step, e]
    generalize (add st.tree.shifts st.tree.shifts.length st.tree.next low id ⟨low, high, v⟩ st.tree.root).2 = loc at *
    rcases hrel with ⟨A, B, e1, e2, e3, -⟩ | ⟨A, g, B, e1, e2, e3, e4, e5⟩
    · rw [e2]
      rw [e1] at hp
      subst e3
      simp only [List.flatMap_append, List.flatMap_cons, Fl.slots, List.map_cons, List.map_nil, List.singleton_append]
        at hp ⊢
      exact List.perm_middle.trans (((hp.cons _)).trans (List.perm_append_singleton _ _).symm)
    · rw [e2]
      rw [e1] at hp
      subst e3
      simp only [List.flatMap_append, List.flatMap_cons, Fl.slots, List.map_append, List.map_cons, List.map_nil,
        List.append_assoc, List.singleton_append] at hp ⊢
      rw [← List.append_assoc] at hp ⊢
      rw [e5]
      rw [e5] at hp
      exact List.perm_middle.trans (((hp.cons _)).trans (List.perm_append_singleton _ _).symm)

theorem lazy_find {st : St α} (h : Lazy st) (id pos : Int) : Lazy (st.step (.find id pos)) := by
  obtain ⟨hs, ht, hz, hr, hn, hf, hp⟩ := h
  obtain ⟨h1, h2, -⟩ := search_lz hs pos id st.tree.root hz hr
  refine ⟨hs, ht, h1, ?_, ?_, ?_, ?_⟩
  all_goals simp only [St.step, Tree.findLargest, Tr.Ord, h2]
  · exact hr
  · exact hn
  · exact hf
  · exact hp

theorem lazy_edit {st : St α} (h : Lazy st) {low high amt : Int} (hlh : low ≤ high) (ha : low - high ≤ amt) :
    Lazy (st.stepK (-1) removeOverlapsR (.edit low high amt)) := by
  obtain ⟨hs, ht, hz, hr, hn, hf, hp⟩ := h
  have ho := hz.wf_flat hs
  obtain ⟨m, hm⟩ : ∃ m : Int, ∀ x, st.tree.root.fmx st.tree.shifts = some x → x ≤ m := by
    cases st.tree.root.fmx st.tree.shifts with
    | none => exact ⟨0, nofun⟩
    | some y => exact ⟨y, fun x hx => by cases hx; exact Int.le_refl _⟩
  obtain ⟨o, hpc⟩ := removeOverlaps_lz hs low high st.tree.root.size st.tree.root m (Nat.le_refl _) hr hz hm
  have hstep : ∃ T : Tree α, (st.stepK (-1) removeOverlapsR (.edit low high amt)).tree = T ∧ WfS T.shifts ∧
      T.tstamp = T.shifts.length ∧ T.next = st.tree.next ∧ Lz T.shifts T.root ∧
      T.root.flat T.shifts = ((st.tree.root.flat st.tree.shifts).filterMap (clean low high)).map
        (Fl.move ⟨low, amt, st.tree.shifts.length + 1⟩) := by
    refine ⟨_, rfl, ?_⟩
    simp only [St.stepK, Tree.removeAndShiftK]
    by_cases h0 : amt = 0
    · subst h0
      simp only [ne_eq, not_true_eq_false, if_false]
      refine ⟨hs, ht, trivial, o.lz, ?_⟩
      rw [o.flat]
      conv_lhs => rw [← List.map_id (List.filterMap _ _)]
      exact List.map_congr_left fun f _ => (move_zero _ _ f).symm
    · simp only [ne_eq, h0, not_false_eq_true, if_true, Tree.shiftK, if_false, not_true_eq_false, false_and, ht]
      exact ⟨wfS_snoc hs rfl, by simp, trivial, shift_lz hs hlh rfl o.lz hpc, by rw [flat_snoc_lz o.lz, o.flat]⟩
  obtain ⟨T, e, t1, t2, t3, t4, t5⟩ := hstep
  have hlive : (st.stepK (-1) removeOverlapsR (.edit low high amt)).live = followAll low high amt st.live := rfl
  generalize st.stepK (-1) removeOverlapsR (.edit low high amt) = st' at *
  subst e
  refine ⟨t1, t2, t4, ?_, ?_, ?_, ?_⟩
  · rw [Tr.Ord, t5, List.pairwise_map]
    refine List.Pairwise.imp_of_mem ?_ (pairwise_clean (low := low) (high := high) hr)
    have hside : ∀ f ∈ (st.tree.root.flat st.tree.shifts).filterMap (clean low high), f.pos < low ∨ high < f.pos := by
      intro f hf'
      obtain ⟨hne, hov⟩ := clean_done f hf'
      obtain ⟨g, hg, hc⟩ := List.mem_filterMap.1 hf'
      obtain ⟨c1, -, -, c4⟩ := clean_key hc
      cases hi : f.ins with
      | nil => exact absurd hi hne
      | cons i is =>
        have hm : i ∈ f.ins := by rw [hi]; exact List.mem_cons_self
        have hw := (ho g hg).2 i (c4 i hm)
        have hv := hov i hm
        simp only [Ival.overlaps, Bool.and_eq_false_iff, decide_eq_false_iff_not] at hv
        omega
    intro a b hma hmb hab
    have h1 := hside a hma
    have h2 := hside b hmb
    simp only [Fl.lt, Fl.move, klt, movePos] at hab ⊢
    split <;> split <;> omega
  · rw [t5]
    exact hn.sublist (addr_clean _)
  · intro f hf'
    rw [t5] at hf'
    obtain ⟨g, hg, e⟩ := List.mem_map.1 ((addr_clean _).subset (List.mem_map_of_mem hf'))
    have := hf g hg
    omega
  · rw [t5, hlive]
    exact (slots_edit hlh fun f hf => (ho f hf).2).trans (hp.filterMap _)

/-- No position is asked for in the history (at its end it may be: `Right.pos`). -/
def NoPos (ops : List (Op α)) : Prop := ∀ op ∈ ops, ∀ a, op ≠ .pos a

theorem lazy_run : ∀ (ops : List (Op α)) (st : St α), Lazy st → (∀ op ∈ ops, op.Valid) → NoPos ops →
    Lazy (ops.foldl (St.stepK (-1) removeOverlapsR) st)
  | [], _, h, _, _ => h
  | op :: ops, st, h, hv, hn => by
    have hv' : ∀ op ∈ ops, op.Valid := fun o ho => hv o (List.mem_cons_of_mem _ ho)
    have hn' : NoPos ops := fun o ho => hn o (List.mem_cons_of_mem _ ho)
    have hv0 := hv op List.mem_cons_self
    rw [List.foldl_cons]
    cases op with
    | add id low high v => exact lazy_run ops _ (lazy_add h hv0.1 hv0.2) hv' hn'
    | edit low high amt => exact lazy_run ops _ (lazy_edit h hv0.1 hv0.2) hv' hn'
    | find id pos => exact lazy_run ops _ (lazy_find h id pos) hv' hn'
    | pos a => exact absurd rfl (hn _ List.mem_cons_self a)

/-! ## What the invariant says -/

theorem touch_at {S : List Shift} (hS : WfS S) (a : Nat) {t : Tr α} (h : Each S t) :
    (∀ d, (t.touch S a).at? a = some d → d.t = S.length ∧ d.fl S ∈ t.flat S ∧ d.addr = a) ∧
    ((t.touch S a).at? a = none → ∀ f ∈ t.flat S, f.addr ≠ a) := by
  induction h with
  | nil => exact ⟨nofun, fun _ => nofun⟩
  | @node e l r time raw hl hr ihl ihr =>
    obtain ⟨h1, h2, h3⟩ := raw_sync0 hS (lm := l.mx?) (rm := r.mx?) time raw
    have hadd : (applyShifts S l.mx? r.mx? e).addr = e.addr := by
      have := congrArg Fl.addr h2
      rwa [Nd.fl_done S _ h3] at this
    rw [Tr.touch]
    by_cases he : e.addr = a
    · rw [if_pos he, Tr.at?, if_pos (hadd.trans he)]
      refine ⟨fun d hd => ?_, nofun⟩
      cases hd
      exact ⟨h3, by rw [h2]; simp [Tr.flat], hadd.trans he⟩
    · rw [if_neg he, Tr.at?, if_neg he]
      refine ⟨fun d hd => ?_, fun hd f hf => ?_⟩
      · cases hq : (l.touch S a).at? a with
        | some x =>
          rw [hq] at hd
          cases hd
          obtain ⟨k1, k2, k3⟩ := ihl.1 _ hq
          exact ⟨k1, by simp [Tr.flat, k2], k3⟩
        | none =>
          rw [hq] at hd
          obtain ⟨k1, k2, k3⟩ := ihr.1 _ hd
          exact ⟨k1, by simp [Tr.flat, k2], k3⟩
      · rw [Option.or_eq_none_iff] at hd
        simp only [Tr.flat, List.mem_append, List.mem_cons] at hf
        rcases hf with hf | rfl | hf
        · exact ihl.2 hd.1 f hf
        · exact he
        · exact ihr.2 hd.2 f hf

theorem Lz.maxBounds {S : List Shift} (hS : WfS S) {t : Tr α} (h : Lz S t) : MaxBounds S t := by
  have h0 := h
  induction h with
  | nil => trivial
  | @node d l r time raw fl fr hl hr ihl ihr =>
    exact ⟨h0.high_flat hS (m := (applyShifts S l.mx? r.mx? d).mx) fun y hy => by cases hy; exact Int.le_refl _,
      ihl hl, ihr hr⟩

theorem allvals_flatS (S : List Shift) : ∀ t : Tr α, t.allvals = (t.flat S).flatMap fun f => f.ins.map Ival.val
  | .nil => rfl
  | .node d l r => by
    simp only [Tr.allvals, Tr.flat, List.flatMap_append, List.flatMap_cons, Nd.fl, shiftIns, List.map_map,
      allvals_flatS S l, allvals_flatS S r, List.append_assoc]
    rfl

theorem Lz.each {S : List Shift} {t : Tr α} (h : Lz S t) : Each S t := by
  induction h with
  | nil => exact .nil
  | node time raw _ _ _ _ ihl ihr => exact .node time ⟨raw.ne, raw.wf, raw.high, nofun, nofun⟩ ihl ihr

/-- The invariant without the fields `max`. -/
structure Whole (st : St α) : Prop where
  wf : WfS st.tree.shifts
  time : st.tree.tstamp = st.tree.shifts.length
  each : Each st.tree.shifts st.tree.root
  ord : st.tree.root.Ord st.tree.shifts
  nodup : ((st.tree.root.flat st.tree.shifts).map Fl.addr).Nodup
  fresh : ∀ f ∈ st.tree.root.flat st.tree.shifts, f.addr < st.tree.next
  perm : ((st.tree.root.flat st.tree.shifts).flatMap Fl.slots).Perm st.live

theorem Lazy.whole {st : St α} (h : Lazy st) : Whole st := ⟨h.wf, h.time, h.lz.each, h.ord, h.nodup, h.fresh, h.perm⟩

theorem Whole.answers {st : St α} (h : Whole st) : Answers st := by
  obtain ⟨hs, ht, hz, hr, hn, hf, hp⟩ := h
  have ho := hz.wf_flat hs
  have hin : ∀ f ∈ st.tree.root.flat st.tree.shifts, ∀ i ∈ f.ins, (⟨f.id, i.low, i.high, i.val⟩, f.addr) ∈ st.live := by
    intro f hf i hi
    refine hp.mem_iff.1 (List.mem_flatMap.2 ⟨f, hf, ?_⟩)
    exact List.mem_map.2 ⟨i, hi, rfl⟩
  have hout : ∀ s ∈ st.live, ∃ f ∈ st.tree.root.flat st.tree.shifts, f.id = s.1.id ∧ f.addr = s.2 ∧ f.pos = s.1.low ∧
      ⟨s.1.low, s.1.high, s.1.val⟩ ∈ f.ins := by
    intro s hs
    obtain ⟨f, hf, hm⟩ := List.mem_flatMap.1 (hp.mem_iff.2 hs)
    obtain ⟨i, hi, e⟩ := List.mem_map.1 hm
    subst e
    exact ⟨f, hf, rfl, rfl, ((ho f hf).2 i hi).1.symm, hi⟩
  refine ⟨?_, ?_, ?_, ?_, ?_⟩
  · intro id pos v hfind
    obtain ⟨-, -, hsr⟩ := search_each hs pos id st.tree.root hz hr
    simp only [Tree.findLargest] at hfind
    cases hq : (search st.tree.shifts pos id st.tree.root).2 with
    | none => rw [hq] at hfind; cases hfind
    | some d =>
      rw [hq] at hfind hsr
      obtain ⟨h4, h5, h6, h7⟩ := hsr
      have hdf := Nd.fl_done _ d h4
      simp only [] at hfind
      cases hi : d.ins with
      | nil => rw [hi] at hfind; cases hfind
      | cons i is =>
        rw [hi] at hfind
        simp only [Option.some.injEq] at hfind
        have hm := largest_mem is i
        rw [← hi] at hm
        have hw := (ho _ h7).2
        have hst := hin _ h7
        rw [hdf] at hw hst
        have h8 := hw _ hm
        exact ⟨_, hst _ hm, h6, by simp only [] at h8 ⊢; omega, hfind⟩
  · intro s hsl
    obtain ⟨f, hf, hf1, hf2, hf3, hf4⟩ := hout s hsl
    obtain ⟨-, -, hsr⟩ := search_each hs s.1.low s.1.id st.tree.root hz hr
    simp only [Tree.findLargest]
    cases hq : (search st.tree.shifts s.1.low s.1.id st.tree.root).2 with
    | none =>
      rw [hq] at hsr
      exact absurd ⟨hf3, hf1⟩ (hsr f hf)
    | some d =>
      rw [hq] at hsr
      obtain ⟨h4, h5, h6, h7⟩ := hsr
      have hdf := Nd.fl_done _ d h4
      have hfd : f = d.fl st.tree.shifts := ord_unique hr f hf _ h7 (by rw [hdf]; simp only []; omega)
        (by rw [hdf]; simp only []; omega)
      rw [hfd, hdf] at hf4
      simp only [] at hf4
      cases hi : d.ins with
      | nil => rw [hi] at hf4; cases hf4
      | cons i is =>
        refine ⟨(Tree.largest is i).val, by simp only [hi], ?_⟩
        rw [hi] at hf4
        have hm := largest_mem is i
        rw [← hi] at hm
        have hw := (ho _ h7).2
        have hst := hin _ h7
        rw [hdf] at hw hst
        have h8 := (hw _ hm).1
        have h9 := largest_ge is i _ hf4
        simp only [] at h8 h9
        exact ⟨_, hst _ hm, h6, by simp only []; omega, rfl, h9⟩
  · intro s hsl
    obtain ⟨f, hf, hf1, hf2, hf3, hf4⟩ := hout s hsl
    obtain ⟨h1, h2⟩ := touch_at hs s.2 hz
    simp only [Tree.posOf]
    cases ha : (st.tree.root.touch st.tree.shifts s.2).at? s.2 with
    | none => exact absurd hf2 (h2 ha f hf)
    | some d =>
      obtain ⟨k1, k2, k3⟩ := h1 d ha
      have : f = d.fl st.tree.shifts := eq_of_addr hn hf k2 (by rw [Nd.fl_done _ d k1]; simp only []; omega)
      rw [this, Nd.fl_done _ d k1] at hf3
      exact congrArg some hf3
  · rw [Tree.allValues, allvals_flatS st.tree.shifts]
    have := hp.map fun s : Slot α × Nat => s.1.val
    refine List.Perm.trans (.of_eq ?_) this
    rw [List.map_flatMap]
    congr 1
    funext f
    simp only [Fl.slots, List.map_map]
    rfl
  · exact hr

theorem Lazy.right {st : St α} (h : Lazy st) : Right st := ⟨h.whole.answers, h.lz.maxBounds h.wf⟩

/-- **C83, with the repaired `remove`**: the tree with shifts applied lazily is right after every history in which no position
is asked for. -/
theorem C83_repaired (ops : List (Op α)) (hv : ∀ op ∈ ops, op.Valid) (hn : NoPos ops) :
    Right (runK (-1) removeOverlapsR ops) :=
  (lazy_run ops {} lazy_init hv hn).right

example : (∀ op ∈ stale, op.Valid) ∧ NoPos stale ∧ (runK (-1) removeOverlapsR stale).live.length = 6 ∧
    (runK (-1) removeOverlapsR stale).tree.shifts.length = 10 := by
  refine ⟨stale_valid, ?_, by decide +kernel, by decide +kernel⟩
  intro op h a e
  subst e
  simp [stale] at h

/-! ## The code -/

theorem apart_lazy : ∀ (ops : List (Op α)) (st : St α), Lazy st → (∀ op ∈ ops, op.Valid) → NoPos ops → Apart st ops →
    Lazy (ops.foldl St.step st)
  | [], _, h, _, _, _ => h
  | op :: ops, st, h, hv, hn, hap => by
    have hv' : ∀ op ∈ ops, op.Valid := fun o ho => hv o (List.mem_cons_of_mem _ ho)
    have hn' : NoPos ops := fun o ho => hn o (List.mem_cons_of_mem _ ho)
    have hv0 := hv op List.mem_cons_self
    rw [List.foldl_cons]
    cases op with
    | add id low high v => exact apart_lazy ops _ (lazy_add h hv0.1 hv0.2) hv' hn' hap
    | edit low high amt =>
      have e : st.step (.edit low high amt) = st.stepK (-1) removeOverlapsR (.edit low high amt) := by
        have hcl : ∀ g ∈ st.tree.root.flat st.tree.shifts, ∀ i ∈ g.ins, Ival.overlaps low high i = false := by
          intro g hg i hi
          have hm : (⟨g.id, i.low, i.high, i.val⟩, g.addr) ∈ st.live :=
            h.perm.mem_iff.1 (List.mem_flatMap.2 ⟨g, hg, List.mem_map.2 ⟨i, hi, rfl⟩⟩)
          have := hap.1 _ hm
          simp only [Ival.overlaps, Bool.and_eq_false_iff, decide_eq_false_iff_not] at this ⊢
          omega
        have e1 := removeOverlaps_same h.wf st.tree.root.size h.lz hcl
        rw [← stepK_code]
        simp only [St.stepK, Tree.removeAndShiftK, e1]
      have hap2 := hap.2
      rw [e] at hap2 ⊢
      exact apart_lazy ops _ (lazy_edit h hv0.1 hv0.2) hv' hn' hap2
    | find id pos => exact apart_lazy ops _ (lazy_find h id pos) hv' hn' hap
    | pos a => exact absurd rfl (hn _ List.mem_cons_self a)

/-- **C83**, for histories of the code whose edits meet no live interval and in which no position is asked for. The edits
may shorten the text, which C29 does not allow. Without the first restriction it is false by `C82_false` and `C30`, and
without the second by `C83_pos_false`: then only the fields `max` are wrong, not the answers (`C83_answers_partial`). -/
theorem C83_lazy_partial (ops : List (Op α)) (hv : ∀ op ∈ ops, op.Valid) (hn : NoPos ops) (hap : Apart {} ops) :
    Right (run ops) :=
  (apart_lazy ops {} lazy_init hv hn hap).right

/-! ## Positions asked for between edits -/

theorem whole_add {st : St α} (h : Whole st) {id low high : Int} {v : α} (h0 : 0 ≤ low) (hlh : low ≤ high) :
    Whole (st.step (.add id low high v)) := by
  obtain ⟨hs, ht, hz, hr, hn, hf, hp⟩ := h
  have e : (st.tree.add id low high v) =
      ({ root := (add st.tree.shifts st.tree.shifts.length st.tree.next low id ⟨low, high, v⟩ st.tree.root).1, shifts := st.tree.shifts,
         tstamp := st.tree.tstamp, next := st.tree.next + 1 },
        (add st.tree.shifts st.tree.shifts.length st.tree.next low id ⟨low, high, v⟩ st.tree.root).2) := by
    simp only [Tree.add, ht]
  obtain ⟨hz', hrel⟩ := add_each hs st.tree.next low id ⟨low, high, v⟩ rfl (by simp only []; omega) hlh st.tree.root hz hr
  refine ⟨?_, ?_, ?_, ?_, ?_, ?_, ?_⟩
  · simp only [St.step, e]; exact hs
  · simp only [St.step, e]; exact ht
  · simp only [St.step, e]; exact hz'
  · simp only [St.step, e]; exact hrel.ord hr
  · simp only [St.step, e]
    rcases hrel with ⟨A, B, e1, e2, e3, -⟩ | ⟨A, g, B, e1, e2, e3, e4, e5⟩
    · rw [e2]
      rw [e1] at hn hf
      simp only [List.map_append, List.map_cons] at hn ⊢
      refine (List.perm_middle.nodup_iff).2 (List.nodup_cons.2 ⟨?_, hn⟩)
      intro hm
      rw [← List.map_append] at hm
      obtain ⟨f, hf', e⟩ := List.mem_map.1 hm
      have := hf f hf'
      omega
    · rw [e2]
      rw [e1] at hn
      simpa using hn
  · simp only [St.step, e]
    intro f hf'
    rcases hrel with ⟨A, B, e1, e2, e3, -⟩ | ⟨A, g, B, e1, e2, e3, e4, e5⟩
    · rw [e1] at hf
      rw [e2, List.mem_append, List.mem_cons] at hf'
      rcases hf' with hf' | rfl | hf'
      · have := hf f (List.mem_append_left _ hf'); omega
      · exact Nat.lt_succ_self _
      · have := hf f (List.mem_append_right _ hf'); omega
    · rw [e1] at hf
      rw [e2, List.mem_append, List.mem_cons] at hf'
      rcases hf' with hf' | rfl | hf'
      · have := hf f (List.mem_append_left _ hf'); omega
      · have := hf g (List.mem_append_right _ List.mem_cons_self)
        simp only []
        omega
      · have := hf f (List.mem_append_right _ (List.mem_cons_of_mem _ hf')); omega
  · simp only [St.step, e]
    generalize (add st.tree.shifts st.tree.shifts.length st.tree.next low id ⟨low, high, v⟩ st.tree.root).2 = loc at *
    rcases hrel with ⟨A, B, e1, e2, e3, -⟩ | ⟨A, g, B, e1, e2, e3, e4, e5⟩
    · rw [e2]
      rw [e1] at hp
      subst e3
      simp only [List.flatMap_append, List.flatMap_cons, Fl.slots, List.map_cons, List.map_nil, List.singleton_append]
        at hp ⊢
      exact List.perm_middle.trans (((hp.cons _)).trans (List.perm_append_singleton _ _).symm)
    · rw [e2]
      rw [e1] at hp
      subst e3
      simp only [List.flatMap_append, List.flatMap_cons, Fl.slots, List.map_append, List.map_cons, List.map_nil,
        List.append_assoc, List.singleton_append] at hp ⊢
      rw [← List.append_assoc] at hp ⊢
      rw [e5]
      rw [e5] at hp
      exact List.perm_middle.trans (((hp.cons _)).trans (List.perm_append_singleton _ _).symm)

theorem whole_find {st : St α} (h : Whole st) (id pos : Int) : Whole (st.step (.find id pos)) := by
  obtain ⟨hs, ht, hz, hr, hn, hf, hp⟩ := h
  obtain ⟨h1, h2, -⟩ := search_each hs pos id st.tree.root hz hr
  refine ⟨hs, ht, h1, ?_, ?_, ?_, ?_⟩
  all_goals simp only [St.step, Tree.findLargest, Tr.Ord, h2]
  · exact hr
  · exact hn
  · exact hf
  · exact hp

theorem whole_pos {st : St α} (h : Whole st) (a : Nat) : Whole (st.step (.pos a)) := by
  obtain ⟨hs, ht, hz, hr, hn, hf, hp⟩ := h
  obtain ⟨h1, h2⟩ := touch_each hs a hz
  refine ⟨hs, ht, h1, ?_, ?_, ?_, ?_⟩
  all_goals simp only [St.step, Tree.posOf, Tr.Ord, h2]
  · exact hr
  · exact hn
  · exact hf
  · exact hp

theorem whole_edit {st : St α} (h : Whole st) {low high amt : Int} (hlh : low ≤ high) (ha : low - high ≤ amt)
    (hap : ∀ s ∈ st.live, ¬ (s.1.low ≤ high ∧ low ≤ s.1.high)) :
    Whole (st.step (.edit low high amt)) := by
  obtain ⟨hs, ht, hz, hr, hn, hf, hp⟩ := h
  have ho := hz.wf_flat hs
  have hcl : ∀ g ∈ st.tree.root.flat st.tree.shifts, ∀ i ∈ g.ins, Ival.overlaps low high i = false := by
    intro g hg i hi
    have hm : (⟨g.id, i.low, i.high, i.val⟩, g.addr) ∈ st.live :=
      hp.mem_iff.1 (List.mem_flatMap.2 ⟨g, hg, List.mem_map.2 ⟨i, hi, rfl⟩⟩)
    have := hap _ hm
    simp only [Ival.overlaps, Bool.and_eq_false_iff, decide_eq_false_iff_not] at this ⊢
    omega
  obtain ⟨o1, o2⟩ := removeOverlaps_each hs st.tree.root.size hz hcl
  rw [← filterMap_clean_id fun g hg => ⟨(ho g hg).1, hcl g hg⟩] at o2
  have hstep : ∃ T : Tree α, (st.step (.edit low high amt)).tree = T ∧ WfS T.shifts ∧
      T.tstamp = T.shifts.length ∧ T.next = st.tree.next ∧ Each T.shifts T.root ∧
      T.root.flat T.shifts = ((st.tree.root.flat st.tree.shifts).filterMap (clean low high)).map
        (Fl.move ⟨low, amt, st.tree.shifts.length + 1⟩) := by
    refine ⟨_, rfl, ?_⟩
    simp only [St.step, Tree.removeAndShift]
    by_cases h0 : amt = 0
    · subst h0
      simp only [ne_eq, not_true_eq_false, if_false]
      refine ⟨hs, ht, trivial, o1, ?_⟩
      rw [o2]
      conv_lhs => rw [← List.map_id (List.filterMap _ _)]
      exact List.map_congr_left fun f _ => (move_zero _ _ f).symm
    · simp only [ne_eq, h0, not_false_eq_true, if_true, Tree.shift, if_false, ht]
      exact ⟨wfS_snoc hs rfl, by simp, trivial, (each_snoc o1 _).1, by rw [(each_snoc o1 _).2, o2]⟩
  obtain ⟨T, e, t1, t2, t3, t4, t5⟩ := hstep
  have hlive : (st.step (.edit low high amt)).live = followAll low high amt st.live := rfl
  generalize st.step (.edit low high amt) = st' at *
  subst e
  refine ⟨t1, t2, t4, ?_, ?_, ?_, ?_⟩
  · rw [Tr.Ord, t5, List.pairwise_map]
    refine List.Pairwise.imp_of_mem ?_ (pairwise_clean (low := low) (high := high) hr)
    have hside : ∀ f ∈ (st.tree.root.flat st.tree.shifts).filterMap (clean low high), f.pos < low ∨ high < f.pos := by
      intro f hf'
      obtain ⟨hne, hov⟩ := clean_done f hf'
      obtain ⟨g, hg, hc⟩ := List.mem_filterMap.1 hf'
      obtain ⟨c1, -, -, c4⟩ := clean_key hc
      cases hi : f.ins with
      | nil => exact absurd hi hne
      | cons i is =>
        have hm : i ∈ f.ins := by rw [hi]; exact List.mem_cons_self
        have hw := (ho g hg).2 i (c4 i hm)
        have hv := hov i hm
        simp only [Ival.overlaps, Bool.and_eq_false_iff, decide_eq_false_iff_not] at hv
        omega
    intro a b hma hmb hab
    have h1 := hside a hma
    have h2 := hside b hmb
    simp only [Fl.lt, Fl.move, klt, movePos] at hab ⊢
    split <;> split <;> omega
  · rw [t5]
    exact hn.sublist (addr_clean _)
  · intro f hf'
    rw [t5] at hf'
    obtain ⟨g, hg, e⟩ := List.mem_map.1 ((addr_clean _).subset (List.mem_map_of_mem hf'))
    have := hf g hg
    omega
  · rw [t5, hlive]
    exact (slots_edit hlh fun f hf => (ho f hf).2).trans (hp.filterMap _)

theorem whole_run : ∀ (ops : List (Op α)) (st : St α), Whole st → (∀ op ∈ ops, op.Valid) → Apart st ops →
    Whole (ops.foldl St.step st)
  | [], _, h, _, _ => h
  | op :: ops, st, h, hv, hap => by
    have hv' : ∀ op ∈ ops, op.Valid := fun o ho => hv o (List.mem_cons_of_mem _ ho)
    have hv0 := hv op List.mem_cons_self
    rw [List.foldl_cons]
    cases op with
    | add id low high v => exact whole_run ops _ (whole_add h hv0.1 hv0.2) hv' hap
    | edit low high amt => exact whole_run ops _ (whole_edit h hv0.1 hv0.2 hap.1) hv' hap.2
    | find id pos => exact whole_run ops _ (whole_find h id pos) hv' hap
    | pos a => exact whole_run ops _ (whole_pos h a) hv' hap

/-- **C83, the answers**, for histories of the code whose edits meet no live interval; positions may be asked for at any time. The
fields `max` may be wrong then. -/
theorem C83_answers_partial (ops : List (Op α)) (hv : ∀ op ∈ ops, op.Valid) (hap : Apart {} ops) : Answers (run ops) :=
  (whole_run ops {} lazy_init.whole hv hap).answers

/-- The history of C82 without its last operation, which asks for a position. -/
example : (∀ op ∈ shorter.dropLast, op.Valid) ∧ NoPos shorter.dropLast ∧ Apart {} shorter.dropLast ∧
    ¬ Grows false shorter.dropLast ∧ (run shorter.dropLast).tree.shifts.length = 5 ∧
    (run shorter.dropLast).live.map (fun s => (s.1.low, s.1.high)) =
      [(6, 10), (0, 3), (13, 15), (13, 14), (24, 34)] := by
  refine ⟨?_, ?_, ?_, ?_, by decide +kernel, by decide +kernel⟩
  · intro op h
    simp only [shorter, List.dropLast, List.mem_cons, List.not_mem_nil, or_false] at h
    rcases h with rfl | rfl | rfl | rfl | rfl | rfl | rfl | rfl | rfl | rfl | rfl <;> simp [Op.Valid]
  · intro op h a e
    subst e
    simp [shorter] at h
  · simp only [shorter, List.dropLast, Apart]
    exact ⟨by decide +kernel, by decide +kernel, by decide +kernel, by decide +kernel, by decide +kernel, trivial⟩
  · simp [shorter, Grows]

/-- A history in which a position is asked for before the last edit. -/
def touched : List (Op Nat) :=
  [.add 1 100 100 0, .add 1 50 50 1, .add 1 200 200 2, .add 1 190 191 3, .add 1 210 210 4,
   .edit 0 0 1, .edit 0 0 30, .edit 245 345 (-100), .edit 0 0 1, .pos 3, .edit 242 242 0]

/-- `MaxBounds` can be computed. -/
instance maxBoundsDec (S : List Shift) : (t : Tr Nat) → Decidable (MaxBounds S t)
  | .nil => .isTrue trivial
  | .node d l r =>
    haveI := maxBoundsDec S l
    haveI := maxBoundsDec S r
    inferInstanceAs (Decidable ((∀ f ∈ (Tr.node d l r).flat S, ∀ i ∈ f.ins, i.high ≤ (applyShifts S l.mx? r.mx? d).mx) ∧
      MaxBounds S l ∧ MaxBounds S r))

/-- The hypotheses of `C83_answers_partial` can be met when the fields `max` are wrong. -/
example : Apart {} touched.dropLast ∧ ¬ MaxBounds (run touched.dropLast).tree.shifts (run touched.dropLast).tree.root := by
  refine ⟨?_, ?_⟩
  · simp only [touched, List.dropLast, Apart]
    exact ⟨by decide +kernel, by decide +kernel, by decide +kernel, by decide +kernel, trivial⟩
  · decide +kernel

/-- **Asking for a position makes the map wrong**: `Pos` applies shifts to a node and not to those above it. When the shifts
reach its parent, its field `max` becomes too small, and the edit at 242 does not remove the interval there. The repair of
`remove` does not help, and no edit before has met an interval. -/
theorem C83_pos_false :
    (∀ op ∈ touched, op.Valid) ∧ Apart {} touched.dropLast ∧
    ((run touched).tree.findLargest 1 242).2 = some 4 ∧ (∀ s ∈ (run touched).live, s.1.low ≠ 242) ∧
    ¬ Right (run touched) ∧ ¬ Right (runK (-1) removeOverlapsR touched) ∧
    Right (runK 1 removeOverlapsR touched) := by
  have hv : ∀ op ∈ touched, op.Valid := by
    intro op h
    simp only [touched, List.mem_cons, List.not_mem_nil, or_false] at h
    rcases h with rfl | rfl | rfl | rfl | rfl | rfl | rfl | rfl | rfl | rfl | rfl <;> simp [Op.Valid]
  have h1 : ((run touched).tree.findLargest 1 242).2 = some 4 := by decide +kernel
  have h2 : ∀ s ∈ (run touched).live, s.1.low ≠ 242 := by decide +kernel
  have h3 : ((runK (-1) removeOverlapsR touched).tree.findLargest 1 242).2 = some 4 := by decide +kernel
  have h4 : ∀ s ∈ (runK (-1) removeOverlapsR touched).live, s.1.low ≠ 242 := by decide +kernel
  refine ⟨hv, ?_, h1, h2, ?_, ?_, C82_repaired _ hv⟩
  · simp only [touched, List.dropLast, Apart]
    exact ⟨by decide +kernel, by decide +kernel, by decide +kernel, by decide +kernel, trivial⟩
  · intro h
    obtain ⟨s, hs, -, e, -⟩ := h.stale _ _ _ h1
    exact h2 s hs e
  · intro h
    obtain ⟨s, hs, -, e, -⟩ := h.stale _ _ _ h3
    exact h4 s hs e

end Gpeg.LazyLog
