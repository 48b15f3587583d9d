import Verif.LazyLogEager
import Verif.LazyLogKeep
import Verif.Props.LazyLog
/-! # C82: the interval tree with all shifts applied at once -/
namespace Gpeg.LazyLog
variable {α : Type}

/-- What the interval map should do, for one state: `live` holds the intervals that were added and not met by an edit since. -/
structure Answers (st : St α) : Prop where
  /-- Only live intervals are found, … -/
  stale : ∀ id pos v, (st.tree.findLargest id pos).2 = some v →
    ∃ s ∈ st.live, s.1.id = id ∧ s.1.low = pos ∧ s.1.val = v
  /-- … and each of them is, or one at least as long with the same key. -/
  keeps : ∀ s ∈ st.live, ∃ v, (st.tree.findLargest s.1.id s.1.low).2 = some v ∧
    ∃ s' ∈ st.live, s'.1.id = s.1.id ∧ s'.1.low = s.1.low ∧ s'.1.val = v ∧
      s.1.high - s.1.low ≤ s'.1.high - s'.1.low
  /-- The location that `Add` returned tells where the interval is now. -/
  pos : ∀ s ∈ st.live, (st.tree.posOf s.2).2 = some s.1.low
  /-- `AllValues` gives the values of the live intervals, each as often as it was added. -/
  vals : st.tree.allValues.Perm (st.live.map fun s => s.1.val)
  /-- The tree is a search tree. -/
  keys : KeysOrdered st.tree.shifts st.tree.root

/-- In addition, the fields `max` are right. -/
structure Right (st : St α) : Prop extends Answers st where
  max : MaxBounds st.tree.shifts st.tree.root

/-- The intervals of a node with their location. -/
def Fl.slots (f : Fl α) : List (Slot α × Nat) := f.ins.map fun i => (⟨f.id, i.low, i.high, i.val⟩, f.addr)

/-- The invariant of histories with `ShiftThreshold = 1`. -/
structure Eager (st : St α) : Prop where
  none : st.tree.shifts = []
  dom : Dom st.tree.root
  ok : All (Ok st.tree.tstamp) st.tree.root
  ord : st.tree.root.Ord []
  nodup : ((st.tree.root.flat []).map Fl.addr).Nodup
  fresh : ∀ f ∈ st.tree.root.flat [], f.addr < st.tree.next
  perm : ((st.tree.root.flat []).flatMap Fl.slots).Perm st.live

theorem eager_init : Eager ({} : St α) := ⟨rfl, .nil, .nil, .nil, .nil, (fun _ h => by cases h), .refl _⟩

theorem eager_add {st : St α} (h : Eager st) {id low high : Int} {v : α} (h0 : 0 ≤ low) (hlh : low ≤ high) :
    Eager (st.step (.add id low high v)) := by
  obtain ⟨hs, hd, ho, hr, hn, hf, hp⟩ := h
  have e : (st.tree.add id low high v) =
      ({ root := (add [] st.tree.tstamp st.tree.next low id ⟨low, high, v⟩ st.tree.root).1, shifts := [],
         tstamp := st.tree.tstamp, next := st.tree.next + 1 },
        (add [] st.tree.tstamp st.tree.next low id ⟨low, high, v⟩ st.tree.root).2) := by
    simp only [Tree.add, hs]
  have hrel := add_rel0 st.tree.tstamp st.tree.next low id ⟨low, high, v⟩ st.tree.root hr
  refine ⟨?_, ?_, ?_, ?_, ?_, ?_, ?_⟩
  · simp only [St.step, e]
  · simp only [St.step, e]; exact add_dom0 _ _ _ _ _ (by simp only []; omega) _ hd
  · simp only [St.step, e]; exact add_all0 _ _ _ _ ⟨low, high, v⟩ rfl hlh _ ho
  · simp only [St.step, e]; exact hrel.ord hr
  · simp only [St.step, e]
    rcases hrel with ⟨A, B, e1, e2, e3, -⟩ | ⟨A, g, B, e1, e2, e3, e4, e5⟩
    · rw [e2]
      rw [e1] at hn hf
      simp only [List.map_append, List.map_cons] at hn ⊢
      refine (List.perm_middle.nodup_iff).2 (List.nodup_cons.2 ⟨?_, hn⟩)
      intro hm
      rw [← List.map_append] at hm
      obtain ⟨f, hf', e⟩ := List.mem_map.1 hm
      have := hf f hf'
      omega
    · rw [e2]
      rw [e1] at hn
      simpa using hn
  · simp only [St.step, e]
    intro f hf'
    rcases hrel with ⟨A, B, e1, e2, e3, -⟩ | ⟨A, g, B, e1, e2, e3, e4, e5⟩
    · rw [e1] at hf
      rw [e2, List.mem_append, List.mem_cons] at hf'
      rcases hf' with hf' | rfl | hf'
      · have := hf f (List.mem_append_left _ hf'); omega
      · exact Nat.lt_succ_self _
      · have := hf f (List.mem_append_right _ hf'); omega
    · rw [e1] at hf
      rw [e2, List.mem_append, List.mem_cons] at hf'
      rcases hf' with hf' | rfl | hf'
      · have := hf f (List.mem_append_left _ hf'); omega
      · have := hf g (List.mem_append_right _ List.mem_cons_self)
        simp only []
        omega
      · have := hf f (List.mem_append_right _ (List.mem_cons_of_mem _ hf')); omega
  · simp only [St.step, e]
    generalize (add [] st.tree.tstamp st.tree.next low id ⟨low, high, v⟩ st.tree.root).2 = loc at *
    rcases hrel with ⟨A, B, e1, e2, e3, -⟩ | ⟨A, g, B, e1, e2, e3, e4, e5⟩
    · rw [e2]
      rw [e1] at hp
      subst e3
      simp only [List.flatMap_append, List.flatMap_cons, Fl.slots, List.map_cons, List.map_nil, List.singleton_append]
        at hp ⊢
      exact List.perm_middle.trans (((hp.cons _)).trans (List.perm_append_singleton _ _).symm)
    · rw [e2]
      rw [e1] at hp
      subst e3
      simp only [List.flatMap_append, List.flatMap_cons, Fl.slots, List.map_append, List.map_cons, List.map_nil,
        List.append_assoc, List.singleton_append] at hp ⊢
      rw [← List.append_assoc] at hp ⊢
      rw [e5]
      rw [e5] at hp
      exact List.perm_middle.trans (((hp.cons _)).trans (List.perm_append_singleton _ _).symm)

theorem eager_find {st : St α} (h : Eager st) (id pos : Int) : Eager (st.step (.find id pos)) := by
  have e : (st.step (.find id pos)) = st := by
    have hs := h.none
    cases st with | mk t l => ?_
    cases t with | mk root shifts tstamp next => ?_
    simp only [] at hs
    subst hs
    simp only [St.step, Tree.findLargest, search_nil]
  rw [e]; exact h

theorem eager_pos {st : St α} (h : Eager st) (a : Nat) : Eager (st.step (.pos a)) := by
  have e : (st.step (.pos a)) = st := by
    have hs := h.none
    cases st with | mk t l => ?_
    cases t with | mk root shifts tstamp next => ?_
    simp only [] at hs
    subst hs
    simp only [St.step, Tree.posOf, touch_nil]
  rw [e]; exact h

theorem slots_clean {low high amt : Int} {k : Nat} (hlh : low ≤ high) {f : Fl α}
    (hw : ∀ i ∈ f.ins, i.low = f.pos ∧ i.low ≤ i.high) :
    ((((clean low high f).toList).map (Fl.move ⟨low, amt, k⟩)).flatMap Fl.slots).Perm
      (followAll low high amt f.slots) := by
  have h1 : ∀ L : List (Ival α), (∀ i ∈ L, i.low = f.pos ∧ i.low ≤ i.high) →
      followAll low high amt (L.map fun i => ((⟨f.id, i.low, i.high, i.val⟩ : Slot α), f.addr)) =
      (shiftIns (movePos ⟨low, amt, k⟩ f.pos - f.pos) (L.filter fun i => !Ival.overlaps low high i)).map
        fun i => ((⟨f.id, i.low, i.high, i.val⟩ : Slot α), f.addr) := by
    intro L
    induction L with
    | nil => intro _; rfl
    | cons i L ih =>
      intro hL
      have h0 := hL i List.mem_cons_self
      have ih := ih fun j hj => hL j (List.mem_cons_of_mem _ hj)
      simp only [followAll] at ih ⊢
      simp only [List.map_cons, List.filterMap_cons, follow, List.filter_cons]
      by_cases ho : i.low ≤ high ∧ low ≤ i.high
      · have hov : Ival.overlaps low high i = true := by simp [Ival.overlaps, ho]
        rw [if_pos ho]
        simp only [Option.map_none, hov, Bool.not_true, Bool.false_eq_true, if_false]
        exact ih
      · have hov : Ival.overlaps low high i = false := by
          simp only [Ival.overlaps, Bool.and_eq_false_iff, decide_eq_false_iff_not]; omega
        rw [if_neg ho]
        simp only [hov, Bool.not_false, if_true, shiftIns, List.map_cons]
        simp only [shiftIns] at ih
        by_cases hp : high < i.low
        · rw [if_pos hp]
          simp only [Option.map_some, List.cons.injEq, Prod.mk.injEq, Slot.mk.injEq, true_and, and_true]
          refine ⟨⟨?_, ?_⟩, ih⟩ <;> simp only [movePos] <;> rw [if_pos (by omega)] <;> omega
        · rw [if_neg hp]
          simp only [Option.map_some, List.cons.injEq, Prod.mk.injEq, Slot.mk.injEq, true_and, and_true]
          refine ⟨⟨?_, ?_⟩, ih⟩ <;> simp only [movePos] <;> rw [if_neg (by omega)] <;> omega
  rw [Fl.slots, h1 f.ins hw]
  have hperm := swapRemove_perm (Ival.overlaps low high) f.ins.length f.ins (Nat.le_refl _)
  simp only [clean]
  split
  · rename_i he
    have he := List.isEmpty_iff.1 he
    rw [he] at hperm
    rw [List.nil_perm.1 hperm]
    exact .refl _
  · simp only [Option.toList_some, List.map_cons, List.map_nil, List.flatMap_cons, List.flatMap_nil, List.append_nil,
      Fl.slots, Fl.move]
    exact (hperm.map _).map _

theorem slots_edit {low high amt : Int} {k : Nat} (hlh : low ≤ high) : ∀ {L : List (Fl α)},
    (∀ f ∈ L, ∀ i ∈ f.ins, i.low = f.pos ∧ i.low ≤ i.high) →
    (((L.filterMap (clean low high)).map (Fl.move ⟨low, amt, k⟩)).flatMap Fl.slots).Perm
      (followAll low high amt (L.flatMap Fl.slots))
  | [], _ => .refl _
  | f :: L, hw => by
    have h1 := slots_clean (amt := amt) (k := k) hlh (hw f List.mem_cons_self)
    have h2 := slots_edit (L := L) (amt := amt) (k := k) hlh fun g hg => hw g (List.mem_cons_of_mem _ hg)
    have e1 : followAll low high amt ((f :: L).flatMap Fl.slots) =
        followAll low high amt f.slots ++ followAll low high amt (L.flatMap Fl.slots) := by
      simp only [followAll, List.flatMap_cons, List.filterMap_append]
    have e2 : (f :: L).filterMap (clean low high) = (clean low high f).toList ++ L.filterMap (clean low high) := by
      rw [List.filterMap_cons]
      cases clean low high f <;> rfl
    rw [e1, e2, List.map_append, List.flatMap_append]
    exact h1.append h2

theorem addr_clean {low high : Int} {s : Shift} (L : List (Fl α)) :
    (((L.filterMap (clean low high)).map (Fl.move s)).map Fl.addr).Sublist (L.map Fl.addr) := by
  rw [move_addrs]
  induction L with
  | nil => exact .slnil
  | cons f L ih =>
    rw [List.filterMap_cons]
    cases hc : clean low high f with
    | none => exact ih.cons _
    | some g =>
      simp only [List.map_cons]
      rw [(clean_key hc).2.2.1]
      exact ih.cons_cons _

theorem eager_edit {st : St α} (h : Eager st) {low high amt : Int} (hlh : low ≤ high) (ha : low - high ≤ amt) :
    Eager (st.stepK 1 removeOverlapsR (.edit low high amt)) := by
  obtain ⟨hs, hd, ho, hr, hn, hf, hp⟩ := h
  obtain ⟨h1, h2, h3, -⟩ := removeOverlapsR_spec low high st.tree.root.size st.tree.root (Nat.le_refl _) hr hd ho
  have hstep : ∃ T : Tree α, (st.stepK 1 removeOverlapsR (.edit low high amt)).tree = T ∧ T.shifts = [] ∧
      T.next = st.tree.next ∧ Dom T.root ∧ All (Ok T.tstamp) T.root ∧
      T.root.flat [] = ((st.tree.root.flat []).filterMap (clean low high)).map
        (Fl.move ⟨low, amt, st.tree.tstamp + 1⟩) := by
    refine ⟨_, rfl, ?_⟩
    simp only [St.stepK, Tree.removeAndShiftK]
    by_cases h0 : amt = 0
    · subst h0
      simp only [ne_eq, not_true_eq_false, if_false, hs]
      refine ⟨trivial, trivial, h1, h2, ?_⟩
      rw [h3]
      conv_lhs => rw [← List.map_id (List.filterMap _ _)]
      exact List.map_congr_left fun f _ => (move_zero _ _ f).symm
    · simp only [ne_eq, h0, not_false_eq_true, if_true, Tree.shiftK, if_false, hs, List.nil_append,
        List.length_singleton]
      rw [if_pos (by constructor <;> decide)]
      obtain ⟨k1, k2, k3⟩ := applyAll_spec (s := ⟨low, amt, st.tree.tstamp + 1⟩) rfl h1 h2
      exact ⟨rfl, rfl, k1, k2, by simp only [Tree.applyAllShifts]; rw [k3, h3]⟩
  obtain ⟨T, e, t1, t2, t3, t4, t5⟩ := hstep
  have hlive : (st.stepK 1 removeOverlapsR (.edit low high amt)).live = followAll low high amt st.live := rfl
  generalize st.stepK 1 removeOverlapsR (.edit low high amt) = st' at *
  subst e
  refine ⟨t1, t3, t4, ?_, ?_, ?_, ?_⟩
  · rw [Tr.Ord, t5, List.pairwise_map]
    refine List.Pairwise.imp_of_mem ?_ (pairwise_clean (low := low) (high := high) hr)
    have hside : ∀ f ∈ (st.tree.root.flat []).filterMap (clean low high), f.pos < low ∨ high < f.pos := by
      intro f hf'
      obtain ⟨hne, hov⟩ := clean_done f hf'
      obtain ⟨g, hg, hc⟩ := List.mem_filterMap.1 hf'
      obtain ⟨c1, -, -, c4⟩ := clean_key hc
      cases hi : f.ins with
      | nil => exact absurd hi hne
      | cons i is =>
        have hm : i ∈ f.ins := by rw [hi]; exact List.mem_cons_self
        have hw := (ho.flat g hg).2 i (c4 i hm)
        have hv := hov i hm
        simp only [Ival.overlaps, Bool.and_eq_false_iff, decide_eq_false_iff_not] at hv
        omega
    intro a b hma hmb hab
    have h1 := hside a hma
    have h2 := hside b hmb
    simp only [Fl.lt, Fl.move, klt, movePos] at hab ⊢
    split <;> split <;> omega
  · rw [t5]
    exact hn.sublist (addr_clean _)
  · intro f hf'
    rw [t5] at hf'
    obtain ⟨g, hg, e⟩ := List.mem_map.1 ((addr_clean _).subset (List.mem_map_of_mem hf'))
    have := hf g hg
    omega
  · rw [t5, hlive]
    exact (slots_edit hlh fun f hf => (ho.flat f hf).2).trans (hp.filterMap _)

theorem eager_run : ∀ (ops : List (Op α)) (st : St α), Eager st → (∀ op ∈ ops, op.Valid) →
    Eager (ops.foldl (St.stepK 1 removeOverlapsR) st)
  | [], _, h, _ => h
  | op :: ops, st, h, hv => by
    have hv' : ∀ op ∈ ops, op.Valid := fun o ho => hv o (List.mem_cons_of_mem _ ho)
    have hv0 := hv op List.mem_cons_self
    rw [List.foldl_cons]
    cases op with
    | add id low high v => exact eager_run ops _ (eager_add h hv0.1 hv0.2) hv'
    | edit low high amt => exact eager_run ops _ (eager_edit h hv0.1 hv0.2) hv'
    | find id pos => exact eager_run ops _ (eager_find h id pos) hv'
    | pos a => exact eager_run ops _ (eager_pos h a) hv'

/-! ## What the invariant says -/

theorem ord_unique : ∀ {L : List (Fl α)}, L.Pairwise Fl.lt → ∀ a ∈ L, ∀ b ∈ L, a.pos = b.pos → a.id = b.id → a = b := by
  intro L hL
  induction hL with
  | nil => intro a ha; cases ha
  | @cons x xs hx _ ih =>
    intro a ha b hb e1 e2
    rcases List.mem_cons.1 ha with rfl | ha'
    · rcases List.mem_cons.1 hb with rfl | hb
      · rfl
      · have := hx b hb
        simp only [Fl.lt, klt] at this
        omega
    · rcases List.mem_cons.1 hb with rfl | hb
      · have := hx a ha'
        simp only [Fl.lt, klt] at this
        omega
      · exact ih a ha' b hb e1 e2

theorem at_some {a : Nat} : ∀ {t : Tr α} {d : Nd α}, t.at? a = some d → d.fl [] ∈ t.flat [] ∧ d.addr = a
  | .nil, d, h => by cases h
  | .node e l r, d, h => by
    rw [Tr.at?] at h
    by_cases he : e.addr = a
    · rw [if_pos he] at h
      cases h
      exact ⟨by simp [Tr.flat], he⟩
    · rw [if_neg he] at h
      cases hl : l.at? a with
      | some x =>
        rw [hl] at h
        cases h
        obtain ⟨h1, h2⟩ := at_some hl
        exact ⟨by simp [Tr.flat, h1], h2⟩
      | none =>
        rw [hl] at h
        obtain ⟨h1, h2⟩ := at_some (t := r) h
        exact ⟨by simp [Tr.flat, h1], h2⟩

theorem at_none {a : Nat} : ∀ {t : Tr α}, t.at? a = none → ∀ f ∈ t.flat [], f.addr ≠ a
  | .nil, _, f, hf => by cases hf
  | .node e l r, h, f, hf => by
    rw [Tr.at?] at h
    by_cases he : e.addr = a
    · rw [if_pos he] at h; cases h
    · rw [if_neg he, Option.or_eq_none_iff] at h
      simp only [Tr.flat, List.mem_append, List.mem_cons] at hf
      rcases hf with hf | rfl | hf
      · exact at_none h.1 f hf
      · exact he
      · exact at_none h.2 f hf

theorem Dom.maxBounds0 {t : Tr α} (h : Dom t) : MaxBounds [] t := by
  have h0 := h
  induction h with
  | nil => trivial
  | @node d l r hl hr hh dl dr ihl ihr =>
    exact ⟨h0.high (x := d.mx) fun y hy => by cases hy; exact Int.le_refl _, ihl dl, ihr dr⟩

theorem allvals_flat : ∀ t : Tr α, t.allvals = (t.flat []).flatMap fun f => f.ins.map Ival.val
  | .nil => rfl
  | .node d l r => by
    simp only [Tr.allvals, Tr.flat, List.flatMap_append, List.flatMap_cons, fl_nil, allvals_flat l, allvals_flat r,
      List.append_assoc]

theorem Eager.right {st : St α} (h : Eager st) : Right st := by
  obtain ⟨hs, hd, ho, hr, hn, hf, hp⟩ := h
  have hin : ∀ f ∈ st.tree.root.flat [], ∀ i ∈ f.ins, (⟨f.id, i.low, i.high, i.val⟩, f.addr) ∈ st.live := by
    intro f hf i hi
    refine hp.mem_iff.1 (List.mem_flatMap.2 ⟨f, hf, ?_⟩)
    exact List.mem_map.2 ⟨i, hi, rfl⟩
  have hout : ∀ s ∈ st.live, ∃ f ∈ st.tree.root.flat [], f.id = s.1.id ∧ f.addr = s.2 ∧ f.pos = s.1.low ∧
      ⟨s.1.low, s.1.high, s.1.val⟩ ∈ f.ins := by
    intro s hs
    obtain ⟨f, hf, hm⟩ := List.mem_flatMap.1 (hp.mem_iff.2 hs)
    obtain ⟨i, hi, e⟩ := List.mem_map.1 hm
    subst e
    exact ⟨f, hf, rfl, rfl, ((ho.flat f hf).2 i hi).1.symm, hi⟩
  refine ⟨⟨?_, ?_, ?_, ?_, ?_⟩, ?_⟩
  · intro id pos v hfind
    have hsr := search0 pos id st.tree.root hr
    simp only [Tree.findLargest, hs] at hfind
    cases hq : (search [] pos id st.tree.root).2 with
    | none => rw [hq] at hfind; cases hfind
    | some d =>
      rw [hq] at hfind hsr
      obtain ⟨h5, h6, h7⟩ := hsr
      simp only [] at hfind
      cases hi : d.ins with
      | nil => rw [hi] at hfind; cases hfind
      | cons i is =>
        rw [hi] at hfind
        simp only [Option.some.injEq] at hfind
        have hm := largest_mem is i
        rw [← hi] at hm
        have hw := (ho.flat _ h7).2
        have hst := hin _ h7
        rw [fl_nil] at hw hst
        have h8 := hw _ hm
        exact ⟨_, hst _ hm, h6, by simp only [] at h8 ⊢; omega, hfind⟩
  · intro s hsl
    obtain ⟨f, hf, hf1, hf2, hf3, hf4⟩ := hout s hsl
    have hsr := search0 s.1.low s.1.id st.tree.root hr
    simp only [Tree.findLargest, hs]
    cases hq : (search [] s.1.low s.1.id st.tree.root).2 with
    | none =>
      rw [hq] at hsr
      exact absurd ⟨hf3, hf1⟩ (hsr f hf)
    | some d =>
      rw [hq] at hsr
      obtain ⟨h5, h6, h7⟩ := hsr
      have hfd : f = d.fl [] := ord_unique hr f hf _ h7 (by rw [fl_nil]; simp only []; omega)
        (by rw [fl_nil]; simp only []; omega)
      rw [hfd, fl_nil] at hf4
      simp only [] at hf4
      cases hi : d.ins with
      | nil => rw [hi] at hf4; cases hf4
      | cons i is =>
        refine ⟨(Tree.largest is i).val, by simp only [hi], ?_⟩
        rw [hi] at hf4
        have hm := largest_mem is i
        rw [← hi] at hm
        have hw := (ho.flat _ h7).2
        have hst := hin _ h7
        rw [fl_nil] at hw hst
        have h8 := (hw _ hm).1
        have h9 := largest_ge is i _ hf4
        simp only [] at h8 h9
        exact ⟨_, hst _ hm, h6, by simp only []; omega, rfl, h9⟩
  · intro s hsl
    obtain ⟨f, hf, hf1, hf2, hf3, hf4⟩ := hout s hsl
    simp only [Tree.posOf, hs, touch_nil]
    cases ha : st.tree.root.at? s.2 with
    | none => exact absurd hf2 (at_none ha f hf)
    | some d =>
      obtain ⟨h1, h2⟩ := at_some ha
      have : f = d.fl [] := eq_of_addr hn hf h1 (by rw [fl_nil]; simp only []; omega)
      rw [this, fl_nil] at hf3
      exact congrArg some hf3
  · rw [Tree.allValues, allvals_flat]
    have := hp.map fun s : Slot α × Nat => s.1.val
    refine List.Perm.trans (.of_eq ?_) this
    rw [List.map_flatMap]
    congr 1
    funext f
    simp only [Fl.slots, List.map_map]
    rfl
  · rw [hs]; exact hr
  · rw [hs]; exact hd.maxBounds0

/-- **C82, with the repaired `remove`**: applying each shift at once, the interval map is right after every history. -/
theorem C82_repaired (ops : List (Op α)) (hv : ∀ op ∈ ops, op.Valid) : Right (runK 1 removeOverlapsR ops) :=
  (eager_run ops {} eager_init hv).right

example : (∀ op ∈ stale, op.Valid) ∧ (runK 1 removeOverlapsR stale).live.length = 6 ∧
    (runK 1 removeOverlapsR stale).tree.allValues = [43, 42, 40, 15, 24, 25] := by
  refine ⟨stale_valid, by decide +kernel, by decide +kernel⟩

/-! ## The code's `remove` -/

theorem removeOverlaps0 {T : Nat} {low high : Int} : ∀ (f : Nat) {t : Tr α}, All (Ok T) t →
    (∀ g ∈ t.flat [], ∀ i ∈ g.ins, Ival.overlaps low high i = false) →
    removeOverlaps [] low high f t = t ∧ removeOverlapsR [] low high f t = t
  | 0, _, _, _ => ⟨rfl, rfl⟩
  | _ + 1, _, .nil, _ => ⟨rfl, rfl⟩
  | f + 1, _, .node (d := d) (l := l) (r := r) hd hl hr, hc => by
    obtain ⟨l1, l2⟩ := removeOverlaps0 f hl fun g hg => hc g (by simp [Tr.flat, hg])
    obtain ⟨r1, r2⟩ := removeOverlaps0 f hr fun g hg => hc g (by simp [Tr.flat, hg])
    have hcd := hc (d.fl []) (by simp [Tr.flat])
    rw [fl_nil] at hcd
    have hne : ¬ (d.ins.isEmpty = true) := fun he => hd.2.1 (List.isEmpty_iff.1 he)
    rw [removeOverlaps, removeOverlapsR, applyShifts_nil]
    simp only [swapRemove_none _ _ (Nat.le_refl _) hcd, l1, l2, r1, r2, if_neg hne]
    constructor <;> (split <;> [rfl; (split <;> rfl)])

/-- The edits of a history meet no live interval, for the code with `ShiftThreshold = 1`. -/
def ApartK : St α → List (Op α) → Prop
  | _, [] => True
  | st, .edit low high amt :: ops =>
    (∀ s ∈ st.live, ¬ (s.1.low ≤ high ∧ low ≤ s.1.high)) ∧
    ApartK (st.stepK 1 removeOverlaps (.edit low high amt)) ops
  | st, op :: ops => ApartK (st.stepK 1 removeOverlaps op) ops

theorem apart_run : ∀ (ops : List (Op α)) (st : St α), Eager st → (∀ op ∈ ops, op.Valid) → ApartK st ops →
    Eager (ops.foldl (St.stepK 1 removeOverlaps) st)
  | [], _, h, _, _ => h
  | op :: ops, st, h, hv, hap => by
    have hv' : ∀ op ∈ ops, op.Valid := fun o ho => hv o (List.mem_cons_of_mem _ ho)
    have hv0 := hv op List.mem_cons_self
    rw [List.foldl_cons]
    cases op with
    | add id low high v => exact apart_run ops _ (eager_add h hv0.1 hv0.2) hv' hap
    | edit low high amt =>
      have e : st.stepK 1 removeOverlaps (.edit low high amt) = st.stepK 1 removeOverlapsR (.edit low high amt) := by
        have hcl : ∀ g ∈ st.tree.root.flat [], ∀ i ∈ g.ins, Ival.overlaps low high i = false := by
          intro g hg i hi
          have hm : (⟨g.id, i.low, i.high, i.val⟩, g.addr) ∈ st.live :=
            h.perm.mem_iff.1 (List.mem_flatMap.2 ⟨g, hg, List.mem_map.2 ⟨i, hi, rfl⟩⟩)
          have := hap.1 _ hm
          simp only [Ival.overlaps, Bool.and_eq_false_iff, decide_eq_false_iff_not] at this ⊢
          omega
        obtain ⟨e1, e2⟩ := removeOverlaps0 st.tree.root.size h.ok hcl
        simp only [St.stepK, Tree.removeAndShiftK, h.none, e1, e2]
      have hap2 := hap.2
      rw [e] at hap2 ⊢
      exact apart_run ops _ (eager_edit h hv0.1 hv0.2) hv' hap2
    | find id pos => exact apart_run ops _ (eager_find h id pos) hv' hap
    | pos a => exact apart_run ops _ (eager_pos h a) hv' hap

/-- **C82**, for histories whose edits meet no live interval. For other histories it is false, because `remove` loses
intervals (`C82_false`). -/
theorem C82_threshold_partial (ops : List (Op α)) (hv : ∀ op ∈ ops, op.Valid) (hap : ApartK {} ops) :
    Right (runK 1 removeOverlaps ops) :=
  (apart_run ops {} eager_init hv hap).right

/-- A history with many edits that shorten the text and meet no entry. -/
def shorter : List (Op Nat) :=
  [.add 1 5 9 10, .add 1 0 3 11, .add 1 20 22 12, .edit 11 15 (-4), .add 2 16 17 13, .edit 4 4 7, .edit 18 21 (-3),
   .find 1 20, .edit 17 18 (-1), .add 1 30 40 14, .edit 4 10 (-6), .pos 2]

example : (∀ op ∈ shorter, op.Valid) ∧ ApartK {} shorter ∧ ¬ Grows false shorter ∧
    (runK 1 removeOverlaps shorter).live.map (fun s => (s.1.low, s.1.high)) = [(6, 10), (0, 3), (13, 15), (13, 14), (24, 34)] := by
  refine ⟨?_, ?_, ?_, by decide +kernel⟩
  · intro op h
    simp only [shorter, List.mem_cons, List.not_mem_nil, or_false] at h
    rcases h with rfl | rfl | rfl | rfl | rfl | rfl | rfl | rfl | rfl | rfl | rfl | rfl <;> simp [Op.Valid]
  · simp only [shorter, ApartK]
    exact ⟨by decide +kernel, by decide +kernel, by decide +kernel, by decide +kernel, by decide +kernel, trivial⟩
  · simp [shorter, Grows]

/-- **C82 does not hold for all histories**: an edit that meets the entry at the root loses its neighbour, as in C30. -/
theorem C82_false : ¬ ∀ ops : List (Op Nat), (∀ op ∈ ops, op.Valid) → Right (runK 1 removeOverlaps ops) := by
  intro h
  have hv : ∀ op ∈ lossy, op.Valid := by
    intro op h
    simp only [lossy, List.mem_cons, List.not_mem_nil, or_false] at h
    rcases h with rfl | rfl | rfl | rfl <;> simp [Op.Valid]
  have hl : (⟨0, 20, 21, 3⟩, 2) ∈ (runK 1 removeOverlaps lossy).live := by decide +kernel
  obtain ⟨v, hf, -⟩ := (h lossy hv).keeps _ hl
  have : ((runK 1 removeOverlaps lossy).tree.findLargest 0 20).2 = none := by decide +kernel
  rw [this] at hf
  cases hf

end Gpeg.LazyLog
