import Verif.LazyLogHist
/-! # C29–C32: the lazy interval tree -/
namespace Gpeg.LazyLog
variable {α : Type}

/-- The claim of C29 for one history: a lookup returns only what is still live under that id at that place. -/
def NeverStale (ops : List (Op α)) : Prop :=
  ∀ id pos v, ((run ops).tree.findLargest id pos).2 = some v →
    ∃ s ∈ (run ops).live, s.1.id = id ∧ s.1.low = pos ∧ s.1.val = v

theorem largest_mem : ∀ (is : List (Ival α)) (i : Ival α), Tree.largest is i ∈ i :: is
  | [], i => List.mem_singleton.2 rfl
  | j :: is, i => by
    rw [Tree.largest]
    split
    · exact List.mem_cons_of_mem _ (largest_mem is j)
    · rcases List.mem_cons.1 (largest_mem is i) with h | h
      · rw [h]; exact List.mem_cons_self
      · exact List.mem_cons_of_mem _ (List.mem_cons_of_mem _ h)

theorem largest_ge : ∀ (is : List (Ival α)) (i : Ival α), ∀ j ∈ i :: is,
    j.high - j.low ≤ (Tree.largest is i).high - (Tree.largest is i).low
  | [], i, j, hj => by rw [List.mem_singleton.1 hj]; exact Int.le_refl _
  | k :: is, i, j, hj => by
    rw [Tree.largest]
    split
    · rename_i h
      rcases List.mem_cons.1 hj with rfl | hj
      · have := largest_ge is k k List.mem_cons_self
        omega
      · exact largest_ge is k j hj
    · rename_i h
      have hi := largest_ge is i i List.mem_cons_self
      rcases List.mem_cons.1 hj with rfl | hj
      · exact hi
      · rcases List.mem_cons.1 hj with rfl | hj
        · omega
        · exact largest_ge is i j (List.mem_cons_of_mem _ hj)

theorem find_stored {b : Bool} {st : St α} (h : Hist b st) {id pos : Int} {v : α}
    (hf : (st.tree.findLargest id pos).2 = some v) :
    ∃ s ∈ st.live, s.1.id = id ∧ s.1.low = pos ∧ s.1.val = v := by
  obtain ⟨-, -, h3⟩ := search_spec h.good pos id st.tree.root h.inv h.ord
  simp only [Tree.findLargest] at hf
  cases hs : (search st.tree.shifts pos id st.tree.root).2 with
  | none => rw [hs] at hf; cases hf
  | some d =>
    rw [hs] at hf h3
    obtain ⟨h4, h5, h6, h7⟩ := h3
    simp only [] at hf
    cases hi : d.ins with
    | nil => rw [hi] at hf; cases hf
    | cons i is =>
      rw [hi] at hf
      simp only [Option.some.injEq] at hf
      have hm := largest_mem is i
      rw [← hi] at hm
      have hw := h.inv.wf_flat _ h7
      have hst := h.stored _ h7
      rw [Nd.fl_done _ d h4] at hw hst
      have h8 := hw _ hm
      exact ⟨_, hst _ hm, h6, by simp only [] at h8 ⊢; omega, hf⟩

/-- **C29**, for the histories where all edits but the first keep or increase the length of the text. The
claim for all histories (`∀ ops, (∀ op ∈ ops, op.Valid) → NeverStale ops`) is false: `C29_false`. -/
theorem C29_never_stale_partial (ops : List (Op α)) (hv : ∀ op ∈ ops, op.Valid) (hg : Grows false ops) :
    NeverStale ops := by
  obtain ⟨b, h⟩ := hist_run ops false {} hist_init hv hg
  exact fun id pos v hf => find_stored h hf

/-- A history whose first edit removes text and whose later edits do not, meeting the hypotheses. -/
def growing : List (Op Nat) :=
  [.add 1 5 9 10, .add 1 0 3 11, .add 1 20 22 12, .add 2 20 30 13, .edit 1 3 (-2), .add 1 7 7 14, .find 1 18,
   .pos 0, .edit 11 12 3, .edit 0 1 0]

example : (∀ op ∈ growing, op.Valid) ∧ Grows false growing ∧
    ((run growing).tree.findLargest 2 21).2 = some 13 ∧ ((run growing).tree.findLargest 1 7).2 = some 14 ∧
    ((run growing).tree.findLargest 1 0).2 = none := by
  refine ⟨?_, ?_, by decide +kernel, by decide +kernel, by decide +kernel⟩
  · intro op h
    simp only [growing, List.mem_cons, List.not_mem_nil, or_false] at h
    rcases h with rfl | rfl | rfl | rfl | rfl | rfl | rfl | rfl | rfl | rfl <;> simp [Op.Valid]
  · simp [growing, Grows]

/-- A history found by fuzzing a transcription of the code. -/
def stale : List (Op Nat) :=
  [.add 0 2 2 15, .add 0 0 0 23, .add 0 3 3 24, .add 0 4 4 25, .edit 0 1 18, .add 0 3 3 31, .add 0 2 2 34,
   .add 0 0 0 36, .add 0 7 16 37, .add 0 8 8 40, .add 0 1 1 41, .add 0 6 6 42, .add 0 4 4 43, .add 0 5 15 45,
   .edit 0 3 37, .edit 0 1 24, .edit 0 1 13, .edit 0 1 56, .edit 0 20 (-20), .edit 0 43 (-43),
   .edit 0 20 (-20), .edit 0 33 (-33), .edit 30 33 (-3), .edit 28 29 0]

theorem stale_valid : ∀ op ∈ stale, op.Valid := by
  intro op h
  simp only [stale, List.mem_cons, List.not_mem_nil, or_false] at h
  rcases h with rfl | rfl | rfl | rfl | rfl | rfl | rfl | rfl | rfl | rfl | rfl | rfl | rfl | rfl | rfl |
    rfl | rfl | rfl | rfl | rfl | rfl | rfl | rfl | rfl <;> simp [Op.Valid]

/-- **C29 does not hold for all histories**: the entry 45, moved to `[19, 29]` by the edits, survives the edit
of `[28, 29]` and is found. -/
theorem C29_false : ¬ ∀ ops : List (Op Nat), (∀ op ∈ ops, op.Valid) → NeverStale ops := by
  intro h
  have hf : ((run stale).tree.findLargest 0 19).2 = some 45 := by decide +kernel
  have hl : ∀ s ∈ (run stale).live, s.1.val ≠ 45 := by decide +kernel
  obtain ⟨s, hs, -, -, e⟩ := h stale stale_valid 0 19 45 hf
  exact hl s hs e

/-! ## C31 -/

/-- The claim about `max` for one tree: with all shifts applied to a node, its `max` is a bound for the ends of
all intervals in the subtree. -/
def MaxBounds (S : List Shift) : Tr α → Prop
  | .nil => True
  | .node d l r =>
    (∀ f ∈ (Tr.node d l r).flat S, ∀ i ∈ f.ins, i.high ≤ (applyShifts S l.mx? r.mx? d).mx) ∧
    MaxBounds S l ∧ MaxBounds S r

/-- The keys with all shifts applied are strictly increasing from left to right. -/
def KeysOrdered (S : List Shift) (t : Tr α) : Prop :=
  (t.flat S).Pairwise fun f g => f.pos < g.pos ∨ (f.pos = g.pos ∧ f.id < g.id)

theorem Inv.maxBounds {S : List Shift} (hS : Good S) {t : Tr α} (h : Inv S t) : MaxBounds S t := by
  induction h with
  | nil => trivial
  | @node d l r own hl hr bl br ihl ihr =>
    refine ⟨?_, ihl, ihr⟩
    obtain ⟨s1, s2, s3⟩ := applyShifts_inv hS (.node own hl hr bl br)
    intro f hf
    refine (s1.bound s3 f ?_).2
    rw [Tr.flat, s2]
    exact hf

/-- **C31**, for the same histories as C29; false without `Grows`, see `C31_false`. -/
theorem C31_search_tree_partial (ops : List (Op α)) (hv : ∀ op ∈ ops, op.Valid) (hg : Grows false ops) :
    KeysOrdered (run ops).tree.shifts (run ops).tree.root ∧
    MaxBounds (run ops).tree.shifts (run ops).tree.root := by
  obtain ⟨b, h⟩ := hist_run ops false {} hist_init hv hg
  exact ⟨h.ord, h.inv.maxBounds h.good⟩

instance MaxBounds.dec (S : List Shift) : (t : Tr α) → Decidable (MaxBounds S t)
  | .nil => .isTrue trivial
  | .node d l r =>
    have := MaxBounds.dec S l
    have := MaxBounds.dec S r
    inferInstanceAs (Decidable ((∀ f ∈ (Tr.node d l r).flat S, ∀ i ∈ f.ins,
      i.high ≤ (applyShifts S l.mx? r.mx? d).mx) ∧ MaxBounds S l ∧ MaxBounds S r))

set_option maxRecDepth 100000 in
/-- **C31 does not hold for all histories**: before the last edit of `stale` the field `max` of a node is
smaller than the end of an interval below it. -/
theorem C31_false : ¬ ∀ ops : List (Op Nat), (∀ op ∈ ops, op.Valid) →
    MaxBounds (run ops).tree.shifts (run ops).tree.root := by
  intro h
  have hn : ¬ MaxBounds (run stale.dropLast).tree.shifts (run stale.dropLast).tree.root := by decide +kernel
  exact hn (h stale.dropLast fun op ho => stale_valid op (List.mem_of_mem_take (List.dropLast_eq_take ▸ ho)))

/-! ## C32 -/

/-- The claim of C32 for one history: whatever is stored at a location that `Pos` knows is a live interval that
was added there and now starts where `Pos` says. -/
def PosFollows (ops : List (Op α)) : Prop :=
  ∀ a p, ((run ops).tree.posOf a).2 = some p →
    ∃ d, (run ops).tree.root.at? a = some d ∧
      ∀ i ∈ d.ins, ∃ s ∈ (run ops).live, s.2 = a ∧ s.1.val = i.val ∧ s.1.low = p

@[simp] theorem applyShifts_addr (S : List Shift) (lm rm : Option Int) (d : Nd α) :
    (applyShifts S lm rm d).addr = d.addr := by
  have h : ∀ (l : List Shift) (d : Nd α), (l.foldl (applyShift lm rm) d).addr = d.addr := by
    intro l
    induction l with
    | nil => intro d; rfl
    | cons s l ih => intro d; rw [List.foldl_cons, ih, applyShift_addr]
  rw [applyShifts]
  split
  · rfl
  · split
    · rfl
    · exact h _ _

theorem at_touch {S : List Shift} (hS : Good S) (a : Nat) {t : Tr α} (h : Inv S t) {d' : Nd α}
    (hd : (t.touch S a).at? a = some d') :
    d'.t = S.length ∧ d'.fl S ∈ t.flat S ∧ d'.addr = a ∧
    ∃ d, t.at? a = some d ∧ d.ins.map Ival.val = d'.ins.map Ival.val := by
  induction h with
  | nil => cases hd
  | @node d l r own hl hr bl br ihl ihr =>
    rw [Tr.touch] at hd
    obtain ⟨s1, s2, s3⟩ := applyShifts_inv hS (.node own hl hr bl br)
    by_cases ha : d.addr = a
    · rw [if_pos ha, Tr.at?, applyShifts_addr, if_pos ha] at hd
      cases hd
      refine ⟨s3, ?_, by rw [applyShifts_addr, ha], d, by rw [Tr.at?, if_pos ha], ?_⟩
      · rw [s2]; simp [Tr.flat]
      · have := congrArg (fun f : Fl α => f.ins.map Ival.val) s2
        simp only [Nd.fl, shiftIns, List.map_map] at this
        exact this.symm
    · rw [if_neg ha, Tr.at?, if_neg ha] at hd
      cases hl' : (l.touch S a).at? a with
      | some x =>
        rw [hl'] at hd
        simp only [Option.some_or, Option.some.injEq] at hd
        subst hd
        obtain ⟨h1, h2, h3, e, h4, h5⟩ := ihl hl'
        exact ⟨h1, by simp [Tr.flat, h2], h3, e, by rw [Tr.at?, if_neg ha, h4]; rfl, h5⟩
      | none =>
        rw [hl'] at hd
        simp only [Option.none_or] at hd
        obtain ⟨h1, h2, h3, e, h4, h5⟩ := ihr hd
        have hnl : l.at? a = none := by
          have : ∀ t : Tr α, (t.touch S a).at? a = none → t.at? a = none := by
            intro t
            induction t with
            | nil => intro _; rfl
            | node d l r ihl ihr =>
              rw [Tr.touch]
              by_cases ha : d.addr = a
              · rw [if_pos ha, Tr.at?, applyShifts_addr, if_pos ha]
                intro h; cases h
              · rw [if_neg ha, Tr.at?, if_neg ha, Tr.at?, if_neg ha]
                intro h
                rw [Option.or_eq_none_iff] at h ⊢
                exact ⟨ihl h.1, ihr h.2⟩
          exact this l hl'
        exact ⟨h1, by simp [Tr.flat, h2], h3, e, by rw [Tr.at?, if_neg ha, hnl]; exact h4, h5⟩

/-- **C32**, for the same histories as C29. -/
theorem C32_positions_partial (ops : List (Op α)) (hv : ∀ op ∈ ops, op.Valid) (hg : Grows false ops) :
    PosFollows ops := by
  obtain ⟨b, h⟩ := hist_run ops false {} hist_init hv hg
  intro a p hp
  simp only [Tree.posOf, Option.map_eq_some_iff] at hp
  obtain ⟨d', hd', e⟩ := hp
  obtain ⟨h1, h2, h3, d, h4, h5⟩ := at_touch h.good a h.inv hd'
  refine ⟨d, h4, ?_⟩
  intro i hi
  have hm : i.val ∈ d'.ins.map Ival.val := by rw [← h5]; exact List.mem_map_of_mem hi
  obtain ⟨j, hj, ej⟩ := List.mem_map.1 hm
  have hw := h.inv.wf_flat _ h2
  have hst := h.stored _ h2
  rw [Nd.fl_done _ d' h1] at hw hst
  have hwj := (hw j hj).1
  exact ⟨_, hst j hj, h3, ej, by simp only [] at hwj ⊢; omega⟩

example : ((run growing).tree.posOf 3).2 = some 21 ∧ ((run growing).tree.posOf 4).2 = some 7 ∧
    ((run growing).tree.posOf 1).2 = none := by decide +kernel

/-! ## C30 -/

/-- The claim of C30 for one history: every live interval can still be found under its id at its place (or a
longer one is found there). -/
def KeepsAll (ops : List (Op α)) : Prop :=
  ∀ s ∈ (run ops).live, ∃ v, ((run ops).tree.findLargest s.1.id s.1.low).2 = some v ∧
    ∃ s' ∈ (run ops).live, s'.1.id = s.1.id ∧ s'.1.low = s.1.low ∧ s'.1.val = v ∧
      s.1.high - s.1.low ≤ s'.1.high - s'.1.low

/-- Three entries, an edit that meets the middle one, which is at the root. -/
def lossy : List (Op Nat) := [.add 0 10 12 1, .add 0 0 1 2, .add 0 20 21 3, .edit 11 12 0]

/-- **C30 does not hold**: the entry `[20, 21]` is lost by the edit of `[11, 12]`. -/
theorem C30_false : ¬ ∀ ops : List (Op Nat), (∀ op ∈ ops, op.Valid) → KeepsAll ops := by
  intro h
  have hv : ∀ op ∈ lossy, op.Valid := by
    intro op h
    simp only [lossy, List.mem_cons, List.not_mem_nil, or_false] at h
    rcases h with rfl | rfl | rfl | rfl <;> simp [Op.Valid]
  have hl : (⟨0, 20, 21, 3⟩, 2) ∈ (run lossy).live := by decide +kernel
  obtain ⟨v, hf, -⟩ := h lossy hv _ hl
  have : ((run lossy).tree.findLargest 0 20).2 = none := by decide +kernel
  rw [this] at hf
  cases hf

/-- The edits of a history meet no live interval. -/
def Apart : St α → List (Op α) → Prop
  | _, [] => True
  | st, .edit low high amt :: ops =>
    (∀ s ∈ st.live, ¬ (s.1.low ≤ high ∧ low ≤ s.1.high)) ∧ Apart (st.step (.edit low high amt)) ops
  | st, op :: ops => Apart (st.step op) ops

/-- Everything live is stored, and there are no empty nodes. -/
structure Kept (st : St α) : Prop where
  full : ∀ f ∈ st.tree.root.flat st.tree.shifts, f.ins ≠ []
  all : ∀ s ∈ st.live, ∃ f ∈ st.tree.root.flat st.tree.shifts, f.id = s.1.id ∧ f.addr = s.2 ∧
    ⟨s.1.low, s.1.high, s.1.val⟩ ∈ f.ins

theorem kept_flat {st st' : St α} (h : Kept st) (hl : st'.live = st.live)
    (hf : st'.tree.root.flat st'.tree.shifts = st.tree.root.flat st.tree.shifts) : Kept st' := by
  refine ⟨?_, ?_⟩
  · rw [hf]; exact h.full
  · rw [hf, hl]; exact h.all

theorem kept_add {b : Bool} {st : St α} (h : Hist b st) (hk : Kept st) {id low high : Int} {v : α}
    (hlh : low ≤ high) : Kept (st.step (.add id low high v)) := by
  obtain ⟨h1, h2, h3⟩ := add_spec h.good st.tree.next low id ⟨low, high, v⟩ rfl hlh st.tree.root h.inv h.ord
  rw [← h.time] at h1 h2 h3
  have hfull := hk.full
  have hall := hk.all
  refine ⟨?_, ?_⟩
  · intro f hf
    simp only [St.step, Tree.add] at hf
    rcases h3 with ⟨A, B, e1, e2, e3, -⟩ | ⟨A, g, B, e1, e2, e3, e4, e5⟩
    · rw [e2, List.mem_append, List.mem_cons] at hf
      rw [e1] at hfull
      rcases hf with hf | rfl | hf
      · exact hfull f (List.mem_append_left _ hf)
      · simp
      · exact hfull f (List.mem_append_right _ hf)
    · rw [e2, List.mem_append, List.mem_cons] at hf
      rw [e1] at hfull
      rcases hf with hf | rfl | hf
      · exact hfull f (List.mem_append_left _ hf)
      · simp
      · exact hfull f (List.mem_append_right _ (List.mem_cons_of_mem _ hf))
  · intro s hs
    simp only [St.step, Tree.add, List.mem_append, List.mem_singleton] at hs ⊢
    rcases h3 with ⟨A, B, e1, e2, e3, -⟩ | ⟨A, g, B, e1, e2, e3, e4, e5⟩
    · rw [e2]
      rw [e1] at hall
      rcases hs with hs | rfl
      · obtain ⟨f, hf, hh⟩ := hall s hs
        refine ⟨f, ?_, hh⟩
        rcases List.mem_append.1 hf with hf | hf
        · exact List.mem_append_left _ hf
        · exact List.mem_append_right _ (List.mem_cons_of_mem _ hf)
      · exact ⟨_, List.mem_append_right _ List.mem_cons_self, rfl, by rw [e3], List.mem_singleton.2 rfl⟩
    · rw [e2]
      rw [e1] at hall
      rcases hs with hs | rfl
      · obtain ⟨f, hf, hh1, hh2, hh3⟩ := hall s hs
        rcases List.mem_append.1 hf with hf | hf
        · exact ⟨f, List.mem_append_left _ hf, hh1, hh2, hh3⟩
        · rcases List.mem_cons.1 hf with rfl | hf
          · exact ⟨_, List.mem_append_right _ List.mem_cons_self, hh1, hh2, List.mem_append_left _ hh3⟩
          · exact ⟨f, List.mem_append_right _ (List.mem_cons_of_mem _ hf), hh1, hh2, hh3⟩
      · exact ⟨_, List.mem_append_right _ List.mem_cons_self, e5, e3.symm,
          List.mem_append_right _ (List.mem_singleton.2 rfl)⟩

theorem kept_edit {b : Bool} {st : St α} (h : Hist b st) (hk : Kept st) {low high amt : Int} (hlh : low ≤ high)
    (hap : ∀ s ∈ st.live, ¬ (s.1.low ≤ high ∧ low ≤ s.1.high)) :
    Kept (st.step (.edit low high amt)) := by
  have hc : Clear low high (st.tree.root.flat st.tree.shifts) := by
    intro f hf i hi
    have := hap _ (h.stored f hf i hi)
    simp only [Ival.overlaps, Bool.and_eq_false_iff, decide_eq_false_iff_not] at this ⊢
    omega
  obtain ⟨h1, -, -⟩ := removeOverlaps_spec h.good low high st.tree.root.size st.tree.root (Nat.le_refl _)
    h.inv h.ord
  have hfl := removeOverlaps_apart h.good low high st.tree.root.size st.tree.root h.inv hc hk.full
  have hflat : (st.step (.edit low high amt)).tree.root.flat (st.step (.edit low high amt)).tree.shifts =
      (st.tree.root.flat st.tree.shifts).map (Fl.move ⟨low, amt, st.tree.tstamp + 1⟩) := by
    simp only [St.step, Tree.removeAndShift]
    by_cases h0 : amt = 0
    · subst h0
      simp only [ne_eq, not_true_eq_false, if_false]
      rw [hfl]
      conv_lhs => rw [← List.map_id (st.tree.root.flat st.tree.shifts)]
      exact List.map_congr_left fun f _ => (move_zero _ _ f).symm
    · simp only [ne_eq, h0, not_false_eq_true, if_true, Tree.shift, if_false]
      rw [flat_snoc h1, hfl]
  refine ⟨?_, ?_⟩
  · rw [hflat]
    intro f hf
    obtain ⟨g, hg, rfl⟩ := List.mem_map.1 hf
    have := hk.full g hg
    simpa [Fl.move, shiftIns] using this
  · rw [hflat]
    intro s hs
    simp only [St.step] at hs
    obtain ⟨s0, hs0, e⟩ := List.mem_filterMap.1 hs
    obtain ⟨f, hf, hf1, hf2, hf3⟩ := hk.all s0 hs0
    have hw := (h.inv.wf_flat f hf _ hf3)
    have hap0 := hap s0 hs0
    simp only [follow] at e
    rw [if_neg hap0] at e
    refine ⟨f.move ⟨low, amt, st.tree.tstamp + 1⟩, List.mem_map_of_mem hf, ?_⟩
    obtain ⟨hw1, hw2⟩ := hw
    simp only [] at hw1 hw2
    by_cases hp : high < s0.1.low
    · rw [if_pos hp] at e
      simp only [Option.map_some, Option.some.injEq] at e
      subst e
      refine ⟨hf1, hf2, ?_⟩
      simp only [Fl.move, movePos, shiftIns]
      rw [if_pos (by omega)]
      refine List.mem_map.2 ⟨_, hf3, ?_⟩
      simp only [Ival.mk.injEq, and_true]
      omega
    · rw [if_neg hp] at e
      simp only [Option.map_some, Option.some.injEq] at e
      subst e
      refine ⟨hf1, hf2, ?_⟩
      simp only [Fl.move, movePos, shiftIns]
      rw [if_neg (by omega)]
      refine List.mem_map.2 ⟨_, hf3, ?_⟩
      simp only [Ival.mk.injEq, and_true]
      omega

theorem kept_run : ∀ (ops : List (Op α)) (b : Bool) (st : St α), Hist b st → Kept st →
    (∀ op ∈ ops, op.Valid) → Grows b ops → Apart st ops →
    ∃ b', Hist b' (ops.foldl St.step st) ∧ Kept (ops.foldl St.step st)
  | [], b, st, h, hk, _, _, _ => ⟨b, h, hk⟩
  | op :: ops, b, st, h, hk, hv, hg, hap => by
    have hv' : ∀ op ∈ ops, op.Valid := fun o ho => hv o (List.mem_cons_of_mem _ ho)
    have hv0 := hv op List.mem_cons_self
    rw [List.foldl_cons]
    cases op with
    | add id low high v => exact kept_run ops b _ (hist_add h hv0.1 hv0.2) (kept_add h hk hv0.2) hv' hg hap
    | edit low high amt =>
      exact kept_run ops true _ (hist_edit h hv0.1 hv0.2 hg.1) (kept_edit h hk hv0.1 hap.1) hv' hg.2 hap.2
    | find id pos =>
      exact kept_run ops b _ (hist_find h id pos)
        (kept_flat hk rfl (search_spec h.good pos id st.tree.root h.inv h.ord).2.1) hv' hg hap
    | pos a =>
      exact kept_run ops b _ (hist_pos h a)
        (kept_flat hk rfl (touch_spec h.good a st.tree.root h.inv).2.1) hv' hg hap

/-- **C30**, for histories as in C29 whose edits meet no entry: nothing is lost. The claim for all histories is
false (`C30_false`): as soon as an edit removes an entry, others can go with it. -/
theorem C30_keeps_partial (ops : List (Op α)) (hv : ∀ op ∈ ops, op.Valid) (hg : Grows false ops)
    (hap : Apart {} ops) : KeepsAll ops := by
  obtain ⟨b, h, hk⟩ := kept_run ops false {} hist_init ⟨(fun _ h => by cases h), (fun _ h => by cases h)⟩ hv hg hap
  intro s hs
  change s ∈ (ops.foldl St.step {}).live at hs
  obtain ⟨f, hf, hf1, hf2, hf3⟩ := hk.all s hs
  obtain ⟨-, -, h3⟩ := search_spec h.good s.1.low s.1.id _ h.inv h.ord
  have hwf := (h.inv.wf_flat f hf _ hf3).1
  simp only [] at hwf
  simp only [Tree.findLargest, run]
  cases hsr : (search (ops.foldl St.step {}).tree.shifts s.1.low s.1.id (ops.foldl St.step {}).tree.root).2 with
  | none =>
    rw [hsr] at h3
    exact absurd ⟨hwf.symm, hf1⟩ (h3 f hf)
  | some d =>
    rw [hsr] at h3
    obtain ⟨h4, h5, h6, h7⟩ := h3
    have hdfl := Nd.fl_done _ d h4
    have hfd : f = d.fl (ops.foldl St.step {}).tree.shifts := by
      have hinj := h.ord
      rw [Tr.Ord, List.pairwise_iff_forall_sublist] at hinj
      by_contra hne
      have hor : ∀ (L : List (Fl α)), L.Pairwise Fl.lt → ∀ a ∈ L, ∀ b ∈ L, a.pos = b.pos → a.id = b.id → a = b := by
        intro L hL
        induction hL with
        | nil => intro a ha; cases ha
        | @cons x xs hx _ ih =>
          intro a ha b hb e1 e2
          rcases List.mem_cons.1 ha with rfl | ha
          · rcases List.mem_cons.1 hb with rfl | hb
            · rfl
            · have := hx b hb
              simp only [Fl.lt, klt] at this
              omega
          · rcases List.mem_cons.1 hb with rfl | hb
            · have := hx a (by assumption)
              simp only [Fl.lt, klt] at this
              omega
            · exact ih a ha b hb e1 e2
      exact hne (hor _ h.ord f hf _ h7 (by rw [hdfl]; simp only []; omega) (by rw [hdfl]; simp only []; omega))
    rw [hfd, hdfl] at hf3
    simp only [] at hf3
    cases hi : d.ins with
    | nil => rw [hi] at hf3; cases hf3
    | cons i is =>
      refine ⟨(Tree.largest is i).val, by simp only [hi], ?_⟩
      rw [hi] at hf3
      have hm := largest_mem is i
      rw [← hi] at hm
      have hw := h.inv.wf_flat _ h7
      have hst := h.stored _ h7
      rw [hdfl] at hw hst
      have h8 := (hw _ hm).1
      have h9 := largest_ge is i _ hf3
      simp only [] at h8 h9
      exact ⟨_, hst _ hm, h6, by simp only []; omega, rfl, h9⟩

/-- A history whose edits meet no entry. -/
def apart : List (Op Nat) :=
  [.add 1 5 9 10, .add 1 0 3 11, .add 1 20 22 12, .edit 11 15 (-4), .add 2 16 17 13, .edit 4 4 7]

example : (∀ op ∈ apart, op.Valid) ∧ Grows false apart ∧ Apart {} apart ∧
    (run apart).live.map (fun s => (s.1.low, s.1.high)) = [(12, 16), (0, 3), (23, 25), (23, 24)] := by
  refine ⟨?_, ?_, ?_, by decide +kernel⟩
  · intro op h
    simp only [apart, List.mem_cons, List.not_mem_nil, or_false] at h
    rcases h with rfl | rfl | rfl | rfl | rfl | rfl <;> simp [Op.Valid]
  · simp [apart, Grows]
  · simp only [apart, Apart]
    exact ⟨by decide +kernel, by decide +kernel, trivial⟩

end Gpeg.LazyLog
