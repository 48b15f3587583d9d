import Verif.LazyLogFirst
/-! # Histories of the interval tree -/
namespace Gpeg.LazyLog
variable {α : Type}

/-- Operations on the interval map. `pos a` stands for `LazyInterval.Pos` called on the location `a`. -/
inductive Op (α : Type)
  | add (id low high : Int) (val : α)
  | edit (low high amt : Int)
  | find (id pos : Int)
  | pos (loc : Nat)

/-- What an edit of the closed range `[low, high]` that moves what follows by `amt` does to an interval: it
goes away if it meets the range, it moves if it starts after it, it stays if it ends before it. -/
def follow (low high amt : Int) (s : Slot α) : Option (Slot α) :=
  if s.low ≤ high ∧ low ≤ s.high then none
  else if high < s.low then some ⟨s.id, s.low + amt, s.high + amt, s.val⟩
  else some s

/-- The tree, and next to it the intervals that were added and not met by an edit since, each with its
current place and the location that `Add` returned for it. -/
structure St (α : Type) where
  tree : Tree α := {}
  live : List (Slot α × Nat) := []

/-- One operation. -/
def St.step (st : St α) : Op α → St α
  | .add id low high v =>
    { tree := (st.tree.add id low high v).1,
      live := st.live ++ [(⟨id, low, high, v⟩, (st.tree.add id low high v).2)] }
  | .edit low high amt =>
    { tree := st.tree.removeAndShift low high amt,
      live := st.live.filterMap fun s => (follow low high amt s.1).map fun s' => (s', s.2) }
  | .find id pos => { st with tree := (st.tree.findLargest id pos).1 }
  | .pos a => { st with tree := (st.tree.posOf a).1 }

/-- A history, oldest operation first. -/
def run (ops : List (Op α)) : St α := ops.foldl St.step {}

/-- Operations as the memo table makes them: intervals at positions `≥ 0` that do not end before they start,
edits that do not remove more than their range. -/
def Op.Valid : Op α → Prop
  | .add _ low high _ => 0 ≤ low ∧ low ≤ high
  | .edit low high amt => low ≤ high ∧ low - high ≤ amt
  | .find .. => True
  | .pos _ => True

/-- Histories where all edits but the first make the text longer or leave its length. The flag tells that
there has been an edit. -/
def Grows : Bool → List (Op α) → Prop
  | _, [] => True
  | b, .edit _ _ amt :: ops => (b = true → 0 ≤ amt) ∧ Grows true ops
  | b, .add .. :: ops => Grows b ops
  | b, .find .. :: ops => Grows b ops
  | b, .pos _ :: ops => Grows b ops

/-- Every interval stored is one of the live ones and is stored at its location. -/
def Stored (L : List (Fl α)) (live : List (Slot α × Nat)) : Prop :=
  ∀ f ∈ L, ∀ i ∈ f.ins, (⟨f.id, i.low, i.high, i.val⟩, f.addr) ∈ live

/-- The invariant of histories. -/
structure Hist (b : Bool) (st : St α) : Prop where
  good : Good st.tree.shifts
  time : st.tree.tstamp = st.tree.shifts.length
  inv : Inv st.tree.shifts st.tree.root
  ord : st.tree.root.Ord st.tree.shifts
  first : b = false → st.tree.shifts = [] ∧ Dom st.tree.root ∧ Full st.tree.root
  stored : Stored (st.tree.root.flat st.tree.shifts) st.live
  nodup : ((st.tree.root.flat st.tree.shifts).map Fl.addr).Nodup
  fresh : ∀ f ∈ st.tree.root.flat st.tree.shifts, f.addr < st.tree.next

theorem hist_init : Hist false ({} : St α) where
  good := good_nil
  time := rfl
  inv := .nil
  ord := .nil
  first := fun _ => ⟨rfl, .nil, .nil⟩
  stored := fun _ h => by cases h
  nodup := .nil
  fresh := fun _ h => by cases h

theorem hist_add {b : Bool} {st : St α} (h : Hist b st) {id low high : Int} {v : α} (h0 : 0 ≤ low)
    (hlh : low ≤ high) : Hist b (st.step (.add id low high v)) := by
  obtain ⟨h1, h2, h3⟩ := add_spec h.good st.tree.next low id ⟨low, high, v⟩ rfl hlh st.tree.root h.inv h.ord
  rw [← h.time] at h1 h2 h3
  have ho : (add st.tree.shifts st.tree.tstamp st.tree.next low id ⟨low, high, v⟩ st.tree.root).1.Ord
      st.tree.shifts := h3.ord h.ord
  refine ⟨h.good, h.time, h1, ho, ?_, ?_, ?_, ?_⟩
  · intro hb
    obtain ⟨e, hd, hf⟩ := h.first hb
    have ht := h.time
    rw [e] at ht
    simp only [St.step, Tree.add]
    rw [e, ht]
    exact ⟨rfl, add_dom _ _ _ _ (by simp only []; omega) _ hd, add_full _ _ _ _ _ hf⟩
  · intro f hf i hi
    simp only [St.step, Tree.add] at hf ⊢
    rw [List.mem_append]
    rcases h3 with ⟨A, B, e1, e2, e3, -⟩ | ⟨A, g, B, e1, e2, e3, e4, e5⟩
    · rw [e2, List.mem_append, List.mem_cons] at hf
      rcases hf with hf | rfl | hf
      · exact .inl (h.stored f (by rw [e1]; exact List.mem_append_left _ hf) i hi)
      · simp only [List.mem_singleton] at hi
        subst hi
        rw [e3]
        exact .inr (List.mem_singleton.2 rfl)
      · exact .inl (h.stored f (by rw [e1]; exact List.mem_append_right _ hf) i hi)
    · rw [e2, List.mem_append, List.mem_cons] at hf
      rcases hf with hf | rfl | hf
      · exact .inl (h.stored f (by rw [e1]; exact List.mem_append_left _ hf) i hi)
      · rcases List.mem_append.1 hi with hi | hi
        · exact .inl (h.stored g (by rw [e1]; exact List.mem_append_right _ List.mem_cons_self) i hi)
        · simp only [List.mem_singleton] at hi
          subst hi
          rw [e3, e5]
          exact .inr (List.mem_singleton.2 rfl)
      · exact .inl (h.stored f (by rw [e1]; exact List.mem_append_right _ (List.mem_cons_of_mem _ hf)) i hi)
  · simp only [St.step, Tree.add]
    have hn := h.nodup
    have hfr := h.fresh
    rcases h3 with ⟨A, B, e1, e2, e3, -⟩ | ⟨A, g, B, e1, e2, e3, e4, e5⟩
    · rw [e2]
      rw [e1] at hn hfr
      simp only [List.map_append, List.map_cons] at hn ⊢
      refine (List.perm_middle.nodup_iff).2 (List.nodup_cons.2 ⟨?_, hn⟩)
      intro hm
      rw [← List.map_append] at hm
      obtain ⟨f, hf, e⟩ := List.mem_map.1 hm
      have := hfr f hf
      omega
    · rw [e2]
      rw [e1] at hn
      simpa using hn
  · intro f hf
    simp only [St.step, Tree.add] at hf ⊢
    have hfr := h.fresh
    rcases h3 with ⟨A, B, e1, e2, e3, -⟩ | ⟨A, g, B, e1, e2, e3, e4, e5⟩
    · rw [e1] at hfr
      rw [e2, List.mem_append, List.mem_cons] at hf
      rcases hf with hf | rfl | hf
      · have := hfr f (List.mem_append_left _ hf); omega
      · exact Nat.lt_succ_self _
      · have := hfr f (List.mem_append_right _ hf); omega
    · rw [e1] at hfr
      rw [e2, List.mem_append, List.mem_cons] at hf
      rcases hf with hf | rfl | hf
      · have := hfr f (List.mem_append_left _ hf); omega
      · have := hfr g (List.mem_append_right _ List.mem_cons_self)
        simp only []
        omega
      · have := hfr f (List.mem_append_right _ (List.mem_cons_of_mem _ hf)); omega

theorem hist_find {b : Bool} {st : St α} (h : Hist b st) (id pos : Int) :
    Hist b (st.step (.find id pos)) := by
  obtain ⟨h1, h2, -⟩ := search_spec h.good pos id st.tree.root h.inv h.ord
  refine ⟨h.good, h.time, h1, ?_, ?_, ?_, ?_, ?_⟩
  · show (List.Pairwise _ _)
    simp only [St.step, Tree.findLargest]
    rw [h2]; exact h.ord
  · intro hb
    obtain ⟨e, hd, hf⟩ := h.first hb
    simp only [St.step, Tree.findLargest]
    rw [e, search_nil]
    exact ⟨rfl, hd, hf⟩
  · simp only [St.step, Tree.findLargest]
    rw [h2]; exact h.stored
  · simp only [St.step, Tree.findLargest]
    rw [h2]; exact h.nodup
  · simp only [St.step, Tree.findLargest]
    rw [h2]; exact h.fresh

theorem hist_pos {b : Bool} {st : St α} (h : Hist b st) (a : Nat) : Hist b (st.step (.pos a)) := by
  obtain ⟨h1, h2, -⟩ := touch_spec h.good a st.tree.root h.inv
  refine ⟨h.good, h.time, h1, ?_, ?_, ?_, ?_, ?_⟩
  · show (List.Pairwise _ _)
    simp only [St.step, Tree.posOf]
    rw [h2]; exact h.ord
  · intro hb
    obtain ⟨e, hd, hf⟩ := h.first hb
    simp only [St.step, Tree.posOf]
    rw [e, touch_nil]
    exact ⟨rfl, hd, hf⟩
  · simp only [St.step, Tree.posOf]
    rw [h2]; exact h.stored
  · simp only [St.step, Tree.posOf]
    rw [h2]; exact h.nodup
  · simp only [St.step, Tree.posOf]
    rw [h2]; exact h.fresh

/-- The list of live intervals after an edit. -/
def followAll (low high amt : Int) (live : List (Slot α × Nat)) : List (Slot α × Nat) :=
  live.filterMap fun s => (follow low high amt s.1).map fun s' => (s', s.2)

theorem stored_sub {L L' : List (Fl α)} {live : List (Slot α × Nat)} (h : Stored L live) (hs : Sub L' L) :
    Stored L' live := by
  intro f hf i hi
  rcases hs.ins f hf with he | ⟨g, hg, e1, e2, e3, e4⟩
  · rw [he] at hi; cases hi
  · rw [← e2, ← e3]; exact h g hg i (e4 i hi)

theorem stored_move {L : List (Fl α)} {live : List (Slot α × Nat)} {low high amt : Int} {k : Nat}
    (hw : ∀ f ∈ L, ∀ i ∈ f.ins, i.low = f.pos ∧ i.low ≤ i.high) (hlh : low ≤ high)
    (hc : Clear low high L) (h : Stored L live) :
    Stored (L.map (Fl.move ⟨low, amt, k⟩)) (followAll low high amt live) := by
  intro f hf i hi
  obtain ⟨g, hg, rfl⟩ := List.mem_map.1 hf
  obtain ⟨j, hj, e1, e2, e3⟩ := mem_shiftIns hi
  have h1 := hw g hg j hj
  have h2 := hc g hg j hj
  simp only [Ival.overlaps, Bool.and_eq_false_iff, decide_eq_false_iff_not] at h2
  refine List.mem_filterMap.2 ⟨_, h g hg j hj, ?_⟩
  simp only [follow]
  rw [if_neg (by omega)]
  simp only [movePos] at e1 e2
  by_cases hp : high < j.low
  · rw [if_pos hp]
    rw [if_pos (by omega)] at e1 e2
    simp only [Option.map_some, Option.some.injEq, Prod.mk.injEq, Slot.mk.injEq, Fl.move]
    refine ⟨⟨trivial, ?_, ?_, e3.symm⟩, trivial⟩ <;> omega
  · rw [if_neg hp]
    rw [if_neg (by omega)] at e1 e2
    simp only [Option.map_some, Option.some.injEq, Prod.mk.injEq, Slot.mk.injEq, Fl.move]
    refine ⟨⟨trivial, ?_, ?_, e3.symm⟩, trivial⟩ <;> omega

theorem move_zero (low : Int) (k : Nat) (f : Fl α) : f.move ⟨low, 0, k⟩ = f := by
  simp [Fl.move, movePos, shiftIns_zero]

theorem move_addrs (s : Shift) (L : List (Fl α)) : (L.map (Fl.move s)).map Fl.addr = L.map Fl.addr := by
  rw [List.map_map]; rfl

theorem hist_edit {b : Bool} {st : St α} (h : Hist b st) {low high amt : Int} (hlh : low ≤ high)
    (ha : low - high ≤ amt) (hb : b = true → 0 ≤ amt) : Hist true (st.step (.edit low high amt)) := by
  obtain ⟨h1, h2, h3⟩ := removeOverlaps_spec h.good low high st.tree.root.size st.tree.root (Nat.le_refl _)
    h.inv h.ord
  have hq : b = false → ∀ g ∈ (removeOverlaps st.tree.shifts low high st.tree.root.size
      st.tree.root).flat st.tree.shifts, g.ins = [] → high < g.pos := by
    intro hb
    obtain ⟨e, hd, hf⟩ := h.first hb
    have hi := h.inv
    have ho := h.ord
    rw [e] at hi ho ⊢
    refine (removeOverlaps_empty low high _ _ (Nat.le_refl _) hi ho hd ?_).2.2
    have : ∀ t : Tr α, Full t → All (Visit low high) t := by
     intro t hf
     induction hf with
     | nil => exact .nil
     | node hn _ _ il ir => exact .node (fun he => absurd he hn) il ir
    exact this _ hf
  have hs := stored_sub h.stored h2
  have hn := h.nodup.sublist h2.addrs
  have hw := h1.wf_flat
  have ho := h2.ord h.ord
  have hfr : ∀ f ∈ (removeOverlaps st.tree.shifts low high st.tree.root.size
      st.tree.root).flat st.tree.shifts, f.addr < st.tree.next := by
    intro f hf
    obtain ⟨g, hg, e⟩ := List.mem_map.1 (h2.addrs.subset (List.mem_map_of_mem hf))
    have := h.fresh g hg
    omega
  have hm := stored_move (amt := amt) (k := st.tree.tstamp + 1) hw hlh h3 hs
  have hstep : st.step (.edit low high amt) = ⟨st.tree.removeAndShift low high amt,
    followAll low high amt st.live⟩ := rfl
  rw [hstep, Tree.removeAndShift]
  by_cases h0 : amt = 0
  · subst h0
    simp only [ne_eq, not_true_eq_false, if_false]
    refine ⟨h.good, h.time, h1, ho, (fun h => by cases h), ?_, hn, hfr⟩
    have : ∀ L : List (Fl α), L.map (Fl.move ⟨low, 0, st.tree.tstamp + 1⟩) = L := by
      intro L
      conv_rhs => rw [← List.map_id L]
      exact List.map_congr_left fun f _ => move_zero _ _ f
    rw [this] at hm
    exact hm
  · simp only [ne_eq, h0, not_false_eq_true, if_true, Tree.shift, if_false]
    have hfl := flat_snoc h1 ⟨low, amt, st.tree.tstamp + 1⟩
    have hnew : Inv (st.tree.shifts ++ [⟨low, amt, st.tree.tstamp + 1⟩])
          (removeOverlaps st.tree.shifts low high st.tree.root.size st.tree.root) ∧
        (removeOverlaps st.tree.shifts low high st.tree.root.size st.tree.root).Ord
          (st.tree.shifts ++ [⟨low, amt, st.tree.tstamp + 1⟩]) ∧
        (st.tree.shifts = [] ∨ 0 ≤ amt) := by
      by_cases hp : 0 ≤ amt
      · obtain ⟨a1, a2⟩ := later_shift h1 ho ⟨low, amt, st.tree.tstamp + 1⟩ hp
        exact ⟨a1, a2, .inr hp⟩
      · cases b with
        | true => exact absurd (hb rfl) hp
        | false =>
          obtain ⟨e, -, -⟩ := h.first rfl
          have hq := hq rfl
          rw [e] at h1 ho h3 hq ⊢
          obtain ⟨a1, a2⟩ := first_shift (k := st.tree.tstamp + 1) h1 ho h3 hq hlh ha
          exact ⟨a1, a2, .inl rfl⟩
    refine ⟨h.good.snoc (by simp only [h.time]) hnew.2.2, by simp [h.time], hnew.1, hnew.2.1,
      (fun h => by cases h), ?_, ?_, ?_⟩
    · simp only []
      rw [hfl]; exact hm
    · simp only []
      rw [hfl, move_addrs]; exact hn
    · simp only []
      rw [hfl]
      intro f hf
      obtain ⟨g, hg, rfl⟩ := List.mem_map.1 hf
      exact hfr g hg

theorem hist_run : ∀ (ops : List (Op α)) (b : Bool) (st : St α), Hist b st → (∀ op ∈ ops, op.Valid) →
    Grows b ops → ∃ b', Hist b' (ops.foldl St.step st)
  | [], b, st, h, _, _ => ⟨b, h⟩
  | op :: ops, b, st, h, hv, hg => by
    have hv' : ∀ op ∈ ops, op.Valid := fun o ho => hv o (List.mem_cons_of_mem _ ho)
    have hv0 := hv op List.mem_cons_self
    rw [List.foldl_cons]
    cases op with
    | add id low high v => exact hist_run ops b _ (hist_add h hv0.1 hv0.2) hv' hg
    | edit low high amt => exact hist_run ops true _ (hist_edit h hv0.1 hv0.2 hg.1) hv' hg.2
    | find id pos => exact hist_run ops b _ (hist_find h id pos) hv' hg
    | pos a => exact hist_run ops b _ (hist_pos h a) hv' hg

/-! ## Edits that meet nothing -/

theorem swapRemove_none {β : Type} {p : β → Bool} : ∀ (f : Nat) (l : List β), l.length ≤ f → (∀ x ∈ l, p x = false) →
    swapRemove p f l = l := by
  intro f
  induction f with
  | zero =>
    intro l hl _
    cases l with
    | nil => rfl
    | cons => cases hl
  | succ f ih =>
    intro l hl h
    cases l with
    | nil => rfl
    | cons x xs =>
      rw [swapRemove, if_neg (by simp [h x List.mem_cons_self])]
      rw [ih xs (by simpa using hl) fun y hy => h y (List.mem_cons_of_mem _ hy)]

theorem removeOverlaps_apart {S : List Shift} (hS : Good S) (low high : Int) : ∀ (f : Nat) (t : Tr α),
    Inv S t → Clear low high (t.flat S) → (∀ g ∈ t.flat S, g.ins ≠ []) →
    (removeOverlaps S low high f t).flat S = t.flat S := by
  intro f
  induction f with
  | zero => intro t _ _ _; rfl
  | succ f ih =>
    intro t h hc hn
    cases t with
    | nil => rfl
    | node d l r =>
      obtain ⟨s1, s2, s3⟩ := applyShifts_inv hS h
      have hfl : (Tr.node d l r).flat S = l.flat S ++ (applyShifts S l.mx? r.mx? d).fl S :: r.flat S := by
        rw [s2]; rfl
      rw [hfl] at hc hn ⊢
      rw [removeOverlaps]
      simp only []
      generalize applyShifts S l.mx? r.mx? d = d' at *
      obtain ⟨own, hl, hr, bl, br⟩ := s1.done_parts s3
      have hdfl := Nd.fl_done S d' s3
      by_cases hmx : low > d'.mx
      · rw [if_pos hmx]; rfl
      · rw [if_neg hmx]
        have el := ih l hl (fun g hg => hc g (List.mem_append_left _ hg))
          (fun g hg => hn g (List.mem_append_left _ hg))
        have er := ih r hr (fun g hg => hc g (List.mem_append_right _ (List.mem_cons_of_mem _ hg)))
          (fun g hg => hn g (List.mem_append_right _ (List.mem_cons_of_mem _ hg)))
        have hcd := hc (d'.fl S) (List.mem_append_right _ List.mem_cons_self)
        have hnd := hn (d'.fl S) (List.mem_append_right _ List.mem_cons_self)
        rw [hdfl] at hcd hnd
        rw [swapRemove_none _ _ (Nat.le_refl _) hcd]
        have hne : ¬ (d'.ins.isEmpty = true) := fun he => hnd (List.isEmpty_iff.1 he)
        simp only []
        rw [if_neg hne]
        split
        · simp only [Tr.flat, el]
        · simp only [Tr.flat, el, er]

end Gpeg.LazyLog
