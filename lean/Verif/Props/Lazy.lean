import Verif.LazyOps
/-! # C53: the tree of `memo/interval/lazy` implements the abstract interval map

The specification is `IArray.specEdit` (of C34): what one edit does to one interval. -/
namespace Gpeg.Lazy
variable {α : Type}

/-- Operations on the tree. `pos a` stands for `Pos` called on the location `a`. -/
inductive Op (α : Type)
  | add (id low high : Int) (val : α)
  | edit (low high amt : Int)
  | find (id pos : Int)
  | pos (loc : Nat)

/-- The tree, and next to it the abstract map: the intervals that were added and not met by an edit since, each
at its current place and with the location that `Add` returned for it. -/
structure St (α : Type) where
  tree : Tree α := {}
  live : List (Slot α × Nat) := []

/-- One operation. -/
def St.step (st : St α) : Op α → St α
  | .add id low high v =>
    { tree := (st.tree.add id low high v).1,
      live := st.live ++ [(⟨id, low, high, v⟩, (st.tree.add id low high v).2)] }
  | .edit low high amt =>
    { tree := st.tree.removeAndShift low high amt,
      live := st.live.filterMap fun s => (IArray.specEdit low high amt s.1).map fun s' => (s', s.2) }
  | .find id pos => { st with tree := (st.tree.findLargest id pos).1 }
  | .pos a => { st with tree := (st.tree.posOf a).1 }

/-- A history, oldest operation first. -/
def run (ops : List (Op α)) : St α := ops.foldl St.step {}

/-- Intervals of a text, and edits that do not make it shorter. -/
def Op.Grows : Op α → Prop
  | .add _ low high _ => 0 ≤ low ∧ low ≤ high
  | .edit _ _ amt => 0 ≤ amt
  | .find .. => True
  | .pos _ => True

/-- The same operations but with edits that may remove as much as their range. -/
def Op.Valid : Op α → Prop
  | .add _ low high _ => 0 ≤ low ∧ low ≤ high
  | .edit low high amt => low ≤ high ∧ low - high ≤ amt
  | .find .. => True
  | .pos _ => True

/-- The intervals of a node. -/
def Fl.slots (f : Fl α) : List (Slot α × Nat) := f.ivs.map fun i => (⟨f.id, i.low, i.high, i.val⟩, f.addr)

/-- The invariant of histories. -/
structure Hist (st : St α) : Prop where
  inv : Inv st.tree.root
  full : ∀ f ∈ den st.tree.root, f.ivs ≠ []
  nodup : ((den st.tree.root).map Fl.addr).Nodup
  fresh : ∀ f ∈ den st.tree.root, f.addr < st.tree.next
  same : ((den st.tree.root).flatMap Fl.slots).Perm st.live
  pos : ∀ s ∈ st.live, 0 ≤ s.1.low ∧ s.1.low ≤ s.1.high

theorem hist_init : Hist ({} : St α) where
  inv := trivial
  full := fun _ h => by cases h
  nodup := .nil
  fresh := fun _ h => by cases h
  same := .refl _
  pos := fun _ h => by cases h

theorem hist_add {st : St α} (h : Hist st) {id low high : Int} {v : α} (h0 : 0 ≤ low) (hlh : low ≤ high) :
    Hist (st.step (.add id low high v)) := by
  obtain ⟨L', hr, ha⟩ := add_res st.tree.next low id ⟨low, high, v⟩ rfl hlh (st.tree.root.size + 1) st.tree.root
    (Nat.lt_succ_self _) h.inv
  have hd : den (st.step (.add id low high v)).tree.root = L' := hr.den
  have hl : (st.step (.add id low high v)).live = st.live ++ [(⟨id, low, high, v⟩,
      (add st.tree.next low id ⟨low, high, v⟩ (st.tree.root.size + 1) st.tree.root).2)] := rfl
  have hx : (st.step (.add id low high v)).tree.next = st.tree.next + 1 := rfl
  have hfull := h.full
  have hnd := h.nodup
  have hfr := h.fresh
  have hsm := h.same
  have hpos : ∀ s ∈ (st.step (.add id low high v)).live, 0 ≤ s.1.low ∧ s.1.low ≤ s.1.high := by
    intro s hs
    rw [hl, List.mem_append, List.mem_singleton] at hs
    rcases hs with hs | rfl
    · exact h.pos s hs
    · exact ⟨h0, hlh⟩
  generalize (add st.tree.next low id ⟨low, high, v⟩ (st.tree.root.size + 1) st.tree.root).2 = loc at *
  rcases ha with ⟨A, B, e1, rfl, rfl, -⟩ | ⟨A, g, B, e1, rfl, rfl, rfl, rfl⟩
  · rw [e1] at hfull hnd hfr hsm
    refine ⟨hr.inv, ?_, ?_, ?_, ?_, hpos⟩
    · rw [hd]
      intro f hf
      rcases List.mem_append.1 hf with hf | hf
      · exact hfull f (List.mem_append_left _ hf)
      · rcases List.mem_cons.1 hf with rfl | hf
        · simp
        · exact hfull f (List.mem_append_right _ hf)
    · rw [hd]
      simp only [List.map_append, List.map_cons] at hnd ⊢
      refine (List.perm_middle.nodup_iff).2 (List.nodup_cons.2 ⟨?_, hnd⟩)
      intro hm
      rw [← List.map_append] at hm
      obtain ⟨f, hf, e⟩ := List.mem_map.1 hm
      have := hfr f hf
      omega
    · rw [hd, hx]
      intro f hf
      rcases List.mem_append.1 hf with hf | hf
      · have := hfr f (List.mem_append_left _ hf); omega
      · rcases List.mem_cons.1 hf with rfl | hf
        · simp
        · have := hfr f (List.mem_append_right _ hf); omega
    · rw [hd, hl]
      refine List.Perm.trans ?_ (hsm.append_right _)
      simp only [List.flatMap_append, List.flatMap_cons, Fl.slots, List.map_cons, List.map_nil, List.append_assoc]
      exact List.Perm.append_left _ List.perm_append_comm
  · rw [e1] at hfull hnd hfr hsm
    refine ⟨hr.inv, ?_, ?_, ?_, ?_, hpos⟩
    · rw [hd]
      intro f hf
      rcases List.mem_append.1 hf with hf | hf
      · exact hfull f (List.mem_append_left _ hf)
      · rcases List.mem_cons.1 hf with rfl | hf
        · simp
        · exact hfull f (List.mem_append_right _ (List.mem_cons_of_mem _ hf))
    · rw [hd]
      simpa using hnd
    · rw [hd, hx]
      intro f hf
      rcases List.mem_append.1 hf with hf | hf
      · have := hfr f (List.mem_append_left _ hf); omega
      · rcases List.mem_cons.1 hf with rfl | hf
        · have := hfr g (by simp); simp only []; omega
        · have := hfr f (List.mem_append_right _ (List.mem_cons_of_mem _ hf)); omega
    · rw [hd, hl]
      refine List.Perm.trans ?_ (hsm.append_right _)
      simp only [List.flatMap_append, List.flatMap_cons, Fl.slots, List.map_cons, List.map_nil, List.append_assoc,
        List.map_append]
      refine List.Perm.append_left _ (List.Perm.append_left _ List.perm_append_comm)

theorem mv_slots {low amt : Int} {m : Int} {f : Fl α} (h : FOK m f) :
    (mv ⟨low, amt⟩ f).slots = f.slots.map fun s =>
      if low ≤ s.1.low then (⟨s.1.id, s.1.low + amt, s.1.high + amt, s.1.val⟩, s.2) else s := by
  unfold Fl.slots mv
  by_cases hp : f.pos ≥ low
  · rw [if_pos hp, List.map_map, List.map_map]
    refine List.map_congr_left fun i hi => ?_
    have := (h.2 i hi).1
    simp only [Function.comp, Ival.shift]
    rw [if_pos (by omega)]
  · rw [if_neg hp, List.map_map]
    refine List.map_congr_left fun i hi => ?_
    have := (h.2 i hi).1
    simp only [Function.comp]
    rw [if_neg (by omega)]

theorem clean_slots (low high : Int) (f : Fl α) :
    ((clean low high f).toList.flatMap Fl.slots).Perm
      (f.slots.filter fun s => !(decide (s.1.low < high) && decide (low < s.1.high))) := by
  have hp := swapRemove_perm (Ival.overlaps low high) f.ivs.length f.ivs (Nat.le_refl _)
  have e : f.slots.filter (fun s => !(decide (s.1.low < high) && decide (low < s.1.high))) =
      (f.ivs.filter fun i => !Ival.overlaps low high i).map fun i => (⟨f.id, i.low, i.high, i.val⟩, f.addr) := by
    rw [Fl.slots, List.filter_map]
    rfl
  rw [e]
  rw [clean]
  split
  · rename_i hn
    rw [List.isEmpty_iff] at hn
    rw [hn] at hp
    rw [List.perm_nil.1 hp.symm]
    exact .refl _
  · simp only [Option.toList, List.flatMap_cons, List.flatMap_nil, List.append_nil]
    exact hp.map _

theorem filterMap_slots (low high : Int) (L : List (Fl α)) :
    ((L.filterMap (clean low high)).flatMap Fl.slots).Perm
      ((L.flatMap Fl.slots).filter fun s => !(decide (s.1.low < high) && decide (low < s.1.high))) := by
  induction L with
  | nil => exact .refl _
  | cons f L ih =>
    have h1 := clean_slots low high f
    rw [List.flatMap_cons, List.filter_append, List.filterMap_cons]
    cases h : clean low high f with
    | none =>
      rw [h] at h1
      simp only [Option.toList, List.flatMap_nil] at h1
      rw [List.perm_nil.1 h1.symm, List.nil_append]
      exact ih
    | some g =>
      rw [h] at h1
      simp only [Option.toList, List.flatMap_cons, List.flatMap_nil, List.append_nil] at h1 ⊢
      exact h1.append ih

theorem inv_fok {t : Tr α} (h : Inv t) : ∀ f ∈ den t, ∃ m, FOK m f := by
  intro f hf
  cases e : t.sync with
  | nil => rw [sync_nil e] at hf; cases hf
  | node d l r =>
    obtain ⟨g, ed⟩ := sync_node h e
    rw [ed] at hf
    exact ⟨_, g.ok f hf⟩

theorem flatMap_mv {low amt : Int} {L : List (Fl α)} (h : ∀ f ∈ L, ∃ m, FOK m f) :
    (L.map (mv ⟨low, amt⟩)).flatMap Fl.slots = (L.flatMap Fl.slots).map fun s =>
      if low ≤ s.1.low then (⟨s.1.id, s.1.low + amt, s.1.high + amt, s.1.val⟩, s.2) else s := by
  induction L with
  | nil => rfl
  | cons f L ih =>
    obtain ⟨m, hm⟩ := h f List.mem_cons_self
    rw [List.map_cons, List.flatMap_cons, List.flatMap_cons, List.map_append, mv_slots hm,
      ih fun x hx => h x (List.mem_cons_of_mem _ hx)]

theorem spec_filterMap (low high amt : Int) (L : List (Slot α × Nat)) :
    (L.filterMap fun s => (IArray.specEdit low high amt s.1).map fun s' => (s', s.2)) =
    (L.filter fun s => !(decide (s.1.low < high) && decide (low < s.1.high))).map fun s =>
      if low ≤ s.1.low then (⟨s.1.id, s.1.low + amt, s.1.high + amt, s.1.val⟩, s.2) else s := by
  induction L with
  | nil => rfl
  | cons s L ih =>
    by_cases h : s.1.low < high ∧ low < s.1.high
    · rw [List.filterMap_cons, IArray.specEdit, if_pos h, List.filter_cons_of_neg (by simp [h.1, h.2])]
      exact ih
    · rw [List.filterMap_cons, IArray.specEdit, if_neg h, List.filter_cons_of_pos (by
        simp only [Bool.not_eq_true', Bool.and_eq_false_iff, decide_eq_false_iff_not]; omega), List.map_cons]
      by_cases hl : low ≤ s.1.low
      · rw [if_pos hl, if_pos hl]
        simp only [Option.map_some]
        rw [ih]
      · rw [if_neg hl, if_neg hl]
        simp only [Option.map_some]
        rw [ih]

theorem clean_addr (low high : Int) (L : List (Fl α)) :
    ((L.filterMap (clean low high)).map Fl.addr).Sublist (L.map Fl.addr) := by
  induction L with
  | nil => exact List.Sublist.refl _
  | cons f L ih =>
    rw [List.filterMap_cons]
    cases h : clean low high f with
    | none => exact ih.trans (List.sublist_cons_self _ _)
    | some g =>
      simp only [List.map_cons]
      rw [(clean_some h).2.1]
      exact ih.cons_cons _

theorem hist_edit {st : St α} (h : Hist st) {low high amt : Int} (h0 : 0 ≤ amt) :
    Hist (st.step (.edit low high amt)) := by
  obtain ⟨h1, h2⟩ := removeOverlaps_spec low high (st.tree.root.size + 1) st.tree.root (Nat.lt_succ_self _) h.inv h.full
  -- the contents of the new tree: also for `amt = 0` a shift by 0
  have key : Inv (st.step (.edit low high amt)).tree.root ∧ den (st.step (.edit low high amt)).tree.root =
      ((den st.tree.root).filterMap (clean low high)).map (mv ⟨low, amt⟩) := by
    simp only [St.step, Tree.removeAndShift]
    by_cases ha : amt = 0
    · rw [if_neg (by simpa using ha)]
      refine ⟨h1, ?_⟩
      rw [h2]
      subst ha
      have : (mv ⟨low, 0⟩ : Fl α → Fl α) = id := by
        funext f
        have hs : (Ival.shift 0 : Ival α → Ival α) = id := by funext i; simp [Ival.shift]
        simp [mv, hs]
      rw [this, List.map_id]
    · rw [if_pos ha]
      exact ⟨addShift_inv h0 h1, by rw [addShift_den, h2]⟩
  obtain ⟨k1, k2⟩ := key
  have hmem : ∀ f ∈ den (st.step (.edit low high amt)).tree.root, ∃ g ∈ den st.tree.root, ∃ c,
      clean low high g = some c ∧ f = mv ⟨low, amt⟩ c := by
    intro f hf
    rw [k2] at hf
    obtain ⟨c, hc, rfl⟩ := List.mem_map.1 hf
    obtain ⟨g, hg, he⟩ := List.mem_filterMap.1 hc
    exact ⟨g, hg, c, he, rfl⟩
  have hsame : ((den (st.step (.edit low high amt)).tree.root).flatMap Fl.slots).Perm
      (st.step (.edit low high amt)).live := by
    have e : (st.step (.edit low high amt)).live =
        st.live.filterMap fun s => (IArray.specEdit low high amt s.1).map fun s' => (s', s.2) := rfl
    rw [k2, e, spec_filterMap, flatMap_mv]
    · exact ((filterMap_slots low high _).trans (h.same.filter _)).map _
    · intro c hc
      obtain ⟨g, hg, he⟩ := List.mem_filterMap.1 hc
      obtain ⟨m, hm⟩ := inv_fok h.inv g hg
      exact ⟨m, clean_fok he hm⟩
  refine ⟨k1, ?_, ?_, ?_, hsame, ?_⟩
  · intro f hf
    obtain ⟨g, -, c, he, rfl⟩ := hmem f hf
    intro hn
    exact (clean_some he).2.2.1 ((mv_ivs _ _).1 hn)
  · rw [k2, List.map_map]
    have : (Fl.addr ∘ mv ⟨low, amt⟩ : Fl α → Nat) = Fl.addr := by funext f; exact mv_addr _ _
    rw [this]
    exact h.nodup.sublist (clean_addr low high _)
  · intro f hf
    obtain ⟨g, hg, c, he, rfl⟩ := hmem f hf
    rw [mv_addr, (clean_some he).2.1]
    exact h.fresh g hg
  · intro s hs
    obtain ⟨x, hx, e⟩ := List.mem_filterMap.1 hs
    obtain ⟨y, hy, rfl⟩ := Option.map_eq_some_iff.1 e
    have := h.pos x hx
    rw [IArray.specEdit] at hy
    split at hy
    · cases hy
    · split at hy
      · cases hy; simp only []; omega
      · cases hy; exact this

theorem hist_find {st : St α} (h : Hist st) (id pos : Int) : Hist (st.step (.find id pos)) := by
  obtain ⟨h1, h2, -⟩ := search_spec pos id (st.tree.root.size + 1) st.tree.root (Nat.lt_succ_self _) h.inv
  have hd : den (st.step (.find id pos)).tree.root = den st.tree.root := h2
  exact ⟨h1, by rw [hd]; exact h.full, by rw [hd]; exact h.nodup, by rw [hd]; exact h.fresh,
    by rw [hd]; exact h.same, h.pos⟩

theorem hist_pos {st : St α} (h : Hist st) (a : Nat) : Hist (st.step (.pos a)) := by
  obtain ⟨h1, h2, -⟩ := touch_spec a (st.tree.root.size + 1) st.tree.root (Nat.lt_succ_self _) h.inv
  have hd : den (st.step (.pos a)).tree.root = den st.tree.root := h2
  exact ⟨h1, by rw [hd]; exact h.full, by rw [hd]; exact h.nodup, by rw [hd]; exact h.fresh,
    by rw [hd]; exact h.same, h.pos⟩

theorem hist_run (ops : List (Op α)) : ∀ st : St α, Hist st → (∀ op ∈ ops, op.Grows) →
    Hist (ops.foldl St.step st) := by
  induction ops with
  | nil => intro st h _; exact h
  | cons op ops ih =>
    intro st h hv
    refine ih _ ?_ fun o ho => hv o (List.mem_cons_of_mem _ ho)
    have := hv op List.mem_cons_self
    cases op with
    | add id low high v => exact hist_add h this.1 this.2
    | edit low high amt => exact hist_edit h this
    | find id pos => exact hist_find h id pos
    | pos a => exact hist_pos h a

/-! ## The claims, for one history -/

/-- The tree, as a collection of intervals with locations, is the abstract map: `FindLargest(id, pos)` returns
the value of an interval of the map with this id and start that ends no earlier than any other such interval,
and nil only if there is none. -/
def FindsLargest (ops : List (Op α)) : Prop :=
  ∀ id pos, match ((run ops).tree.findLargest id pos).2 with
    | some v => ∃ s ∈ (run ops).live, s.1.id = id ∧ s.1.low = pos ∧ s.1.val = v ∧
        ∀ s' ∈ (run ops).live, s'.1.id = id → s'.1.low = pos → s'.1.high ≤ s.1.high
    | none => ∀ s ∈ (run ops).live, ¬ (s.1.id = id ∧ s.1.low = pos)

/-- `Pos` of the location of every interval of the map is the start of the interval. -/
def PosFollows (ops : List (Op α)) : Prop :=
  ∀ s ∈ (run ops).live, ((run ops).tree.posOf s.2).2 = some s.1.low

theorem largest_spec (l : List (Ival α)) : ∀ (mx : Int) (best : Ival α),
    (∃ i ∈ l, Tree.largest l mx best = i ∧ mx < i.high ∧ ∀ j ∈ l, j.high ≤ i.high) ∨
    (Tree.largest l mx best = best ∧ ∀ j ∈ l, j.high ≤ mx) := by
  induction l with
  | nil => intro mx best; exact .inr ⟨rfl, fun _ h => by cases h⟩
  | cons i is ih =>
    intro mx best
    rw [Tree.largest]
    split
    · rename_i hi
      rcases ih i.high i with ⟨j, hj, h1, h2, h3⟩ | ⟨h1, h2⟩
      · refine .inl ⟨j, List.mem_cons_of_mem _ hj, h1, by omega, fun k hk => ?_⟩
        rcases List.mem_cons.1 hk with rfl | hk
        · omega
        · exact h3 k hk
      · refine .inl ⟨i, List.mem_cons_self, h1, hi, fun k hk => ?_⟩
        rcases List.mem_cons.1 hk with rfl | hk
        · omega
        · exact h2 k hk
    · rename_i hi
      rcases ih mx best with ⟨j, hj, h1, h2, h3⟩ | ⟨h1, h2⟩
      · refine .inl ⟨j, List.mem_cons_of_mem _ hj, h1, h2, fun k hk => ?_⟩
        rcases List.mem_cons.1 hk with rfl | hk
        · omega
        · exact h3 k hk
      · refine .inr ⟨h1, fun k hk => ?_⟩
        rcases List.mem_cons.1 hk with rfl | hk
        · omega
        · exact h2 k hk

theorem key_unique {L : List (Fl α)} (h : Sorted L) {f g : Fl α} (hf : f ∈ L) (hg : g ∈ L)
    (e : f.key = g.key) : f = g := by
  induction L with
  | nil => cases hf
  | cons x L ih =>
    have h' := sorted_of_append_right (L := [x]) h
    rcases List.mem_cons.1 hf with hf | hf <;> rcases List.mem_cons.1 hg with hg | hg
    · rw [hf, hg]
    · have hk := Sorted.right_gt (L := []) h hg
      rw [← hf, e] at hk
      exact absurd hk (klt_irrefl _)
    · have hk := Sorted.right_gt (L := []) h hf
      rw [← hg, e] at hk
      exact absurd hk (klt_irrefl _)
    · exact ih h' hf hg

theorem inv_sorted {t : Tr α} (h : Inv t) : Sorted (den t) := by
  cases e : t.sync with
  | nil => rw [sync_nil e]; exact .nil
  | node d l r =>
    obtain ⟨g, ed⟩ := sync_node h e
    rw [ed]
    exact g.ord

/-- **C53**, lookups: for all histories of intervals of a text and edits that do not make it shorter. -/
theorem C53_finds_partial (ops : List (Op α)) (hv : ∀ op ∈ ops, op.Grows) : FindsLargest ops := by
  have h : Hist (run ops) := hist_run ops {} hist_init hv
  intro id pos
  obtain ⟨-, -, h3, h4⟩ := search_spec pos id ((run ops).tree.root.size + 1) (run ops).tree.root
    (Nat.lt_succ_self _) h.inv
  have live_iff : ∀ s, s ∈ (run ops).live ↔ ∃ f ∈ den (run ops).tree.root, s ∈ f.slots := fun s => by
    rw [← h.same.mem_iff, List.mem_flatMap]
  have hat : ∀ s ∈ (run ops).live, s.1.id = id → s.1.low = pos → ∃ f ∈ den (run ops).tree.root,
      f.key = (pos, id) ∧ ∃ i ∈ f.ivs, s = (⟨f.id, i.low, i.high, i.val⟩, f.addr) := by
    intro s hs h1 h2
    obtain ⟨f, hf, hsf⟩ := (live_iff s).1 hs
    obtain ⟨i, hi, rfl⟩ := List.mem_map.1 hsf
    obtain ⟨m, hm⟩ := inv_fok h.inv f hf
    have := (hm.2 i hi).1
    refine ⟨f, hf, ?_, i, hi, rfl⟩
    simp only [Fl.key, Prod.mk.injEq]
    simp only [] at h1 h2
    omega
  simp only [Tree.findLargest]
  cases hs : (search pos id ((run ops).tree.root.size + 1) (run ops).tree.root).2 with
  | none =>
    simp only []
    rintro s hs' ⟨h1, h2⟩
    obtain ⟨f, hf, hk, -⟩ := hat s hs' h1 h2
    exact h4 hs f hf ⟨congrArg Prod.fst hk, congrArg Prod.snd hk⟩
  | some d =>
    obtain ⟨hd, rfl, rfl⟩ := h3 d hs
    have hne := h.full _ hd
    have hu : ∀ s ∈ (run ops).live, s.1.id = d.id → s.1.low = d.pos → ∃ i ∈ d.ivs,
        s = (⟨d.id, i.low, i.high, i.val⟩, d.addr) := by
      intro s hs h1 h2
      obtain ⟨f, hf, hk, i, hi, e⟩ := hat s hs h1 h2
      have := key_unique (inv_sorted h.inv) hf hd hk
      subst this
      exact ⟨i, hi, e⟩
    obtain ⟨m, hm⟩ := inv_fok h.inv _ hd
    have hin : ∀ i ∈ d.ivs, ((⟨d.id, i.low, i.high, i.val⟩, d.addr) : Slot α × Nat) ∈ (run ops).live := fun i hi =>
      (live_iff _).2 ⟨d.fl, hd, List.mem_map.2 ⟨i, hi, rfl⟩⟩
    have hlow : ∀ i ∈ d.ivs, i.low = d.pos := fun i hi => (hm.2 i hi).1
    have hnn : ∀ i ∈ d.ivs, 0 ≤ i.high := fun i hi => by
      have := h.pos _ (hin i hi)
      simp only [] at this
      omega
    have hne' : d.ivs ≠ [] := hne
    simp only []
    cases hi : d.ivs with
    | nil => exact absurd hi hne'
    | cons i is =>
      simp only []
      rw [hi] at hu hin hlow hnn
      rcases largest_spec (i :: is) 0 i with ⟨j, hj, h5, -, h6⟩ | ⟨h5, h6⟩
      · rw [h5]
        refine ⟨_, hin j hj, rfl, hlow j hj, rfl, fun s' hs' a b => ?_⟩
        obtain ⟨k, hk, rfl⟩ := hu s' hs' a b
        exact h6 k hk
      · rw [h5]
        refine ⟨_, hin i List.mem_cons_self, rfl, hlow i List.mem_cons_self, rfl, fun s' hs' a b => ?_⟩
        obtain ⟨k, hk, rfl⟩ := hu s' hs' a b
        have h7 := h6 k hk
        have h8 := hnn i List.mem_cons_self
        simp only []
        omega

/-- **C53**, positions, for the same histories. -/
theorem C53_positions_partial (ops : List (Op α)) (hv : ∀ op ∈ ops, op.Grows) : PosFollows ops := by
  have h : Hist (run ops) := hist_run ops {} hist_init hv
  intro s hs
  rw [← h.same.mem_iff, List.mem_flatMap] at hs
  obtain ⟨f, hf, hsf⟩ := hs
  obtain ⟨i, hi, rfl⟩ := List.mem_map.1 hsf
  obtain ⟨-, -, h3⟩ := touch_spec f.addr ((run ops).tree.root.size + 1) (run ops).tree.root (Nat.lt_succ_self _) h.inv
  obtain ⟨d, h4, h5⟩ := h3 h.nodup f hf rfl
  obtain ⟨m, hm⟩ := inv_fok h.inv f hf
  simp only [Tree.posOf, h4, Option.map_some]
  rw [(hm.2 i hi).1, ← h5]
  rfl

/-- **C53**, `overlaps`: it returns the values of exactly the intervals of the map that have a point in common
with the range. -/
theorem C53_overlaps_partial (ops : List (Op α)) (hv : ∀ op ∈ ops, op.Grows) (low high : Int) :
    ((overlaps low high ((run ops).tree.root.size + 1) (run ops).tree.root []).2).Perm
      (((run ops).live.filter fun s => decide (s.1.low < high ∧ low < s.1.high)).map fun s => s.1.val) := by
  have h : Hist (run ops) := hist_run ops {} hist_init hv
  obtain ⟨-, -, h3⟩ := overlaps_spec low high ((run ops).tree.root.size + 1) (run ops).tree.root []
    (Nat.lt_succ_self _) h.inv
  rw [h3, List.nil_append]
  refine List.Perm.trans ?_ ((h.same.filter _).map _)
  generalize den (run ops).tree.root = L
  induction L with
  | nil => exact .refl _
  | cons f L ih =>
    rw [List.flatMap_cons, List.flatMap_cons, List.filter_append, List.map_append]
    refine List.Perm.append ?_ ih
    rw [Fl.slots, List.filter_map, List.map_map, hits]
    refine List.Perm.of_eq ?_
    have : (Ival.overlaps low high : Ival α → Bool) = ((fun s : Slot α × Nat => decide (s.1.low < high ∧ low < s.1.high)) ∘
        fun i => (⟨f.id, i.low, i.high, i.val⟩, f.addr)) := by
      funext i
      simp [Ival.overlaps]
    rw [this]
    rfl

/-- The operation on the array-backed map that corresponds to an operation on the tree. -/
def Op.toArray : Op α → Option (IArray.Op α)
  | .add id low high v => some (.add id low high v)
  | .edit low high amt => some (.edit low high amt)
  | _ => none

theorem live_spec (ops : List (Op α)) : ∀ (st : St α),
    (ops.foldl St.step st).live.map Prod.fst =
      (st.live.map Prod.fst).filterMap (fun s => IArray.specSlot s (ops.filterMap Op.toArray)) ++
        IArray.spec (ops.filterMap Op.toArray) := by
  induction ops with
  | nil => intro st; simp [IArray.spec, IArray.specSlot]
  | cons op ops ih =>
    intro st
    rw [List.foldl_cons, ih]
    cases op with
    | add id low high v =>
      simp only [St.step, List.filterMap_cons, Op.toArray, IArray.spec, IArray.specSlot, List.map_append,
        List.map_cons, List.map_nil, List.filterMap_append, List.append_assoc]
      congr 1
    | edit low high amt =>
      simp only [St.step, List.filterMap_cons, Op.toArray, IArray.spec, IArray.specSlot]
      congr 1
      generalize st.live = L
      induction L with
      | nil => rfl
      | cons s L ihl =>
        rw [List.filterMap_cons, List.map_cons, List.filterMap_cons]
        cases he : IArray.specEdit low high amt s.1 with
        | none => simpa using ihl
        | some s' =>
          simp only [Option.map_some, List.map_cons, List.filterMap_cons, Option.bind_some]
          rw [ihl]
    | find id pos => rfl
    | pos a => rfl

/-- **C53**: the tree answers lookups like the array (`memo/interval/lazy/array.go`), which the tests compare it
with: both find nothing, or both find an interval, and then the two end at the same place. -/
theorem C53_array_partial (ops : List (Op α)) (hv : ∀ op ∈ ops, op.Grows)
    (hne : ∀ id low high v, .add id low high v ∈ ops → low < high) (id pos : Int) :
    (((run ops).tree.findLargest id pos).2 = none ∧
      (IArray.run (ops.filterMap Op.toArray)).findLargest id pos = none) ∨
    ∃ s ∈ IArray.spec (ops.filterMap Op.toArray), ∃ s' ∈ IArray.spec (ops.filterMap Op.toArray),
      ((run ops).tree.findLargest id pos).2 = some s.val ∧
      (IArray.run (ops.filterMap Op.toArray)).findLargest id pos = some s'.val ∧
      s.id = id ∧ s'.id = id ∧ s.low = pos ∧ s'.low = pos ∧ s.high = s'.high := by
  have hl : (run ops).live.map Prod.fst = IArray.spec (ops.filterMap Op.toArray) := by
    have := live_spec ops ({} : St α)
    simpa [run] using this
  have hmem : ∀ s, s ∈ IArray.spec (ops.filterMap Op.toArray) ↔ ∃ a, (s, a) ∈ (run ops).live := by
    intro s
    rw [← hl, List.mem_map]
    constructor
    · rintro ⟨⟨_, a⟩, h, rfl⟩; exact ⟨a, h⟩
    · rintro ⟨a, h⟩; exact ⟨_, h, rfl⟩
  -- intervals stay nonempty and at positions that are not negative
  have hpos : ∀ (ops : List (Op α)), (∀ op ∈ ops, op.Grows) → (∀ id low high v, .add id low high v ∈ ops → low < high) →
      ∀ st : St α, (∀ s ∈ st.live, 0 ≤ s.1.low ∧ s.1.low < s.1.high) →
      ∀ s ∈ (ops.foldl St.step st).live, 0 ≤ s.1.low ∧ s.1.low < s.1.high := by
    intro ops
    induction ops with
    | nil => intro _ _ st h; exact h
    | cons op ops ih =>
      intro h1 h2 st h3
      refine ih (fun o ho => h1 o (List.mem_cons_of_mem _ ho))
        (fun a b c d ho => h2 a b c d (List.mem_cons_of_mem _ ho)) _ ?_
      have hg := h1 op List.mem_cons_self
      cases op with
      | add id low high v =>
        intro s hs
        rcases List.mem_append.1 hs with hs | hs
        · exact h3 s hs
        · rw [List.mem_singleton.1 hs]
          exact ⟨hg.1, h2 _ _ _ _ List.mem_cons_self⟩
      | edit low high amt =>
        intro s hs
        obtain ⟨x, hx, e⟩ := List.mem_filterMap.1 hs
        obtain ⟨y, hy, rfl⟩ := Option.map_eq_some_iff.1 e
        have h4 := h3 x hx
        have hg : 0 ≤ amt := hg
        rw [IArray.specEdit] at hy
        split at hy
        · cases hy
        · split at hy
          · cases hy; simp only []; omega
          · cases hy; exact h4
      | find id pos => exact h3
      | pos a => exact h3
  have hpos' := hpos ops hv hne {} (fun _ h => by cases h)
  have hf := C53_finds_partial ops hv id pos
  cases ht : ((run ops).tree.findLargest id pos).2 with
  | none =>
    rw [ht] at hf
    refine .inl ⟨rfl, (IArray.C34_findLargest_none _ id pos).2 fun s hs h1 h2 => ?_⟩
    obtain ⟨a, ha⟩ := (hmem s).1 hs
    exact absurd ⟨h1, h2⟩ (hf _ ha)
  | some v =>
    rw [ht] at hf
    obtain ⟨s, hs, h1, h2, h3, h4⟩ := hf
    have hs' : s.1 ∈ IArray.spec (ops.filterMap Op.toArray) := (hmem s.1).2 ⟨s.2, hs⟩
    have hp := hpos' s hs
    cases ha : (IArray.run (ops.filterMap Op.toArray)).findLargest id pos with
    | none =>
      have := (IArray.C34_findLargest_none _ id pos).1 ha s.1 hs' h1 h2
      omega
    | some w =>
      obtain ⟨s', hs2, q1, q2, q3, q4⟩ := IArray.C34_findLargest _ id pos w ha
      obtain ⟨a, ha'⟩ := (hmem s').1 hs2
      refine .inr ⟨s.1, hs', s', hs2, by rw [h3], by rw [q3], h1, q1, h2, q2, ?_⟩
      have := q4 s.1 hs' h1 h2
      have := h4 _ ha' q1 q2
      simp only [] at this
      omega

/-- A history with a rotation, two intervals under one key, an edit that meets a node with two children, and
lookups of positions. -/
def growing : List (Op Nat) := [.add 0 10 12 1, .add 0 0 1 2, .add 0 20 21 3, .add 0 30 31 4, .add 0 20 25 5,
  .edit 11 12 3, .find 0 33, .edit 40 41 2, .add 1 0 40 6, .pos 2, .edit 0 1 1]

example : (∀ op ∈ growing, op.Grows) := by
  intro op h
  simp only [growing, List.mem_cons, List.not_mem_nil, or_false] at h
  rcases h with rfl | rfl | rfl | rfl | rfl | rfl | rfl | rfl | rfl | rfl | rfl <;> simp [Op.Grows]

example : (run growing).live = [(⟨0, 24, 25, 3⟩, 2), (⟨0, 34, 35, 4⟩, 3), (⟨0, 24, 29, 5⟩, 2)] ∧
    ((run growing).tree.findLargest 0 24).2 = some 5 ∧ ((run growing).tree.findLargest 1 1).2 = none ∧
    ((run growing).tree.posOf 3).2 = some 34 := by decide +kernel

/-- One entry, then an edit after it that makes the text shorter, then one inside it. -/
def shrinking : List (Op Nat) := [.add 0 0 5 1, .edit 5 8 (-3), .edit 3 4 0]

/-- **C53 does not hold** when edits make the text shorter: the second edit, of `[3, 4)`, does not remove the
entry `[0, 5)`, because the first one, of `[5, 8)`, made the bound of the tree 2. -/
theorem C53_false : ¬ ∀ ops : List (Op Nat), (∀ op ∈ ops, op.Valid) → FindsLargest ops := by
  intro h
  have hv : ∀ op ∈ shrinking, op.Valid := by
    intro op h
    simp only [shrinking, List.mem_cons, List.not_mem_nil, or_false] at h
    rcases h with rfl | rfl | rfl <;> simp [Op.Valid]
  have h1 := h shrinking hv 0 0
  have h2 : ((run shrinking).tree.findLargest 0 0).2 = some 1 := by decide +kernel
  have h3 : (run shrinking).live = [] := by decide +kernel
  rw [h2, h3] at h1
  obtain ⟨s, hs, -⟩ := h1
  cases hs

/-- `Size` is said to return the number of intervals (`memo/interval/map.go:26-27`); it is the number of keys.
Two intervals with one key count once. -/
theorem C53_size_false : ∃ ops : List (Op Nat), (∀ op ∈ ops, op.Grows) ∧
    (run ops).tree.size = 1 ∧ (run ops).live.length = 2 ∧ (IArray.run (ops.filterMap Op.toArray)).size = 2 := by
  refine ⟨[.add 0 0 1 1, .add 0 0 5 2], ?_, ?_⟩
  · intro op h
    simp only [List.mem_cons, List.not_mem_nil, or_false] at h
    rcases h with rfl | rfl <;> simp [Op.Grows]
  · decide +kernel

end Gpeg.Lazy
