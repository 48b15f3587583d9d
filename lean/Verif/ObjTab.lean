import Verif.Obj
import Verif.LazyLogKeep
/-! # The table with capture objects: where the intervals of entries are -/
namespace Gpeg.Obj
open LazyLog

/-- The nodes in the tree as they stand. -/
def OTab.flat (T : OTab) : List (Fl Nat) := T.map.root.flat T.map.shifts

/-- The nodes that are not in the tree as they stand. -/
def OTab.away (T : OTab) : List (Fl Nat) := T.gone.map (Nd.fl T.map.shifts)

/-- The node that the entry `e` was put in still has the interval of `e`, in the tree or not, and the interval is now
`[lo, hi]`. -/
def Holds (T : OTab) (e : Nat) (lo hi : Int) : Prop :=
  ∃ x f, T.ents[e]? = some x ∧ (f ∈ T.flat ∨ f ∈ T.away) ∧ f.addr = x.pos ∧ ⟨lo, hi, e⟩ ∈ f.ins

/-- What is always true of the tree and the nodes that have left it. -/
structure TInv (b : Bool) (T : OTab) : Prop where
  hist : ∃ live, Hist b ⟨T.map, live⟩
  disj : ∀ f ∈ T.flat, ∀ d ∈ T.gone, f.addr ≠ d.addr
  nodup : (T.gone.map Nd.addr).Nodup
  fresh : ∀ d ∈ T.gone, d.addr < T.map.next
  gone : ∀ d ∈ T.gone, d.Wf ∧ (∀ i ∈ d.ins, i.high ≤ d.mx) ∧ d.t ≤ T.map.shifts.length

theorem tinv_new (th : Int) : TInv false { threshold := th } :=
  ⟨⟨[], hist_init⟩, fun _ h => (by cases h), .nil, fun _ h => (by cases h), fun _ h => (by cases h)⟩

theorem nodes_flat (S : List Shift) (t : Tr Nat) : (nodes t).map (Nd.fl S) = t.flat S := by
  induction t with
  | nil => rfl
  | node d l r ihl ihr => simp [nodes, Tr.flat, ihl, ihr]

theorem nodes_own {S : List Shift} {t : Tr Nat} (h : Inv S t) : ∀ d ∈ nodes t, Own S d := by
  induction h with
  | nil => intro d hd; cases hd
  | node own _ _ _ _ ihl ihr =>
    intro x hx
    simp only [nodes, List.mem_append, List.mem_cons] at hx
    rcases hx with hx | rfl | hx
    · exact ihl x hx
    · exact own
    · exact ihr x hx

theorem fl_wf {S : List Shift} {d : Nd Nat} (h : d.Wf) : ∀ i ∈ (d.fl S).ins, i.low = (d.fl S).pos ∧ i.low ≤ i.high := by
  intro i hi
  obtain ⟨j, hj, e1, e2, -⟩ := mem_shiftIns hi
  obtain ⟨w1, w2⟩ := h j hj
  simp only [Nd.fl]
  omega

/-! ## The position of an entry that holds its interval -/

theorem at_of_flat {S : List Shift} {f : Fl Nat} {t : Tr Nat} (h : f ∈ t.flat S) :
    ∃ d, (t.touch S f.addr).at? f.addr = some d := by
  induction t with
  | nil => cases h
  | node d l r ihl ihr =>
    rw [Tr.touch]
    by_cases ha : d.addr = f.addr
    · rw [if_pos ha, Tr.at?, applyShifts_addr, if_pos ha]
      exact ⟨_, rfl⟩
    · rw [if_neg ha, Tr.at?, if_neg ha]
      simp only [Tr.flat, List.mem_append, List.mem_cons] at h
      rcases h with h | rfl | h
      · obtain ⟨x, hx⟩ := ihl h
        exact ⟨x, by rw [hx]; rfl⟩
      · exact absurd rfl ha
      · obtain ⟨x, hx⟩ := ihr h
        cases hl : (l.touch S f.addr).at? f.addr with
        | none => exact ⟨x, by rw [hx]; rfl⟩
        | some y => exact ⟨y, rfl⟩

theorem Holds.pos {b : Bool} {T : OTab} (hT : TInv b T) {e : Nat} {lo hi : Int} (h : Holds T e lo hi) : T.entPos e = lo := by
  obtain ⟨live, hh⟩ := hT.hist
  obtain ⟨x, f, hx, hf, ha, hi⟩ := h
  have key : T.posOf f.addr = f.pos := by
    unfold OTab.posOf Tree.posOf
    simp only []
    rcases hf with hf | hf
    · obtain ⟨d, hd⟩ := at_of_flat hf
      rw [hd]
      obtain ⟨t1, t2, t3, -⟩ := at_touch hh.good f.addr hh.inv hd
      have := eq_of_addr hh.nodup t2 hf t3
      rw [Nd.fl_done _ _ t1] at this
      rw [← this]
      rfl
    · obtain ⟨d, hd, rfl⟩ := List.mem_map.1 hf
      cases ht : (T.map.root.touch T.map.shifts (d.fl T.map.shifts).addr).at? (d.fl T.map.shifts).addr with
      | some d' =>
        obtain ⟨-, t2, t3, -⟩ := at_touch hh.good _ hh.inv ht
        exact absurd t3 (hT.disj _ t2 d hd)
      | none =>
        simp only [Option.map_none]
        have hda : (d.fl T.map.shifts).addr = d.addr := rfl
        rw [hda]
        have hfind : T.gone.find? (fun d' => decide (d'.addr = d.addr)) = some d := by
          have hn := hT.nodup
          generalize T.gone = G at hd hn
          induction G with
          | nil => cases hd
          | cons g G ih =>
            rw [List.find?_cons]
            rw [List.map_cons, List.nodup_cons] at hn
            by_cases hg : g.addr = d.addr
            · simp only [hg, decide_true]
              rcases List.mem_cons.1 hd with rfl | hd
              · rfl
              · exact absurd (List.mem_map.2 ⟨d, hd, hg.symm⟩) hn.1
            · simp only [hg, decide_false]
              rcases List.mem_cons.1 hd with rfl | hd
              · exact absurd rfl hg
              · exact ih hd hn.2
        rw [hfind]
        obtain ⟨g1, g2, -⟩ := hT.gone d hd
        have hne : d.ins ≠ [] := by
          intro he
          have : (d.fl T.map.shifts).ins = [] := by simp [Nd.fl, he, shiftIns]
          rw [this] at hi
          cases hi
        exact applyShifts_own hh.good g1 g2 hne
  unfold OTab.entPos
  rw [hx, Option.getD_some, ← ha, key]
  rcases hf with hf | hf
  · exact (hh.inv.wf_flat f hf _ hi).1.symm
  · obtain ⟨d, hd, rfl⟩ := List.mem_map.1 hf
    exact ((fl_wf (hT.gone d hd).1) _ hi).1.symm

theorem Holds.ent {T : OTab} {e : Nat} {lo hi : Int} (h : Holds T e lo hi) : e < T.ents.length := by
  obtain ⟨x, -, hx, -⟩ := h
  exact (List.getElem?_eq_some_iff.1 hx).1

/-! ## Look-ups -/

theorem get_flat {b : Bool} {T : OTab} (hT : TInv b T) (id : Int) (pos : Nat) : (T.get id pos).2.flat = T.flat := by
  obtain ⟨live, hh⟩ := hT.hist
  obtain ⟨-, h2, -⟩ := search_spec hh.good pos id T.map.root hh.inv hh.ord
  exact h2

theorem TInv.get {b : Bool} {T : OTab} (hT : TInv b T) (id : Int) (pos : Nat) : TInv b (T.get id pos).2 := by
  obtain ⟨live, hh⟩ := hT.hist
  exact ⟨⟨live, hist_find hh id pos⟩, by rw [get_flat hT]; exact hT.disj, hT.nodup, hT.fresh, hT.gone⟩

theorem Holds.get {b : Bool} {T : OTab} (hT : TInv b T) {e : Nat} {lo hi : Int} (h : Holds T e lo hi) (id : Int) (pos : Nat) :
    Holds (T.get id pos).2 e lo hi := by
  obtain ⟨x, f, hx, hf, h3, h4⟩ := h
  exact ⟨x, f, hx, by rw [get_flat hT]; exact hf, h3, h4⟩

/-- What `Get` finds is stored at the position asked for. -/
theorem get_mem {b : Bool} {T : OTab} (hT : TInv b T) {id : Int} {pos : Nat} {k : Nat}
    (h : (T.map.findLargest id pos).2 = some k) : ∃ f ∈ T.flat, ∃ i ∈ f.ins, i.val = k ∧ i.low = pos := by
  obtain ⟨live, hh⟩ := hT.hist
  obtain ⟨-, -, h3⟩ := search_spec hh.good pos id T.map.root hh.inv hh.ord
  simp only [Tree.findLargest] at h
  cases hs : (search T.map.shifts pos id T.map.root).2 with
  | none => rw [hs] at h; cases h
  | some d =>
    rw [hs] at h h3
    obtain ⟨h4, h5, h6, h7⟩ := h3
    simp only [] at h
    cases hi : d.ins with
    | nil => rw [hi] at h; cases h
    | cons i is =>
      rw [hi] at h
      simp only [Option.some.injEq] at h
      have hm := largest_mem is i
      rw [← hi] at hm
      have hw := hh.inv.wf_flat _ h7
      rw [Nd.fl_done _ d h4] at hw
      refine ⟨_, h7, Tree.largest is i, ?_, h, ?_⟩
      · rw [Nd.fl_done _ d h4]; exact hm
      · have := (hw _ hm).1
        simp only [] at this
        omega

/-! ## Additions -/

/-- The table with a new entry, before `setPos` looks at the captures. -/
def OTab.added (T : OTab) (id low high : Int) (mk : Nat → EObj) : OTab :=
  { T with map := (T.map.add id low high T.ents.length).1,
           ents := T.ents ++ [mk (T.map.add id low high T.ents.length).2] }

section
variable {b : Bool} {T : OTab} (hT : TInv b T) {id low high : Int} (h0 : 0 ≤ low) (hlh : low ≤ high)
include hT h0 hlh

theorem added_rel (mk : Nat → EObj) : AddRel T.flat (T.added id low high mk).flat T.map.next low id ⟨low, high, T.ents.length⟩
    (T.map.add id low high T.ents.length).2 := by
  obtain ⟨live, hh⟩ := hT.hist
  obtain ⟨-, -, h3⟩ := add_spec hh.good T.map.next low id ⟨low, high, T.ents.length⟩ rfl hlh T.map.root hh.inv hh.ord
  have ht := hh.time
  simp only [] at ht
  rw [← ht] at h3
  exact h3

theorem TInv.added (mk : Nat → EObj) : TInv b (T.added id low high mk) := by
  have hr := added_rel hT h0 hlh (id := id) mk
  obtain ⟨live, hh⟩ := hT.hist
  refine ⟨⟨_, hist_add hh (id := id) (v := T.ents.length) h0 hlh⟩, ?_, hT.nodup, ?_, hT.gone⟩
  · intro f hf d hd
    have hn := hT.fresh d hd
    have hdis := hT.disj
    rcases hr with ⟨A, B, e1, e2, -⟩ | ⟨A, g, B, e1, e2, -⟩ <;> rw [e2, List.mem_append, List.mem_cons] at hf <;> rw [e1] at hdis
    · rcases hf with hf | rfl | hf
      · exact hdis f (List.mem_append_left _ hf) d hd
      · simp only []; omega
      · exact hdis f (List.mem_append_right _ hf) d hd
    · rcases hf with hf | rfl | hf
      · exact hdis f (List.mem_append_left _ hf) d hd
      · exact hdis g (List.mem_append_right _ List.mem_cons_self) d hd
      · exact hdis f (List.mem_append_right _ (List.mem_cons_of_mem _ hf)) d hd
  · intro d hd
    have := hT.fresh d hd
    show d.addr < T.map.next + 1
    omega

/-- The intervals after an addition: the old ones and the new one. -/
theorem added_mem (mk : Nat → EObj) {f : Fl Nat} (hf : f ∈ (T.added id low high mk).flat) {i : Ival Nat} (hi : i ∈ f.ins) :
    i = ⟨low, high, T.ents.length⟩ ∨ ∃ g ∈ T.flat, i ∈ g.ins := by
  rcases added_rel hT h0 hlh (id := id) mk with ⟨A, B, e1, e2, -⟩ | ⟨A, g, B, e1, e2, -⟩ <;>
    rw [e2, List.mem_append, List.mem_cons] at hf <;> rw [e1]
  · rcases hf with hf | rfl | hf
    · exact .inr ⟨f, List.mem_append_left _ hf, hi⟩
    · exact .inl (List.mem_singleton.1 hi)
    · exact .inr ⟨f, List.mem_append_right _ hf, hi⟩
  · rcases hf with hf | rfl | hf
    · exact .inr ⟨f, List.mem_append_left _ hf, hi⟩
    · rcases List.mem_append.1 hi with hi | hi
      · exact .inr ⟨g, List.mem_append_right _ List.mem_cons_self, hi⟩
      · exact .inl (List.mem_singleton.1 hi)
    · exact .inr ⟨f, List.mem_append_right _ (List.mem_cons_of_mem _ hf), hi⟩

theorem Holds.added (mk : Nat → EObj) {e : Nat} {lo hi : Int} (h : Holds T e lo hi) :
    Holds (T.added id low high mk) e lo hi := by
  have he := h.ent
  obtain ⟨x, f, hx, hf, h3, h4⟩ := h
  have hx' : (T.ents ++ [mk (T.map.add id low high T.ents.length).2])[e]? = some x := by
    rw [List.getElem?_append_left he]; exact hx
  rcases hf with hf | hf
  · rcases added_rel hT h0 hlh (id := id) mk with ⟨A, B, e1, e2, -⟩ | ⟨A, g, B, e1, e2, -⟩ <;> rw [e1] at hf
    · refine ⟨x, f, hx', .inl ?_, h3, h4⟩
      rw [e2, List.mem_append, List.mem_cons]
      rcases List.mem_append.1 hf with hf | hf
      · exact .inl hf
      · exact .inr (.inr hf)
    · rw [List.mem_append, List.mem_cons] at hf
      rcases hf with hf | rfl | hf
      · refine ⟨x, f, hx', .inl ?_, h3, h4⟩
        rw [e2]; exact List.mem_append_left _ hf
      · refine ⟨x, { f with ins := f.ins ++ [⟨low, high, T.ents.length⟩] }, hx', .inl ?_, h3, List.mem_append_left _ h4⟩
        rw [e2]; exact List.mem_append_right _ List.mem_cons_self
      · refine ⟨x, f, hx', .inl ?_, h3, h4⟩
        rw [e2]; exact List.mem_append_right _ (List.mem_cons_of_mem _ hf)
  · exact ⟨x, f, hx', .inr hf, h3, h4⟩

theorem holds_added (mk : Nat → EObj) (hmk : ∀ a, (mk a).pos = a) :
    Holds (T.added id low high mk) T.ents.length low high := by
  refine ⟨mk (T.map.add id low high T.ents.length).2, ?_⟩
  have hx' : (T.added id low high mk).ents[T.ents.length]? = some (mk (T.map.add id low high T.ents.length).2) := by
    simp [OTab.added]
  rcases added_rel hT h0 hlh (id := id) mk with ⟨A, B, e1, e2, e3, -⟩ | ⟨A, g, B, e1, e2, e3, -⟩
  · refine ⟨_, hx', .inl (by rw [e2]; exact List.mem_append_right _ List.mem_cons_self), ?_, List.mem_singleton.2 rfl⟩
    rw [hmk, e3]
  · refine ⟨_, hx', .inl (by rw [e2]; exact List.mem_append_right _ List.mem_cons_self), ?_,
      List.mem_append_right _ (List.mem_singleton.2 rfl)⟩
    rw [hmk, e3]
end

/-! ## Edits -/

/-- Where an edit moves an interval that it does not meet. -/
def toward (e : Edit) (lo : Int) : Int := if (e.high : Int) < lo then lo + (e.len - ((e.stop : Int) - e.start)) else lo

/-- The edit meets the interval. -/
def Meets (e : Edit) (lo hi : Int) : Prop := lo ≤ e.high ∧ (e.start : Int) ≤ hi

theorem edit_eq (T : OTab) (e : Edit) : T.applyEdit e =
    { T with map := T.map.removeAndShift e.start e.high (e.len - ((e.stop : Int) - e.start)),
             gone := T.gone ++ (nodes T.map.root).filter fun d =>
               !(nodes (T.map.removeAndShift e.start e.high (e.len - ((e.stop : Int) - e.start))).root).any fun d' =>
                 d'.addr == d.addr } := by
  have hh : (if e.start = e.stop then (e.start : Int) + 1 else e.stop) = e.high := by
    unfold Edit.high; split <;> simp
  unfold OTab.applyEdit
  simp only []
  rw [hh]

section
variable {b : Bool} {T : OTab} (hT : TInv b T) {e : Edit} (he : e.start ≤ e.stop)
include hT

/-- The tree after an edit, before it is shifted. -/
theorem edit_flat : ∃ s : Shift, s.idx = e.start ∧ s.amt = e.len - ((e.stop : Int) - e.start) ∧
    (T.applyEdit e).flat = ((removeOverlaps T.map.shifts e.start e.high T.map.root.size T.map.root).flat T.map.shifts).map (Fl.move s) ∧
    (∀ d : Nd Nat, d.t ≤ T.map.shifts.length → d.fl (T.applyEdit e).map.shifts = (d.fl T.map.shifts).move s) ∧
    (T.applyEdit e).map.root = removeOverlaps T.map.shifts e.start e.high T.map.root.size T.map.root ∧
    (T.applyEdit e).map.next = T.map.next ∧ T.map.shifts.length ≤ (T.applyEdit e).map.shifts.length := by
  obtain ⟨live, hh⟩ := hT.hist
  obtain ⟨h1, -, -⟩ := removeOverlaps_spec hh.good e.start e.high T.map.root.size T.map.root (Nat.le_refl _) hh.inv hh.ord
  refine ⟨⟨e.start, e.len - ((e.stop : Int) - e.start), T.map.tstamp + 1⟩, rfl, rfl, ?_⟩
  rw [edit_eq]
  simp only [OTab.flat, Tree.removeAndShift]
  by_cases h0 : (e.len - ((e.stop : Int) - e.start)) = 0
  · simp only [h0, ne_eq, not_true_eq_false, if_false]
    refine ⟨?_, ?_, trivial, trivial, Nat.le_refl _⟩
    · conv_lhs => rw [← List.map_id ((removeOverlaps T.map.shifts e.start e.high T.map.root.size T.map.root).flat T.map.shifts)]
      exact List.map_congr_left fun f _ => (move_zero _ _ f).symm
    · intro d _; exact (move_zero _ _ _).symm
  · simp only [ne_eq, h0, not_false_eq_true, if_true, Tree.shift, if_false]
    refine ⟨flat_snoc h1 _, fun d hd => fl_snoc hd _, trivial, trivial, by simp⟩

include he

theorem TInv.edit (hb : b = true → e.stop - e.start ≤ e.len) : TInv true (T.applyEdit e) := by
  obtain ⟨live, hh⟩ := hT.hist
  obtain ⟨s, -, -, g1, g2, g3, g4, g5⟩ := edit_flat hT (e := e)
  have h3 : (e.start : Int) ≤ e.high ∧ (e.start : Int) - e.high ≤ e.len - ((e.stop : Int) - e.start) := by
    unfold Edit.high; split <;> omega
  have hmap : (T.applyEdit e).map = T.map.removeAndShift e.start e.high (e.len - ((e.stop : Int) - e.start)) := by rw [edit_eq]
  have hgone : (T.applyEdit e).gone = T.gone ++ (nodes T.map.root).filter fun d =>
      !(nodes (T.applyEdit e).map.root).any fun d' => d'.addr == d.addr := by rw [hmap, edit_eq]
  obtain ⟨h1, h2, -⟩ := removeOverlaps_spec hh.good e.start e.high T.map.root.size T.map.root (Nat.le_refl _) hh.inv hh.ord
  have hown := nodes_own hh.inv
  refine ⟨⟨_, by rw [hmap]; exact hist_edit (st := ⟨T.map, live⟩) hh h3.1 h3.2 (fun hb' => by have := hb hb'; omega)⟩, ?_, ?_, ?_, ?_⟩
  · intro f hf d hd
    rw [hgone, List.mem_append, List.mem_filter] at hd
    rcases hd with hd | ⟨-, hd⟩
    · rw [g1] at hf
      obtain ⟨g, hg, rfl⟩ := List.mem_map.1 hf
      obtain ⟨g', hg', ea⟩ := h2.addr_mem hg
      show g.addr ≠ d.addr
      rw [← ea]
      exact hT.disj g' hg' d hd
    · intro ea
      rw [OTab.flat, ← nodes_flat] at hf
      obtain ⟨d', hd', rfl⟩ := List.mem_map.1 hf
      simp only [Bool.not_eq_true', List.any_eq_false] at hd
      exact hd d' hd' (beq_iff_eq.2 ea)
  · rw [hgone, List.map_append, List.nodup_append]
    have hnn : ((nodes T.map.root).map Nd.addr).Nodup := by
      have := hh.nodup
      simp only [] at this
      rw [← nodes_flat, List.map_map] at this
      exact this
    refine ⟨hT.nodup, hnn.sublist (List.filter_sublist.map _), ?_⟩
    rintro x hx y hy rfl
    obtain ⟨d, hd, rfl⟩ := List.mem_map.1 hx
    obtain ⟨d', hd', ea⟩ := List.mem_map.1 hy
    have hm : d'.fl T.map.shifts ∈ T.flat := by
      rw [OTab.flat, ← nodes_flat]; exact List.mem_map_of_mem (List.mem_of_mem_filter hd')
    exact hT.disj _ hm d hd ea
  · intro d hd
    rw [g4]
    rw [hgone, List.mem_append] at hd
    rcases hd with hd | hd
    · exact hT.fresh d hd
    · have hm : d.fl T.map.shifts ∈ T.map.root.flat T.map.shifts := by
        rw [← nodes_flat]; exact List.mem_map_of_mem (List.mem_of_mem_filter hd)
      exact hh.fresh _ hm
  · intro d hd
    rw [hgone, List.mem_append] at hd
    rcases hd with hd | hd
    · obtain ⟨a1, a2, a3⟩ := hT.gone d hd
      exact ⟨a1, a2, Nat.le_trans a3 g5⟩
    · have := hown d (List.mem_of_mem_filter hd)
      exact ⟨this.wf, this.high, Nat.le_trans this.time g5⟩

omit hT in
theorem move_mem {s : Shift} (h1 : s.idx = e.start) (h2 : s.amt = e.len - ((e.stop : Int) - e.start)) {f : Fl Nat} {lo hi : Int}
    {k : Nat} (hm : (⟨lo, hi, k⟩ : Ival Nat) ∈ f.ins) (hp : lo = f.pos) (hlh : lo ≤ hi) (hno : ¬ Meets e lo hi) :
    (⟨toward e lo, hi + (toward e lo - lo), k⟩ : Ival Nat) ∈ (f.move s).ins := by
  have hh : (e.start : Int) ≤ e.high := by unfold Edit.high; split <;> omega
  have hmp : movePos s f.pos = toward e lo := by
    unfold movePos toward
    unfold Meets at hno
    rw [h1, h2, ← hp]
    split <;> split <;> omega
  simp only [Fl.move, shiftIns, List.mem_map]
  refine ⟨_, hm, ?_⟩
  rw [hmp, ← hp]
  simp only [Ival.mk.injEq, and_true]
  omega

theorem Holds.edit {k : Nat} {lo hi : Int} (h : Holds T k lo hi) (hno : ¬ Meets e lo hi) :
    Holds (T.applyEdit e) k (toward e lo) (hi + (toward e lo - lo)) := by
  obtain ⟨live, hh⟩ := hT.hist
  obtain ⟨s, s1, s2, g1, g2, g3, g4, g5⟩ := edit_flat hT (e := e)
  have hmap : (T.applyEdit e).map = T.map.removeAndShift e.start e.high (e.len - ((e.stop : Int) - e.start)) := by rw [edit_eq]
  have hgone : (T.applyEdit e).gone = T.gone ++ (nodes T.map.root).filter fun d =>
      !(nodes (T.applyEdit e).map.root).any fun d' => d'.addr == d.addr := by rw [hmap, edit_eq]
  have hents : (T.applyEdit e).ents = T.ents := by rw [edit_eq]
  obtain ⟨h1, h2, -⟩ := removeOverlaps_spec hh.good e.start e.high T.map.root.size T.map.root (Nat.le_refl _) hh.inv hh.ord
  have hk := removeOverlaps_keeps hh.good e.start e.high T.map.root.size T.map.root (Nat.le_refl _) hh.inv hh.ord hh.nodup
  obtain ⟨x, f, hx, hf, ha, hi'⟩ := h
  have hno' : Ival.overlaps (e.start : Int) e.high (⟨lo, hi, k⟩ : Ival Nat) = false := by
    unfold Meets at hno
    simp only [Ival.overlaps, Bool.and_eq_false_iff, decide_eq_false_iff_not]
    omega
  have hlh : lo = f.pos ∧ lo ≤ hi := by
    rcases hf with hf | hf
    · exact hh.inv.wf_flat f hf _ hi'
    · obtain ⟨d, hd, rfl⟩ := List.mem_map.1 hf
      exact fl_wf (hT.gone d hd).1 _ hi'
  have hnew := move_mem he s1 s2 hi' hlh.1 hlh.2 hno
  have hx' : (T.applyEdit e).ents[k]? = some x := by rw [hents]; exact hx
  have hout : ∀ d : Nd Nat, d.t ≤ T.map.shifts.length → d ∈ (T.applyEdit e).gone → f = d.fl T.map.shifts →
      Holds (T.applyEdit e) k (toward e lo) (hi + (toward e lo - lo)) := by
    rintro d hdt hd rfl
    refine ⟨x, d.fl (T.applyEdit e).map.shifts, hx', .inr (List.mem_map_of_mem hd), ha, ?_⟩
    rw [g2 d hdt]
    exact hnew
  rcases hf with hf | hf
  · have hf' := hf
    rw [OTab.flat, ← nodes_flat] at hf'
    obtain ⟨d, hd, rfl⟩ := List.mem_map.1 hf'
    cases hany : (nodes (T.applyEdit e).map.root).any fun d' => d'.addr == d.addr with
    | false =>
      refine hout d (nodes_own hh.inv d hd).time ?_ rfl
      rw [hgone, List.mem_append, List.mem_filter]
      exact .inr ⟨hd, by rw [hany]; rfl⟩
    | true =>
      obtain ⟨d', hd', ea⟩ := List.any_eq_true.1 hany
      have ea := beq_iff_eq.1 ea
      rw [g3] at hd'
      have hm : d'.fl T.map.shifts ∈ (removeOverlaps T.map.shifts e.start e.high T.map.root.size T.map.root).flat T.map.shifts := by
        rw [← nodes_flat]; exact List.mem_map_of_mem hd'
      have hin := hk _ hf _ hm ea _ hi' hno'
      refine ⟨x, (d'.fl T.map.shifts).move s, hx', .inl (by rw [g1]; exact List.mem_map_of_mem hm), ?_, ?_⟩
      · rw [← ha]; exact ea
      · exact move_mem he s1 s2 hin (h1.wf_flat _ hm _ hin).1 hlh.2 hno
  · obtain ⟨d, hd, rfl⟩ := List.mem_map.1 hf
    refine hout d (hT.gone d hd).2.2 ?_ rfl
    rw [hgone]; exact List.mem_append_left _ hd

/-- The intervals in the tree after an edit are old ones that the edit does not meet, moved. -/
theorem edit_mem {f : Fl Nat} (hf : f ∈ (T.applyEdit e).flat) {i : Ival Nat} (hi : i ∈ f.ins) :
    ∃ g ∈ T.flat, ∃ j ∈ g.ins, ¬ Meets e j.low j.high ∧ i.val = j.val ∧ i.low = toward e j.low ∧
      i.high = j.high + (toward e j.low - j.low) := by
  obtain ⟨live, hh⟩ := hT.hist
  obtain ⟨s, s1, s2, g1, -⟩ := edit_flat hT (e := e)
  obtain ⟨h1, h2, h3⟩ := removeOverlaps_spec hh.good e.start e.high T.map.root.size T.map.root (Nat.le_refl _) hh.inv hh.ord
  rw [g1] at hf
  obtain ⟨g, hg, rfl⟩ := List.mem_map.1 hf
  obtain ⟨j, hj, e1, e2, e3⟩ := mem_shiftIns hi
  have hc := h3 g hg j hj
  have hno : ¬ Meets e j.low j.high := by
    unfold Meets
    simp only [Ival.overlaps, Bool.and_eq_false_iff, decide_eq_false_iff_not] at hc
    omega
  obtain ⟨w1, w2⟩ := h1.wf_flat g hg j hj
  rcases h2.ins g hg with h | ⟨g', hg', -, -, -, h⟩
  · rw [h] at hj; cases hj
  · refine ⟨g', hg', j, h j hj, hno, e3, ?_, ?_⟩ <;>
    · have hh : (e.start : Int) ≤ e.high := by unfold Edit.high; split <;> omega
      have hmp : movePos s g.pos = toward e j.low := by
        unfold movePos toward
        unfold Meets at hno
        rw [s1, s2, w1]
        split <;> split <;> omega
      rw [hmp] at e1 e2
      omega
end

end Gpeg.Obj
