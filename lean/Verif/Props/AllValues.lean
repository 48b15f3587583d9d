import Verif.Props.TreeTable
import Mathlib.Data.List.Perm.Subperm
/-! # C66: `AllValues` and `Size` of the memo interval tree -/
namespace Gpeg.LazyLog
variable {α : Type}

/-- The intervals stored in the nodes, as the memo table knows them: with id, place, value and location. -/
def pairs (L : List (Fl α)) : List (Slot α × Nat) :=
  L.flatMap fun f => f.ins.map fun i => (⟨f.id, i.low, i.high, i.val⟩, f.addr)

@[simp] theorem pairs_nil : pairs ([] : List (Fl α)) = [] := rfl
@[simp] theorem pairs_cons (f : Fl α) (L : List (Fl α)) :
    pairs (f :: L) = (f.ins.map fun i => (⟨f.id, i.low, i.high, i.val⟩, f.addr)) ++ pairs L := by simp [pairs]
@[simp] theorem pairs_append (A B : List (Fl α)) : pairs (A ++ B) = pairs A ++ pairs B := by simp [pairs]

theorem pairs_vals (S : List Shift) (t : Tr α) : (pairs (t.flat S)).map (fun s => s.1.val) = t.allvals := by
  induction t with
  | nil => rfl
  | node d l r ihl ihr =>
    simp only [Tr.flat, pairs_append, pairs_cons, List.map_append, ihl, ihr, Tr.allvals, List.append_assoc]
    simp [Nd.fl, shiftIns, Function.comp_def]

theorem RemRel.pairs {d : Nd α} {L R L' : List (Fl α)} (h : RemRel d L R L') :
    (pairs L').Sublist (pairs L ++ pairs R) := by
  rcases h with rfl | ⟨m, B, rfl, -, rfl⟩
  · rw [pairs_append]
  · simp only [pairs_append, pairs_cons, List.map_nil, List.nil_append]
    exact (List.Sublist.refl _).append (List.sublist_append_right _ _)

/-- Removing overlaps makes no new intervals and doubles none. -/
theorem removeOverlaps_pairs {S : List Shift} (hS : Good S) (low high : Int) : ∀ (f : Nat) (t : Tr α),
    t.size ≤ f → Inv S t → t.Ord S →
    (pairs ((removeOverlaps S low high f t).flat S)).Subperm (pairs (t.flat S)) := by
  intro f
  induction f with
  | zero =>
    intro t hf h _
    exact .refl _
  | succ f ih =>
    intro t hf h ho
    cases t with
    | nil => exact .refl _
    | node d l r =>
      obtain ⟨s1, s2, s3⟩ := applyShifts_inv hS h
      have hfl : (Tr.node d l r).flat S = l.flat S ++ (applyShifts S l.mx? r.mx? d).fl S :: r.flat S := by
        rw [s2]; rfl
      have ho' : (Tr.node (applyShifts S l.mx? r.mx? d) l r).Ord S := by
        rw [Tr.Ord, Tr.flat, s2]; exact ho
      rw [removeOverlaps, hfl]
      simp only []
      generalize applyShifts S l.mx? r.mx? d = d' at *
      obtain ⟨own, hl, hr, bl, br⟩ := s1.done_parts s3
      have hdfl := Nd.fl_done S d' s3
      simp only [Tr.size] at hf
      by_cases hmx : low > d'.mx
      · rw [if_pos hmx]
        exact .refl _
      · rw [if_neg hmx]
        obtain ⟨l1, l2, -⟩ := removeOverlaps_spec hS low high f l (by omega) hl ho'.left
        have l3 := ih l (by omega) hl ho'.left
        have hr3 := ih r (by omega) hr ho'.right
        generalize removeOverlaps S low high f l = l' at *
        have hperm := swapRemove_perm (Ival.overlaps low high) d'.ins.length d'.ins (Nat.le_refl _)
        generalize hins : swapRemove (Ival.overlaps low high) d'.ins.length d'.ins = ins' at *
        have hmem : ∀ i ∈ ins', i ∈ d'.ins := fun i hi => (List.mem_filter.1 (hperm.mem_iff.1 hi)).1
        have hsd : Sub [({ d' with ins := ins' } : Nd α).fl S] [d'.fl S] := by
          rw [hdfl, Nd.fl_done S { d' with ins := ins' } s3]
          refine ⟨.refl _, .refl _, ?_⟩
          intro g hg
          simp only [List.mem_singleton] at hg
          subst hg
          exact .inr ⟨_, List.mem_singleton.2 rfl, rfl, rfl, rfl, hmem⟩
        have hown : (ins'.map fun i => ((⟨d'.id, i.low, i.high, i.val⟩ : Slot α), d'.addr)).Subperm
            (d'.ins.map fun i => (⟨d'.id, i.low, i.high, i.val⟩, d'.addr)) :=
          (hperm.map _).subperm.trans (List.filter_sublist.map _).subperm
        have hsub : ∀ r' : Tr α, (pairs (r'.flat S)).Subperm (pairs (r.flat S)) →
            (pairs ((Tr.node { d' with ins := ins' } l' r').flat S)).Subperm
              (pairs (l.flat S ++ d'.fl S :: r.flat S)) := by
          intro r' h2
          rw [Tr.flat, hdfl, Nd.fl_done S { d' with ins := ins' } s3]
          simp only [pairs_append, pairs_cons]
          exact l3.append (hown.append h2)
        by_cases hemp : ins'.isEmpty = true
        · rw [if_pos hemp]
          have he : ins' = [] := List.isEmpty_iff.1 hemp
          have hsub0 : Sub ((Tr.node { d' with ins := ins' } l' r).flat S) (l.flat S ++ d'.fl S :: r.flat S) :=
            l2.append (hsd.append (Sub.refl _))
          have hordn : (Tr.node { d' with ins := ins' } l' r).Ord S := hsub0.ord ho'
          have hinv : Inv S (.node { d' with ins := ins' } l' r) :=
            Inv.mk_done s3 (fun i hi => own.wf i (hmem i hi)) own.pos (fun i hi => own.high i (hmem i hi))
              l1 hr (l2.le bl) br
          obtain ⟨r1, r2⟩ := removeRoot_spec hS _ { d' with ins := ins' } l' r (Nat.le_refl _) hinv hordn s3 he
          generalize remove S (Tr.node { d' with ins := ins' } l' r).size
            ({ d' with ins := ins' } : Nd α).pos ({ d' with ins := ins' } : Nd α).id
            (.node { d' with ins := ins' } l' r) = n at *
          have hn : (pairs (n.flat S)).Subperm (pairs (l.flat S ++ d'.fl S :: r.flat S)) := by
            refine r2.pairs.subperm.trans ?_
            simp only [pairs_append, pairs_cons]
            exact l3.append (List.sublist_append_right _ _).subperm
          by_cases hge : high ≥ d'.pos
          · rw [if_pos hge]
            have hsz : n.size ≤ f := by
              rw [size_eq S, r2.length]
              have := l2.length
              rw [← size_eq S] at this
              rw [← size_eq S, ← size_eq S] at *
              omega
            exact (ih n hsz r1 (((r2.sub (S := S)).trans hsub0).ord ho')).trans hn
          · rw [if_neg hge]
            exact hn
        · rw [if_neg hemp]
          split
          · exact hsub r (.refl _)
          · exact hsub _ hr3

theorem filterMap_subperm {β γ : Type} (F : β → Option γ) {l l' : List β} (h : l.Subperm l') :
    (l.filterMap F).Subperm (l'.filterMap F) := by
  obtain ⟨m, h1, h2⟩ := h
  exact (h1.symm.filterMap F).subperm.trans (h2.filterMap F).subperm

/-- Intervals that an edit does not meet move with their node. -/
theorem pairs_move {L : List (Fl α)} {low high amt : Int} {k : Nat}
    (hw : ∀ f ∈ L, ∀ i ∈ f.ins, i.low = f.pos ∧ i.low ≤ i.high) (hlh : low ≤ high) (hc : Clear low high L) :
    pairs (L.map (Fl.move ⟨low, amt, k⟩)) = followAll low high amt (pairs L) := by
  induction L with
  | nil => rfl
  | cons f L ih =>
    have ih := ih (fun g hg => hw g (List.mem_cons_of_mem _ hg)) fun g hg => hc g (List.mem_cons_of_mem _ hg)
    have hwf := hw f List.mem_cons_self
    have hcf := hc f List.mem_cons_self
    rw [List.map_cons, pairs_cons, pairs_cons, ih, followAll, followAll, List.filterMap_append]
    congr 1
    have : ∀ is : List (Ival α), (∀ i ∈ is, i.low = f.pos ∧ i.low ≤ i.high) →
        (∀ i ∈ is, Ival.overlaps low high i = false) →
        (shiftIns (movePos ⟨low, amt, k⟩ f.pos - f.pos) is).map
          (fun i => ((⟨f.id, i.low, i.high, i.val⟩ : Slot α), f.addr)) =
        (is.map fun i => ((⟨f.id, i.low, i.high, i.val⟩ : Slot α), f.addr)).filterMap
          fun s => (follow low high amt s.1).map fun s' => (s', s.2) := by
      intro is
      induction is with
      | nil => intro _ _; rfl
      | cons i is ihi =>
        intro h1 h2
        have e := ihi (fun j hj => h1 j (List.mem_cons_of_mem _ hj)) fun j hj => h2 j (List.mem_cons_of_mem _ hj)
        obtain ⟨w1, w2⟩ := h1 i List.mem_cons_self
        have w3 := h2 i List.mem_cons_self
        simp only [Ival.overlaps, Bool.and_eq_false_iff, decide_eq_false_iff_not] at w3
        rw [List.map_cons, List.filterMap_cons]
        have hfo : follow low high amt (⟨f.id, i.low, i.high, i.val⟩ : Slot α) =
            some ⟨f.id, i.low + (movePos ⟨low, amt, k⟩ f.pos - f.pos),
              i.high + (movePos ⟨low, amt, k⟩ f.pos - f.pos), i.val⟩ := by
          simp only [follow, movePos]
          rw [if_neg (by omega)]
          by_cases hp : high < i.low
          · rw [if_pos hp, if_pos (by omega)]
            congr 2 <;> omega
          · rw [if_neg hp, if_neg (by omega)]
            congr 2 <;> omega
        simp only [hfo, Option.map_some]
        rw [← e]
        rfl
    exact this f.ins hwf hcf

/-- An edit, seen from the list of intervals. -/
theorem pairs_edit {b : Bool} {st : St α} (h : Hist b st) {low high amt : Int} (hlh : low ≤ high) :
    pairs ((st.step (.edit low high amt)).tree.root.flat (st.step (.edit low high amt)).tree.shifts) =
    followAll low high amt (pairs ((removeOverlaps st.tree.shifts low high st.tree.root.size st.tree.root).flat
      st.tree.shifts)) := by
  obtain ⟨h1, -, h3⟩ := removeOverlaps_spec h.good low high st.tree.root.size st.tree.root (Nat.le_refl _)
    h.inv h.ord
  rw [← pairs_move (k := st.tree.tstamp + 1) h1.wf_flat hlh h3]
  congr 1
  simp only [St.step, Tree.removeAndShift]
  by_cases h0 : amt = 0
  · subst h0
    simp only [ne_eq, not_true_eq_false, if_false]
    conv_lhs => rw [← List.map_id (Tr.flat _ _)]
    exact List.map_congr_left fun f _ => (move_zero _ _ f).symm
  · simp only [ne_eq, h0, not_false_eq_true, if_true, Tree.shift, if_false]
    exact flat_snoc h1 _

theorem pairs_add {b : Bool} {st : St α} (h : Hist b st) {id low high : Int} {v : α} (hlh : low ≤ high) :
    (pairs ((st.step (.add id low high v)).tree.root.flat (st.step (.add id low high v)).tree.shifts)).Perm
      (pairs (st.tree.root.flat st.tree.shifts) ++ [(⟨id, low, high, v⟩, (st.tree.add id low high v).2)]) := by
  obtain ⟨-, -, h3⟩ := add_spec h.good st.tree.next low id ⟨low, high, v⟩ rfl hlh st.tree.root h.inv h.ord
  rw [← h.time] at h3
  simp only [St.step, Tree.add]
  rcases h3 with ⟨A, B, e1, e2, e3, -⟩ | ⟨A, g, B, e1, e2, e3, e4, e5⟩
  · rw [e2, e1, e3]
    simp only [pairs_append, pairs_cons, List.map_cons, List.map_nil, List.append_assoc]
    exact List.Perm.append_left _ List.perm_append_comm
  · rw [e2, e1, e3]
    subst e5
    simp only [pairs_append, pairs_cons, List.map_append, List.map_cons, List.map_nil, List.append_assoc]
    exact List.Perm.append_left _ (List.Perm.append_left _ List.perm_append_comm)

theorem pairs_quiet {b : Bool} {st : St α} (h : Hist b st) (op : Op α)
    (hop : (∃ id p, op = .find id p) ∨ ∃ a, op = .pos a) :
    (st.step op).tree.root.flat (st.step op).tree.shifts = st.tree.root.flat st.tree.shifts ∧
    (st.step op).live = st.live := by
  rcases hop with ⟨id, p, rfl⟩ | ⟨a, rfl⟩
  · exact ⟨(search_spec h.good p id st.tree.root h.inv h.ord).2.1, rfl⟩
  · exact ⟨(touch_spec h.good a st.tree.root h.inv).2.1, rfl⟩

theorem pairs_run : ∀ (ops : List (Op α)) (b : Bool) (st : St α), Hist b st →
    (pairs (st.tree.root.flat st.tree.shifts)).Subperm st.live → (∀ op ∈ ops, op.Valid) → Grows b ops →
    (pairs ((ops.foldl St.step st).tree.root.flat (ops.foldl St.step st).tree.shifts)).Subperm
      (ops.foldl St.step st).live
  | [], _, _, _, hp, _, _ => hp
  | op :: ops, b, st, h, hp, hv, hg => by
    have hv' : ∀ op ∈ ops, op.Valid := fun o ho => hv o (List.mem_cons_of_mem _ ho)
    have hv0 := hv op List.mem_cons_self
    rw [List.foldl_cons]
    cases op with
    | add id low high v =>
      refine pairs_run ops b _ (hist_add h hv0.1 hv0.2) ?_ hv' hg
      exact (pairs_add h hv0.2).subperm.trans (hp.append (List.Subperm.refl _))
    | edit low high amt =>
      refine pairs_run ops true _ (hist_edit h hv0.1 hv0.2 hg.1) ?_ hv' hg.2
      rw [pairs_edit h hv0.1]
      exact filterMap_subperm _ ((removeOverlaps_pairs h.good low high _ _ (Nat.le_refl _) h.inv h.ord).trans hp)
    | find id pos =>
      refine pairs_run ops b _ (hist_find h id pos) ?_ hv' hg
      obtain ⟨e1, e2⟩ := pairs_quiet h (.find id pos) (.inl ⟨_, _, rfl⟩)
      rw [e1, e2]; exact hp
    | pos a =>
      refine pairs_run ops b _ (hist_pos h a) ?_ hv' hg
      obtain ⟨e1, e2⟩ := pairs_quiet h (.pos a) (.inr ⟨_, rfl⟩)
      rw [e1, e2]; exact hp

/-- **C66**, for the histories of C29: `AllValues` returns only values of live intervals, and each at most as
often as there are live intervals with it. -/
theorem C66_all_live_partial (ops : List (Op α)) (hv : ∀ op ∈ ops, op.Valid) (hg : Grows false ops) :
    (run ops).tree.allValues.Subperm ((run ops).live.map fun s => s.1.val) := by
  have h := pairs_run ops false {} hist_init (List.Subperm.refl _) hv hg
  have h' : (pairs ((run ops).tree.root.flat (run ops).tree.shifts)).Subperm (run ops).live := h
  rw [Tree.allValues, ← pairs_vals (run ops).tree.shifts]
  obtain ⟨m, h1, h2⟩ := h'
  exact ⟨_, h1.map _, h2.map _⟩

example : (run growing).tree.allValues = [10, 14, 12, 13] ∧ (run growing).live.map (fun s => s.1.val) = [10, 12, 13, 14] := by
  decide +kernel

theorem pairs_run_apart : ∀ (ops : List (Op α)) (b : Bool) (st : St α), Hist b st → Kept st →
    (pairs (st.tree.root.flat st.tree.shifts)).Perm st.live → (∀ op ∈ ops, op.Valid) → Grows b ops → Apart st ops →
    (pairs ((ops.foldl St.step st).tree.root.flat (ops.foldl St.step st).tree.shifts)).Perm
      (ops.foldl St.step st).live
  | [], _, _, _, _, hp, _, _, _ => hp
  | op :: ops, b, st, h, hk, hp, hv, hg, hap => by
    have hv' : ∀ op ∈ ops, op.Valid := fun o ho => hv o (List.mem_cons_of_mem _ ho)
    have hv0 := hv op List.mem_cons_self
    rw [List.foldl_cons]
    cases op with
    | add id low high v =>
      refine pairs_run_apart ops b _ (hist_add h hv0.1 hv0.2) (kept_add h hk hv0.2) ?_ hv' hg hap
      exact (pairs_add h hv0.2).trans (hp.append_right _)
    | edit low high amt =>
      refine pairs_run_apart ops true _ (hist_edit h hv0.1 hv0.2 hg.1) (kept_edit h hk hv0.1 hap.1) ?_ hv' hg.2 hap.2
      have hc : Clear low high (st.tree.root.flat st.tree.shifts) := by
        intro f hf i hi
        have := hap.1 _ (h.stored f hf i hi)
        simp only [Ival.overlaps, Bool.and_eq_false_iff, decide_eq_false_iff_not] at this ⊢
        omega
      rw [pairs_edit h hv0.1, removeOverlaps_apart h.good low high st.tree.root.size st.tree.root h.inv hc hk.full]
      exact hp.filterMap _
    | find id pos =>
      obtain ⟨e1, e2⟩ := pairs_quiet h (.find id pos) (.inl ⟨_, _, rfl⟩)
      exact pairs_run_apart ops b _ (hist_find h id pos) (kept_flat hk e2 e1) (by rw [e1, e2]; exact hp) hv' hg hap
    | pos a =>
      obtain ⟨e1, e2⟩ := pairs_quiet h (.pos a) (.inr ⟨_, rfl⟩)
      exact pairs_run_apart ops b _ (hist_pos h a) (kept_flat hk e2 e1) (by rw [e1, e2]; exact hp) hv' hg hap

/-- **C66**, for the histories of C30, whose edits meet no entry: `AllValues` returns the values of exactly the
live intervals. False for all histories: `C66_all_false`. -/
theorem C66_all_values_partial (ops : List (Op α)) (hv : ∀ op ∈ ops, op.Valid) (hg : Grows false ops)
    (hap : Apart {} ops) : (run ops).tree.allValues.Perm ((run ops).live.map fun s => s.1.val) := by
  have h := pairs_run_apart ops false {} hist_init ⟨(fun _ h => by cases h), (fun _ h => by cases h)⟩
    (List.Perm.refl _) hv hg hap
  have h' : (pairs ((run ops).tree.root.flat (run ops).tree.shifts)).Perm (run ops).live := h
  rw [Tree.allValues, ← pairs_vals (run ops).tree.shifts]
  exact h'.map _

example : (run apart).tree.allValues = [11, 10, 12, 13] := by decide +kernel

/-- **C66 does not hold for all histories**: the value 3 is live, `AllValues` does not return it. -/
theorem C66_all_false : ¬ ∀ ops : List (Op Nat), (∀ op ∈ ops, op.Valid) →
    (run ops).tree.allValues.Perm ((run ops).live.map fun s => s.1.val) := by
  intro h
  have hv : ∀ op ∈ lossy, op.Valid := by
    intro op h
    simp only [lossy, List.mem_cons, List.not_mem_nil, or_false] at h
    rcases h with rfl | rfl | rfl | rfl <;> simp [Op.Valid]
  have h1 : 3 ∈ (run lossy).live.map fun s => s.1.val := by decide +kernel
  have h2 : 3 ∉ (run lossy).tree.allValues := by decide +kernel
  exact h2 ((h lossy hv).mem_iff.2 h1)

/-- **C66**, `Size`, for the histories of C30: it is the number of places (id and position) where something is
stored, here given as the length of a list `K` of those places without repetitions. -/
theorem C66_size_partial (ops : List (Op α)) (hv : ∀ op ∈ ops, op.Valid) (hg : Grows false ops)
    (hap : Apart {} ops) : ∃ K : List (Int × Int), K.Nodup ∧
      (∀ k, k ∈ K ↔ ∃ s ∈ (run ops).live, (s.1.low, s.1.id) = k) ∧ (run ops).tree.size = K.length := by
  obtain ⟨b, h, hk⟩ := kept_run ops false {} hist_init ⟨(fun _ h => by cases h), (fun _ h => by cases h)⟩ hv hg hap
  change Hist b (run ops) at h
  change Kept (run ops) at hk
  refine ⟨((run ops).tree.root.flat (run ops).tree.shifts).map Fl.key, ?_, ?_, ?_⟩
  · have := (ord_keys _).1 h.ord
    refine this.imp ?_
    intro a b hab e
    subst e
    simp only [klt] at hab
    omega
  · intro k
    constructor
    · intro hm
      obtain ⟨f, hf, rfl⟩ := List.mem_map.1 hm
      cases hi : f.ins with
      | nil => exact absurd hi (hk.full f hf)
      | cons i is =>
        have him : i ∈ f.ins := by rw [hi]; exact List.mem_cons_self
        have hw := (h.inv.wf_flat f hf i him).1
        exact ⟨_, h.stored f hf i him, by simp only [Fl.key, hw]⟩
    · rintro ⟨s, hs, rfl⟩
      obtain ⟨f, hf, f1, f2, f3⟩ := hk.all s hs
      have hw := (h.inv.wf_flat f hf _ f3).1
      refine List.mem_map.2 ⟨f, hf, ?_⟩
      simp only [Fl.key, f1]
      rw [← hw]
  · rw [Tree.size, size_eq (run ops).tree.shifts, List.length_map]

/-- **The comment of `Size` is wrong**: it is not the number of intervals stored. -/
theorem C66_size_false : ¬ ∀ ops : List (Op Nat), (∀ op ∈ ops, op.Valid) → Grows false ops → Apart {} ops →
    (run ops).tree.size = (run ops).live.length := by
  intro h
  have := h [.add 0 1 2 7, .add 0 1 5 8] (by
    intro op h
    simp only [List.mem_cons, List.not_mem_nil, or_false] at h
    rcases h with rfl | rfl <;> simp [Op.Valid]) (by simp [Grows]) (by simp [Apart])
  exact absurd this (by decide +kernel)

end Gpeg.LazyLog
