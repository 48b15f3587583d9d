import Verif.Props.LazyLog
/-!
# What an edit leaves alone: nodes before everything it meets

`removeOverlaps` can lose nodes that the range does not meet, but only nodes after an empty one.
-/
namespace Gpeg.LazyLog
variable {α : Type}

/-- The position is before `F`; everything is before `none`. -/
def Bef (q : Int) (F : Option Int) : Prop := ∀ f, F = some f → q < f

theorem Bef.le {q q' : Int} {F : Option Int} (h : Bef q' F) (hq : q ≤ q') : Bef q F := fun f hf => by
  have := h f hf
  omega

/-- The nodes before `F` are the same. -/
def Below (F : Option Int) (L L' : List (Fl α)) : Prop := ∀ g : Fl α, Bef g.pos F → (g ∈ L' ↔ g ∈ L)

theorem Below.refl (F : Option Int) (L : List (Fl α)) : Below F L L := fun _ _ => Iff.rfl

theorem Below.trans {F : Option Int} {L1 L2 L3 : List (Fl α)} (h : Below F L1 L2) (h' : Below F L2 L3) : Below F L1 L3 :=
  fun g hg => (h' g hg).trans (h g hg)

theorem Below.append {F : Option Int} {A A' B B' : List (Fl α)} (hA : Below F A A') (hB : Below F B B') : Below F (A ++ B) (A' ++ B') := fun g hg => by
  rw [List.mem_append, List.mem_append, hA g hg, hB g hg]

/-- Nodes before `F` have intervals, and none meets the range. -/
def Untouched (low high : Int) (F : Option Int) (L : List (Fl α)) : Prop :=
  ∀ g ∈ L, Bef g.pos F → g.ins ≠ [] ∧ ∀ i ∈ g.ins, Ival.overlaps low high i = false

theorem Untouched.below {low high : Int} {F : Option Int} {L L' : List (Fl α)} (h : Untouched low high F L) (hb : Below F L L') :
    Untouched low high F L' := fun g hg hq => h g ((hb g hq).1 hg) hq

theorem removeOverlaps_below {S : List Shift} (hS : Good S) (low high : Int) (F : Option Int) : ∀ (f : Nat) (t : Tr α),
    t.size ≤ f → Inv S t → t.Ord S → Untouched low high F (t.flat S) → Below F (t.flat S) ((removeOverlaps S low high f t).flat S) := by
  intro f
  induction f with
  | zero => intro t _ _ _ _; exact Below.refl _ _
  | succ f ih =>
    intro t hf h ho hu
    cases t with
    | nil => exact Below.refl _ _
    | node d l r =>
      obtain ⟨s1, s2, s3⟩ := applyShifts_inv hS h
      have hfl : (Tr.node d l r).flat S = l.flat S ++ (applyShifts S l.mx? r.mx? d).fl S :: r.flat S := by
        rw [s2]; rfl
      have ho' : (Tr.node (applyShifts S l.mx? r.mx? d) l r).Ord S := by
        rw [Tr.Ord, Tr.flat, s2]; exact ho
      rw [hfl] at hu
      rw [removeOverlaps, hfl]
      simp only []
      generalize applyShifts S l.mx? r.mx? d = d' at *
      obtain ⟨own, hl, hr, bl, br⟩ := s1.done_parts s3
      have hdfl := Nd.fl_done S d' s3
      simp only [Tr.size] at hf
      by_cases hmx : low > d'.mx
      · rw [if_pos hmx]; exact Below.refl _ _
      · rw [if_neg hmx]
        have hul : Untouched low high F (l.flat S) := fun g hg => hu g (List.mem_append_left _ hg)
        have hur : Untouched low high F (r.flat S) := fun g hg => hu g (List.mem_append_right _ (List.mem_cons_of_mem _ hg))
        have hud := hu (d'.fl S) (List.mem_append_right _ List.mem_cons_self)
        have hright : ∀ g ∈ r.flat S, d'.pos ≤ g.pos := by
          intro g hg
          have := ho'.lt_right g hg
          rw [hdfl] at this
          simp only [Fl.lt, klt] at this
          omega
        obtain ⟨l1, l2, -⟩ := removeOverlaps_spec hS low high f l (by omega) hl ho'.left
        have lk := ih l (by omega) hl ho'.left hul
        generalize removeOverlaps S low high f l = l' at *
        have hpos : (d'.fl S).pos = d'.pos := by rw [hdfl]
        have hsame : Bef d'.pos F → swapRemove (Ival.overlaps low high) d'.ins.length d'.ins = d'.ins ∧ d'.ins ≠ [] := by
          intro hq
          obtain ⟨u1, u2⟩ := hud (hpos ▸ hq)
          rw [hdfl] at u1 u2
          exact ⟨swapRemove_none _ _ (Nat.le_refl _) u2, u1⟩
        generalize hins : swapRemove (Ival.overlaps low high) d'.ins.length d'.ins = ins' at *
        have hmem : ∀ i, i ∈ ins' ↔ i ∈ d'.ins ∧ Ival.overlaps low high i = false := by
          intro i
          rw [← hins]
          exact swapRemove_mem
        have hsd : Sub [({ d' with ins := ins' } : Nd α).fl S] [d'.fl S] := by
          rw [hdfl, Nd.fl_done S { d' with ins := ins' } s3]
          refine ⟨.refl _, .refl _, ?_⟩
          intro g hg
          simp only [List.mem_singleton] at hg
          subst hg
          exact .inr ⟨_, List.mem_singleton.2 rfl, rfl, rfl, rfl, fun i hi => ((hmem i).1 hi).1⟩
        have hkd : Below F [d'.fl S] [({ d' with ins := ins' } : Nd α).fl S] := by
          rw [hdfl, Nd.fl_done S { d' with ins := ins' } s3]
          intro g hg
          rw [List.mem_singleton, List.mem_singleton]
          constructor
          · rintro rfl
            rw [(hsame hg).1]
          · rintro rfl
            rw [(hsame hg).1]
        have hinv : ∀ r', Inv S r' → Sub (r'.flat S) (r.flat S) →
            Inv S (.node { d' with ins := ins' } l' r') := fun r' h1 h2 =>
          Inv.mk_done s3 (fun i hi => own.wf i ((hmem i).1 hi).1) own.pos (fun i hi => own.high i ((hmem i).1 hi).1)
            l1 h1 (l2.le bl) (h2.le br)
        have hsub : ∀ r' : Tr α, Sub (r'.flat S) (r.flat S) →
            Sub ((Tr.node { d' with ins := ins' } l' r').flat S) (l.flat S ++ d'.fl S :: r.flat S) :=
          fun r' h2 => l2.append (hsd.append h2)
        have hkeep : ∀ r' : Tr α, Below F (r.flat S) (r'.flat S) →
            Below F (l.flat S ++ d'.fl S :: r.flat S) ((Tr.node { d' with ins := ins' } l' r').flat S) :=
          fun r' h3 => Below.append (B := [d'.fl S] ++ r.flat S) (B' := [({ d' with ins := ins' } : Nd α).fl S] ++ r'.flat S) lk (Below.append hkd h3)
        by_cases hemp : ins'.isEmpty = true
        · rw [if_pos hemp]
          have he : ins' = [] := List.isEmpty_iff.1 hemp
          have hnb : ∀ q, d'.pos ≤ q → ¬ Bef q F := fun q hq hb => by
            obtain ⟨e1, e2⟩ := hsame (hb.le hq)
            rw [he] at e1
            exact e2 e1.symm
          have hs0 := hsub r (Sub.refl _)
          have hordn : (Tr.node { d' with ins := ins' } l' r).Ord S := hs0.ord ho'
          obtain ⟨r1, r2⟩ := removeRoot_spec hS _ { d' with ins := ins' } l' r (Nat.le_refl _)
            (hinv r hr (Sub.refl _)) hordn s3 he
          generalize remove S (Tr.node { d' with ins := ins' } l' r).size
            ({ d' with ins := ins' } : Nd α).pos ({ d' with ins := ins' } : Nd α).id
            (.node { d' with ins := ins' } l' r) = n at *
          have hnsub : Sub (n.flat S) (l.flat S ++ d'.fl S :: r.flat S) :=
            (r2.sub (S := S)).trans hs0
          have hnk : Below F (l.flat S ++ d'.fl S :: r.flat S) (n.flat S) := by
            intro g hg
            have hgr : g ∉ r.flat S := fun h => hnb _ (hright g h) hg
            have hgd : g ≠ d'.fl S := fun h => hnb _ (by rw [h, hpos]; exact Int.le_refl _) hg
            rw [List.mem_append, List.mem_cons, ← lk g hg]
            have hgo : (g ∈ l'.flat S ∨ g = d'.fl S ∨ g ∈ r.flat S) ↔ g ∈ l'.flat S :=
              ⟨fun h => h.elim id fun h => h.elim (fun h => absurd h hgd) fun h => absurd h hgr, .inl⟩
            rw [hgo]
            rcases r2 with e | ⟨m, B, e1, -, e2⟩
            · rw [e, List.mem_append]
              exact ⟨fun h => h.elim id fun h => absurd h hgr, .inl⟩
            · rw [e2, List.mem_append, List.mem_cons]
              refine ⟨fun h => h.elim id fun h => h.elim (fun h => ?_) fun h => ?_, .inl⟩
              · refine absurd hg (hnb _ ?_)
                rw [h]
                exact hright m (by rw [e1]; exact List.mem_cons_self)
              · exact absurd (by rw [e1]; exact List.mem_cons_of_mem _ h) hgr
          by_cases hge : high ≥ d'.pos
          · rw [if_pos hge]
            have hsz : n.size ≤ f := by
              rw [size_eq S, r2.length]
              have := l2.length
              rw [← size_eq S] at this
              rw [← size_eq S, ← size_eq S] at *
              omega
            exact hnk.trans (ih n hsz r1 (hnsub.ord ho') (hu.below hnk))
          · rw [if_neg hge]; exact hnk
        · rw [if_neg hemp]
          by_cases hge : high < d'.pos
          · rw [if_pos hge]; exact hkeep r (Below.refl _ _)
          · rw [if_neg hge]
            exact hkeep _ (ih r (by omega) hr ho'.right hur)

/-! ## Histories -/

/-- What is live before `F` is stored, and nodes before `F` are not empty. -/
structure KeptB (F : Option Int) (st : St α) : Prop where
  full : ∀ f ∈ st.tree.root.flat st.tree.shifts, Bef f.pos F → f.ins ≠ []
  all : ∀ s ∈ st.live, Bef s.1.low F → ∃ f ∈ st.tree.root.flat st.tree.shifts, f.id = s.1.id ∧ f.addr = s.2 ∧
    ⟨s.1.low, s.1.high, s.1.val⟩ ∈ f.ins
  wf : ∀ s ∈ st.live, s.1.low ≤ s.1.high

theorem keptB_flat {F : Option Int} {st st' : St α} (h : KeptB F st) (hl : st'.live = st.live)
    (hf : st'.tree.root.flat st'.tree.shifts = st.tree.root.flat st.tree.shifts) : KeptB F st' := by
  refine ⟨?_, ?_, ?_⟩
  · rw [hf]; exact h.full
  · rw [hf, hl]; exact h.all
  · rw [hl]; exact h.wf

theorem keptB_add {F : Option Int} {b : Bool} {st : St α} (h : Hist b st) (hk : KeptB F st) {id low high : Int} {v : α}
    (hlh : low ≤ high) : KeptB F (st.step (.add id low high v)) := by
  obtain ⟨h1, h2, h3⟩ := add_spec h.good st.tree.next low id ⟨low, high, v⟩ rfl hlh st.tree.root h.inv h.ord
  rw [← h.time] at h1 h2 h3
  have hfull := hk.full
  have hall := hk.all
  refine ⟨?_, ?_, fun s hs => ?wf⟩
  case wf =>
    rcases List.mem_append.1 hs with hs | hs
    · exact hk.wf s hs
    · rw [List.mem_singleton.1 hs]; exact hlh
  · intro f hf
    simp only [St.step, Tree.add] at hf
    rcases h3 with ⟨A, B, e1, e2, e3, -⟩ | ⟨A, g, B, e1, e2, e3, e4, e5⟩
    · rw [e2, List.mem_append, List.mem_cons] at hf
      rw [e1] at hfull
      rcases hf with hf | rfl | hf
      · exact hfull f (List.mem_append_left _ hf)
      · simp
      · exact hfull f (List.mem_append_right _ hf)
    · rw [e2, List.mem_append, List.mem_cons] at hf
      rw [e1] at hfull
      rcases hf with hf | rfl | hf
      · exact hfull f (List.mem_append_left _ hf)
      · simp
      · exact hfull f (List.mem_append_right _ (List.mem_cons_of_mem _ hf))
  · intro s hs hq
    simp only [St.step, Tree.add, List.mem_append, List.mem_singleton] at hs ⊢
    rcases h3 with ⟨A, B, e1, e2, e3, -⟩ | ⟨A, g, B, e1, e2, e3, e4, e5⟩
    · rw [e2]
      rw [e1] at hall
      rcases hs with hs | rfl
      · obtain ⟨f, hf, hh⟩ := hall s hs hq
        refine ⟨f, ?_, hh⟩
        rcases List.mem_append.1 hf with hf | hf
        · exact List.mem_append_left _ hf
        · exact List.mem_append_right _ (List.mem_cons_of_mem _ hf)
      · exact ⟨_, List.mem_append_right _ List.mem_cons_self, rfl, by rw [e3], List.mem_singleton.2 rfl⟩
    · rw [e2]
      rw [e1] at hall
      rcases hs with hs | rfl
      · obtain ⟨f, hf, hh1, hh2, hh3⟩ := hall s hs hq
        rcases List.mem_append.1 hf with hf | hf
        · exact ⟨f, List.mem_append_left _ hf, hh1, hh2, hh3⟩
        · rcases List.mem_cons.1 hf with rfl | hf
          · exact ⟨_, List.mem_append_right _ List.mem_cons_self, hh1, hh2, List.mem_append_left _ hh3⟩
          · exact ⟨f, List.mem_append_right _ (List.mem_cons_of_mem _ hf), hh1, hh2, hh3⟩
      · exact ⟨_, List.mem_append_right _ List.mem_cons_self, e5, e3.symm,
          List.mem_append_right _ (List.mem_singleton.2 rfl)⟩

/-- Before the first edit there are no empty nodes, and it leaves none in front of or inside its range. -/
theorem hist_empties {b : Bool} {st : St α} (h : Hist b st) {low high : Int} (hb : b = false) :
    ∀ g ∈ (removeOverlaps st.tree.shifts low high st.tree.root.size st.tree.root).flat st.tree.shifts, g.ins = [] → high < g.pos := by
  obtain ⟨e, hd, hf⟩ := h.first hb
  have hi := h.inv
  have ho := h.ord
  rw [e] at hi ho ⊢
  refine (removeOverlaps_empty low high _ _ (Nat.le_refl _) hi ho hd ?_).2.2
  have : ∀ t : Tr α, Full t → All (Visit low high) t := by
    intro t hf
    induction hf with
    | nil => exact .nil
    | node hn _ _ il ir => exact .node (fun he => absurd he hn) il ir
  exact this _ hf

/-- An edit that meets nothing before `F`; the bound moves as positions do, if it is not in the range. -/
theorem keptB_edit {F F' : Option Int} {b : Bool} {st : St α} (h : Hist b st) (hk : KeptB F st) {low high amt : Int} (hlh : low ≤ high)
    (ha : low - high ≤ amt) (hb : b = true → 0 ≤ amt) (hF : ∀ q, Bef q F' → Bef q F)
    (hap : ∀ s ∈ st.live, Bef s.1.low F' → ¬ (s.1.low ≤ high ∧ low ≤ s.1.high)) :
    KeptB (F'.map fun f => if high < f then f + amt else min f low) (st.step (.edit low high amt)) := by
  obtain ⟨h1, h2, h3⟩ := removeOverlaps_spec h.good low high st.tree.root.size st.tree.root (Nat.le_refl _)
    h.inv h.ord
  have hw0 := h.inv.wf_flat
  have hu : Untouched low high F' (st.tree.root.flat st.tree.shifts) := by
    intro g hg hq
    refine ⟨hk.full g hg (hF _ hq), fun i hi => ?_⟩
    have hw := hw0 g hg i hi
    have := hap _ (h.stored g hg i hi) (hq.le (Int.le_of_eq hw.1))
    simp only [Ival.overlaps, Bool.and_eq_false_iff, decide_eq_false_iff_not] at this ⊢
    omega
  have hfl := removeOverlaps_below h.good low high F' st.tree.root.size st.tree.root (Nat.le_refl _) h.inv h.ord hu
  have hemp := hist_empties (low := low) (high := high) h
  have hw1 := h1.wf_flat
  have hflat : (st.step (.edit low high amt)).tree.root.flat (st.step (.edit low high amt)).tree.shifts =
      ((removeOverlaps st.tree.shifts low high st.tree.root.size st.tree.root).flat st.tree.shifts).map (Fl.move ⟨low, amt, st.tree.tstamp + 1⟩) := by
    simp only [St.step, Tree.removeAndShift]
    by_cases h0 : amt = 0
    · subst h0
      simp only [ne_eq, not_true_eq_false, if_false]
      conv_lhs => rw [← List.map_id (Tr.flat _ _)]
      exact List.map_congr_left fun f _ => (move_zero _ _ f).symm
    · simp only [ne_eq, h0, not_false_eq_true, if_true, Tree.shift, if_false]
      rw [flat_snoc h1]
  refine ⟨?_, ?_, fun s hs => ?wf⟩
  case wf =>
    simp only [St.step] at hs
    obtain ⟨s0, hs0, e⟩ := List.mem_filterMap.1 hs
    have := hk.wf s0 hs0
    simp only [follow] at e
    split at e
    · cases e
    · split at e
      · simp only [Option.map_some, Option.some.injEq] at e
        subst e
        simp only []
        omega
      · simp only [Option.map_some, Option.some.injEq] at e
        subst e
        exact this
  · rw [hflat]
    intro f hf hq
    obtain ⟨g, hg, rfl⟩ := List.mem_map.1 hf
    intro he
    have he : g.ins = [] := by simpa [Fl.move, shiftIns] using he
    have hq' : Bef g.pos F' := by
      intro f1 hf1
      have := hq _ (by rw [hf1]; rfl)
      simp only [Fl.move, movePos] at this
      by_cases hbf : b = false
      · have hp := hemp hbf g hg he
        split at this <;> split at this <;> omega
      · have hp := hb (by cases b with | true => rfl | false => exact absurd rfl hbf)
        split at this <;> split at this <;> omega
    exact (hu g ((hfl g hq').1 hg) hq').1 he
  · rw [hflat]
    intro s hs hq
    simp only [St.step] at hs
    obtain ⟨s0, hs0, e⟩ := List.mem_filterMap.1 hs
    have hmeet : ¬ (s0.1.low ≤ high ∧ low ≤ s0.1.high) := by
      intro hm
      simp only [follow, if_pos hm] at e
      cases e
    simp only [follow, if_neg hmeet] at e
    have hq' : Bef s0.1.low F' := by
      intro f1 hf1
      have hq1 := hq _ (by rw [hf1]; rfl)
      by_cases hp : high < s0.1.low
      · rw [if_pos hp] at e
        simp only [Option.map_some, Option.some.injEq] at e
        subst e
        simp only [] at hq1
        split at hq1 <;> omega
      · rw [if_neg hp] at e
        simp only [Option.map_some, Option.some.injEq] at e
        subst e
        have hlw := hk.wf s0 hs0
        simp only [] at hq1
        split at hq1 <;> omega
    obtain ⟨f, hf, hf1, hf2, hf3⟩ := hk.all s0 hs0 (hF _ hq')
    have hw := hw0 f hf _ hf3
    simp only [] at hw
    refine ⟨f.move ⟨low, amt, st.tree.tstamp + 1⟩, List.mem_map_of_mem ((hfl f (hq'.le (by omega))).2 hf), ?_⟩
    obtain ⟨hw1, hw2⟩ := hw
    by_cases hp : high < s0.1.low
    · rw [if_pos hp] at e
      simp only [Option.map_some, Option.some.injEq] at e
      subst e
      refine ⟨hf1, hf2, ?_⟩
      simp only [Fl.move, movePos, shiftIns]
      rw [if_pos (by omega)]
      refine List.mem_map.2 ⟨_, hf3, ?_⟩
      simp only [Ival.mk.injEq, and_true]
      omega
    · rw [if_neg hp] at e
      simp only [Option.map_some, Option.some.injEq] at e
      subst e
      refine ⟨hf1, hf2, ?_⟩
      simp only [Fl.move, movePos, shiftIns]
      rw [if_neg (by omega)]
      refine List.mem_map.2 ⟨_, hf3, ?_⟩
      simp only [Ival.mk.injEq, and_true]
      omega

end Gpeg.LazyLog
