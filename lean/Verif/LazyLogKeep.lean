import Verif.LazyLogHist
/-!
# What removing overlapping intervals keeps

A node whose address is still in the tree after `removeOverlaps` has kept its intervals that do not meet the range. (A node
that gives its key to an empty node leaves the tree with all of its intervals.)
-/
namespace Gpeg.LazyLog
variable {α : Type}

/-- Nodes of `L` whose address is in `L'` have there all of their intervals that do not meet the range. -/
def Keeps (low high : Int) (L L' : List (Fl α)) : Prop :=
  ∀ f ∈ L, ∀ f' ∈ L', f'.addr = f.addr → ∀ i ∈ f.ins, Ival.overlaps low high i = false → i ∈ f'.ins

theorem eq_of_addr {L : List (Fl α)} (hn : (L.map Fl.addr).Nodup) {f g : Fl α} (hf : f ∈ L) (hg : g ∈ L)
    (h : f.addr = g.addr) : f = g := by
  induction L with
  | nil => cases hf
  | cons x L ih =>
    rw [List.map_cons, List.nodup_cons] at hn
    rcases List.mem_cons.1 hf with e | hf1 <;> rcases List.mem_cons.1 hg with e' | hg1
    · rw [e, e']
    · exact absurd (List.mem_map.2 ⟨g, hg1, by rw [← h, e]⟩) hn.1
    · exact absurd (List.mem_map.2 ⟨f, hf1, by rw [h, e']⟩) hn.1
    · exact ih hn.2 hf1 hg1

variable {low high : Int}

theorem Keeps.refl {L : List (Fl α)} (hn : (L.map Fl.addr).Nodup) : Keeps low high L L := by
  intro f hf f' hf' e i hi _
  rw [eq_of_addr hn hf' hf e]; exact hi

theorem Sub.addr_mem {L' L : List (Fl α)} (h : Sub L' L) {f : Fl α} (hf : f ∈ L') : ∃ g ∈ L, g.addr = f.addr :=
  List.mem_map.1 (h.addrs.subset (List.mem_map_of_mem hf))

theorem Keeps.trans {L1 L2 L3 : List (Fl α)} (h : Keeps low high L1 L2) (h' : Keeps low high L2 L3) (hs : Sub L3 L2) :
    Keeps low high L1 L3 := by
  intro f hf f' hf' e i hi hno
  obtain ⟨g, hg, eg⟩ := hs.addr_mem hf'
  exact h' g hg f' hf' eg.symm i (h f hf g hg (eg.trans e) i hi hno) hno

theorem Keeps.append {A A' B B' : List (Fl α)} (hn : ((A ++ B).map Fl.addr).Nodup) (hA : Keeps low high A A')
    (hB : Keeps low high B B') (sA : Sub A' A) (sB : Sub B' B) : Keeps low high (A ++ B) (A' ++ B') := by
  rw [List.map_append, List.nodup_append] at hn
  intro f hf f' hf' e i hi hno
  rw [List.mem_append] at hf hf'
  rcases hf with hf | hf <;> rcases hf' with hf' | hf'
  · exact hA f hf f' hf' e i hi hno
  · obtain ⟨g, hg, eg⟩ := sB.addr_mem hf'
    exact absurd (e.symm.trans eg.symm) (hn.2.2 _ (List.mem_map_of_mem hf) _ (List.mem_map_of_mem hg))
  · obtain ⟨g, hg, eg⟩ := sA.addr_mem hf'
    exact absurd (eg.trans e) (hn.2.2 _ (List.mem_map_of_mem hg) _ (List.mem_map_of_mem hf))
  · exact hB f hf f' hf' e i hi hno

theorem RemRel.keeps {d : Nd α} {S : List Shift} {L R L' : List (Fl α)} (h : RemRel d L R L') (he : d.ins = [])
    (hn : ((L ++ d.fl S :: R).map Fl.addr).Nodup) : Keeps low high (L ++ d.fl S :: R) L' := by
  have hde : (d.fl S).ins = [] := by simp [Nd.fl, he, shiftIns]
  intro f hf f' hf' e i hi hno
  by_cases hfd : f = d.fl S
  · rw [hfd, hde] at hi; cases hi
  · have hf2 : f ∈ L ++ R := by
      rw [List.mem_append, List.mem_cons] at hf
      rw [List.mem_append]
      rcases hf with hf | hf | hf
      · exact .inl hf
      · exact absurd hf hfd
      · exact .inr hf
    have hin : ∀ g ∈ L ++ R, g.addr = f.addr → i ∈ g.ins := by
      intro g hg eg
      have : g ∈ L ++ d.fl S :: R := by
        rw [List.mem_append] at hg
        rw [List.mem_append, List.mem_cons]
        rcases hg with hg | hg
        · exact .inl hg
        · exact .inr (.inr hg)
      rw [eq_of_addr hn this hf eg]; exact hi
    rcases h with rfl | ⟨m, B, rfl, -, rfl⟩
    · exact hin f' hf' e
    · rw [List.mem_append, List.mem_cons] at hf'
      rcases hf' with hf' | rfl | hf'
      · exact hin f' (List.mem_append_left _ hf') e
      · exact absurd (eq_of_addr hn hf (List.mem_append_right _ List.mem_cons_self) e.symm) hfd
      · exact hin f' (List.mem_append_right _ (List.mem_cons_of_mem _ hf')) e

theorem removeOverlaps_keeps {S : List Shift} (hS : Good S) (low high : Int) : ∀ (f : Nat) (t : Tr α),
    t.size ≤ f → Inv S t → t.Ord S → ((t.flat S).map Fl.addr).Nodup →
    Keeps low high (t.flat S) ((removeOverlaps S low high f t).flat S) := by
  intro f
  induction f with
  | zero =>
    intro t hf h _ hn
    exact Keeps.refl hn
  | succ f ih =>
    intro t hf h ho hn
    cases t with
    | nil => exact Keeps.refl hn
    | node d l r =>
      obtain ⟨s1, s2, s3⟩ := applyShifts_inv hS h
      have hfl : (Tr.node d l r).flat S = l.flat S ++ (applyShifts S l.mx? r.mx? d).fl S :: r.flat S := by
        rw [s2]; rfl
      have ho' : (Tr.node (applyShifts S l.mx? r.mx? d) l r).Ord S := by
        rw [Tr.Ord, Tr.flat, s2]; exact ho
      rw [hfl] at hn
      rw [removeOverlaps, hfl]
      simp only []
      generalize applyShifts S l.mx? r.mx? d = d' at *
      obtain ⟨own, hl, hr, bl, br⟩ := s1.done_parts s3
      have hdfl := Nd.fl_done S d' s3
      simp only [Tr.size] at hf
      by_cases hmx : low > d'.mx
      · rw [if_pos hmx]; exact Keeps.refl hn
      · rw [if_neg hmx]
        have hnl : ((l.flat S).map Fl.addr).Nodup := hn.sublist ((List.sublist_append_left _ _).map _)
        have hndr : ((d'.fl S :: r.flat S).map Fl.addr).Nodup := hn.sublist ((List.sublist_append_right _ _).map _)
        have hnr : ((r.flat S).map Fl.addr).Nodup := hndr.sublist ((List.sublist_cons_self _ _).map _)
        obtain ⟨l1, l2, -⟩ := removeOverlaps_spec hS low high f l (by omega) hl ho'.left
        have lk := ih l (by omega) hl ho'.left hnl
        generalize removeOverlaps S low high f l = l' at *
        generalize hins : swapRemove (Ival.overlaps low high) d'.ins.length d'.ins = ins'
        have hmem : ∀ i, i ∈ ins' ↔ i ∈ d'.ins ∧ Ival.overlaps low high i = false := by
          intro i
          rw [← hins]
          exact swapRemove_mem
        have hsd : Sub [({ d' with ins := ins' } : Nd α).fl S] [d'.fl S] := by
          rw [hdfl, Nd.fl_done S { d' with ins := ins' } s3]
          refine ⟨.refl _, .refl _, ?_⟩
          intro g hg
          simp only [List.mem_singleton] at hg
          subst hg
          exact .inr ⟨_, List.mem_singleton.2 rfl, rfl, rfl, rfl, fun i hi => ((hmem i).1 hi).1⟩
        have hkd : Keeps low high [d'.fl S] [({ d' with ins := ins' } : Nd α).fl S] := by
          rw [hdfl, Nd.fl_done S { d' with ins := ins' } s3]
          intro g hg g' hg' _ i hi hno
          rw [List.mem_singleton] at hg hg'
          subst hg hg'
          exact (hmem i).2 ⟨hi, hno⟩
        have hinv : ∀ r', Inv S r' → Sub (r'.flat S) (r.flat S) →
            Inv S (.node { d' with ins := ins' } l' r') := fun r' h1 h2 =>
          Inv.mk_done s3 (fun i hi => own.wf i ((hmem i).1 hi).1) own.pos (fun i hi => own.high i ((hmem i).1 hi).1)
            l1 h1 (l2.le bl) (h2.le br)
        have hsub : ∀ r' : Tr α, Sub (r'.flat S) (r.flat S) →
            Sub ((Tr.node { d' with ins := ins' } l' r').flat S) (l.flat S ++ d'.fl S :: r.flat S) :=
          fun r' h2 => l2.append (hsd.append h2)
        have hkeep : ∀ r' : Tr α, Sub (r'.flat S) (r.flat S) → Keeps low high (r.flat S) (r'.flat S) →
            Keeps low high (l.flat S ++ d'.fl S :: r.flat S) ((Tr.node { d' with ins := ins' } l' r').flat S) :=
          fun r' h2 h3 => Keeps.append (B := [d'.fl S] ++ r.flat S) (B' := [({ d' with ins := ins' } : Nd α).fl S] ++ r'.flat S)
            hn lk (Keeps.append hndr hkd h3 hsd h2) l2 (hsd.append h2)
        by_cases hemp : ins'.isEmpty = true
        · rw [if_pos hemp]
          have he : ins' = [] := List.isEmpty_iff.1 hemp
          have hs0 := hsub r (Sub.refl _)
          have hordn : (Tr.node { d' with ins := ins' } l' r).Ord S := hs0.ord ho'
          have hnn : (((Tr.node { d' with ins := ins' } l' r).flat S).map Fl.addr).Nodup := hn.sublist hs0.addrs
          obtain ⟨r1, r2⟩ := removeRoot_spec hS _ { d' with ins := ins' } l' r (Nat.le_refl _)
            (hinv r hr (Sub.refl _)) hordn s3 he
          generalize remove S (Tr.node { d' with ins := ins' } l' r).size
            ({ d' with ins := ins' } : Nd α).pos ({ d' with ins := ins' } : Nd α).id
            (.node { d' with ins := ins' } l' r) = n at *
          have hnsub : Sub (n.flat S) (l.flat S ++ d'.fl S :: r.flat S) :=
            (r2.sub (S := S)).trans hs0
          have hnk : Keeps low high (l.flat S ++ d'.fl S :: r.flat S) (n.flat S) :=
            (hkeep r (Sub.refl _) (Keeps.refl hnr)).trans (r2.keeps (S := S) he hnn) (r2.sub (S := S))
          by_cases hge : high ≥ d'.pos
          · rw [if_pos hge]
            have hsz : n.size ≤ f := by
              rw [size_eq S, r2.length]
              have := l2.length
              rw [← size_eq S] at this
              rw [← size_eq S, ← size_eq S] at *
              omega
            have hon := hnsub.ord ho'
            obtain ⟨-, i2, -⟩ := removeOverlaps_spec hS low high f n hsz r1 hon
            exact hnk.trans (ih n hsz r1 hon (hn.sublist hnsub.addrs)) i2
          · rw [if_neg hge]; exact hnk
        · rw [if_neg hemp]
          by_cases hge : high < d'.pos
          · rw [if_pos hge]; exact hkeep r (Sub.refl _) (Keeps.refl hnr)
          · rw [if_neg hge]
            obtain ⟨-, q2, -⟩ := removeOverlaps_spec hS low high f r (by omega) hr ho'.right
            exact hkeep _ q2 (ih r (by omega) hr ho'.right hnr)

/-! ## Nodes that have left the tree -/

/-- A node with intervals follows a shift whatever bound it keeps, as long as that is not below the end of an interval. -/
theorem applyShift_own {d : Nd α} {lm rm : Option Int} {s : Shift} (hs : d.t < s.tstamp) (hw : d.Wf)
    (hh : ∀ i ∈ d.ins, i.high ≤ d.mx) (hne : d.ins ≠ []) :
    (applyShift lm rm d s).pos = movePos s d.pos ∧ (applyShift lm rm d s).ins = shiftIns (movePos s d.pos - d.pos) d.ins ∧
    (applyShift lm rm d s).Wf ∧ (∀ i ∈ (applyShift lm rm d s).ins, i.high ≤ (applyShift lm rm d s).mx) ∧
    (applyShift lm rm d s).ins ≠ [] ∧ (applyShift lm rm d s).t = s.tstamp := by
  obtain ⟨i0, hi0⟩ := List.exists_mem_of_ne_nil _ hne
  have h0 := hw i0 hi0
  have h1 := hh i0 hi0
  rw [applyShift_new hs]
  unfold movePos
  by_cases hm : d.mx < s.idx
  · rw [if_pos hm, if_neg (by omega)]
    refine ⟨rfl, ?_, hw, hh, hne, rfl⟩
    rw [Int.sub_self, shiftIns_zero]
  · rw [if_neg hm]
    by_cases hp : d.pos ≥ s.idx
    · rw [if_pos hp, if_pos (show s.idx ≤ d.pos from hp)]
      refine ⟨rfl, ?_, ?_, ?_, ?_, rfl⟩
      · simp only [updateMax_ins]
        congr 1
        omega
      · intro i hi
        simp only [updateMax_ins] at hi
        obtain ⟨j, hj, e1, e2, -⟩ := mem_shiftIns hi
        have := hw j hj
        simp only [updateMax_pos]
        omega
      · intro i hi
        simp only [updateMax_ins] at hi
        exact Int.le_trans (le_highOf hi) (updateMax_ge _ _ _).2.1
      · simp [shiftIns, hne]
    · rw [if_neg hp, if_neg (show ¬ s.idx ≤ d.pos from hp)]
      refine ⟨rfl, ?_, hw, ?_, hne, rfl⟩
      · rw [Int.sub_self, shiftIns_zero]; rfl
      · intro i hi
        rw [updateMax_ins] at hi
        exact Int.le_trans (le_highOf hi) (updateMax_ge _ _ _).2.1

theorem foldl_own {lm rm : Option Int} : ∀ (l : List Shift) (d : Nd α), (∀ i s, l[i]? = some s → s.tstamp = d.t + i + 1) →
    d.Wf → (∀ i ∈ d.ins, i.high ≤ d.mx) → d.ins ≠ [] → (l.foldl (applyShift lm rm) d).pos = movePosL l d.pos := by
  intro l
  induction l with
  | nil => intro d _ _ _ _; rfl
  | cons s l ih =>
    intro d ht hw hh hne
    have h0 := ht 0 s rfl
    obtain ⟨a1, -, a3, a4, a5, a6⟩ := applyShift_own (lm := lm) (rm := rm) (s := s) (by omega) hw hh hne
    rw [List.foldl_cons, ih _ ?_ a3 a4 a5, a1]
    · rfl
    · intro i s' hs'
      have := ht (i + 1) s' hs'
      omega

/-- `Pos` of a node with intervals, in the tree or not. -/
theorem applyShifts_own {S : List Shift} (hS : Good S) {d : Nd α} {lm rm : Option Int} (hw : d.Wf)
    (hh : ∀ i ∈ d.ins, i.high ≤ d.mx) (hne : d.ins ≠ []) : (applyShifts S lm rm d).pos = (d.fl S).pos := by
  rw [applyShifts_eq S hS.wf, foldl_own _ _ ?_ hw hh hne]
  · rfl
  · intro i s hs
    rw [List.getElem?_drop] at hs
    exact hS.wf _ _ hs

end Gpeg.LazyLog
