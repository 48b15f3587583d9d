import Verif.RopeHeapEdit
/-!
# `SplitAt`, `Join`, `Slice` of the rope with slices

None of them writes to an array that exists.
-/
namespace Gpeg.Linerope
namespace HRope

theorem Edits.of_slices {h h' : Heap} {t t1 t2 : HRope} (he : Edits h t h' t1) (hs : t2.slices = t1.slices) (ok : t2.Ok h') : Edits h t h' t2 :=
  ⟨ok, by unfold Own; rw [hs]; exact he.own, he.len, he.keep, by rw [hs]; exact he.old⟩

theorem Edits.to_slices {h h' : Heap} {t t0 t1 : HRope} (he : Edits h t h' t1) (hs : t0.slices = t.slices) : Edits h t0 h' t1 :=
  ⟨he.ok, he.own, he.len, fun a ha hw => he.keep a ha fun ⟨s, h1, h2⟩ => hw ⟨s, hs ▸ h1, h2⟩, by rw [hs]; exact he.old⟩

theorem join_edits {l r : HRope} {h : Heap} (hl : l.Ok h) (hr : r.Ok h) (ho : (mkNode l.opts l r).Own) :
    h <+: (join h l r).1 ∧ Edits h (mkNode l.opts l r) (join h l r).1 (join h l r).2 ∧
      Rope.join (l.val h) (r.val h) = some ((join h l r).2.val (join h l r).1) := by
  obtain ⟨c1, c2, c3, c4⟩ := collapse_spec (o := l.opts) (l := l) (r := r) (h := h) (n0 := h.length)
    (Q := fun s => s ∈ (mkNode l.opts l r).slices ∨ (h.length ≤ s.arr ∧ s.len = s.cap)) (fun s h1 h2 => Or.inr ⟨h1, h2⟩) (Nat.le_refl _) hl hr
    (fun s hs => Or.inl (List.mem_append_left _ hs)) (fun s hs => Or.inl (List.mem_append_right _ hs))
  refine ⟨c1, (Edits.refl (t := mkNode l.opts l r) (h := h) ⟨hl, hr⟩ ho).ext c1 c2 ?_ ?_, ?_⟩
  · show (collapse h (mkNode l.opts l r)).2.Own
    unfold collapse
    split
    · exact List.pairwise_singleton _ _
    · exact ho
  · intro s hs
    rcases c4 s hs with h | h
    · exact Or.inl ⟨s, h, rfl, id⟩
    · exact Or.inr h.1
  · unfold Rope.join
    rw [val_opts, ← val_mkNode]
    exact c3

theorem splitAt_spec : ∀ {t : HRope} {h : Heap}, t.Ok h → t.Own → ∀ {i : Nat} {x y : Rope}, (t.val h).splitAt i = some (x, y) →
    ∃ h' a b, t.splitAt h i = some (h', a, b) ∧ h <+: h' ∧ Edits h t h' (mkNode a.opts a b) ∧ a.val h' = x ∧ b.val h' = y
  | leaf o s n ll, h, ht, ho, i, x, y, hr => by
    obtain ⟨⟨a1, a2, a3⟩, rfl⟩ := ht
    have hl := Heap.read_length (h := h) (s := s) ⟨a1, a2, a3⟩
    have hr : ((Linerope.cut (h.read s) 0 i).bind fun a => (Rope.newWithOpts a o).bind fun x =>
        (Linerope.cut (h.read s) i (h.read s).length).bind fun b => (Rope.newWithOpts b o).bind fun y => some (x, y)) = some (x, y) := hr
    have hi : i ≤ s.len := by
      refine Decidable.by_contra fun hn => ?_
      rw [show Linerope.cut (h.read s) 0 i = none by unfold Linerope.cut; rw [if_neg (by rw [hl]; omega)]] at hr
      cases hr
    have hc1 : Linerope.cut (h.read s) 0 (i : Int) = some (h.read ⟨s.arr, s.off, i, s.cap⟩) := by
      unfold Linerope.cut
      rw [if_pos (by rw [hl]; omega), read_take hi, Int.toNat_natCast]
      rfl
    have hc2 : Linerope.cut (h.read s) (i : Int) ((h.read s).length : Int) = some (h.read ⟨s.arr, s.off + i, s.len - i, s.cap - i⟩) := by
      unfold Linerope.cut
      rw [if_pos (by rw [hl]; omega), read_drop, Int.toNat_natCast, Int.toNat_natCast, List.take_of_length_le (Nat.le_refl _)]
    rw [hc1, hc2, Option.bind_some] at hr
    obtain ⟨x', hx, hr⟩ := Option.bind_eq_some_iff.1 hr
    rw [Option.bind_some] at hr
    obtain ⟨y', hy, hr⟩ := Option.bind_eq_some_iff.1 hr
    cases hr
    have k1 : Sl.Ok h ⟨s.arr, s.off, i, s.cap⟩ := ⟨a1, a2, by show i ≤ s.cap; omega⟩
    have k2 : Sl.Ok h ⟨s.arr, s.off + i, s.len - i, s.cap - i⟩ :=
      ⟨a1, by show s.off + i + (s.cap - i) ≤ (h.array s.arr).length; omega, by show s.len - i ≤ s.cap - i; omega⟩
    obtain ⟨h2, tl, b1, b2, b3, b4, rfl⟩ := newWithOpts_spec k1 hx
    have k3 : Sl.Ok h2 ⟨s.arr, s.off + i, s.len - i, s.cap - i⟩ :=
      ⟨Nat.lt_of_lt_of_le a1 b2.length_le, by rw [Heap.array_ext b2 a1]; exact k2.cap, k2.len⟩
    rw [← Heap.read_ext b2 (s := ⟨s.arr, s.off + i, s.len - i, s.cap - i⟩) a1] at hy
    obtain ⟨h3, tr, c1, c2, c3, c4, rfl⟩ := newWithOpts_spec k3 hy
    have hfrom : ∀ x ∈ (mkNode tl.opts tl tr).slices, From h.length s.arr x := by
      intro x hx
      rcases List.mem_append.1 hx with hx | hx
      · exact b4 x hx
      · exact ⟨(c4 x hx).1, (c4 x hx).2.imp_right (Nat.le_trans b2.length_le)⟩
    refine ⟨h3, tl, tr, ?_, b2.trans c2, ?_, val_ext c2 b3, rfl⟩
    · show ((cut s 0 i).bind fun a => (newWithOpts h a o).bind fun x =>
        (cut s i s.len).bind fun b => (newWithOpts x.1 b o).bind fun y => some (y.1, x.2, y.2)) = _
      have e1 : cut s 0 (i : Int) = some ⟨s.arr, s.off, i, s.cap⟩ := by
        unfold cut
        rw [if_pos (by omega)]
        simp
      have e2 : cut s (i : Int) (s.len : Int) = some ⟨s.arr, s.off + i, s.len - i, s.cap - i⟩ := by
        unfold cut
        rw [if_pos (by omega)]
        simp
      rw [e1, e2, Option.bind_some, b1, Option.bind_some, Option.bind_some, c1, Option.bind_some]
    · refine (Edits.refl (t := leaf o s s.len ll) ⟨⟨a1, a2, a3⟩, rfl⟩ ho).ext (b2.trans c2) ⟨ok_ext c2 b3, c3⟩ (own_ro fun x hx => (hfrom x hx).1) ?_
      intro x hx
      obtain ⟨f1, f2⟩ := hfrom x hx
      rcases f2 with f2 | f2
      · refine Or.inl ⟨s, List.mem_singleton.2 rfl, f2.symm, fun hw => ?_⟩
        unfold Sl.Wr at hw
        omega
      · exact Or.inr f2
  | node o n ll l r, h, ht, ho, i, x, y, hr => by
    obtain ⟨o1, o2, o3⟩ := own_node.1 ho
    have hr : (if (i : Int) = (l.val h).len then some (l.val h, r.val h)
      else if (i : Int) < (l.val h).len then ((l.val h).splitAt i).bind fun p => (Rope.join p.2 (r.val h)).bind fun z => some (p.1, z)
      else ((r.val h).splitAt (i - (l.val h).len)).bind fun p => (Rope.join (l.val h) p.1).bind fun z => some (z, p.2)) = some (x, y) := hr
    show ∃ h' a b, (if (i : Int) = l.len then some (h, l, r)
      else if (i : Int) < l.len then (l.splitAt h i).bind fun x => some ((join x.1 x.2.2 r).1, x.2.1, (join x.1 x.2.2 r).2)
      else (r.splitAt h (i - l.len)).bind fun x => some ((join x.1 l x.2.1).1, (join x.1 l x.2.1).2, x.2.2)) = some (h', a, b) ∧ _
    rw [val_len] at hr
    split at hr
    · rename_i hc
      rw [if_pos hc]
      cases hr
      exact ⟨h, l, r, rfl, List.prefix_refl h, (Edits.refl ht ho).of_slices rfl ht, rfl, rfl⟩
    · rename_i hc
      rw [if_neg hc]
      split at hr
      · rename_i hc2
        rw [if_pos hc2]
        obtain ⟨⟨p, q⟩, hp, hr⟩ := Option.bind_eq_some_iff.1 hr
        obtain ⟨z, hz, hr⟩ := Option.bind_eq_some_iff.1 hr
        obtain ⟨rfl, rfl⟩ : p = x ∧ z = y := by cases hr; exact ⟨rfl, rfl⟩
        obtain ⟨h1, a, b, e1, e2, e3, rfl, rfl⟩ := splitAt_spec ht.1 o1 hp
        obtain ⟨e4, e5⟩ := e3.left ht.2 ho
        have ha : a.Ok h1 := e4.ok.1.1
        have hb : b.Ok h1 := e4.ok.1.2
        have e6 : Edits h (node o n ll l r) h1 (mkNode a.opts a (mkNode b.opts b r)) :=
          e4.of_slices (by show a.slices ++ (b.slices ++ r.slices) = (a.slices ++ b.slices) ++ r.slices; rw [List.append_assoc]) ⟨ha, hb, e4.ok.2⟩
        obtain ⟨f1, f2, f3⟩ := join_edits hb e4.ok.2 (own_node.1 e6.own).2.1
        obtain ⟨f4, f5⟩ := f2.right ha e6.own
        have hz : Rope.join (b.val h1) (r.val h) = some z := hz
        rw [← e5, f3] at hz
        cases hz
        refine ⟨_, a, _, by rw [e1]; rfl, e2.trans f1, e6.trans f4, f5, rfl⟩
      · rename_i hc2
        rw [if_neg hc2]
        have hlen : l.len ≤ i := by omega
        obtain ⟨⟨p, q⟩, hp, hr⟩ := Option.bind_eq_some_iff.1 hr
        obtain ⟨z, hz, hr⟩ := Option.bind_eq_some_iff.1 hr
        obtain ⟨rfl, rfl⟩ : z = x ∧ q = y := by cases hr; exact ⟨rfl, rfl⟩
        rw [show (i : Int) - l.len = ((i - l.len : Nat) : Int) by omega] at hp ⊢
        obtain ⟨h1, a, b, e1, e2, e3, rfl, rfl⟩ := splitAt_spec ht.2 o2 hp
        obtain ⟨e4, e5⟩ := e3.right ht.1 ho
        have ha : a.Ok h1 := e4.ok.2.1
        have hb : b.Ok h1 := e4.ok.2.2
        have e6 : Edits h (node o n ll l r) h1 (mkNode l.opts (mkNode l.opts l a) b) :=
          e4.of_slices (by show (l.slices ++ a.slices) ++ b.slices = l.slices ++ (a.slices ++ b.slices); rw [List.append_assoc]) ⟨⟨e4.ok.1, ha⟩, hb⟩
        obtain ⟨f1, f2, f3⟩ := join_edits e4.ok.1 ha (own_node.1 e6.own).1
        obtain ⟨f4, f5⟩ := f2.left hb e6.own
        have hz : Rope.join (l.val h) (a.val h1) = some z := hz
        rw [← e5, f3] at hz
        cases hz
        refine ⟨_, _, b, by rw [e1]; rfl, e2.trans f1, (e6.trans f4).of_slices rfl f4.ok, rfl, f5⟩

theorem joinMore_spec : ∀ {more : List HRope} {s : HRope} {h : Heap}, s.Ok h → (∀ t ∈ more, t.Ok h) → (s.slices ++ more.flatMap slices).Pairwise Sl.Sep →
    h <+: (joinMore h s more).1 ∧ (joinMore h s more).2.Ok (joinMore h s more).1 ∧ (joinMore h s more).2.Own ∧
      (more.map (val h)).foldlM (fun s n => Rope.join s n) (s.val h) = some ((joinMore h s more).2.val (joinMore h s more).1) ∧
      ∀ x ∈ (joinMore h s more).2.slices, (∃ s0 ∈ s.slices ++ more.flatMap slices, s0.arr = x.arr ∧ (x.Wr → s0.Wr)) ∨ h.length ≤ x.arr
  | [], s, h, hs, _, ho => by
    rw [List.flatMap_nil, List.append_nil] at ho ⊢
    exact ⟨List.prefix_refl h, hs, ho, rfl, fun x hx => Or.inl ⟨x, hx, rfl, id⟩⟩
  | n :: more, s, h, hs, hm, ho => by
    rw [List.flatMap_cons, ← List.append_assoc] at ho
    obtain ⟨p1, p2, p3⟩ := List.pairwise_append.1 ho
    have hn := hm n List.mem_cons_self
    obtain ⟨f1, f2, f3⟩ := join_edits hs hn p1
    have ho' : ((join h s n).2.slices ++ more.flatMap slices).Pairwise Sl.Sep := by
      refine List.pairwise_append.2 ⟨f2.own, p2, fun a ha b hb hw e => ?_⟩
      rcases f2.old a ha with ⟨s0, h0, e0, w0⟩ | hnew
      · exact p3 s0 h0 b hb (hw.imp_left w0) (e0.trans e)
      · obtain ⟨t, ht, hb⟩ := List.mem_flatMap.1 hb
        have := ((hm t (List.mem_cons_of_mem _ ht)).slices b hb).arr
        omega
    obtain ⟨g1, g2, g3, g4, g5⟩ := joinMore_spec f2.ok (fun t ht => ok_ext f1 (hm t (List.mem_cons_of_mem _ ht))) ho'
    refine ⟨f1.trans g1, g2, g3, ?_, fun x hx => ?_⟩
    · rw [List.map_cons, List.foldlM_cons, f3]
      rw [List.map_congr_left (g := val h) fun t ht => val_ext f1 (hm t (List.mem_cons_of_mem _ ht))] at g4
      exact g4
    · rcases g5 x hx with ⟨s0, h0, e0, w0⟩ | hnew
      · rcases List.mem_append.1 h0 with h0 | h0
        · rcases f2.old s0 h0 with ⟨s1, h1, e1, w1⟩ | hnew
          · refine Or.inl ⟨s1, ?_, e1.trans e0, fun w => w1 (w0 w)⟩
            rw [List.flatMap_cons, ← List.append_assoc]
            exact List.mem_append_left _ h1
          · exact Or.inr (by omega)
        · refine Or.inl ⟨s0, ?_, e0, w0⟩
          rw [List.flatMap_cons, ← List.append_assoc]
          exact List.mem_append_right _ h0
      · exact Or.inr (Nat.le_trans f1.length_le hnew)

theorem joinAll_spec {a b : HRope} {more : List HRope} {h : Heap} (ht : ∀ t ∈ a :: b :: more, t.Ok h) (ho : ((a :: b :: more).flatMap slices).Pairwise Sl.Sep) :
    h <+: (joinAll h a b more).1 ∧ (joinAll h a b more).2.Ok (joinAll h a b more).1 ∧ (joinAll h a b more).2.Own ∧
      Rope.joinAll (a.val h) (b.val h) (more.map (val h)) = some ((joinAll h a b more).2.val (joinAll h a b more).1) ∧
      ∀ x ∈ (joinAll h a b more).2.slices, (∃ s0 ∈ (a :: b :: more).flatMap slices, s0.arr = x.arr ∧ (x.Wr → s0.Wr)) ∨ h.length ≤ x.arr :=
  joinMore_spec (more := b :: more) (ht a List.mem_cons_self) (fun t h' => ht t (List.mem_cons_of_mem _ h')) ho

/-- `slice` gives the bytes; they are in the array of a leaf or in a new one. -/
theorem slice_spec : ∀ {t : HRope} {h : Heap}, t.Ok h → ∀ {i j : Int} {b : Bytes}, (t.val h).slice i j = some b →
    ∃ h' s, t.slice h i j = some (h', s) ∧ h <+: h' ∧ s.Ok h' ∧ h'.read s = b ∧ ((∃ s0 ∈ t.slices, s0.arr = s.arr) ∨ h.length ≤ s.arr)
  | leaf o s n ll, h, ht, i, j, b, hr => by
    obtain ⟨⟨a1, a2, a3⟩, rfl⟩ := ht
    have hr : (if i ≥ j then some [] else Linerope.cut (h.read s) i j) = some b := hr
    show ∃ h' s', (if i ≥ j then some (h.alloc [] 0) else (cut s i j).map fun x => (h, x)) = some (h', s') ∧ _
    split at hr
    · rename_i hc
      rw [if_pos hc]
      cases hr
      exact ⟨_, _, rfl, Heap.alloc_ext h [] 0, Heap.alloc_ok h (Nat.le_refl 0), Heap.alloc_read h [] 0, Or.inr (Nat.le_refl _)⟩
    · rename_i hc
      rw [if_neg hc]
      have hl := Heap.read_length (h := h) (s := s) ⟨a1, a2, a3⟩
      unfold Linerope.cut at hr
      rw [hl] at hr
      split at hr
      · rename_i hb
        cases hr
        unfold cut
        rw [if_pos (by omega)]
        refine ⟨h, _, rfl, List.prefix_refl h, ⟨a1, ?_, ?_⟩, ?_, Or.inl ⟨s, List.mem_singleton.2 rfl, rfl⟩⟩
        · show s.off + i.toNat + (s.cap - i.toNat) ≤ (h.array s.arr).length
          omega
        · show j.toNat - i.toNat ≤ s.cap - i.toNat
          omega
        · unfold Heap.read
          show ((h.array s.arr).drop (s.off + i.toNat)).take (j.toNat - i.toNat) = ((((h.array s.arr).drop s.off).take s.len).take j.toNat).drop i.toNat
          rw [List.take_take, Nat.min_eq_left (by omega), List.drop_take, List.drop_drop]
      · cases hr
  | node o n ll l r, h, ht, i, j, b, hr => by
    unfold val at hr
    unfold Rope.slice at hr
    unfold slice
    simp only [val_len] at hr ⊢
    have hnil : ∀ {b : Bytes}, some ([] : Bytes) = some b → ∃ h' s, some (h.alloc [] 0) = some (h', s) ∧ h <+: h' ∧ s.Ok h' ∧ h'.read s = b ∧
        ((∃ s0 ∈ (node o n ll l r).slices, s0.arr = s.arr) ∨ h.length ≤ s.arr) := by
      intro b hb
      cases hb
      exact ⟨_, _, rfl, Heap.alloc_ext h [] 0, Heap.alloc_ok h (Nat.le_refl 0), Heap.alloc_read h [] 0, Or.inr (Nat.le_refl _)⟩
    by_cases c1 : i ≥ j
    · rw [if_pos c1] at hr ⊢
      exact hnil hr
    rw [if_neg c1] at hr ⊢
    by_cases c2 : min i (l.len : Int) ≠ min j (l.len : Int)
    · rw [if_pos c2] at hr ⊢
      by_cases c3 : max 0 (min (i - l.len) (r.len : Int)) ≠ max 0 (min (j - l.len) (r.len : Int))
      · rw [if_pos c3] at hr ⊢
        obtain ⟨x, hx, hr⟩ := Option.bind_eq_some_iff.1 hr
        obtain ⟨y, hy, hr⟩ := Option.bind_eq_some_iff.1 hr
        cases hr
        obtain ⟨h1, s1, e1, e2, e3, rfl, -⟩ := slice_spec ht.1 hx
        rw [← val_ext e2 ht.2] at hy
        obtain ⟨h2, s2, f1, f2, f3, rfl, -⟩ := slice_spec (ok_ext e2 ht.2) hy
        have hrd := Heap.read_ext f2 e3.arr
        have k1 := Heap.read_length e3
        have k2 := Heap.read_length f3
        refine ⟨_, _, by rw [e1, Option.bind_some, f1, Option.bind_some], (e2.trans f2).trans (Heap.alloc_ext _ _ _), Heap.alloc_ok _ ?_, ?_, Or.inr ?_⟩
        · rw [hrd, List.length_append, k1, k2]
          exact Nat.le_refl _
        · rw [Heap.alloc_read, hrd]
        · exact (e2.trans f2).length_le
      · rw [if_neg c3] at hr ⊢
        obtain ⟨h1, s1, e1, e2, e3, e4, e5⟩ := slice_spec ht.1 hr
        exact ⟨h1, s1, e1, e2, e3, e4, e5.imp_left fun ⟨s0, h0, e0⟩ => ⟨s0, List.mem_append_left _ h0, e0⟩⟩
    · rw [if_neg c2] at hr ⊢
      by_cases c3 : max 0 (min (i - l.len) (r.len : Int)) ≠ max 0 (min (j - l.len) (r.len : Int))
      · rw [if_pos c3] at hr ⊢
        obtain ⟨h1, s1, e1, e2, e3, e4, e5⟩ := slice_spec ht.2 hr
        exact ⟨h1, s1, e1, e2, e3, e4, e5.imp_left fun ⟨s0, h0, e0⟩ => ⟨s0, List.mem_append_right _ h0, e0⟩⟩
      · rw [if_neg c3] at hr ⊢
        exact hnil hr

end HRope
end Gpeg.Linerope
