import Verif.RopeHeapLemmas
/-!
# Edits of the rope with slices

A leaf with room behind its slice is the only one with its array (`Own`). Edits keep this, give the rope that the same edits give
with lists, and write to no array but those of the leaves with room (`Edits`).
-/
namespace Gpeg.Linerope

/-- If one of the slices has room, they lie in different arrays. -/
def Sl.Sep (s s' : Sl) : Prop := s.Wr ∨ s'.Wr → s.arr ≠ s'.arr

namespace HRope

/-- The arrays of leaves with room are not shared. -/
def Own (t : HRope) : Prop := t.slices.Pairwise Sl.Sep

/-- The rope writes into the array `a`. -/
def Writes (t : HRope) (a : Nat) : Prop := ∃ s ∈ t.slices, s.Wr ∧ s.arr = a

/-- What an operation may do to arrays. -/
structure Edits (h : Heap) (t : HRope) (h' : Heap) (t' : HRope) : Prop where
  ok : t'.Ok h'
  own : t'.Own
  len : h.length ≤ h'.length
  keep : ∀ a < h.length, ¬ t.Writes a → h'.array a = h.array a
  old : ∀ s ∈ t'.slices, (∃ s0 ∈ t.slices, s0.arr = s.arr ∧ (s.Wr → s0.Wr)) ∨ h.length ≤ s.arr

theorem Edits.refl {h : Heap} {t : HRope} (ht : t.Ok h) (ho : t.Own) : Edits h t h t :=
  ⟨ht, ho, Nat.le_refl _, fun _ _ _ => rfl, fun s hs => Or.inl ⟨s, hs, rfl, id⟩⟩

theorem Edits.ext {h h1 h2 : Heap} {t t1 t2 : HRope} (he : Edits h t h1 t1) (hx : h1 <+: h2) (ok : t2.Ok h2) (own : t2.Own)
    (old : ∀ s ∈ t2.slices, (∃ s0 ∈ t1.slices, s0.arr = s.arr ∧ (s.Wr → s0.Wr)) ∨ h1.length ≤ s.arr) : Edits h t h2 t2 := by
  refine ⟨ok, own, Nat.le_trans he.len hx.length_le, fun a ha hw => ?_, fun s hs => ?_⟩
  · rw [Heap.array_ext hx (Nat.lt_of_lt_of_le ha he.len)]
    exact he.keep a ha hw
  · rcases old s hs with ⟨s0, h0, e0, w0⟩ | h
    · rcases he.old s0 h0 with ⟨s1, h1, e1, w1⟩ | h
      · exact Or.inl ⟨s1, h1, e1.trans e0, fun w => w1 (w0 w)⟩
      · exact Or.inr (by omega)
    · exact Or.inr (Nat.le_trans he.len h)

theorem own_ro {t : HRope} (h : ∀ s ∈ t.slices, s.len = s.cap) : t.Own := by
  unfold Own
  refine List.Pairwise.imp_of_mem (R := fun _ _ => True) ?_ (List.pairwise_of_forall fun _ _ => trivial)
  intro a b ha hb _ hw
  unfold Sl.Wr at hw
  have := h a ha
  have := h b hb
  omega

theorem own_node {o : Opts} {n : Nat} {ll : Loc} {l r : HRope} :
    (node o n ll l r).Own ↔ l.Own ∧ r.Own ∧ ∀ a ∈ l.slices, ∀ b ∈ r.slices, a.Sep b := List.pairwise_append

/-- The two sides do not write into each other's arrays. -/
theorem sep_left {l r : HRope} (h : ∀ a ∈ l.slices, ∀ b ∈ r.slices, a.Sep b) : ∀ s ∈ r.slices, ¬ l.Writes s.arr := by
  rintro s hs ⟨s', hs', hw, e⟩
  exact h s' hs' s hs (Or.inl hw) e

theorem sep_right {l r : HRope} (h : ∀ a ∈ l.slices, ∀ b ∈ r.slices, a.Sep b) : ∀ s ∈ l.slices, ¬ r.Writes s.arr := by
  rintro s hs ⟨s', hs', hw, e⟩
  exact h s hs s' hs' (Or.inr hw) e.symm

/-- An edit of the left side. -/
theorem Edits.left {h h' : Heap} {o : Opts} {n : Nat} {ll : Loc} {l r l' : HRope} (hr : r.Ok h) (ho : (node o n ll l r).Own) (he : Edits h l h' l') :
    Edits h (node o n ll l r) h' (mkNode o l' r) ∧ r.val h' = r.val h := by
  obtain ⟨h1, h2, h3⟩ := own_node.1 ho
  have hk : ∀ s ∈ r.slices, h'.array s.arr = h.array s.arr := fun s hs => he.keep _ (hr.slices s hs).arr (sep_left h3 s hs)
  refine ⟨⟨⟨he.ok, ok_congr he.len hk hr⟩, own_node.2 ⟨he.own, h2, fun a ha b hb hw e => ?_⟩, he.len, fun a ha hw => ?_, fun s hs => ?_⟩, val_congr hk⟩
  · rcases he.old a ha with ⟨s0, h0, e0, w0⟩ | hn
    · refine h3 s0 h0 b hb ?_ (e0.trans e)
      rcases hw with hw | hw
      · exact Or.inl (w0 hw)
      · exact Or.inr hw
    · have := (hr.slices b hb).arr
      omega
  · refine he.keep a ha ?_
    rintro ⟨s, hs, hsw, e⟩
    exact hw ⟨s, List.mem_append_left _ hs, hsw, e⟩
  · rcases List.mem_append.1 hs with hs | hs
    · rcases he.old s hs with ⟨s0, h0, e0, w0⟩ | hn
      · exact Or.inl ⟨s0, List.mem_append_left _ h0, e0, w0⟩
      · exact Or.inr hn
    · exact Or.inl ⟨s, List.mem_append_right _ hs, rfl, id⟩

/-- An edit of the right side. -/
theorem Edits.right {h h' : Heap} {o : Opts} {n : Nat} {ll : Loc} {l r r' : HRope} (hl : l.Ok h) (ho : (node o n ll l r).Own) (he : Edits h r h' r') :
    Edits h (node o n ll l r) h' (mkNode o l r') ∧ l.val h' = l.val h := by
  obtain ⟨h1, h2, h3⟩ := own_node.1 ho
  have hk : ∀ s ∈ l.slices, h'.array s.arr = h.array s.arr := fun s hs => he.keep _ (hl.slices s hs).arr (sep_right h3 s hs)
  refine ⟨⟨⟨ok_congr he.len hk hl, he.ok⟩, own_node.2 ⟨h1, he.own, fun a ha b hb hw e => ?_⟩, he.len, fun a ha hw => ?_, fun s hs => ?_⟩, val_congr hk⟩
  · rcases he.old b hb with ⟨s0, h0, e0, w0⟩ | hn
    · refine h3 a ha s0 h0 ?_ (e.trans e0.symm)
      rcases hw with hw | hw
      · exact Or.inl hw
      · exact Or.inr (w0 hw)
    · have := (hl.slices a ha).arr
      omega
  · refine he.keep a ha ?_
    rintro ⟨s, hs, hsw, e⟩
    exact hw ⟨s, List.mem_append_right _ hs, hsw, e⟩
  · rcases List.mem_append.1 hs with hs | hs
    · exact Or.inl ⟨s, List.mem_append_left _ hs, rfl, id⟩
    · rcases he.old s hs with ⟨s0, h0, e0, w0⟩ | hn
      · exact Or.inl ⟨s0, List.mem_append_right _ h0, e0, w0⟩
      · exact Or.inr hn

theorem Edits.trans {h h1 h2 : Heap} {t t1 t2 : HRope} (he : Edits h t h1 t1) (he' : Edits h1 t1 h2 t2) : Edits h t h2 t2 := by
  refine ⟨he'.ok, he'.own, Nat.le_trans he.len he'.len, fun a ha hw => ?_, fun s hs => ?_⟩
  · rw [he'.keep a (Nat.lt_of_lt_of_le ha he.len) ?_]
    · exact he.keep a ha hw
    · rintro ⟨s, hs, hsw, e⟩
      rcases he.old s hs with ⟨s0, h0, e0, w0⟩ | hn
      · exact hw ⟨s0, h0, w0 hsw, e0.trans e⟩
      · omega
  · rcases he'.old s hs with ⟨s0, h0, e0, w0⟩ | h
    · rcases he.old s0 h0 with ⟨s1, h1, e1, w1⟩ | h
      · exact Or.inl ⟨s1, h1, e1.trans e0, fun w => w1 (w0 w)⟩
      · exact Or.inr (by omega)
    · exact Or.inr (Nat.le_trans he.len h)

/-! ## Leaves -/

theorem read_take {h : Heap} {s : Sl} {d c : Nat} (hd : d ≤ s.len) : h.read ⟨s.arr, s.off, d, c⟩ = (h.read s).take d := by
  unfold Heap.read
  rw [List.take_take, Nat.min_eq_left hd]

theorem read_drop {h : Heap} {s : Sl} {d c : Nat} : h.read ⟨s.arr, s.off + d, s.len - d, c⟩ = (h.read s).drop d := by
  unfold Heap.read
  rw [List.drop_take, List.drop_drop]

theorem adjust_leaf {h h1 : Heap} {t : HRope} {o : Opts} {s : Sl} (he : Edits h t h1 (mkLeaf h1 o s)) {r : Rope}
    (hr : Rope.adjust (Rope.mkLeaf o (h1.read s)) = some r) :
    ∃ h2 t2, adjust h1 (mkLeaf h1 o s) = some (h2, t2) ∧ Edits h t h2 t2 ∧ t2.val h2 = r := by
  have hs : s.Ok h1 := he.ok.1
  have hl := Heap.read_length hs
  unfold Rope.adjust Rope.mkLeaf at hr
  simp only [] at hr
  unfold adjust mkLeaf
  simp only []
  rw [hl] at hr
  by_cases hn : s.len > o.split
  · rw [if_pos hn] at hr ⊢
    have hd : s.len / 2 ≤ s.len := Nat.div_le_self _ _
    have hc1 : Linerope.cut (h1.read s) 0 ((s.len / 2 : Nat) : Int) = some (h1.read ⟨s.arr, s.off, s.len / 2, s.cap⟩) := by
      unfold Linerope.cut
      rw [if_pos (by rw [hl]; omega), read_take hd, Int.toNat_natCast]
      rfl
    have hc2 : Linerope.cut (h1.read s) ((s.len / 2 : Nat) : Int) (s.len : Int) =
        some (h1.read ⟨s.arr, s.off + s.len / 2, s.len - s.len / 2, s.cap - s.len / 2⟩) := by
      unfold Linerope.cut
      rw [if_pos (by rw [hl]; omega), read_drop, Int.toNat_natCast, Int.toNat_natCast, List.take_of_length_le (Nat.le_of_eq hl)]
    obtain ⟨a1, a2, a3⟩ := hs
    have k1 : Sl.Ok h1 ⟨s.arr, s.off, s.len / 2, s.cap⟩ := ⟨a1, a2, by show s.len / 2 ≤ s.cap; omega⟩
    have k2 : Sl.Ok h1 ⟨s.arr, s.off + s.len / 2, s.len - s.len / 2, s.cap - s.len / 2⟩ :=
      ⟨a1, by show s.off + s.len / 2 + (s.cap - s.len / 2) ≤ (h1.array s.arr).length; omega, by show s.len - s.len / 2 ≤ s.cap - s.len / 2; omega⟩
    rw [hc1, hc2] at hr
    cases hl1 : Rope.newWithOpts (h1.read ⟨s.arr, s.off, s.len / 2, s.cap⟩) o with
    | none => simp [hl1] at hr
    | some rl =>
      cases hr1 : Rope.newWithOpts (h1.read ⟨s.arr, s.off + s.len / 2, s.len - s.len / 2, s.cap - s.len / 2⟩) o with
      | none => simp [hl1, hr1] at hr
      | some rr =>
        simp only [Option.bind_eq_bind, Option.bind_some, hl1, hr1] at hr
        obtain ⟨h2, tl, b1, b2, b3, b4, rfl⟩ := newWithOpts_spec k1 hl1
        have e : h2.read ⟨s.arr, s.off + s.len / 2, s.len - s.len / 2, s.cap - s.len / 2⟩ =
            h1.read ⟨s.arr, s.off + s.len / 2, s.len - s.len / 2, s.cap - s.len / 2⟩ := Heap.read_ext b2 a1
        have k3 : Sl.Ok h2 ⟨s.arr, s.off + s.len / 2, s.len - s.len / 2, s.cap - s.len / 2⟩ :=
          ⟨Nat.lt_of_lt_of_le a1 b2.length_le, by rw [Heap.array_ext b2 a1]; exact k2.cap, k2.len⟩
        rw [← e] at hr1
        obtain ⟨h3, tr, c1, c2, c3, c4, rfl⟩ := newWithOpts_spec k3 hr1
        have hfrom : ∀ x ∈ (mkNode o tl tr).slices, From h1.length s.arr x := by
          intro x hx
          rcases List.mem_append.1 hx with hx | hx
          · exact b4 x hx
          · exact ⟨(c4 x hx).1, (c4 x hx).2.imp_right (Nat.le_trans b2.length_le)⟩
        refine ⟨h3, mkNode o tl tr, ?_, he.ext (b2.trans c2) ⟨ok_ext c2 b3, c3⟩ (own_ro fun x hx => (hfrom x hx).1) ?_, ?_⟩
        · rw [b1, Option.bind_some, c1, Option.bind_some]
        · intro x hx
          obtain ⟨f1, f2⟩ := hfrom x hx
          rcases f2 with f2 | f2
          · refine Or.inl ⟨s, List.mem_singleton.2 rfl, f2.symm, fun hw => ?_⟩
            unfold Sl.Wr at hw
            omega
          · exact Or.inr f2
        · rw [val_mkNode, val_ext c2 b3]
          cases hr; rfl
  · rw [if_neg hn] at hr ⊢
    cases hr
    refine ⟨_, _, rfl, he, ?_⟩
    exact (val_mkLeaf hs).trans (by unfold Rope.mkLeaf; rw [hl])

theorem edits_alloc {h : Heap} {o o' : Opts} {s : Sl} {n : Nat} {ll : Loc} {b : Bytes} {cap : Nat} (hc : b.length ≤ cap) :
    Edits h (leaf o s n ll) (h.alloc b cap).1 (mkLeaf (h.alloc b cap).1 o' (h.alloc b cap).2) := by
  refine ⟨⟨Heap.alloc_ok h hc, rfl⟩, List.pairwise_singleton _ _, (Heap.alloc_ext h b cap).length_le, fun a ha _ => Heap.array_ext (Heap.alloc_ext h b cap) ha,
    fun x hx => Or.inr ?_⟩
  rw [show x = _ from List.mem_singleton.1 hx]
  exact Nat.le_refl h.length

theorem take_split {A : Bytes} {off k len : Nat} (hk : k ≤ len) :
    A.take (off + k) = A.take off ++ ((A.drop off).take len).take k := by
  rw [List.take_add, List.take_take, Nat.min_eq_left hk]

theorem read_mid {P X Z : Bytes} {off n : Nat} (hp : P.length = off) (hx : X.length = n) : ((P ++ X ++ Z).drop off).take n = X := by
  subst hp hx
  rw [List.append_assoc, List.drop_left, List.take_left]

theorem removeH_spec {h : Heap} {o o' : Opts} {s : Sl} {n : Nat} {ll : Loc} (hs : s.Ok h) {start stop : Int} {v : Bytes}
    (hv : removeB (h.read s) start stop = some v) :
    ∃ h' s', removeH h s start stop = some (h', s') ∧ h'.read s' = v ∧ Edits h (leaf o s n ll) h' (mkLeaf h' o' s') := by
  have hl := Heap.read_length hs
  unfold removeB at hv
  unfold removeH
  rw [hl] at hv
  split at hv
  · rename_i hb
    cases hv
    rw [if_pos hb]
    have hlen : ((h.read s).take start.toNat ++ (h.read s).drop stop.toNat).length = start.toNat + (s.len - stop.toNat) := by
      rw [List.length_append, List.length_take, List.length_drop, hl]; omega
    obtain ⟨a1, a2, a3⟩ := hs
    by_cases hc : s.len = s.cap
    · rw [if_pos hc]
      exact ⟨_, _, rfl, Heap.alloc_read _ _ _, edits_alloc (by rw [hlen]; omega)⟩
    · rw [if_neg hc]
      have hAl : ((h.array s.arr).take (s.off + start.toNat)).length = s.off + start.toNat := by
        rw [List.length_take]; omega
      have hsz : s.off + start.toNat + ((h.read s).drop stop.toNat).length ≤ (h.array s.arr).length := by
        rw [List.length_drop, hl]; omega
      refine ⟨_, _, rfl, ?_, ⟨⟨⟨?_, ?_, ?_⟩, rfl⟩, List.pairwise_singleton _ _, ?_, ?_, ?_⟩⟩
      · show (((h.write s.arr _ _).array s.arr).drop s.off).take _ = _
        rw [Heap.write_array a1, take_split (A := h.array s.arr) (len := s.len) (by omega), List.append_assoc ((h.array s.arr).take s.off)]
        refine read_mid ?_ hlen
        rw [List.length_take]; omega
      · show s.arr < _
        rw [Heap.write_length]; exact a1
      · show s.off + s.cap ≤ ((h.write s.arr _ _).array s.arr).length
        rw [Heap.write_size a1 hsz]; exact a2
      · show start.toNat + (s.len - stop.toNat) ≤ s.cap
        omega
      · rw [Heap.write_length]; exact Nat.le_refl _
      · intro a ha hw
        refine Heap.write_ne (fun e => hw ⟨s, List.mem_singleton.2 rfl, ?_, e.symm⟩) _ _
        unfold Sl.Wr; omega
      · intro x hx
        rw [show x = _ from List.mem_singleton.1 hx]
        refine Or.inl ⟨s, List.mem_singleton.2 rfl, rfl, fun _ => ?_⟩
        unfold Sl.Wr; omega
  · cases hv

theorem insertH_spec {h : Heap} {o o' : Opts} {s vs : Sl} {n : Nat} {ll : Loc} (hs : s.Ok h) (hvs : vs.Ok h) (hne : s.Wr → s.arr ≠ vs.arr) {k : Int} {v : Bytes}
    (hv : insertB (h.read s) k (h.read vs) = some v) :
    ∃ h' s', insertH h s k vs = some (h', s') ∧ h'.read s' = v ∧ Edits h (leaf o s n ll) h' (mkLeaf h' o' s') := by
  have hl := Heap.read_length hs
  have hlv := Heap.read_length hvs
  unfold insertB at hv
  unfold insertH
  rw [hl] at hv
  split at hv
  · rename_i hb
    cases hv
    rw [if_pos hb]
    have hlen : ((h.read s).take k.toNat ++ h.read vs ++ (h.read s).drop k.toNat).length = s.len + vs.len := by
      simp only [List.length_append, List.length_take, List.length_drop, hl, hlv]; omega
    obtain ⟨a1, a2, a3⟩ := hs
    by_cases hc : s.len + vs.len ≤ s.cap
    · rw [if_pos hc]
      simp only []
      have hd : ((h.read s).drop k.toNat).length = s.len - k.toNat := by rw [List.length_drop, hl]
      have hsz1 : s.off + k.toNat + vs.len + ((h.read s).drop k.toNat).length ≤ (h.array s.arr).length := by omega
      have hread : (h.write s.arr (s.off + k.toNat + vs.len) ((h.read s).drop k.toNat)).read vs = h.read vs := by
        by_cases hz : vs.len = 0
        · unfold Heap.read; rw [hz]; rfl
        · refine Heap.read_eq (Heap.write_ne (Ne.symm (hne ?_)) _ _)
          unfold Sl.Wr; omega
      rw [hread]
      have b1 : s.arr < (h.write s.arr (s.off + k.toNat + vs.len) ((h.read s).drop k.toNat)).length := by rw [Heap.write_length]; exact a1
      have hsz2 : s.off + k.toNat + (h.read vs).length ≤
          ((h.write s.arr (s.off + k.toNat + vs.len) ((h.read s).drop k.toNat)).array s.arr).length := by
        rw [Heap.write_size a1 hsz1, hlv]; omega
      have hT : ((h.array s.arr).take (s.off + k.toNat + vs.len)).length = s.off + k.toNat + vs.len := by
        rw [List.length_take]; omega
      refine ⟨_, _, rfl, ?_, ⟨⟨⟨?_, ?_, hc⟩, rfl⟩, List.pairwise_singleton _ _, ?_, ?_, ?_⟩⟩
      · show (((Heap.write _ s.arr _ _).array s.arr).drop s.off).take _ = _
        rw [Heap.write_array b1, Heap.write_array a1, hlv]
        have e1 : ((h.array s.arr).take (s.off + k.toNat + vs.len) ++ (h.read s).drop k.toNat ++
            (h.array s.arr).drop (s.off + k.toNat + vs.len + ((h.read s).drop k.toNat).length)).take (s.off + k.toNat) =
            (h.array s.arr).take s.off ++ (h.read s).take k.toNat := by
          rw [List.append_assoc, List.take_append_of_le_length (by omega), List.take_take, Nat.min_eq_left (by omega)]
          exact take_split (by omega)
        have e2 : ((h.array s.arr).take (s.off + k.toNat + vs.len) ++ (h.read s).drop k.toNat ++
            (h.array s.arr).drop (s.off + k.toNat + vs.len + ((h.read s).drop k.toNat).length)).drop (s.off + k.toNat + vs.len) =
            (h.read s).drop k.toNat ++ (h.array s.arr).drop (s.off + k.toNat + vs.len + ((h.read s).drop k.toNat).length) := by
          rw [List.append_assoc, List.drop_append_of_le_length (Nat.le_of_eq hT.symm), List.drop_of_length_le (Nat.le_of_eq hT), List.nil_append]
        rw [e1, e2]
        have e3 : ∀ a b c d e : Bytes, a ++ b ++ c ++ (d ++ e) = a ++ (b ++ c ++ d) ++ e := by intros; simp only [List.append_assoc]
        rw [e3]
        refine read_mid ?_ hlen
        rw [List.length_take]; omega
      · show s.arr < _
        rw [Heap.write_length]; exact b1
      · show s.off + s.cap ≤ ((Heap.write _ s.arr _ _).array s.arr).length
        rw [Heap.write_size b1 hsz2, Heap.write_size a1 hsz1]; exact a2
      · rw [Heap.write_length, Heap.write_length]; exact Nat.le_refl _
      · intro a ha hw
        by_cases hz : vs.len = 0
        · have hnil : h.read vs = [] := List.length_eq_zero_iff.1 (by rw [hlv, hz])
          rw [hnil, Heap.write_same (by rfl) (by
            have := hsz2
            rw [hnil] at this
            simpa using this)]
          refine Heap.write_same ?_ (by omega) a
          rw [hz, Nat.add_zero, ← List.drop_drop, hd]
          unfold Heap.read
          rw [List.drop_take]
        · have hsw : s.Wr := by unfold Sl.Wr; omega
          have hne' : a ≠ s.arr := fun e => hw ⟨s, List.mem_singleton.2 rfl, hsw, e.symm⟩
          rw [Heap.write_ne hne', Heap.write_ne hne']
      · intro x hx
        rw [show x = _ from List.mem_singleton.1 hx]
        refine Or.inl ⟨s, List.mem_singleton.2 rfl, rfl, fun hw => ?_⟩
        have hw : s.len + vs.len < s.cap := hw
        unfold Sl.Wr; omega
    · rw [if_neg hc]
      exact ⟨_, _, rfl, Heap.alloc_read _ _ _, edits_alloc (Nat.le_of_eq hlen)⟩
  · cases hv

/-! ## Nodes -/

theorem adjust_node {h h1 : Heap} {t : HRope} {o : Opts} {l r : HRope} (he : Edits h t h1 (mkNode o l r)) {x : Rope}
    (hr : Rope.adjust (Rope.mkNode o (l.val h1) (r.val h1)) = some x) :
    ∃ h2 t2, adjust h1 (mkNode o l r) = some (h2, t2) ∧ Edits h t h2 t2 ∧ t2.val h2 = x := by
  have hr : Rope.collapse (Rope.mkNode o (l.val h1) (r.val h1)) = some x := hr
  rw [← val_mkNode] at hr
  obtain ⟨c1, c2, c3, c4⟩ := collapse_spec (o := o) (l := l) (r := r) (h := h1) (n0 := h1.length)
    (Q := fun s => s ∈ (mkNode o l r).slices ∨ (h1.length ≤ s.arr ∧ s.len = s.cap)) (fun s h1 h2 => Or.inr ⟨h1, h2⟩) (Nat.le_refl _) he.ok.1 he.ok.2
    (fun s hs => Or.inl (List.mem_append_left _ hs)) (fun s hs => Or.inl (List.mem_append_right _ hs))
  rw [c3] at hr
  cases hr
  refine ⟨_, _, rfl, he.ext c1 c2 ?_ ?_, rfl⟩
  · show (collapse h1 (mkNode o l r)).2.Own
    unfold collapse
    split
    · exact List.pairwise_singleton _ _
    · exact he.own
  · intro s hs
    rcases c4 s hs with h | h
    · exact Or.inl ⟨s, h, rfl, id⟩
    · exact Or.inr h.1

theorem insert_spec {vs : Sl} : ∀ {t : HRope} {h : Heap}, t.Ok h → t.Own → vs.Ok h → ¬ t.Writes vs.arr → ∀ {pos : Int} {r : Rope},
    (t.val h).insert pos (h.read vs) = some r → ∃ h' t', t.insert h pos vs = some (h', t') ∧ Edits h t h' t' ∧ t'.val h' = r
  | leaf o s n ll, h, ht, ho, hv, hw, pos, r, hr => by
    have hr : (insertB (h.read s) pos (h.read vs)).bind (fun b => Rope.adjust (Rope.mkLeaf o b)) = some r := hr
    obtain ⟨b, hb, hr⟩ := Option.bind_eq_some_iff.1 hr
    obtain ⟨h1, s1, e1, rfl, e3⟩ := insertH_spec (o := o) (o' := o) (n := n) (ll := ll) ht.1 hv (fun w e => hw ⟨s, List.mem_singleton.2 rfl, w, e⟩) hb
    obtain ⟨h2, t2, f1, f2, f3⟩ := adjust_leaf e3 hr
    refine ⟨h2, t2, ?_, f2, f3⟩
    show (insertH h s pos vs).bind _ = _
    rw [e1]; exact f1
  | node o n ll l r', h, ht, ho, hv, hw, pos, r, hr => by
    have hwl : ¬ l.Writes vs.arr := fun ⟨s, hs, w⟩ => hw ⟨s, List.mem_append_left _ hs, w⟩
    have hwr : ¬ r'.Writes vs.arr := fun ⟨s, hs, w⟩ => hw ⟨s, List.mem_append_right _ hs, w⟩
    obtain ⟨o1, o2, o3⟩ := own_node.1 ho
    have hr : (if pos < ((l.val h).len : Int) then ((l.val h).insert pos (h.read vs)).bind (fun x => Rope.adjust (Rope.mkNode o x (r'.val h)))
      else ((r'.val h).insert (pos - (l.val h).len) (h.read vs)).bind (fun x => Rope.adjust (Rope.mkNode o (l.val h) x))) = some r := hr
    show ∃ h' t', (if pos < (l.len : Int) then (l.insert h pos vs).bind fun x => adjust x.1 (mkNode o x.2 r')
      else (r'.insert h (pos - l.len) vs).bind fun x => adjust x.1 (mkNode o l x.2)) = some (h', t') ∧ _
    rw [val_len] at hr
    split at hr
    · rename_i hp
      rw [if_pos hp]
      obtain ⟨x, hx, hr⟩ := Option.bind_eq_some_iff.1 hr
      obtain ⟨h1, l1, e1, e2, rfl⟩ := insert_spec ht.1 o1 hv hwl hx
      obtain ⟨e3, e4⟩ := e2.left ht.2 ho
      rw [← e4] at hr
      obtain ⟨h2, t2, f1, f2, f3⟩ := adjust_node e3 hr
      exact ⟨h2, t2, by rw [e1]; exact f1, f2, f3⟩
    · rename_i hp
      rw [if_neg hp]
      obtain ⟨x, hx, hr⟩ := Option.bind_eq_some_iff.1 hr
      obtain ⟨h1, r1, e1, e2, rfl⟩ := insert_spec ht.2 o2 hv hwr hx
      obtain ⟨e3, e4⟩ := e2.right ht.1 ho
      rw [← e4] at hr
      obtain ⟨h2, t2, f1, f2, f3⟩ := adjust_node e3 hr
      exact ⟨h2, t2, by rw [e1]; exact f1, f2, f3⟩

theorem remove_spec : ∀ {t : HRope} {h : Heap}, t.Ok h → t.Own → ∀ {start stop : Int} {r : Rope},
    (t.val h).remove start stop = some r → ∃ h' t', t.remove h start stop = some (h', t') ∧ Edits h t h' t' ∧ t'.val h' = r
  | leaf o s n ll, h, ht, ho, start, stop, r, hr => by
    have hr : (removeB (h.read s) start stop).bind (fun b => Rope.adjust (Rope.mkLeaf o b)) = some r := hr
    obtain ⟨b, hb, hr⟩ := Option.bind_eq_some_iff.1 hr
    obtain ⟨h1, s1, e1, rfl, e3⟩ := removeH_spec (o := o) (o' := o) (n := n) (ll := ll) ht.1 hb
    obtain ⟨h2, t2, f1, f2, f3⟩ := adjust_leaf e3 hr
    refine ⟨h2, t2, ?_, f2, f3⟩
    show (removeH h s start stop).bind _ = _
    rw [e1]; exact f1
  | node o n ll l r', h, ht, ho, start, stop, r, hr => by
    obtain ⟨o1, o2, o3⟩ := own_node.1 ho
    have hr : ((if min start ((l.val h).len : Int) < (l.val h).len then (l.val h).remove (min start (l.val h).len) (min stop (l.val h).len)
      else some (l.val h)).bind fun l' =>
      (if max 0 (min (stop - (l.val h).len) ((r'.val h).len : Int)) > 0 then
        (r'.val h).remove (max 0 (min (start - (l.val h).len) (r'.val h).len)) (max 0 (min (stop - (l.val h).len) (r'.val h).len)) else some (r'.val h)).bind fun r' =>
      Rope.adjust (Rope.mkNode o l' r')) = some r := hr
    show ∃ h' t', ((if min start (l.len : Int) < l.len then l.remove h (min start l.len) (min stop l.len) else some (h, l)).bind fun x =>
      (if max 0 (min (stop - l.len) (r'.len : Int)) > 0 then
        r'.remove x.1 (max 0 (min (start - l.len) r'.len)) (max 0 (min (stop - l.len) r'.len)) else some (x.1, r')).bind fun y =>
      adjust y.1 (mkNode o x.2 y.2)) = some (h', t') ∧ _
    rw [val_len, val_len] at hr
    obtain ⟨xl, hxl, hr⟩ := Option.bind_eq_some_iff.1 hr
    obtain ⟨xr, hxr, hr⟩ := Option.bind_eq_some_iff.1 hr
    have s1 : ∃ h1 l1, (if min start (l.len : Int) < l.len then l.remove h (min start l.len) (min stop l.len) else some (h, l)) = some (h1, l1) ∧
        Edits h l h1 l1 ∧ l1.val h1 = xl := by
      split at hxl
      · rename_i hc
        rw [if_pos hc]
        exact remove_spec ht.1 o1 hxl
      · rename_i hc
        rw [if_neg hc]
        cases hxl
        exact ⟨h, l, rfl, .refl ht.1 o1, rfl⟩
    obtain ⟨h1, l1, e1, e2, rfl⟩ := s1
    obtain ⟨e3, e4⟩ := e2.left ht.2 ho
    rw [← e4] at hxr
    have s2 : ∃ h2 r2, (if max 0 (min (stop - l.len) (r'.len : Int)) > 0 then
        r'.remove h1 (max 0 (min (start - l.len) r'.len)) (max 0 (min (stop - l.len) r'.len)) else some (h1, r')) = some (h2, r2) ∧
        Edits h1 r' h2 r2 ∧ r2.val h2 = xr := by
      split at hxr
      · rename_i hc
        rw [if_pos hc]
        exact remove_spec e3.ok.2 o2 hxr
      · rename_i hc
        rw [if_neg hc]
        cases hxr
        exact ⟨h1, r', rfl, .refl e3.ok.2 o2, rfl⟩
    obtain ⟨h2, r2, g1, g2, rfl⟩ := s2
    obtain ⟨g3, g4⟩ := g2.right e3.ok.1 e3.own
    rw [← g4] at hr
    obtain ⟨h3, t3, f1, f2, f3⟩ := adjust_node (e3.trans g3) hr
    exact ⟨h3, t3, by rw [e1, Option.bind_some, g1, Option.bind_some]; exact f1, f2, f3⟩

end HRope
end Gpeg.Linerope
