import Verif.RopeHeap
/-!
# The rope with slices refines the rope with lists
-/
namespace Gpeg.Linerope

/-! ## Arrays -/

/-- A slice lies in its array. -/
structure Sl.Ok (h : Heap) (s : Sl) : Prop where
  arr : s.arr < h.length
  cap : s.off + s.cap ≤ (h.array s.arr).length
  len : s.len ≤ s.cap

/-- There is room behind the slice: edits write into the array. -/
def Sl.Wr (s : Sl) : Prop := s.len < s.cap

namespace Heap

theorem array_append {h x : Heap} {a : Nat} (ha : a < h.length) : (h ++ x : Heap).array a = h.array a := by
  unfold array
  rw [List.getElem?_append_left ha]

theorem array_ext {h h' : Heap} (hx : h <+: h') {a : Nat} (ha : a < h.length) : h'.array a = h.array a := by
  obtain ⟨x, rfl⟩ := hx
  exact array_append ha

theorem read_eq {h h' : Heap} {s : Sl} (ha : h'.array s.arr = h.array s.arr) : h'.read s = h.read s := by
  unfold read
  rw [ha]

theorem read_ext {h h' : Heap} (hx : h <+: h') {s : Sl} (ha : s.arr < h.length) : h'.read s = h.read s :=
  read_eq (array_ext hx ha)

theorem read_length {h : Heap} {s : Sl} (hs : s.Ok h) : (h.read s).length = s.len := by
  obtain ⟨_, h2, h3⟩ := hs
  unfold read
  rw [List.length_take, List.length_drop]
  omega

theorem alloc_ext (h : Heap) (b : Bytes) (cap : Nat) : h <+: (h.alloc b cap).1 := ⟨_, rfl⟩

theorem alloc_array (h : Heap) (b : Bytes) (cap : Nat) : (h.alloc b cap).1.array h.length = b ++ List.replicate (cap - b.length) 0 := by
  unfold alloc array
  simp

theorem alloc_read (h : Heap) (b : Bytes) (cap : Nat) : (h.alloc b cap).1.read (h.alloc b cap).2 = b := by
  unfold read
  rw [show (h.alloc b cap).2.arr = h.length from rfl, alloc_array]
  show ((b ++ List.replicate (cap - b.length) 0).drop 0).take b.length = b
  simp

theorem alloc_ok (h : Heap) {b : Bytes} {cap : Nat} (hc : b.length ≤ cap) : (h.alloc b cap).2.Ok (h.alloc b cap).1 := by
  refine ⟨?_, ?_, hc⟩
  · show h.length < (h ++ [_]).length
    simp
  · rw [show (h.alloc b cap).2.arr = h.length from rfl, alloc_array]
    show 0 + cap ≤ _
    simp; omega

theorem write_length (h : Heap) (a i : Nat) (b : Bytes) : (h.write a i b).length = h.length := by
  unfold write; simp

theorem write_ne {h : Heap} {a c : Nat} (hc : c ≠ a) (i : Nat) (b : Bytes) : (h.write a i b).array c = h.array c := by
  unfold write array
  rw [List.getElem?_set_ne (Ne.symm hc)]

theorem write_array {h : Heap} {a : Nat} (ha : a < h.length) (i : Nat) (b : Bytes) :
    (h.write a i b).array a = (h.array a).take i ++ b ++ (h.array a).drop (i + b.length) := by
  conv => lhs; unfold array write
  rw [List.getElem?_set_self ha]; rfl

theorem write_size {h : Heap} {a : Nat} (ha : a < h.length) {i : Nat} {b : Bytes} (hi : i + b.length ≤ (h.array a).length) :
    ((h.write a i b).array a).length = (h.array a).length := by
  rw [write_array ha]
  simp only [List.length_append, List.length_take, List.length_drop]
  omega

/-- Writing what is there. -/
theorem write_same {h : Heap} {a i : Nat} {b : Bytes} (hb : ((h.array a).drop i).take b.length = b) (hi : i ≤ (h.array a).length) :
    ∀ c, (h.write a i b).array c = h.array c := by
  intro c
  by_cases ha : a < h.length
  · by_cases hc : c = a
    · subst hc
      rw [write_array ha, ← List.drop_drop]
      conv => lhs; arg 1; arg 2; rw [← hb]
      rw [List.append_assoc, List.take_append_drop, List.take_append_drop]
    · exact write_ne hc _ _
  · unfold write
    rw [List.set_eq_of_length_le (by omega)]

end Heap

/-! ## Ropes -/

namespace HRope

/-- The slices lie in their arrays, the cached lengths are right. -/
def Ok (h : Heap) : HRope → Prop
  | leaf _ s n _ => s.Ok h ∧ n = s.len
  | node _ _ _ l r => l.Ok h ∧ r.Ok h

theorem Ok.slices : ∀ {t : HRope} {h : Heap}, t.Ok h → ∀ s ∈ t.slices, s.Ok h
  | leaf _ _ _ _, _, ht, s, hs => by
    rw [show s = _ from List.mem_singleton.1 hs]; exact ht.1
  | node _ _ _ _ _, _, ht, s, hs => by
    rcases List.mem_append.1 hs with hs | hs
    · exact Ok.slices ht.1 s hs
    · exact Ok.slices ht.2 s hs

theorem val_congr : ∀ {t : HRope} {h h' : Heap}, (∀ s ∈ t.slices, h'.array s.arr = h.array s.arr) → t.val h' = t.val h
  | leaf _ s _ _, h, h', hs => by
    unfold val
    rw [Heap.read_eq (hs s (List.mem_singleton.2 rfl))]
  | node _ _ _ l r, h, h', hs => by
    unfold val
    rw [val_congr fun s h => hs s (List.mem_append_left _ h), val_congr fun s h => hs s (List.mem_append_right _ h)]

theorem ok_congr : ∀ {t : HRope} {h h' : Heap}, h.length ≤ h'.length → (∀ s ∈ t.slices, h'.array s.arr = h.array s.arr) → t.Ok h → t.Ok h'
  | leaf _ s _ _, h, h', hl, hs, ht => by
    obtain ⟨⟨a, b, c⟩, d⟩ := ht
    exact ⟨⟨by omega, by rw [hs s (List.mem_singleton.2 rfl)]; exact b, c⟩, d⟩
  | node _ _ _ l r, h, h', hl, hs, ht =>
    ⟨ok_congr hl (fun s h => hs s (List.mem_append_left _ h)) ht.1, ok_congr hl (fun s h => hs s (List.mem_append_right _ h)) ht.2⟩

theorem ext_congr {t : HRope} {h h' : Heap} (hx : h <+: h') (ht : t.Ok h) : ∀ s ∈ t.slices, h'.array s.arr = h.array s.arr :=
  fun s hs => Heap.array_ext hx (ht.slices s hs).arr

theorem val_ext {t : HRope} {h h' : Heap} (hx : h <+: h') (ht : t.Ok h) : t.val h' = t.val h := val_congr (ext_congr hx ht)

theorem ok_ext {t : HRope} {h h' : Heap} (hx : h <+: h') (ht : t.Ok h) : t.Ok h' := ok_congr hx.length_le (ext_congr hx ht) ht

theorem val_opts (h : Heap) (t : HRope) : (t.val h).opts = t.opts := by cases t <;> rfl
theorem val_len (h : Heap) (t : HRope) : (t.val h).len = t.len := by cases t <;> rfl
theorem val_ll (h : Heap) (t : HRope) : (t.val h).ll = t.ll := by cases t <;> rfl

theorem val_mkLeaf {h : Heap} {o : Opts} {s : Sl} (hs : s.Ok h) : (mkLeaf h o s).val h = Rope.mkLeaf o (h.read s) := by
  unfold mkLeaf Rope.mkLeaf val
  rw [Heap.read_length hs]

theorem val_mkNode (h : Heap) (o : Opts) (l r : HRope) : (mkNode o l r).val h = Rope.mkNode o (l.val h) (r.val h) := by
  show Rope.node o (l.len + r.len) (addlocs l.ll r.ll) (l.val h) (r.val h) = _
  unfold Rope.mkNode
  rw [val_len, val_len, val_ll, val_ll]

theorem value_spec : ∀ {t : HRope} {h : Heap}, t.Ok h →
    h <+: (t.value h).1 ∧ (t.value h).2.Ok (t.value h).1 ∧ (t.val h).value = some ((t.value h).1.read (t.value h).2) ∧
      ((∃ o n ll, t = leaf o (t.value h).2 n ll) ∨ (h.length ≤ (t.value h).2.arr ∧ (t.value h).2.len = (t.value h).2.cap))
  | leaf _ _ _ _, h, ht => ⟨List.prefix_refl h, ht.1, rfl, Or.inl ⟨_, _, _, rfl⟩⟩
  | node _ _ _ l r, h, ht => by
    obtain ⟨a1, a2, a3, -⟩ := value_spec ht.1
    obtain ⟨b1, b2, b3, -⟩ := value_spec (ok_ext a1 ht.2)
    have hra : (r.value (l.value h).1).1.read (l.value h).2 = (l.value h).1.read (l.value h).2 := Heap.read_ext b1 a2.arr
    have ea : ((r.value (l.value h).1).1.read (l.value h).2).length = (l.value h).2.len := by rw [hra, Heap.read_length a2]
    have eb : ((r.value (l.value h).1).1.read (r.value (l.value h).1).2).length = (r.value (l.value h).1).2.len := Heap.read_length b2
    have hlen : ((r.value (l.value h).1).1.read (l.value h).2 ++ (r.value (l.value h).1).1.read (r.value (l.value h).1).2).length =
        (l.value h).2.len + (r.value (l.value h).1).2.len := by rw [List.length_append, ea, eb]
    refine ⟨(a1.trans b1).trans (Heap.alloc_ext _ _ _), Heap.alloc_ok _ (Nat.le_of_eq hlen), ?_, Or.inr ⟨?_, hlen⟩⟩
    · show (do
        let a ← (l.val h).value
        let b ← (r.val h).value
        return a ++ b) = some ((Heap.alloc _ _ _).1.read (Heap.alloc _ _ _).2)
      rw [Heap.alloc_read, a3, ← val_ext a1 ht.2, b3, hra]
      rfl
    · exact Nat.le_trans a1.length_le b1.length_le

/-! ## Building -/

/-- `Q` holds for new slices without room. -/
def New (n : Nat) (Q : Sl → Prop) : Prop := ∀ s : Sl, n ≤ s.arr → s.len = s.cap → Q s

section
variable {n0 : Nat} {Q : Sl → Prop} (hQ : New n0 Q)
include hQ

theorem collapse_spec {o : Opts} {l r : HRope} {h : Heap} (hn : n0 ≤ h.length) (hl : l.Ok h) (hr : r.Ok h) (ql : ∀ s ∈ l.slices, Q s) (qr : ∀ s ∈ r.slices, Q s) :
    h <+: (collapse h (mkNode o l r)).1 ∧ (collapse h (mkNode o l r)).2.Ok (collapse h (mkNode o l r)).1 ∧
      Rope.collapse ((mkNode o l r).val h) = some ((collapse h (mkNode o l r)).2.val (collapse h (mkNode o l r)).1) ∧
      ∀ s ∈ (collapse h (mkNode o l r)).2.slices, Q s := by
  have hok : (mkNode o l r).Ok h := ⟨hl, hr⟩
  obtain ⟨a1, a2, a3, a4⟩ := value_spec hok
  unfold collapse Rope.collapse
  rw [val_len, val_opts]
  split
  · refine ⟨a1, ⟨a2, rfl⟩, ?_, ?_⟩
    · rw [val_mkLeaf a2, a3]; rfl
    · intro s hs
      rw [show s = _ from List.mem_singleton.1 hs]
      rcases a4 with ⟨_, _, _, h⟩ | ⟨h1, h2⟩
      · cases h
      · exact hQ _ (Nat.le_trans hn h1) h2
  · refine ⟨List.prefix_refl h, hok, rfl, ?_⟩
    intro s hs
    rcases List.mem_append.1 hs with hs | hs
    · exact ql s hs
    · exact qr s hs

theorem join_spec {l r : HRope} {h : Heap} (hn : n0 ≤ h.length) (hl : l.Ok h) (hr : r.Ok h) (ql : ∀ s ∈ l.slices, Q s) (qr : ∀ s ∈ r.slices, Q s) :
    h <+: (join h l r).1 ∧ (join h l r).2.Ok (join h l r).1 ∧ Rope.join (l.val h) (r.val h) = some ((join h l r).2.val (join h l r).1) ∧
      ∀ s ∈ (join h l r).2.slices, Q s := by
  have := collapse_spec (o := l.opts) hQ hn hl hr ql qr
  unfold join Rope.join
  rw [val_opts, ← val_mkNode]
  exact this

/-- What holds of a list of ropes. -/
def AllOk (h : Heap) (Q : Sl → Prop) (ts : List HRope) : Prop := ∀ t ∈ ts, t.Ok h ∧ ∀ s ∈ t.slices, Q s

omit hQ in
theorem AllOk.ext {h h' : Heap} {ts : List HRope} (ht : AllOk h Q ts) (hx : h <+: h') : AllOk h' Q ts :=
  fun t hm => ⟨ok_ext hx (ht t hm).1, (ht t hm).2⟩

omit hQ in
theorem AllOk.val {h h' : Heap} {ts : List HRope} (ht : AllOk h Q ts) (hx : h <+: h') : ts.map (val h') = ts.map (val h) :=
  List.map_congr_left fun t hm => val_ext hx (ht t hm).1

theorem joinLast_spec {h : Heap} (hn : n0 ≤ h.length) : ∀ {ts : List HRope}, AllOk h Q ts → ∀ {rs : List Rope}, Rope.joinLast (ts.map (val h)) = some rs →
    ∃ h' ts', joinLast h ts = some (h', ts') ∧ h <+: h' ∧ AllOk h' Q ts' ∧ ts'.map (val h') = rs
  | [], _, rs, hr => by cases hr
  | [a], ht, rs, hr => by
    have : Rope.joinLast [a.val h] = some rs := hr
    unfold Rope.joinLast at this
    simp [Rope.joinLast] at this
  | [a, b], ht, rs, hr => by
    obtain ⟨ha, qa⟩ := ht a (by simp)
    obtain ⟨hb, qb⟩ := ht b (by simp)
    obtain ⟨j1, j2, j3, j4⟩ := join_spec hQ hn ha hb qa qb
    have hr : (do return [← Rope.join (a.val h) (b.val h)]) = some rs := hr
    rw [j3] at hr
    cases hr
    exact ⟨_, _, rfl, j1, by intro t ht; rw [List.mem_singleton.1 ht]; exact ⟨j2, j4⟩, rfl⟩
  | a :: b :: c :: ts, ht, rs, hr => by
    have hr : (do return a.val h :: (← Rope.joinLast ((b :: c :: ts).map (HRope.val h)))) = some rs := hr
    cases hj : Rope.joinLast ((b :: c :: ts).map (HRope.val h)) with
    | none => rw [hj] at hr; cases hr
    | some rs' =>
      rw [hj] at hr
      cases hr
      obtain ⟨h', ts', e1, e2, e3, e4⟩ := joinLast_spec hn (fun t hm => ht t (List.mem_cons_of_mem _ hm)) hj
      obtain ⟨ha, qa⟩ := ht a (by simp)
      refine ⟨h', a :: ts', ?_, e2, ?_, ?_⟩
      · show (joinLast h (b :: c :: ts)).map _ = _
        rw [e1]; rfl
      · intro t hm
        rcases List.mem_cons.1 hm with rfl | hm
        · exact ⟨ok_ext e2 ha, qa⟩
        · exact e3 t hm
      · rw [List.map_cons, e4, val_ext e2 ha]

theorem pairUp_spec : ∀ {ts : List HRope} {h : Heap}, n0 ≤ h.length → AllOk h Q ts → ∀ {rs : List Rope}, Rope.pairUp (ts.map (val h)) = some rs →
    ∃ h' ts', pairUp h ts = some (h', ts') ∧ h <+: h' ∧ AllOk h' Q ts' ∧ ts'.map (val h') = rs
  | [], h, _, _, rs, hr => by
    cases hr
    exact ⟨h, [], rfl, List.prefix_refl h, (fun t hm => by cases hm), rfl⟩
  | [a], _, _, _, rs, hr => by
    have : Rope.pairUp [a.val _] = some rs := hr
    unfold Rope.pairUp at this
    cases this
  | a :: b :: ts, h, hn, ht, rs, hr => by
    obtain ⟨ha, qa⟩ := ht a (by simp)
    obtain ⟨hb, qb⟩ := ht b (by simp)
    obtain ⟨j1, j2, j3, j4⟩ := join_spec hQ hn ha hb qa qb
    have ht' : AllOk h Q ts := fun t hm => ht t (List.mem_cons_of_mem _ (List.mem_cons_of_mem _ hm))
    have hr : (do
      let x ← Rope.join (a.val h) (b.val h)
      return x :: (← Rope.pairUp (ts.map (HRope.val h)))) = some rs := hr
    rw [j3] at hr
    cases hj : Rope.pairUp (ts.map (HRope.val h)) with
    | none => rw [hj] at hr; cases hr
    | some rs' =>
      rw [hj] at hr
      cases hr
      rw [← ht'.val j1] at hj
      obtain ⟨h', ts', e1, e2, e3, e4⟩ := pairUp_spec (Nat.le_trans hn j1.length_le) (ht'.ext j1) hj
      refine ⟨h', (join h a b).2 :: ts', ?_, j1.trans e2, ?_, ?_⟩
      · show (pairUp (join h a b).1 ts).map _ = _
        rw [e1]; rfl
      · intro t hm
        rcases List.mem_cons.1 hm with rfl | hm
        · exact ⟨ok_ext e2 j2, j4⟩
        · exact e3 t hm
      · rw [List.map_cons, e4, val_ext e2 j2]

theorem buildF_spec (k : Nat) : ∀ {ts : List HRope} {h : Heap}, n0 ≤ h.length → AllOk h Q ts → ∀ {r : Rope}, Rope.buildF k (ts.map (val h)) = some r →
    ∃ h' t, buildF k h ts = some (h', t) ∧ h <+: h' ∧ t.Ok h' ∧ (∀ s ∈ t.slices, Q s) ∧ t.val h' = r := by
  induction k with
  | zero =>
    intro ts h hn ht r hr
    match ts, hr with
    | [], hr => simp [Rope.buildF] at hr
    | [a], hr =>
      have : some (a.val h) = some r := hr
      cases this
      exact ⟨h, a, rfl, List.prefix_refl h, (ht a (by simp)).1, (ht a (by simp)).2, rfl⟩
    | a :: b :: ts, hr => simp [Rope.buildF] at hr
  | succ k ih =>
    intro ts h hn ht r hr
    by_cases h1 : ∃ a, ts = [a]
    · obtain ⟨a, rfl⟩ := h1
      have : some (a.val h) = some r := hr
      cases this
      exact ⟨h, a, rfl, List.prefix_refl h, (ht a (by simp)).1, (ht a (by simp)).2, rfl⟩
    · have e1 : Rope.buildF (k + 1) (ts.map (val h)) = (if (ts.map (val h)).length % 2 ≠ 0 then Rope.joinLast (ts.map (val h)) else some (ts.map (val h))).bind
          fun ns => (do Rope.buildF k (← Rope.pairUp ns)) := by
        match ts, h1 with
        | [], _ => rfl
        | [a], h1 => exact absurd ⟨a, rfl⟩ h1
        | _ :: _ :: _, _ => rfl
      have e2 : buildF (k + 1) h ts = (if ts.length % 2 ≠ 0 then joinLast h ts else some (h, ts)).bind fun x =>
          (pairUp x.1 x.2).bind fun y => buildF k y.1 y.2 := by
        match ts, h1 with
        | [], _ => rfl
        | [a], h1 => exact absurd ⟨a, rfl⟩ h1
        | _ :: _ :: _, _ => rfl
      rw [e1, List.length_map] at hr
      have key : ∀ {h1 : Heap} {us : List HRope}, h <+: h1 → AllOk h1 Q us → (do Rope.buildF k (← Rope.pairUp (us.map (val h1)))) = some r →
          ∃ h' t, ((pairUp h1 us).bind fun y => buildF k y.1 y.2) = some (h', t) ∧ h <+: h' ∧ t.Ok h' ∧ (∀ s ∈ t.slices, Q s) ∧ t.val h' = r := by
        intro h1 us hx hu hb
        cases hp : Rope.pairUp (us.map (val h1)) with
        | none => rw [hp] at hb; cases hb
        | some rs =>
          rw [hp] at hb
          have hn1 := Nat.le_trans hn hx.length_le
          obtain ⟨h2, us', f1, f2, f3, rfl⟩ := pairUp_spec hQ hn1 hu hp
          obtain ⟨h3, t, g1, g2, g3, g4, g5⟩ := ih (Nat.le_trans hn1 f2.length_le) f3 hb
          refine ⟨h3, t, ?_, (hx.trans f2).trans g2, g3, g4, g5⟩
          rw [f1]; exact g1
      rw [e2]
      split at hr
      · rename_i ho
        rw [if_pos ho]
        cases hj : Rope.joinLast (ts.map (val h)) with
        | none => rw [hj] at hr; cases hr
        | some rs =>
          rw [hj] at hr
          obtain ⟨h1, us, f1, f2, f3, rfl⟩ := joinLast_spec hQ hn ht hj
          rw [f1]
          exact key f2 f3 hr
      · rename_i ho
        rw [if_neg ho]
        exact key (List.prefix_refl h) ht hr

end

theorem chunk_read {h : Heap} {s : Sl} (o c : Nat) (hle : o + c ≤ s.len) : h.read ⟨s.arr, s.off + o, c, c⟩ = ((h.read s).drop o).take c := by
  unfold Heap.read
  rw [← List.drop_drop]
  show ((h.array s.arr).drop s.off |>.drop o).take c = ((((h.array s.arr).drop s.off).take s.len).drop o).take c
  rw [List.drop_take, List.take_take, Nat.min_eq_left (by omega)]

theorem sub_ok {h : Heap} {s : Sl} (hs : s.Ok h) {o c : Nat} (hle : o + c ≤ s.len) : Sl.Ok h ⟨s.arr, s.off + o, c, c⟩ := by
  obtain ⟨h1, h2, h3⟩ := hs
  exact ⟨h1, by show s.off + o + c ≤ (h.array s.arr).length; omega, Nat.le_refl _⟩

/-- All slices are without room, in the array of `s` or new. -/
def From (n a : Nat) (s : Sl) : Prop := s.len = s.cap ∧ (s.arr = a ∨ n ≤ s.arr)

theorem newWithOpts_spec {h : Heap} {s : Sl} (hs : s.Ok h) {o : Opts} {r : Rope} (hr : Rope.newWithOpts (h.read s) o = some r) :
    ∃ h' t, newWithOpts h s o = some (h', t) ∧ h <+: h' ∧ t.Ok h' ∧ (∀ x ∈ t.slices, From h.length s.arr x) ∧ t.val h' = r := by
  unfold Rope.newWithOpts at hr
  unfold newWithOpts
  split at hr
  · cases hr
  · rename_i hsp
    rw [if_neg hsp]
    have hmul : s.len / o.split * o.split ≤ s.len := Nat.div_mul_le_self _ _
    have hchunk : ∀ i < s.len / o.split, i * o.split + o.split ≤ s.len := by
      intro i hi
      have : (i + 1) * o.split ≤ s.len / o.split * o.split := Nat.mul_le_mul_right _ hi
      rw [Nat.add_mul, Nat.one_mul] at this
      omega
    have hrest : s.len / o.split * o.split + (s.len - s.len / o.split * o.split) ≤ s.len := by omega
    have hall : AllOk h (From h.length s.arr) ((List.range (s.len / o.split)).map (chunk h o s) ++ [rest h o s]) := by
      intro t ht
      rcases List.mem_append.1 ht with ht | ht
      · obtain ⟨i, hi, rfl⟩ := List.mem_map.1 ht
        refine ⟨⟨sub_ok hs (hchunk i (List.mem_range.1 hi)), rfl⟩, fun x hx => ?_⟩
        rw [show x = _ from List.mem_singleton.1 hx]
        exact ⟨rfl, Or.inl rfl⟩
      · rw [List.mem_singleton.1 ht]
        refine ⟨⟨sub_ok hs hrest, rfl⟩, fun x hx => ?_⟩
        rw [show x = _ from List.mem_singleton.1 hx]
        exact ⟨rfl, Or.inl rfl⟩
    have hval : ((List.range (s.len / o.split)).map (chunk h o s) ++ [rest h o s]).map (val h) =
        (List.range ((h.read s).length / o.split)).map (Rope.chunk o (h.read s)) ++ [Rope.rest o (h.read s)] := by
      rw [Heap.read_length hs, List.map_append, List.map_map]
      congr 1
      · refine List.map_congr_left fun i hi => ?_
        have hi := hchunk i (List.mem_range.1 hi)
        show (mkLeaf h o _).val h = _
        rw [val_mkLeaf (sub_ok hs hi), chunk_read _ _ hi]
        rfl
      · show [(mkLeaf h o _).val h] = _
        rw [val_mkLeaf (sub_ok hs hrest), chunk_read _ _ hrest]
        unfold Rope.rest
        rw [Heap.read_length hs, List.take_of_length_le]
        rw [List.length_drop, Heap.read_length hs]
        omega
    unfold Rope.buildTree at hr
    rw [← hval, List.length_map] at hr
    obtain ⟨h', t, b1, b2, b3, b4, b5⟩ := buildF_spec (n0 := h.length) (fun x hx hl => ⟨hl, Or.inr hx⟩) _ (Nat.le_refl _) hall hr
    exact ⟨h', t, b1, b2, b3, b4, b5⟩

end HRope
end Gpeg.Linerope
