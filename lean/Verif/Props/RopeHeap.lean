import Verif.RopeHeapSplit
import Verif.Props.Rope
/-! # C69: ropes in memory

The scripts of C36, but ropes are made of byte slices in a common memory, and the texts for `NewWithOpts` and `Insert` are buffers of the client. -/
namespace Gpeg.Linerope

/-- One call of a client, or a use of a buffer. -/
inductive MOp where
  /-- A new buffer with the contents `b`, `make([]byte, len(b), cap)`. -/
  | buf (b : Bytes) (cap : Nat)
  /-- `copy(buffer i, b)`. -/
  | fill (i : Nat) (b : Bytes)
  /-- `NewWithOpts(buffer i, o)`. -/
  | new (i : Nat) (o : Opts)
  /-- `Insert(p, buffer i)`. -/
  | insert (p i : Nat)
  | pick (i : Nat)
  | remove (s e : Nat)
  | split (k : Nat)
  | join (n : Nat)

/-- The specification: texts and buffers are lists. A buffer that has been given to `NewWithOpts` belongs to the rope: it is marked and
must not be filled any more. -/
def tstep : List Bytes × List (Bytes × Bool) → MOp → Option (List Bytes × List (Bytes × Bool))
  | (ts, bs), .buf b cap => if b.length ≤ cap then some (ts, bs ++ [(b, false)]) else none
  | (ts, bs), .fill i b => bs[i]?.bind fun c => if c.2 = false ∧ b.length = c.1.length then some (ts, bs.set i (b, false)) else none
  | (ts, bs), .new i o => bs[i]?.bind fun c => (textAlg.step ts (.new c.1 o)).map fun ts => (ts, bs.set i (c.1, true))
  | (ts, bs), .insert p i => bs[i]?.bind fun c => (textAlg.step ts (.insert p c.1)).map fun ts => (ts, bs)
  | (ts, bs), .pick i => (textAlg.step ts (.pick i)).map fun ts => (ts, bs)
  | (ts, bs), .remove s e => (textAlg.step ts (.remove s e)).map fun ts => (ts, bs)
  | (ts, bs), .split k => (textAlg.step ts (.split k)).map fun ts => (ts, bs)
  | (ts, bs), .join n => (textAlg.step ts (.join n)).map fun ts => (ts, bs)

def trun : List Bytes × List (Bytes × Bool) → List MOp → Option (List Bytes × List (Bytes × Bool))
  | x, [] => some x
  | x, op :: ops => (tstep x op).bind fun y => trun y ops

/-- The memory, the ropes and the buffers. -/
structure Mem where
  heap : Heap
  ropes : List HRope
  bufs : List Sl

/-- The code. -/
def Mem.step : Mem → MOp → Option Mem
  | ⟨h, rs, ss⟩, .buf b cap => some ⟨(h.alloc b cap).1, rs, ss ++ [(h.alloc b cap).2]⟩
  | ⟨h, rs, ss⟩, .fill i b => ss[i]?.map fun s => ⟨h.write s.arr s.off b, rs, ss⟩
  | ⟨h, rs, ss⟩, .new i o => ss[i]?.bind fun s => (HRope.newWithOpts h s o).map fun x => ⟨x.1, x.2 :: rs, ss⟩
  | ⟨h, r :: rs, ss⟩, .insert p i => ss[i]?.bind fun s => (r.insert h p s).map fun x => ⟨x.1, x.2 :: rs, ss⟩
  | ⟨h, rs, ss⟩, .pick i => rs[i]?.map fun r => ⟨h, r :: rs.eraseIdx i, ss⟩
  | ⟨h, r :: rs, ss⟩, .remove s e => (r.remove h s e).map fun x => ⟨x.1, x.2 :: rs, ss⟩
  | ⟨h, r :: rs, ss⟩, .split k => (r.splitAt h k).map fun x => ⟨x.1, x.2.1 :: x.2.2 :: rs, ss⟩
  | ⟨h, a :: b :: rs, ss⟩, .join n =>
    if n ≤ rs.length then some ⟨(HRope.joinAll h a b (rs.take n)).1, (HRope.joinAll h a b (rs.take n)).2 :: rs.drop n, ss⟩ else none
  | _, _ => none

def Mem.run : Mem → List MOp → Option Mem
  | m, [] => some m
  | m, op :: ops => (m.step op).bind fun m => m.run ops

/-! ## The invariant -/

/-- The memory of ropes and buffers. `S` are slices that ropes have handed out, with their contents. -/
structure MInv (P : Opts → Prop) (S : List (Sl × Bytes)) (m : Mem) (ts : List Bytes) (bs : List (Bytes × Bool)) : Prop where
  ok : ∀ r ∈ m.ropes, r.Ok m.heap
  own : (m.ropes.flatMap HRope.slices).Pairwise Sl.Sep
  pool : Pool P (m.ropes.map (HRope.val m.heap)) ts
  len : m.bufs.length = bs.length
  buf : ∀ (i : Nat) (s : Sl) (c : Bytes × Bool), m.bufs[i]? = some s → bs[i]? = some c → s.Ok m.heap ∧ m.heap.read s = c.1 ∧
    (∀ x ∈ m.ropes.flatMap HRope.slices, x.Wr → x.arr ≠ s.arr) ∧ (c.2 = false → ∀ x ∈ m.ropes.flatMap HRope.slices, x.arr ≠ s.arr)
  dist : ∀ (i j : Nat) (s s' : Sl), i ≠ j → m.bufs[i]? = some s → m.bufs[j]? = some s' → s.arr ≠ s'.arr
  snap : ∀ p ∈ S, p.1.Ok m.heap ∧ m.heap.read p.1 = p.2 ∧ (∀ x ∈ m.ropes.flatMap HRope.slices, x.Wr → x.arr ≠ p.1.arr) ∧
    ∀ (i : Nat) (s : Sl) (c : Bytes × Bool), m.bufs[i]? = some s → bs[i]? = some c → c.2 = false → s.arr ≠ p.1.arr

theorem Sl.Ok.congr {h h' : Heap} {s : Sl} (hs : s.Ok h) (hl : h.length ≤ h'.length) (ha : h'.array s.arr = h.array s.arr) : s.Ok h' :=
  ⟨Nat.lt_of_lt_of_le hs.arr hl, by rw [ha]; exact hs.cap, hs.len⟩

theorem Sl.Sep.symm {a b : Sl} (h : a.Sep b) : b.Sep a := fun hw => Ne.symm (h hw.symm)

theorem flat_ok {rs : List HRope} {h : Heap} (hr : ∀ r ∈ rs, r.Ok h) : ∀ x ∈ rs.flatMap HRope.slices, x.Ok h := by
  intro x hx
  obtain ⟨r, h1, h2⟩ := List.mem_flatMap.1 hx
  exact (hr r h1).slices x h2

theorem eraseIdx_perm {α : Type} : ∀ {l : List α} {i : Nat} {x : α}, l[i]? = some x → (x :: l.eraseIdx i).Perm l
  | [], i, x, h => by simp at h
  | y :: l, 0, x, h => by cases h; exact List.Perm.refl _
  | y :: l, i + 1, x, h => (List.Perm.swap y x _).trans ((eraseIdx_perm (l := l) (i := i) h).cons y)

theorem map_eraseIdx' {α β : Type} (f : α → β) : ∀ (l : List α) (i : Nat), (l.map f).eraseIdx i = (l.eraseIdx i).map f
  | [], _ => rfl
  | _ :: _, 0 => rfl
  | y :: l, i + 1 => congrArg (f y :: ·) (map_eraseIdx' f l i)

/-- An operation on the first ropes. -/
theorem MInv.edit {P : Opts → Prop} {S : List (Sl × Bytes)} {h h' : Heap} {A A' R : List HRope} {ss : List Sl} {ts ts' : List Bytes} {bs : List (Bytes × Bool)}
    (hi : MInv P S ⟨h, A ++ R, ss⟩ ts bs) (ok : ∀ r ∈ A', r.Ok h') (own : (A'.flatMap HRope.slices).Pairwise Sl.Sep) (len : h.length ≤ h'.length)
    (keep : ∀ a < h.length, (∀ s ∈ A.flatMap HRope.slices, s.Wr → s.arr ≠ a) → h'.array a = h.array a)
    (old : ∀ s ∈ A'.flatMap HRope.slices, (∃ s0 ∈ A.flatMap HRope.slices, s0.arr = s.arr ∧ (s.Wr → s0.Wr)) ∨ h.length ≤ s.arr)
    (pool : R.map (HRope.val h') = R.map (HRope.val h) → Pool P ((A' ++ R).map (HRope.val h')) ts') : MInv P S ⟨h', A' ++ R, ss⟩ ts' bs := by
  have ho := hi.own
  simp only [List.flatMap_append] at ho
  obtain ⟨p1, p2, p3⟩ := List.pairwise_append.1 ho
  have hRok : ∀ r ∈ R, r.Ok h := fun r hr => hi.ok r (List.mem_append_right _ hr)
  have hR : ∀ x ∈ R.flatMap HRope.slices, h'.array x.arr = h.array x.arr := fun x hx =>
    keep _ (flat_ok hRok x hx).arr fun s hs hw => p3 s hs x hx (Or.inl hw)
  have hR' : ∀ r ∈ R, ∀ s ∈ r.slices, h'.array s.arr = h.array s.arr := fun r hr s hs => hR s (List.mem_flatMap.2 ⟨r, hr, hs⟩)
  refine ⟨?_, ?_, pool (List.map_congr_left fun r hr => HRope.val_congr (hR' r hr)), hi.len, ?_, hi.dist, ?_⟩
  · intro r hr
    rcases List.mem_append.1 hr with hr | hr
    · exact ok r hr
    · exact HRope.ok_congr len (hR' r hr) (hRok r hr)
  · simp only [List.flatMap_append]
    refine List.pairwise_append.2 ⟨own, p2, fun a ha b hb hw e => ?_⟩
    rcases old a ha with ⟨s0, h0, e0, w0⟩ | hn
    · exact p3 s0 h0 b hb (hw.imp_left w0) (e0.trans e)
    · have := (flat_ok hRok b hb).arr
      omega
  · intro i s c hs hc
    obtain ⟨b1, b2, b3, b4⟩ := hi.buf i s c hs hc
    have b1 : s.Ok h := b1
    simp only [List.flatMap_append] at b3 b4
    have hk : h'.array s.arr = h.array s.arr := keep _ b1.arr fun x hx => b3 x (List.mem_append_left _ hx)
    refine ⟨b1.congr len hk, (Heap.read_eq hk).trans b2, fun x hx hw => ?_, fun hf x hx => ?_⟩ <;> simp only [List.flatMap_append] at hx
    · rcases List.mem_append.1 hx with hx | hx
      · rcases old x hx with ⟨s0, h0, e0, w0⟩ | hn
        · rw [← e0]
          exact b3 s0 (List.mem_append_left _ h0) (w0 hw)
        · have := b1.arr
          show x.arr ≠ s.arr
          omega
      · exact b3 x (List.mem_append_right _ hx) hw
    · rcases List.mem_append.1 hx with hx | hx
      · rcases old x hx with ⟨s0, h0, e0, w0⟩ | hn
        · rw [← e0]
          exact b4 hf s0 (List.mem_append_left _ h0)
        · have := b1.arr
          show x.arr ≠ s.arr
          omega
      · exact b4 hf x (List.mem_append_right _ hx)
  · intro p hp
    obtain ⟨b1, b2, b3, b4⟩ := hi.snap p hp
    have b1 : p.1.Ok h := b1
    simp only [List.flatMap_append] at b3
    have hk : h'.array p.1.arr = h.array p.1.arr := keep _ b1.arr fun x hx => b3 x (List.mem_append_left _ hx)
    refine ⟨b1.congr len hk, (Heap.read_eq hk).trans b2, fun x hx hw => ?_, b4⟩
    simp only [List.flatMap_append] at hx
    rcases List.mem_append.1 hx with hx | hx
    · rcases old x hx with ⟨s0, h0, e0, w0⟩ | hn
      · rw [← e0]
        exact b3 s0 (List.mem_append_left _ h0) (w0 hw)
      · have := b1.arr
        show x.arr ≠ p.1.arr
        omega
    · exact b3 x (List.mem_append_right _ hx) hw

/-- An edit of the first rope. -/
theorem MInv.edits {P : Opts → Prop} {S : List (Sl × Bytes)} {h h' : Heap} {r r' : HRope} {R : List HRope} {ss : List Sl} {ts ts' : List Bytes} {bs : List (Bytes × Bool)}
    (hi : MInv P S ⟨h, r :: R, ss⟩ ts bs) (he : HRope.Edits h r h' r') (hp : Pool P (r'.val h' :: R.map (HRope.val h)) ts') : MInv P S ⟨h', r' :: R, ss⟩ ts' bs := by
  have e1 : ∀ t : HRope, [t].flatMap HRope.slices = t.slices := fun t => List.append_nil _
  refine MInv.edit (A := [r]) (A' := [r']) hi ?_ ?_ he.len ?_ ?_ ?_
  · intro x hx
    rw [List.mem_singleton.1 hx]
    exact he.ok
  · rw [e1]; exact he.own
  · rw [e1]
    exact fun a ha hw => he.keep a ha fun ⟨s, h1, h2, h3⟩ => hw s h1 h2 h3
  · rw [e1, e1]; exact he.old
  · intro hm
    show Pool P (r'.val h' :: R.map (HRope.val h')) ts'
    rw [hm]; exact hp

theorem MInv.own_head {P : Opts → Prop} {S : List (Sl × Bytes)} {h : Heap} {r : HRope} {R : List HRope} {ss : List Sl} {ts : List Bytes} {bs : List (Bytes × Bool)}
    (hi : MInv P S ⟨h, r :: R, ss⟩ ts bs) : r.Own := (List.pairwise_append.1 (show (r.slices ++ R.flatMap HRope.slices).Pairwise Sl.Sep from hi.own)).1

section steps
variable {P : Opts → Prop} {S : List (Sl × Bytes)} {h : Heap} {rs : List HRope} {ss : List Sl} {ts ts' : List Bytes} {bs bs' : List (Bytes × Bool)}

theorem MInv.getBuf (hi : MInv P S ⟨h, rs, ss⟩ ts bs) {i : Nat} {c : Bytes × Bool} (hc : bs[i]? = some c) : ∃ s, ss[i]? = some s := by
  have hl : ss.length = bs.length := hi.len
  obtain ⟨hlt, _⟩ := List.getElem?_eq_some_iff.1 hc
  exact ⟨ss[i], List.getElem?_eq_getElem (by omega)⟩

theorem step_buf (hi : MInv P S ⟨h, rs, ss⟩ ts bs) (b : Bytes) {cap : Nat} (hc : b.length ≤ cap) :
    MInv P S ⟨(h.alloc b cap).1, rs, ss ++ [(h.alloc b cap).2]⟩ ts (bs ++ [(b, false)]) := by
  have hl : ss.length = bs.length := hi.len
  have hx := Heap.alloc_ext h b cap
  have hi' : MInv P S ⟨(h.alloc b cap).1, rs, ss⟩ ts bs := by
    refine MInv.edit (A := []) (A' := []) (R := rs) hi (fun r hr => by cases hr) List.Pairwise.nil hx.length_le (fun a ha _ => Heap.array_ext hx ha)
      (fun s hs => by cases hs) (fun hm => ?_)
    show Pool P (rs.map (HRope.val (h.alloc b cap).1)) ts
    rw [hm]; exact hi.pool
  have hfl : ∀ x ∈ rs.flatMap HRope.slices, x.arr ≠ h.length := fun x hx => Nat.ne_of_lt (flat_ok hi.ok x hx).arr
  have hget : ∀ {i : Nat} {s : Sl}, (ss ++ [(h.alloc b cap).2])[i]? = some s → ss[i]? = some s ∨ (i = ss.length ∧ s = (h.alloc b cap).2) := by
    intro i s hs
    rw [List.getElem?_append] at hs
    split at hs
    · exact Or.inl hs
    · have : i - ss.length = 0 := by
        have := (List.getElem?_eq_some_iff.1 hs).1
        simp at this; omega
      rw [this] at hs
      cases hs
      exact Or.inr ⟨by omega, rfl⟩
  have hsm : ∀ {i : Nat} {s : Sl}, ss[i]? = some s → s.arr ≠ h.length := by
    intro i s hs
    obtain ⟨hlt, _⟩ := List.getElem?_eq_some_iff.1 hs
    exact Nat.ne_of_lt (hi.buf i s bs[i] hs (List.getElem?_eq_getElem (by omega))).1.arr
  refine ⟨hi'.ok, hi'.own, hi'.pool, by simp [hl], ?_, ?_, ?_⟩
  · intro i s c hs hc'
    rcases hget hs with hs | ⟨hie, rfl⟩
    · refine hi'.buf i s c hs ?_
      rw [List.getElem?_append_left] at hc'
      · exact hc'
      · have := (List.getElem?_eq_some_iff.1 hs).1
        omega
    · rw [hie, hl, List.getElem?_concat_length] at hc'
      cases hc'
      exact ⟨Heap.alloc_ok h hc, Heap.alloc_read h b cap, fun x hx _ => hfl x hx, fun _ x hx => hfl x hx⟩
  · intro i j s s' hij hs hs'
    rcases hget hs with hs | ⟨hie, rfl⟩ <;> rcases hget hs' with hs' | ⟨hje, rfl⟩
    · exact hi.dist i j s s' hij hs hs'
    · exact hsm hs
    · exact Ne.symm (hsm hs')
    · omega
  · intro p hp
    obtain ⟨b1, b2, b3, b4⟩ := hi'.snap p hp
    refine ⟨b1, b2, b3, fun i s c hs hc' hf => ?_⟩
    rcases hget hs with hs | ⟨hie, rfl⟩
    · refine b4 i s c hs ?_ hf
      rw [List.getElem?_append_left] at hc'
      · exact hc'
      · have := (List.getElem?_eq_some_iff.1 hs).1
        omega
    · have : p.1.arr < h.length := (hi.snap p hp).1.arr
      exact Ne.symm (Nat.ne_of_lt this)

theorem step_fill (hi : MInv P S ⟨h, rs, ss⟩ ts bs) {i : Nat} {c b : Bytes} (hc : bs[i]? = some (c, false)) (hb : b.length = c.length) {s : Sl} (hs : ss[i]? = some s) :
    MInv P S ⟨h.write s.arr s.off b, rs, ss⟩ ts (bs.set i (b, false)) := by
  obtain ⟨b1, b2, b3, b4⟩ := hi.buf i s _ hs hc
  have b1 : s.Ok h := b1
  have hne := b4 rfl
  have hlen : b.length = s.len := by rw [hb, ← Heap.read_length b1, b2]
  have hsz : s.off + b.length ≤ (h.array s.arr).length := by
    have := b1.cap
    have := b1.len
    omega
  have hk : ∀ {a : Nat}, a ≠ s.arr → (h.write s.arr s.off b).array a = h.array a := fun ha => Heap.write_ne ha _ _
  have hkr : ∀ r ∈ rs, ∀ x ∈ r.slices, (h.write s.arr s.off b).array x.arr = h.array x.arr :=
    fun r hr x hx => hk (hne x (List.mem_flatMap.2 ⟨r, hr, hx⟩))
  have hwl : h.length ≤ (h.write s.arr s.off b).length := by rw [Heap.write_length]; exact Nat.le_refl _
  refine ⟨fun r hr => HRope.ok_congr hwl (hkr r hr) (hi.ok r hr), hi.own, ?_, by rw [List.length_set]; exact hi.len, ?_, hi.dist, ?_⟩
  · show Pool P (rs.map (HRope.val (h.write s.arr s.off b))) ts
    rw [List.map_congr_left (g := HRope.val h) fun r hr => HRope.val_congr (hkr r hr)]
    exact hi.pool
  · intro j s' c' hs' hc'
    by_cases hij : i = j
    · subst hij
      have e : s' = s := Option.some.inj (hs'.symm.trans hs)
      subst e
      rw [List.getElem?_set_self (List.getElem?_eq_some_iff.1 hc).1] at hc'
      cases hc'
      refine ⟨⟨Nat.lt_of_lt_of_le b1.arr hwl, ?_, b1.len⟩, ?_, b3, fun _ => hne⟩
      · show s'.off + s'.cap ≤ ((h.write s'.arr s'.off b).array s'.arr).length
        rw [Heap.write_size b1.arr hsz]
        exact b1.cap
      · show (((h.write s'.arr s'.off b).array s'.arr).drop s'.off).take s'.len = b
        rw [Heap.write_array b1.arr]
        refine HRope.read_mid ?_ hlen
        rw [List.length_take]; omega
    · rw [List.getElem?_set_ne hij] at hc'
      obtain ⟨d1, d2, d3, d4⟩ := hi.buf j s' c' hs' hc'
      have := hk (hi.dist j i s' s (Ne.symm hij) hs' hs)
      exact ⟨d1.congr hwl this, (Heap.read_eq this).trans d2, d3, d4⟩
  · intro p hp
    obtain ⟨d1, d2, d3, d4⟩ := hi.snap p hp
    have := hk (Ne.symm (d4 i s _ hs hc rfl))
    refine ⟨d1.congr hwl this, (Heap.read_eq this).trans d2, d3, fun j s' c' hs' hc' hf => ?_⟩
    by_cases hij : i = j
    · subst hij
      exact d4 i s' _ hs' hc rfl
    · rw [List.getElem?_set_ne hij] at hc'
      exact d4 j s' c' hs' hc' hf

theorem step_new (hi : MInv P S ⟨h, rs, ss⟩ ts bs) {i : Nat} {c : Bytes × Bool} (hc : bs[i]? = some c) {s : Sl} (hs : ss[i]? = some s) {o : Opts} {x : Rope}
    (hx : Rope.newWithOpts c.1 o = some x) (hp : Pool P (x :: rs.map (HRope.val h)) ts') :
    ∃ h' r, HRope.newWithOpts h s o = some (h', r) ∧ MInv P S ⟨h', r :: rs, ss⟩ ts' (bs.set i (c.1, true)) := by
  obtain ⟨b1, b2, b3, b4⟩ := hi.buf i s c hs hc
  have b1 : s.Ok h := b1
  have b2 : h.read s = c.1 := b2
  rw [← b2] at hx
  obtain ⟨h', r, e1, e2, e3, e4, rfl⟩ := HRope.newWithOpts_spec b1 hx
  refine ⟨h', r, e1, ?_, ?_, ?_, by rw [List.length_set]; exact hi.len, ?_, hi.dist, ?_⟩
  · intro t ht
    rcases List.mem_cons.1 ht with rfl | ht
    · exact e3
    · exact HRope.ok_ext e2 (hi.ok t ht)
  · show (r.slices ++ rs.flatMap HRope.slices).Pairwise Sl.Sep
    refine List.pairwise_append.2 ⟨HRope.own_ro fun x hx => (e4 x hx).1, hi.own, fun a ha b hb hw e => ?_⟩
    obtain ⟨f1, f2⟩ := e4 a ha
    have hw : b.Wr := by
      rcases hw with hw | hw
      · unfold Sl.Wr at hw; omega
      · exact hw
    rcases f2 with f2 | f2
    · exact b3 b hb hw (by rw [← e, f2])
    · have : b.arr < h.length := (flat_ok hi.ok b hb).arr
      omega
  · show Pool P (r.val h' :: rs.map (HRope.val h')) ts'
    rw [List.map_congr_left (g := HRope.val h) fun t ht => HRope.val_ext e2 (hi.ok t ht)]
    exact hp
  · intro j s' c' hs' hc'
    have hold : ∃ c0, bs[j]? = some c0 ∧ c0.1 = c'.1 ∧ (c'.2 = false → c0.2 = false ∧ i ≠ j) := by
      by_cases hij : i = j
      · subst hij
        rw [List.getElem?_set_self (List.getElem?_eq_some_iff.1 hc).1] at hc'
        cases hc'
        exact ⟨c, hc, rfl, fun h => by cases h⟩
      · rw [List.getElem?_set_ne hij] at hc'
        exact ⟨c', hc', rfl, fun h => ⟨h, hij⟩⟩
    obtain ⟨c0, g1, g2, g3⟩ := hold
    obtain ⟨d1, d2, d3, d4⟩ := hi.buf j s' c0 hs' g1
    have hk : h'.array s'.arr = h.array s'.arr := Heap.array_ext e2 d1.arr
    refine ⟨d1.congr e2.length_le hk, ((Heap.read_eq hk).trans d2).trans g2, fun x hx hw => ?_, fun hf x hx => ?_⟩
    · rcases List.mem_append.1 (show x ∈ r.slices ++ rs.flatMap HRope.slices from hx) with hx | hx
      · have := (e4 x hx).1
        unfold Sl.Wr at hw; omega
      · exact d3 x hx hw
    · rcases List.mem_append.1 (show x ∈ r.slices ++ rs.flatMap HRope.slices from hx) with hx | hx
      · rcases (e4 x hx).2 with f | f
        · rw [f]
          exact hi.dist i j s s' (g3 hf).2 hs hs'
        · have : s'.arr < h.length := d1.arr
          omega
      · exact d4 (g3 hf).1 x hx
  · intro p hp
    obtain ⟨d1, d2, d3, d4⟩ := hi.snap p hp
    have hk : h'.array p.1.arr = h.array p.1.arr := Heap.array_ext e2 d1.arr
    refine ⟨d1.congr e2.length_le hk, (Heap.read_eq hk).trans d2, fun x hx hw => ?_, fun j s' c' hs' hc' hf => ?_⟩
    · rcases List.mem_append.1 (show x ∈ r.slices ++ rs.flatMap HRope.slices from hx) with hx | hx
      · have := (e4 x hx).1
        unfold Sl.Wr at hw; omega
      · exact d3 x hx hw
    · by_cases hij : i = j
      · subst hij
        rw [List.getElem?_set_self (List.getElem?_eq_some_iff.1 hc).1] at hc'
        cases hc'
        cases hf
      · rw [List.getElem?_set_ne hij] at hc'
        exact d4 j s' c' hs' hc' hf

end steps

theorem step_inv {P : Opts → Prop} {S : List (Sl × Bytes)} (hP : ∀ o, P o → 0 < o.split) {m : Mem} {ts ts' : List Bytes} {bs bs' : List (Bytes × Bool)} {op : MOp}
    (hop : ∀ i o, op = .new i o → o.split ≠ 0 → P o) (hi : MInv P S m ts bs) (hs : tstep (ts, bs) op = some (ts', bs')) :
    ∃ m', m.step op = some m' ∧ MInv P S m' ts' bs' := by
  obtain ⟨h, rs, ss⟩ := m
  cases op with
  | buf b cap =>
    have hs : (if b.length ≤ cap then some (ts, bs ++ [(b, false)]) else none) = some (ts', bs') := hs
    split at hs
    · rename_i hc
      cases hs
      exact ⟨_, rfl, step_buf hi b hc⟩
    · cases hs
  | fill i b =>
    obtain ⟨⟨c, u⟩, hc, hs⟩ := Option.bind_eq_some_iff.1 (show (bs[i]?).bind _ = some (ts', bs') from hs)
    split at hs
    · rename_i hcc
      obtain ⟨rfl, hb⟩ : u = false ∧ b.length = c.length := hcc
      cases hs
      obtain ⟨s, hs⟩ := hi.getBuf hc
      exact ⟨_, by show (ss[i]?).map _ = _; rw [hs]; rfl, step_fill hi hc hb hs⟩
    · cases hs
  | new i o =>
    obtain ⟨c, hc, hs⟩ := Option.bind_eq_some_iff.1 (show (bs[i]?).bind _ = some (ts', bs') from hs)
    obtain ⟨ts1, h1, h2⟩ := Option.map_eq_some_iff.1 hs
    cases h2
    obtain ⟨s, hs⟩ := hi.getBuf hc
    obtain ⟨rs', e1, e2⟩ := step_pool hP (fun b o' he => by cases he; exact hop i o rfl) hi.pool h1
    obtain ⟨x, f1, f2⟩ := Option.map_eq_some_iff.1 (show (Rope.newWithOpts c.1 o).map _ = _ from e1)
    subst f2
    obtain ⟨h', r, g1, g2⟩ := step_new hi hc hs f1 e2
    exact ⟨_, by show (ss[i]?).bind _ = _; rw [hs, Option.bind_some, g1]; rfl, g2⟩
  | insert p i =>
    obtain ⟨c, hc, hs⟩ := Option.bind_eq_some_iff.1 (show (bs[i]?).bind _ = some (ts', bs') from hs)
    obtain ⟨ts1, h1, h2⟩ := Option.map_eq_some_iff.1 hs
    cases h2
    obtain ⟨s, hs⟩ := hi.getBuf hc
    obtain ⟨rs', e1, e2⟩ := step_pool hP (fun b o' he => by cases he) hi.pool h1
    cases rs with
    | nil => cases e1
    | cons r rs =>
      obtain ⟨x, f1, f2⟩ := Option.map_eq_some_iff.1 (show ((r.val h).insert p c.1).map _ = _ from e1)
      subst f2
      obtain ⟨b1, b2, b3, b4⟩ := hi.buf i s c hs hc
      rw [← b2] at f1
      obtain ⟨h', r', g1, g2, rfl⟩ := HRope.insert_spec (hi.ok r List.mem_cons_self) hi.own_head b1
        (fun ⟨y, hy, hw, e⟩ => b3 y (List.mem_append_left _ hy) hw e) f1
      exact ⟨⟨h', r' :: rs, ss⟩, by show (ss[i]?).bind _ = _; rw [hs, Option.bind_some, g1]; rfl, hi.edits g2 e2⟩
  | pick i =>
    obtain ⟨ts1, h1, h2⟩ := Option.map_eq_some_iff.1 (show (textAlg.step ts (.pick i)).map _ = some (ts', bs') from hs)
    cases h2
    obtain ⟨rs', e1, e2⟩ := step_pool hP (fun b o' he => by cases he) hi.pool h1
    obtain ⟨x, f1, f2⟩ := Option.map_eq_some_iff.1 (show ((rs.map (HRope.val h))[i]?).map _ = _ from e1)
    subst f2
    rw [List.getElem?_map] at f1
    obtain ⟨r, g1, g2⟩ := Option.map_eq_some_iff.1 f1
    subst g2
    have hperm : (r :: rs.eraseIdx i).Perm rs := eraseIdx_perm g1
    refine ⟨⟨h, r :: rs.eraseIdx i, ss⟩, by show (rs[i]?).map _ = _; rw [g1]; rfl, ?_⟩
    have key := MInv.edit (A := rs) (A' := r :: rs.eraseIdx i) (R := []) (h' := h) (ts' := ts') (by rw [List.append_nil]; exact hi) (fun t ht => hi.ok t (hperm.mem_iff.1 ht))
      ((hperm.flatMap_right HRope.slices).symm.pairwise hi.own Sl.Sep.symm) (Nat.le_refl _) (fun _ _ _ => rfl)
      (fun s hs => Or.inl ⟨s, (hperm.flatMap_right HRope.slices).mem_iff.1 hs, rfl, id⟩)
      (fun _ => by
        rw [List.append_nil, List.map_cons, ← map_eraseIdx']
        exact e2)
    rw [List.append_nil] at key
    exact key
  | remove s e =>
    obtain ⟨ts1, h1, h2⟩ := Option.map_eq_some_iff.1 (show (textAlg.step ts (.remove s e)).map _ = some (ts', bs') from hs)
    cases h2
    obtain ⟨rs', e1, e2⟩ := step_pool hP (fun b o' he => by cases he) hi.pool h1
    cases rs with
    | nil => cases e1
    | cons r rs =>
      obtain ⟨x, f1, f2⟩ := Option.map_eq_some_iff.1 (show ((r.val h).remove s e).map _ = _ from e1)
      subst f2
      obtain ⟨h', r', g1, g2, rfl⟩ := HRope.remove_spec (hi.ok r List.mem_cons_self) hi.own_head f1
      exact ⟨⟨h', r' :: rs, ss⟩, by show (r.remove h s e).map _ = _; rw [g1]; rfl, hi.edits g2 e2⟩
  | split k =>
    obtain ⟨ts1, h1, h2⟩ := Option.map_eq_some_iff.1 (show (textAlg.step ts (.split k)).map _ = some (ts', bs') from hs)
    cases h2
    obtain ⟨rs', e1, e2⟩ := step_pool hP (fun b o' he => by cases he) hi.pool h1
    cases rs with
    | nil => cases e1
    | cons r rs =>
      obtain ⟨⟨x, y⟩, f1, f2⟩ := Option.map_eq_some_iff.1 (show ((r.val h).splitAt k).map _ = _ from e1)
      subst f2
      obtain ⟨h', a, b, g1, -, g2, rfl, rfl⟩ := HRope.splitAt_spec (hi.ok r List.mem_cons_self) hi.own_head f1
      refine ⟨⟨h', a :: b :: rs, ss⟩, by show (r.splitAt h k).map _ = _; rw [g1]; rfl, ?_⟩
      have e1 : [r].flatMap HRope.slices = r.slices := List.append_nil _
      have e2' : [a, b].flatMap HRope.slices = (HRope.mkNode a.opts a b).slices := by
        show a.slices ++ (b.slices ++ []) = a.slices ++ b.slices
        rw [List.append_nil]
      refine MInv.edit (A := [r]) (A' := [a, b]) hi ?_ (by rw [e2']; exact g2.own) g2.len ?_ (by rw [e1, e2']; exact g2.old) ?_
      · intro t ht
        rcases List.mem_cons.1 ht with rfl | ht
        · exact g2.ok.1
        · rw [List.mem_singleton.1 ht]; exact g2.ok.2
      · rw [e1]
        exact fun a ha hw => g2.keep a ha fun ⟨s, h1, h2, h3⟩ => hw s h1 h2 h3
      · intro hm
        show Pool P (a.val h' :: b.val h' :: rs.map (HRope.val h')) ts'
        rw [hm]; exact e2
  | join n =>
    obtain ⟨ts1, h1, h2⟩ := Option.map_eq_some_iff.1 (show (textAlg.step ts (.join n)).map _ = some (ts', bs') from hs)
    cases h2
    obtain ⟨rs', e1, e2⟩ := step_pool hP (fun b o' he => by cases he) hi.pool h1
    match rs, hi, e1 with
    | [], _, e1 => cases e1
    | [_], _, e1 => cases e1
    | a :: b :: rs, hi, e1 =>
      have e1 : (if n ≤ (rs.map (HRope.val h)).length then
        (Rope.joinAll (a.val h) (b.val h) ((rs.map (HRope.val h)).take n)).map (· :: (rs.map (HRope.val h)).drop n) else none) = some rs' := e1
      split at e1
      · rename_i hn
        rw [List.length_map] at hn
        rw [← List.map_take, ← List.map_drop] at e1
        have hsp : a :: b :: rs = (a :: b :: rs.take n) ++ rs.drop n := by simp
        rw [hsp] at hi
        have ho := hi.own
        simp only [List.flatMap_append] at ho
        have hok : ∀ t ∈ a :: b :: rs.take n, t.Ok h := fun t ht => hi.ok t (List.mem_append_left _ ht)
        obtain ⟨j1, j2, j3, j4, j5⟩ := HRope.joinAll_spec hok (List.pairwise_append.1 ho).1
        rw [j4] at e1
        cases e1
        refine ⟨⟨(HRope.joinAll h a b (rs.take n)).1, (HRope.joinAll h a b (rs.take n)).2 :: rs.drop n, ss⟩,
          by show (if n ≤ rs.length then _ else none) = _; rw [if_pos hn], ?_⟩
        have e1 : [(HRope.joinAll h a b (rs.take n)).2].flatMap HRope.slices = (HRope.joinAll h a b (rs.take n)).2.slices := List.append_nil _
        refine MInv.edit (A' := [(HRope.joinAll h a b (rs.take n)).2]) hi ?_ (by rw [e1]; exact j3) j1.length_le (fun a ha _ => Heap.array_ext j1 ha)
          (by rw [e1]; exact j5) ?_
        · intro t ht
          rw [List.mem_singleton.1 ht]; exact j2
        · intro hm
          show Pool P ((HRope.joinAll h a b (rs.take n)).2.val (HRope.joinAll h a b (rs.take n)).1 :: (rs.drop n).map (HRope.val (HRope.joinAll h a b (rs.take n)).1)) ts'
          rw [hm]; exact e2
      · cases e1

theorem run_inv {P : Opts → Prop} {S : List (Sl × Bytes)} (hP : ∀ o, P o → 0 < o.split) : ∀ (ops : List MOp) {m : Mem} {ts ts' : List Bytes} {bs bs' : List (Bytes × Bool)},
    (∀ i o, MOp.new i o ∈ ops → o.split ≠ 0 → P o) → MInv P S m ts bs → trun (ts, bs) ops = some (ts', bs') → ∃ m', m.run ops = some m' ∧ MInv P S m' ts' bs'
  | [], m, ts, ts', bs, bs', _, hi, hs => by cases hs; exact ⟨m, rfl, hi⟩
  | op :: ops, m, ts, ts', bs, bs', hop, hi, hs => by
    obtain ⟨⟨ts1, bs1⟩, h1, h2⟩ := Option.bind_eq_some_iff.1 (show (tstep (ts, bs) op).bind (fun y => trun y ops) = _ from hs)
    obtain ⟨m1, e1, e2⟩ := step_inv hP (fun i o he => hop i o (he ▸ List.mem_cons_self)) hi h1
    obtain ⟨m2, f1, f2⟩ := run_inv hP ops (fun i o he => hop i o (List.mem_cons_of_mem _ he)) e2 h2
    exact ⟨m2, by show (m.step op).bind _ = _; rw [e1]; exact f1, f2⟩

theorem MInv.start (P : Opts → Prop) : MInv P [] ⟨[], [], []⟩ [] [] :=
  ⟨fun r hr => (by cases hr), List.Pairwise.nil, .nil, rfl, fun i s c hs _ => (by simp at hs), fun i j s s' _ hs _ => (by simp at hs), fun p hp => (by cases hp)⟩

/-- What a script leaves. -/
theorem script_inv {ops : List MOp} {ts : List Bytes} {bs : List (Bytes × Bool)} (h : trun ([], []) ops = some (ts, bs)) :
    ∃ m, Mem.run ⟨[], [], []⟩ ops = some m ∧ MInv (fun o => 0 < o.split) [] m ts bs :=
  run_inv (fun _ h => h) ops (fun _ _ _ h0 => Nat.pos_of_ne_zero h0) (.start _) h

/-- A rope of the memory reads as its text. -/
theorem MInv.slice {P : Opts → Prop} {S : List (Sl × Bytes)} {m : Mem} {ts : List Bytes} {bs : List (Bytes × Bool)} (hi : MInv P S m ts bs) {k : Nat} {r : HRope} {t : Bytes}
    (hr : m.ropes[k]? = some r) (ht : ts[k]? = some t) {i j : Nat} (hj : j ≤ t.length) :
    ∃ h' v, r.slice m.heap i j = some (h', v) ∧ m.heap <+: h' ∧ v.Ok h' ∧ h'.read v = (t.take j).drop i ∧
      ((∃ s0 ∈ r.slices, s0.arr = v.arr) ∨ m.heap.length ≤ v.arr) := by
  have hw : Rope.WF P (r.val m.heap) t := hi.pool.get' (by rw [List.getElem?_map, hr]; rfl) ht
  exact HRope.slice_spec (hi.ok r (List.mem_of_getElem? hr)) (Rope.slice_wf i j hw hj)

/-- **C69.** Ropes share memory with each other, with the buffers that they were made of and, while a text is inserted, with the buffer that
holds it; they edit their own leaves in place. Still any script that is in range when run on byte lists runs without panic, and leaves ropes
with exactly those contents, and buffers that have not been changed but by the client. In particular `Insert` copies (its buffer may be filled
with something else later), a buffer may be given to `NewWithOpts` many times, the parts of `SplitAt` and ropes with a common buffer are
independent of each other, and no rope writes to the memory of a buffer. -/
theorem C69_script (ops : List MOp) (ts : List Bytes) (bs : List (Bytes × Bool)) (h : trun ([], []) ops = some (ts, bs)) :
    ∃ m, Mem.run ⟨[], [], []⟩ ops = some m ∧ m.ropes.map (fun r => (r.value m.heap).1.read (r.value m.heap).2) = ts ∧ m.ropes.map HRope.len = ts.map List.length ∧
      m.bufs.map m.heap.read = bs.map (·.1) ∧
      ∀ (k : Nat) (r : HRope) (t : Bytes), m.ropes[k]? = some r → ts[k]? = some t → ∀ i j : Nat, j ≤ t.length →
        ∃ h' v, r.slice m.heap i j = some (h', v) ∧ h'.read v = (t.take j).drop i := by
  obtain ⟨m, e1, hi⟩ := script_inv h
  have hv := hi.pool.map (f := Rope.value) (g := some) (fun _ _ hw => hw.value)
  have hl := hi.pool.map (f := Rope.len) (g := List.length) (fun _ _ hw => hw.len)
  refine ⟨m, e1, ?_, ?_, ?_, fun k r t hr ht i j hj => ?_⟩
  · have : (m.ropes.map (fun r => (r.value m.heap).1.read (r.value m.heap).2)).map some = ts.map some := by
      rw [← hv, List.map_map, List.map_map]
      exact List.map_congr_left fun r hr => (HRope.value_spec (hi.ok r hr)).2.2.1.symm
    exact (List.map_inj_right (fun _ _ h => Option.some.inj h)).1 this
  · rw [← hl, List.map_map]
    exact List.map_congr_left fun r _ => (HRope.val_len m.heap r).symm
  · refine List.ext_getElem? fun i => ?_
    rw [List.getElem?_map, List.getElem?_map]
    cases hb : bs[i]? with
    | none =>
      rw [show m.bufs[i]? = none from List.getElem?_eq_none (by rw [hi.len]; exact List.getElem?_eq_none_iff.1 hb)]; rfl
    | some c =>
      obtain ⟨s, hs⟩ := MInv.getBuf (h := m.heap) (rs := m.ropes) (ss := m.bufs) hi hb
      rw [hs]
      exact congrArg some (hi.buf i s c hs hb).2.1
  · obtain ⟨h', v, f1, -, -, f4, -⟩ := hi.slice hr ht hj
    exact ⟨h', v, f1, f4⟩

/-- **C69.** The slice that `Slice` returns may be part of a leaf ("may return the underlying slice"). It keeps its bytes whatever is done afterwards to all
ropes and buffers, if its array does not belong to a leaf with room. -/
theorem C69_snapshot_partial (ops : List MOp) (ts : List Bytes) (bs : List (Bytes × Bool)) (h : trun ([], []) ops = some (ts, bs)) {m : Mem}
    (hm : Mem.run ⟨[], [], []⟩ ops = some m) {k : Nat} {r : HRope} {t : Bytes} (hr : m.ropes[k]? = some r) (ht : ts[k]? = some t) {i j : Nat} (hj : j ≤ t.length)
    {h' : Heap} {v : Sl} (hv : r.slice m.heap i j = some (h', v)) (hw : ¬ r.Writes v.arr) (ops' : List MOp) (ts' : List Bytes) (bs' : List (Bytes × Bool))
    (h2 : trun (ts, bs) ops' = some (ts', bs')) :
    ∃ m', Mem.run ⟨h', m.ropes, m.bufs⟩ ops' = some m' ∧ m'.heap.read v = (t.take j).drop i := by
  obtain ⟨m0, e1, hi⟩ := script_inv h
  obtain rfl : m = m0 := Option.some.inj (hm.symm.trans e1)
  obtain ⟨h0, v0, f1, f2, f3, f4, f5⟩ := hi.slice hr ht (i := i) hj
  obtain ⟨rfl, rfl⟩ : h' = h0 ∧ v = v0 := by
    rw [hv] at f1
    cases f1
    exact ⟨rfl, rfl⟩
  have hi1 : MInv (fun o => 0 < o.split) [] ⟨h', m.ropes, m.bufs⟩ ts bs := by
    refine MInv.edit (A := []) (A' := []) (R := m.ropes) (h := m.heap) hi (fun r hr => by cases hr) List.Pairwise.nil f2.length_le (fun a ha _ => Heap.array_ext f2 ha)
      (fun s hs => by cases hs) (fun hm => ?_)
    show Pool _ (m.ropes.map (HRope.val h')) ts
    rw [hm]; exact hi.pool
  have hrm : ∀ x ∈ r.slices, x ∈ m.ropes.flatMap HRope.slices := fun x hx => List.mem_flatMap.2 ⟨r, List.mem_of_getElem? hr, hx⟩
  have hi2 : MInv (fun o => 0 < o.split) [(v, h'.read v)] ⟨h', m.ropes, m.bufs⟩ ts bs := by
    refine ⟨hi1.ok, hi1.own, hi1.pool, hi1.len, hi1.buf, hi1.dist, fun p hp => ?_⟩
    rw [List.mem_singleton.1 hp]
    refine ⟨f3, rfl, fun x hx hxw e => ?_, fun n s c hs hc hf => ?_⟩
    · have e : x.arr = v.arr := e
      rcases f5 with ⟨s0, g1, g2⟩ | g
      · have hp := ((eraseIdx_perm hr).flatMap_right HRope.slices).symm
        have hx' := hp.mem_iff.1 hx
        have ho : (r.slices ++ (m.ropes.eraseIdx k).flatMap HRope.slices).Pairwise Sl.Sep := hp.pairwise hi.own Sl.Sep.symm
        rcases List.mem_append.1 (show x ∈ r.slices ++ (m.ropes.eraseIdx k).flatMap HRope.slices from hx') with hx' | hx'
        · exact hw ⟨x, hx', hxw, e⟩
        · exact (List.pairwise_append.1 ho).2.2 s0 g1 x hx' (Or.inr hxw) (g2.trans e.symm)
      · have : x.arr < m.heap.length := (flat_ok hi.ok x hx).arr
        omega
    · obtain ⟨b1, -, -, b4⟩ := hi.buf n s c hs hc
      rcases f5 with ⟨s0, g1, g2⟩ | g
      · exact fun e => b4 hf s0 (hrm s0 g1) (g2.trans e.symm)
      · have := b1.arr
        show s.arr ≠ v.arr
        omega
  obtain ⟨m', g1, g2⟩ := run_inv (fun _ h => h) ops' (fun _ _ _ h0 => Nat.pos_of_ne_zero h0) hi2 h2
  exact ⟨m', g1, ((g2.snap _ (List.mem_singleton.2 rfl)).2.1).trans f4⟩

theorem trun_append : ∀ {ops ops' : List MOp} {x y : List Bytes × List (Bytes × Bool)}, trun x (ops ++ ops') = some y → ∃ z, trun x ops = some z ∧ trun z ops' = some y
  | [], _, x, _, h => ⟨x, rfl, h⟩
  | op :: ops, ops', x, y, h => by
    obtain ⟨z, h1, h2⟩ := Option.bind_eq_some_iff.1 (show (tstep x op).bind (fun y => trun y (ops ++ ops')) = some y from h)
    obtain ⟨w, h3, h4⟩ := trun_append h2
    exact ⟨w, by show (tstep x op).bind _ = _; rw [h1]; exact h3, h4⟩

theorem Mem.run_append : ∀ {ops ops' : List MOp} {x y : Mem}, x.run (ops ++ ops') = some y → ∃ z, x.run ops = some z ∧ z.run ops' = some y
  | [], _, x, _, h => ⟨x, rfl, h⟩
  | op :: ops, ops', x, y, h => by
    obtain ⟨z, h1, h2⟩ := Option.bind_eq_some_iff.1 (show (x.step op).bind (fun y => y.run (ops ++ ops')) = some y from h)
    obtain ⟨w, h3, h4⟩ := Mem.run_append h2
    exact ⟨w, by show (x.step op).bind _ = _; rw [h1]; exact h3, h4⟩

/-- **C69.** So a slice of a rope that has not been edited since it was made keeps its bytes for good. -/
theorem C69_snapshot_new (ops : List MOp) (n : Nat) (o : Opts) (ts : List Bytes) (bs : List (Bytes × Bool)) (h : trun ([], []) (ops ++ [.new n o]) = some (ts, bs)) {m : Mem}
    (hm : Mem.run ⟨[], [], []⟩ (ops ++ [.new n o]) = some m) {t : Bytes} (ht : ts[0]? = some t) {i j : Nat} (hj : j ≤ t.length) :
    ∃ r h' v, m.ropes[0]? = some r ∧ r.slice m.heap i j = some (h', v) ∧ ∀ (ops' : List MOp) (ts' : List Bytes) (bs' : List (Bytes × Bool)),
      trun (ts, bs) ops' = some (ts', bs') → ∃ m', Mem.run ⟨h', m.ropes, m.bufs⟩ ops' = some m' ∧ m'.heap.read v = (t.take j).drop i := by
  obtain ⟨⟨ts0, bs0⟩, k1, k2⟩ := trun_append h
  obtain ⟨m0, k3, k4⟩ := Mem.run_append hm
  obtain ⟨m1, e1, hi⟩ := script_inv k1
  obtain rfl : m0 = m1 := Option.some.inj (k3.symm.trans e1)
  obtain ⟨⟨ts1, bs1⟩, k5, k6⟩ := Option.bind_eq_some_iff.1 (show (tstep (ts0, bs0) (.new n o)).bind _ = some (ts, bs) from k2)
  obtain ⟨c, hc, hs⟩ := Option.bind_eq_some_iff.1 (show (bs0[n]?).bind _ = some (ts1, bs1) from k5)
  obtain ⟨ts2, h1, -⟩ := Option.map_eq_some_iff.1 hs
  have h1 : (if o.split = 0 then none else some c.1).map (· :: ts0) = some ts2 := h1
  obtain ⟨s, hs⟩ := MInv.getBuf (h := m0.heap) (rs := m0.ropes) (ss := m0.bufs) hi hc
  by_cases h0 : o.split = 0
  · rw [if_pos h0] at h1; cases h1
  obtain ⟨b1, b2, -, -⟩ := hi.buf n s c hs hc
  obtain ⟨x, f1, f2⟩ := Rope.newWithOpts_wf (P := fun o => 0 < o.split) (Nat.pos_of_ne_zero h0) (Nat.pos_of_ne_zero h0) c.1
  rw [← b2] at f1
  obtain ⟨h2, r, g1, g2, g3, g4, -⟩ := HRope.newWithOpts_spec b1 f1
  obtain ⟨m2, k7, k8⟩ := Option.bind_eq_some_iff.1 (show (m0.step (.new n o)).bind _ = some m from k4)
  have k7 : (m0.bufs[n]?).bind (fun s => (HRope.newWithOpts m0.heap s o).map fun x => (⟨x.1, x.2 :: m0.ropes, m0.bufs⟩ : Mem)) = some m2 := k7
  rw [hs, Option.bind_some, g1] at k7
  cases k7
  cases k8
  obtain ⟨m3, e3, hi3⟩ := script_inv h
  obtain rfl := Option.some.inj (hm.symm.trans e3)
  obtain ⟨h', v, q1, q2, q3, q4, q5⟩ := hi3.slice (k := 0) (r := r) rfl ht (i := i) hj
  refine ⟨r, h', v, rfl, q1, fun ops' ts' bs' h2 => ?_⟩
  refine C69_snapshot_partial _ ts bs h hm (k := 0) (r := r) rfl ht hj q1 ?_ ops' ts' bs' h2
  rintro ⟨y, hy, hw, -⟩
  have := (g4 y hy).1
  unfold Sl.Wr at hw
  omega

/-! ## Examples -/

/-- "abcd". -/
def abcd : Bytes := [97, 98, 99, 100]

/-- Short leaves, so that ropes have several. -/
def oS : Opts := ⟨4, 2, [10]⟩

/-- Two ropes of one buffer, a buffer that is used again after `Insert`, edits in place, `SplitAt` and `Join`. -/
def script : List MOp :=
  [.buf abcd 6, .new 0 oS, .buf [120, 121] 2, .insert 1 1, .fill 1 [122, 122], .insert 6 1, .remove 2 3, .new 0 oS, .remove 0 1, .remove 0 1, .pick 1,
   .split 3, .remove 0 1, .insert 1 1, .pick 2, .join 1]

/-- The texts and the buffers after the script, by the specification and by the code. -/
theorem script_text : trun ([], []) script = some ([[99, 100, 120, 122, 122, 98, 99, 100, 122, 122]], [(abcd, true), ([122, 122], false)]) := by decide

theorem script_mem : ∃ m, Mem.run ⟨[], [], []⟩ script = some m ∧
    m.ropes.map (fun r => (r.value m.heap).1.read (r.value m.heap).2) = [[99, 100, 120, 122, 122, 98, 99, 100, 122, 122]] ∧
    m.bufs.map m.heap.read = [abcd, [122, 122]] := by
  obtain ⟨m, h1, h2, -, h3, -⟩ := C69_script script _ _ script_text
  exact ⟨m, h1, h2, h3⟩

/-- A rope of one leaf. -/
def oL : Opts := ⟨8, 4, [10]⟩

/-- **C69.** A slice of a rope that has been edited may change with the next edit: the leaf has room since the first `Remove`, and the second one moves
its bytes in place. `Value` has returned "bcd"; after `Remove(0, 1)` the same slice reads "cdd". -/
theorem C69_snapshot_false : ¬ ∀ (ops : List MOp) (op : MOp) (m m' : Mem), Mem.run ⟨[], [], []⟩ ops = some m → m.step op = some m' → ∀ r ∈ m.ropes,
    m'.heap.read (r.value m.heap).2 = (r.value m.heap).1.read (r.value m.heap).2 := by
  intro h
  have := h [.buf abcd 4, .new 0 oL, .remove 0 1] (.remove 0 1) _ _ rfl rfl _ List.mem_cons_self
  revert this
  decide

/-- **C69.** A slice of the rope itself must not be inserted into it: "abcd" without its first two bytes is "cd"; inserting `Slice(1, 2)`, that is "d", at 0
gives "ccd" instead of "dcd", because the leaf moves its bytes before it copies the slice. -/
theorem C69_self_insert_false : ¬ ∀ (ops : List MOp) (m : Mem), Mem.run ⟨[], [], []⟩ ops = some m → ∀ r ∈ m.ropes, ∀ (i j : Nat) (h1 h2 : Heap) (v : Sl) (r' : HRope),
    r.slice m.heap i j = some (h1, v) → r.insert h1 0 v = some (h2, r') →
      (r'.value h2).1.read (r'.value h2).2 = h1.read v ++ (r.value m.heap).1.read (r.value m.heap).2 := by
  intro h
  have := h [.buf abcd 4, .new 0 oL, .remove 0 2] _ rfl _ List.mem_cons_self 1 2 _ _ _ _ rfl rfl
  revert this
  decide

/-- **C69.** The rope must not be edited after `SplitAt`, even where it is a single leaf and the parts are new nodes: they lie in its array. "bcd" is
split into "b" and "cd"; after `Remove(0, 1)` of the rope the parts read "c" and "dd". -/
theorem C69_split_false : ¬ ∀ (ops : List MOp) (m : Mem), Mem.run ⟨[], [], []⟩ ops = some m → ∀ r ∈ m.ropes, ∀ (k i j : Nat) (h1 h2 : Heap) (a b r' : HRope),
    r.splitAt m.heap k = some (h1, a, b) → r.remove h1 i j = some (h2, r') → a.val h2 = a.val h1 ∧ b.val h2 = b.val h1 := by
  intro h
  have := h [.buf abcd 4, .new 0 oL, .remove 0 1] _ rfl _ List.mem_cons_self 1 0 1 _ _ _ _ _ rfl rfl
  revert this
  decide

/-- The slice of the example above has room in its array, so it does not meet the hypothesis of `C69_snapshot_partial`; one over two leaves does. -/
example : ∃ m r h' v, Mem.run ⟨[], [], []⟩ [.buf (abcd ++ abcd) 8, .new 0 oS, .remove 1 2, .remove 5 6] = some m ∧ m.ropes[0]? = some r ∧
    r.slice m.heap 1 5 = some (h', v) ∧ ¬ r.Writes v.arr ∧ (∃ s ∈ r.slices, s.Wr) ∧ h'.read v = [99, 100, 97, 98] := by
  refine ⟨_, _, _, _, rfl, rfl, rfl, ?_, ?_, ?_⟩
  · rintro ⟨s, hs, -, e⟩
    revert e
    revert s
    decide
  · exact ⟨_, List.mem_cons_self, by unfold Sl.Wr; decide⟩
  · decide

end Gpeg.Linerope
