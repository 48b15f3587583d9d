import Verif.Slice
/-!
# The machine with slices against the machine with lists

`fz a` is the length of the part of array `a` that is *frozen*: some capture tree or table entry reads it, so that it
must not be written again. A live slice (of a stack entry, or the captures at the bottom of the stack) either has no
spare capacity and is frozen, or it is the only one that may write to its array, beyond the frozen part.
-/
namespace Gpeg.Slice
variable {ι τ τ' σ : Type}

mutual
/-- The capture `c` is the given tree, and all its slices are frozen. -/
inductive DenC (h : Heap) (fz : Nat → Nat) : SCap → Capture → Prop
  | node {id : Int} {s n : Nat} {ch : Sl} {cs : List Capture} : ch.len ≤ fz ch.arr → DenL h fz (cells h ch) cs →
    DenC h fz (.node id s n ch) (.node id s n cs)
  | dummy {s n : Nat} {ch : Sl} {cs : List Capture} : ch.len ≤ fz ch.arr → DenL h fz (cells h ch) cs →
    DenC h fz (.dummy s n ch) (.dummy s n cs)
/-- The same for lists. -/
inductive DenL (h : Heap) (fz : Nat → Nat) : List SCap → List Capture → Prop
  | nil : DenL h fz [] []
  | cons {x : SCap} {c : Capture} {xs : List SCap} {cs : List Capture} : DenC h fz x c → DenL h fz xs cs →
    DenL h fz (x :: xs) (c :: cs)
end

mutual
theorem DenC.reads {h : Heap} {fz : Nat → Nat} : ∀ {c : Capture} {x : SCap}, DenC h fz x c → Reads h x c
  | .node .., _, .node _ hl => .node hl.reads
  | .dummy .., _, .dummy _ hl => .dummy hl.reads
theorem DenL.reads {h : Heap} {fz : Nat → Nat} : ∀ {cs : List Capture} {xs : List SCap}, DenL h fz xs cs →
    ReadsL h xs cs
  | [], _, .nil => .nil
  | _ :: _, _, .cons hx hl => .cons hx.reads hl.reads
end

/-- Nothing frozen has changed. -/
structure Le (h : Heap) (fz : Nat → Nat) (h' : Heap) (fz' : Nat → Nat) : Prop where
  up : ∀ a, fz a ≤ fz' a
  cells : ∀ a n, n ≤ fz a → (h'.at a).take n = (h.at a).take n

theorem Le.refl (h : Heap) (fz : Nat → Nat) : Le h fz h fz := ⟨fun _ => Nat.le_refl _, fun _ _ _ => rfl⟩

theorem Le.trans {h h' h'' : Heap} {fz fz' fz'' : Nat → Nat} (a : Le h fz h' fz') (b : Le h' fz' h'' fz'') :
    Le h fz h'' fz'' :=
  ⟨fun x => Nat.le_trans (a.up x) (b.up x), fun x n hn => (b.cells x n (Nat.le_trans hn (a.up x))).trans (a.cells x n hn)⟩

mutual
theorem DenC.mono {h h' : Heap} {fz fz' : Nat → Nat} (hle : Le h fz h' fz') :
    ∀ {c : Capture} {x : SCap}, DenC h fz x c → DenC h' fz' x c
  | .node .., .node _ _ _ ch, .node hf hl =>
    .node (Nat.le_trans hf (hle.up _)) ((show Slice.cells h' ch = Slice.cells h ch from hle.cells _ _ hf) ▸ hl.mono hle)
  | .dummy .., .dummy _ _ ch, .dummy hf hl =>
    .dummy (Nat.le_trans hf (hle.up _)) ((show Slice.cells h' ch = Slice.cells h ch from hle.cells _ _ hf) ▸ hl.mono hle)
theorem DenL.mono {h h' : Heap} {fz fz' : Nat → Nat} (hle : Le h fz h' fz') :
    ∀ {cs : List Capture} {xs : List SCap}, DenL h fz xs cs → DenL h' fz' xs cs
  | [], _, .nil => .nil
  | _ :: _, _, .cons hx hl => .cons (hx.mono hle) (hl.mono hle)
end

theorem DenL.length {h : Heap} {fz : Nat → Nat} : ∀ {xs : List SCap} {cs : List Capture}, DenL h fz xs cs →
    xs.length = cs.length
  | _, _, .nil => rfl
  | _, _, .cons _ hl => by simp [hl.length]

theorem DenL.append {h : Heap} {fz : Nat → Nat} : ∀ {xs ys : List SCap} {cs ds : List Capture}, DenL h fz xs cs →
    DenL h fz ys ds → DenL h fz (xs ++ ys) (cs ++ ds)
  | _, _, _, _, .nil, h => h
  | _, _, _, _, .cons hx hl, h => .cons hx (hl.append h)

/-- The slice denotes a list of captures. -/
structure DenS (h : Heap) (fz : Nat → Nat) (s : Sl) (cs : List Capture) : Prop where
  len : (cells h s).length = s.len
  den : DenL h fz (cells h s) cs

theorem DenS.nil (h : Heap) (fz : Nat → Nat) : DenS h fz {} [] := by
  constructor <;> simp only [cells, List.take_zero]
  · rfl
  · exact .nil

theorem DenS.length {h : Heap} {fz : Nat → Nat} {s : Sl} {cs : List Capture} (hd : DenS h fz s cs) :
    cs.length = s.len := hd.den.length ▸ hd.len

theorem DenS.eq_nil {h : Heap} {fz : Nat → Nat} {s : Sl} {cs : List Capture} (hd : DenS h fz s cs) (h0 : s.len = 0) :
    cs = [] := List.eq_nil_of_length_eq_zero (hd.length.trans h0)

/-- A frozen slice denotes the same after any further step. -/
theorem DenS.mono {h h' : Heap} {fz fz' : Nat → Nat} {s : Sl} {cs : List Capture} (hle : Le h fz h' fz')
    (hd : DenS h fz s cs) (hf : s.len ≤ fz s.arr) : DenS h' fz' s cs := by
  have hc : cells h' s = cells h s := hle.cells _ _ hf
  exact ⟨hc ▸ hd.len, hc ▸ hd.den.mono hle⟩

/-- No spare capacity, and frozen. -/
def Frozen (fz : Nat → Nat) (s : Sl) : Prop := s.cap ≤ s.len ∧ s.len ≤ fz s.arr

/-- What holds of each live slice. -/
def Good (fz : Nat → Nat) (s : Sl) : Prop :=
  (s.len = 0 → s.cap = 0) ∧ (s.len = 0 ∨ Frozen fz s ∨ fz s.arr ≤ s.len)

/-- What holds of each pair of live slices. -/
def Sep (fz : Nat → Nat) (s t : Sl) : Prop :=
  s.len = 0 ∨ t.len = 0 ∨ Frozen fz s ∨ Frozen fz t ∨ s.arr ≠ t.arr

/-- The live slices denote the given lists. -/
def Live (h : Heap) (fz : Nat → Nat) : List Sl → List (List Capture) → Prop
  | [], [] => True
  | s :: L, cs :: Cs => DenS h fz s cs ∧ Good fz s ∧ (∀ t ∈ L, Sep fz s t) ∧ Live h fz L Cs
  | _, _ => False

/-- Only existing cells are frozen. -/
def WF (h : Heap) (fz : Nat → Nat) : Prop := ∀ a, fz a ≤ (h.at a).length

theorem Live.mono {h h' : Heap} {fz : Nat → Nat} (hle : Le h fz h' fz) : ∀ {L : List Sl} {Cs : List (List Capture)},
    (∀ s ∈ L, cells h' s = cells h s) → Live h fz L Cs → Live h' fz L Cs
  | [], [], _, _ => trivial
  | s :: L, cs :: Cs, hc, ⟨hd, hg, hs, hl⟩ => by
    have h1 := hc s List.mem_cons_self
    exact ⟨⟨h1 ▸ hd.len, h1 ▸ hd.den.mono hle⟩, hg, hs, hl.mono hle fun t ht => hc t (List.mem_cons_of_mem _ ht)⟩
  | [], _ :: _, _, h | _ :: _, [], _, h => h.elim

theorem Live.len {h : Heap} {fz : Nat → Nat} : ∀ {L : List Sl} {Cs : List (List Capture)}, Live h fz L Cs →
    ∀ s ∈ L, (cells h s).length = s.len
  | [], [], _, _, hs => by cases hs
  | s :: L, cs :: Cs, ⟨hd, _, _, hl⟩, t, ht => by
    rcases List.mem_cons.1 ht with rfl | ht
    · exact hd.len
    · exact hl.len t ht
  | [], _ :: _, h, _, _ | _ :: _, [], h, _, _ => h.elim

theorem Live.tail {h : Heap} {fz : Nat → Nat} {s : Sl} {L : List Sl} {cs : List Capture} {Cs : List (List Capture)}
    (hl : Live h fz (s :: L) (cs :: Cs)) : Live h fz L Cs := hl.2.2.2

theorem Live.head {h : Heap} {fz : Nat → Nat} {s : Sl} {L : List Sl} {cs : List Capture} {Cs : List (List Capture)}
    (hl : Live h fz (s :: L) (cs :: Cs)) : DenS h fz s cs := hl.1

theorem Live.nil_cons {h : Heap} {fz : Nat → Nat} {L : List Sl} {Cs : List (List Capture)} (hl : Live h fz L Cs) :
    Live h fz ({} :: L) ([] :: Cs) :=
  ⟨.nil h fz, ⟨fun _ => rfl, .inl rfl⟩, fun _ _ => .inl rfl, hl⟩

/-- Exchange of the first slice. -/
theorem Live.drop2 {h : Heap} {fz : Nat → Nat} {s t : Sl} {L : List Sl} {cs ds : List Capture}
    {Cs : List (List Capture)} (hl : Live h fz (s :: t :: L) (cs :: ds :: Cs)) : Live h fz (s :: L) (cs :: Cs) :=
  ⟨hl.1, hl.2.1, fun x hx => hl.2.2.1 x (List.mem_cons_of_mem _ hx), hl.2.2.2.2.2.2⟩

theorem at_append {h : Heap} {x : List SCap} (a : Nat) :
    Heap.at (h ++ [x]) a = if a = h.length then x else h.at a := by
  unfold Heap.at
  split
  · subst a; simp
  · rename_i hne
    by_cases hlt : a < h.length
    · rw [List.getElem?_append_left hlt]
    · rw [List.getElem?_eq_none (by simp; omega), List.getElem?_eq_none (by omega)]

theorem at_set {h : Heap} {x : List SCap} {b : Nat} (hb : b < h.length) (a : Nat) :
    Heap.at (h.set b x) a = if a = b then x else h.at a := by
  unfold Heap.at
  split
  · subst a; simp [hb]
  · rename_i hne
    rw [List.getElem?_set_ne (by omega)]

theorem at_length (h : Heap) : h.at h.length = [] := by simp [Heap.at]

theorem lt_of_cells {h : Heap} {s : Sl} (hl : (cells h s).length = s.len) (h0 : s.len ≠ 0) : s.arr < h.length := by
  refine Decidable.by_contra fun hn => h0 ?_
  rw [← hl, cells, Heap.at, List.getElem?_eq_none (by omega)]
  simp

theorem len_le_of_cells {h : Heap} {s : Sl} (hl : (cells h s).length = s.len) : s.len ≤ (h.at s.arr).length := by
  rw [cells, List.length_take] at hl
  omega

theorem append_ok {grow : Nat → Nat → Nat} {h h' : Heap} {fz : Nat → Nat} {s s' : Sl} {L : List Sl}
    {cs ds : List Capture} {Cs : List (List Capture)} {ys : List SCap} (hw : WF h fz)
    (hl : Live h fz (s :: L) (cs :: Cs)) (hd : DenL h fz ys ds) (he : append grow h s ys = (h', s')) :
    WF h' fz ∧ Le h fz h' fz ∧ Live h' fz (s' :: L) ((cs ++ ds) :: Cs) := by
  obtain ⟨hden, ⟨hg0, hg⟩, hsep, htl⟩ := hl
  unfold append at he
  simp only at he
  split at he
  · rename_i h0
    cases he
    rw [List.eq_nil_of_length_eq_zero h0] at hd
    cases hd
    rw [List.append_nil]
    exact ⟨hw, Le.refl _ _, hden, ⟨hg0, hg⟩, hsep, htl⟩
  rename_i hk
  have hlen := len_le_of_cells hden.len
  split at he
  · rename_i hcap
    cases he
    have hpos : s.len ≠ 0 := fun h0 => by have := hg0 h0; omega
    have hnf : ¬ Frozen fz s := fun hf => by have := hf.1; omega
    have hfz : fz s.arr ≤ s.len := by
      rcases hg with h | h | h
      · exact absurd h hpos
      · exact absurd h hnf
      · exact h
    have hlt := lt_of_cells hden.len hpos
    have hle : Le h fz (h.set s.arr ((h.at s.arr).take s.len ++ ys ++ (h.at s.arr).drop (s.len + ys.length))) fz := by
      refine ⟨fun _ => Nat.le_refl _, fun a n hn => ?_⟩
      rw [at_set hlt]
      split
      · subst a
        rw [List.append_assoc, List.take_append_of_le_length (by rw [List.length_take]; omega), List.take_take,
          Nat.min_eq_left (by omega)]
      · rfl
    refine ⟨fun a => ?_, hle, ⟨?_, ?_⟩, ⟨fun h => ?_, .inr (.inr ?_)⟩, fun t ht => ?_, ?_⟩
    · rw [at_set hlt]
      split
      · subst a
        have := hw s.arr
        simp only [List.length_append, List.length_take, List.length_drop]
        omega
      · exact hw a
    · simp only [cells, at_set hlt, if_true, List.length_take, List.length_append, List.length_drop]
      omega
    · have : cells (h.set s.arr ((h.at s.arr).take s.len ++ ys ++ (h.at s.arr).drop (s.len + ys.length)))
          { s with len := s.len + ys.length } = cells h s ++ ys := by
        simp only [cells, at_set hlt, if_true]
        rw [List.take_append_of_le_length (by simp only [List.length_append, List.length_take]; omega),
          List.take_of_length_le (by simp only [List.length_append, List.length_take]; omega)]
      rw [this]
      exact (hden.den.mono hle).append (hd.mono hle)
    · simp only at h
      omega
    · simp only
      omega
    · rcases hsep t ht with h | h | h | h | h
      · exact absurd h hpos
      · exact .inr (.inl h)
      · exact absurd h hnf
      · exact .inr (.inr (.inr (.inl h)))
      · exact .inr (.inr (.inr (.inr h)))
    · refine htl.mono hle fun t ht => ?_
      rcases hsep t ht with h | h | h | h | h
      · exact absurd h hpos
      · simp only [cells, h, List.take_zero]
      · exact absurd h hnf
      · exact hle.cells _ _ h.2
      · simp only [cells, at_set hlt, if_neg (Ne.symm h)]
  · cases he
    have hle : Le h fz (h ++ [cells h s ++ ys]) fz := by
      refine ⟨fun _ => Nat.le_refl _, fun a n hn => ?_⟩
      rw [at_append]
      split
      · subst a
        have := hw h.length
        rw [at_length] at this
        have : n = 0 := by simp at this; omega
        subst this
        simp
      · rfl
    have hz : fz h.length = 0 := by
      have := hw h.length
      rw [at_length] at this
      simpa using this
    refine ⟨fun a => ?_, hle, ⟨?_, ?_⟩, ⟨fun h => ?_, .inr (.inr ?_)⟩, fun t ht => ?_, ?_⟩
    · rw [at_append]
      split
      · subst a; rw [hz]; exact Nat.zero_le _
      · exact hw a
    · simp only [cells, at_append, if_true, List.length_take, List.length_append]
      omega
    · have : cells (h ++ [cells h s ++ ys]) ⟨h.length, s.len + ys.length, grow s.cap (s.len + ys.length)⟩ =
          cells h s ++ ys := by
        rw [cells]
        simp only [at_append, if_true]
        rw [List.take_of_length_le (by simp only [List.length_append, hden.len]; omega)]
      rw [this]
      exact (hden.den.mono hle).append (hd.mono hle)
    · simp only at h
      omega
    · simp only [hz]
      omega
    · by_cases h0 : t.len = 0
      · exact .inr (.inl h0)
      · have := lt_of_cells (htl.len t ht) h0
        exact .inr (.inr (.inr (.inr (by simp only; omega))))
    · refine htl.mono hle fun t ht => ?_
      by_cases h0 : t.len = 0
      · simp only [cells, h0, List.take_zero]
      · have := lt_of_cells (htl.len t ht) h0
        simp only [cells, at_append, if_neg (Nat.ne_of_lt this)]

/-- Freeze the elements of a slice. -/
def raise (fz : Nat → Nat) (s : Sl) : Nat → Nat := fun a => if a = s.arr then max (fz a) s.len else fz a

theorem raise_self (fz : Nat → Nat) (s : Sl) : s.len ≤ raise fz s s.arr := by
  simp only [raise, if_true]
  omega

theorem le_raise (fz : Nat → Nat) (s : Sl) (a : Nat) : fz a ≤ raise fz s a := by
  unfold raise
  split <;> omega

theorem Frozen.raise {fz : Nat → Nat} {s t : Sl} (h : Frozen fz t) : Frozen (raise fz s) t :=
  ⟨h.1, Nat.le_trans h.2 (le_raise ..)⟩

theorem Sep.raise {fz : Nat → Nat} {s t u : Sl} (h : Sep fz t u) : Sep (raise fz s) t u := by
  rcases h with h | h | h | h | h
  · exact .inl h
  · exact .inr (.inl h)
  · exact .inr (.inr (.inl h.raise))
  · exact .inr (.inr (.inr (.inl h.raise)))
  · exact .inr (.inr (.inr (.inr h)))

theorem le_raised (h : Heap) (fz : Nat → Nat) (s : Sl) : Le h fz h (raise fz s) :=
  ⟨le_raise fz s, fun _ _ _ => rfl⟩

theorem Live.raise_tail {h : Heap} {fz : Nat → Nat} {s : Sl} : ∀ {L : List Sl} {Cs : List (List Capture)},
    (∀ t ∈ L, Sep fz s t) → Live h fz L Cs → Live h (raise fz s) L Cs
  | [], [], _, _ => trivial
  | t :: L, cs :: Cs, hs, ⟨hd, ⟨hg0, hg⟩, hp, hl⟩ => by
    refine ⟨⟨hd.len, hd.den.mono (le_raised h fz s)⟩, ⟨hg0, ?_⟩, fun u hu => (hp u hu).raise,
      hl.raise_tail fun u hu => hs u (List.mem_cons_of_mem _ hu)⟩
    rcases hg with hg | hg | hg
    · exact .inl hg
    · exact .inr (.inl hg.raise)
    · rcases hs t List.mem_cons_self with h | h | h | h | h
      · refine .inr (.inr ?_)
        simp only [raise, h]
        split <;> omega
      · exact .inl h
      · refine .inr (.inr ?_)
        have := h.2
        simp only [raise]
        split
        · rename_i he; rw [he] at hg ⊢; omega
        · exact hg
      · exact .inr (.inl h.raise)
      · refine .inr (.inr ?_)
        simp only [raise, if_neg (Ne.symm h)]
        exact hg
  | [], _ :: _, _, h | _ :: _, [], _, h => h.elim

theorem Live.freeze {h : Heap} {fz : Nat → Nat} {s : Sl} {L : List Sl} {cs : List Capture} {Cs : List (List Capture)}
    (hw : WF h fz) (hl : Live h fz (s :: L) (cs :: Cs)) :
    WF h (raise fz s) ∧ Live h (raise fz s) (s :: L) (cs :: Cs) := by
  obtain ⟨hd, ⟨hg0, hg⟩, hp, hl⟩ := hl
  refine ⟨fun a => ?_, ⟨hd.len, hd.den.mono (le_raised h fz s)⟩, ⟨hg0, ?_⟩, fun u hu => (hp u hu).raise,
    hl.raise_tail hp⟩
  · have := len_le_of_cells hd.len
    unfold raise
    split
    · rename_i ha; subst ha; have := hw s.arr; omega
    · exact hw a
  · rcases hg with hg | hg | hg
    · exact .inl hg
    · exact .inr (.inl hg.raise)
    · refine .inr (.inr ?_)
      simp only [raise, if_true]
      omega

theorem cells_clip (h : Heap) (s : Sl) : cells h (clip s) = cells h s := rfl

theorem Live.cons_clip {h : Heap} {fz : Nat → Nat} {s : Sl} {L : List Sl} {cs : List Capture}
    {Cs : List (List Capture)} (hd : DenS h fz s cs) (hf : s.len ≤ fz s.arr) (hl : Live h fz L Cs) :
    Live h fz (clip s :: L) (cs :: Cs) :=
  have : Frozen fz (clip s) := ⟨Nat.le_refl _, hf⟩
  ⟨⟨hd.len, hd.den⟩, ⟨fun h => h, .inr (.inl this)⟩, fun _ _ => .inr (.inr (.inl this)), hl⟩

theorem Live.cons_frozen {h : Heap} {fz : Nat → Nat} {s : Sl} {L : List Sl} {cs : List Capture}
    {Cs : List (List Capture)} (hd : DenS h fz s cs) (hc : s.cap ≤ s.len) (hf : s.len ≤ fz s.arr)
    (hl : Live h fz L Cs) : Live h fz (s :: L) (cs :: Cs) :=
  ⟨hd, ⟨fun h => by omega, .inr (.inl ⟨hc, hf⟩)⟩, fun _ _ => .inr (.inr (.inl ⟨hc, hf⟩)), hl⟩

/-- What `stackEntry.addCapt` keeps: the slice as it is, or without its spare capacity. -/
def AlOK (al : Sl → Sl) : Prop := al = id ∨ al = clip

theorem Live.alias {h : Heap} {fz : Nat → Nat} {al : Sl → Sl} (hal : AlOK al) {s : Sl} {L : List Sl}
    {cs : List Capture} {Cs : List (List Capture)} (hl : Live h fz (s :: L) (cs :: Cs)) (hf : s.len ≤ fz s.arr) :
    Live h fz (al s :: L) (cs :: Cs) := by
  rcases hal with rfl | rfl
  · exact hl
  · exact Live.cons_clip hl.head hf hl.tail

theorem addE_ok {P : Par} {h h' : Heap} {fz : Nat → Nat} {c s s' : Sl} {L : List Sl} {cs ds : List Capture}
    {Cs : List (List Capture)} (hw : WF h fz) (hl : Live h fz (s :: L) (cs :: Cs)) (hd : DenS h fz c ds)
    (hal : c.len ≠ 0 → Live h fz (P.al c :: L) (ds :: Cs)) (he : addE P h s c = (h', s')) :
    WF h' fz ∧ Le h fz h' fz ∧ Live h' fz (s' :: L) ((cs ++ ds) :: Cs) := by
  unfold addE at he
  split at he
  · rename_i h0
    cases he
    rw [hd.eq_nil h0, List.append_nil]
    exact ⟨hw, Le.refl _ _, hl⟩
  · rename_i hc
    split at he
    · rename_i h0
      cases he
      rw [hl.head.eq_nil h0, List.nil_append]
      exact ⟨hw, Le.refl _ _, hal hc⟩
    · exact append_ok hw hl hd.den he

/-- `pop(true)` with a frozen slice. -/
theorem popE_ok {P : Par} (hP : AlOK P.al) {h h' : Heap} {fz : Nat → Nat} {c s s' : Sl} {L : List Sl}
    {cs ds : List Capture} {Cs : List (List Capture)} (hw : WF h fz) (hl : Live h fz (c :: s :: L) (ds :: cs :: Cs))
    (hf : c.len ≤ fz c.arr) (he : addE P h s c = (h', s')) :
    WF h' fz ∧ Le h fz h' fz ∧ Live h' fz (s' :: L) ((cs ++ ds) :: Cs) :=
  addE_ok hw hl.tail hl.head (fun _ => hl.drop2.alias hP hf) he

/-- A new array with one element. -/
theorem alloc_ok {h : Heap} {fz : Nat → Nat} {L : List Sl} {Cs : List (List Capture)} {x : SCap} {c : Capture}
    (hw : WF h fz) (hl : Live h fz L Cs) (hd : DenC h fz x c) :
    WF (h ++ [[x]]) fz ∧ Le h fz (h ++ [[x]]) fz ∧ Live (h ++ [[x]]) fz (⟨h.length, 1, 1⟩ :: L) ([c] :: Cs) := by
  have := append_ok (grow := fun _ _ => 1) (h' := h ++ [[x]]) (s' := ⟨h.length, 1, 1⟩) hw hl.nil_cons
    (.cons hd .nil) (by simp [append, cells])
  exact this

end Gpeg.Slice
