import Verif.Lazy
import Verif.Props.IntervalArray
/-! # The interval tree of `memo/interval/lazy`: contents and invariant -/
namespace Gpeg.Lazy
variable {α : Type}

/-- The contents of a node. -/
structure Fl (α : Type) where
  addr : Nat
  pos : Int
  id : Int
  ivs : List (Ival α)

/-- The contents of a node. -/
def Nd.fl (d : Nd α) : Fl α := ⟨d.addr, d.pos, d.id, d.ivs⟩

/-- A shift as it is meant: what starts at `idx` or later moves by `amt`. -/
def mv (sh : Shift) (f : Fl α) : Fl α :=
  if f.pos ≥ sh.idx then { f with pos := f.pos + sh.amt, ivs := f.ivs.map (Ival.shift sh.amt) } else f

/-- Several shifts, oldest first. -/
def mvs (S : List Shift) (f : Fl α) : Fl α := S.foldl (fun f sh => mv sh f) f

/-- The contents of a tree from left to right, with the pending shifts applied. -/
def den : Tr α → List (Fl α)
  | .nil => []
  | .node d l r => (den l ++ d.fl :: den r).map (mvs d.shifts)

/-- Order of the keys. -/
def klt (a b : Int × Int) : Prop := a.1 < b.1 ∨ a.1 = b.1 ∧ a.2 < b.2

/-- The key of a node. -/
def Fl.key (f : Fl α) : Int × Int := (f.pos, f.id)

/-- Keys increase strictly. -/
def Sorted (L : List (Fl α)) : Prop := (L.map Fl.key).Pairwise klt

/-- The intervals of a node start at its key and end no later than `m`. -/
def FOK (m : Int) (f : Fl α) : Prop := f.pos ≤ m ∧ ∀ i ∈ f.ivs, i.low = f.pos ∧ i.high ≤ m

/-- The invariant. -/
def Inv : Tr α → Prop
  | .nil => True
  | .node d l r => Inv l ∧ Inv r ∧ Sorted (den l ++ d.fl :: den r) ∧
      (∀ f ∈ den l ++ d.fl :: den r, FOK d.mx f) ∧ ∀ s ∈ d.shifts, 0 ≤ s.amt

/-- The invariant of a node without pending shifts. -/
structure Good (d : Nd α) (l r : Tr α) : Prop where
  none : d.shifts = []
  il : Inv l
  ir : Inv r
  ord : Sorted (den l ++ d.fl :: den r)
  ok : ∀ f ∈ den l ++ d.fl :: den r, FOK d.mx f

theorem klt_trans {a b c : Int × Int} (h : klt a b) (h' : klt b c) : klt a c := by
  unfold klt at *; omega

theorem mvs_nil : (mvs [] : Fl α → Fl α) = id := rfl

theorem mvs_append (S : List Shift) (s : Shift) (f : Fl α) : mvs (S ++ [s]) f = mv s (mvs S f) := by
  simp [mvs]

theorem mvs_cons (S : List Shift) (s : Shift) (f : Fl α) : mvs (s :: S) f = mvs S (mv s f) := rfl

theorem mv_addr (s : Shift) (f : Fl α) : (mv s f).addr = f.addr := by
  rw [mv]; split <;> rfl

theorem mvs_addr (S : List Shift) : ∀ f : Fl α, (mvs S f).addr = f.addr := by
  induction S with
  | nil => intro f; rfl
  | cons s S ih => intro f; rw [mvs_cons, ih, mv_addr]

theorem mv_ivs (s : Shift) (f : Fl α) : (mv s f).ivs = [] ↔ f.ivs = [] := by
  rw [mv]; split <;> simp

theorem mv_klt {s : Shift} (h : 0 ≤ s.amt) {f g : Fl α} (hk : klt f.key g.key) : klt (mv s f).key (mv s g).key := by
  simp only [klt, Fl.key, mv] at *
  split <;> split <;> (try simp only []) <;> omega

theorem mvs_klt (S : List Shift) : (∀ s ∈ S, 0 ≤ s.amt) → ∀ f g : Fl α, klt f.key g.key →
    klt (mvs S f).key (mvs S g).key := by
  induction S with
  | nil => intro _ f g h; exact h
  | cons s S ih =>
    intro hS f g h
    exact ih (fun x hx => hS x (List.mem_cons_of_mem _ hx)) _ _ (mv_klt (hS s List.mem_cons_self) h)

theorem Sorted.map_mvs {S : List Shift} (hS : ∀ s ∈ S, 0 ≤ s.amt) {L : List (Fl α)} (h : Sorted L) :
    Sorted (L.map (mvs S)) := by
  unfold Sorted at *
  rw [List.pairwise_map] at *
  rw [List.pairwise_map]
  exact h.imp fun {a b} hab => mvs_klt S hS a b hab

theorem Sorted.sub {L M : List (Fl α)} (h : Sorted L) (hs : (M.map Fl.key).Sublist (L.map Fl.key)) : Sorted M :=
  h.sublist hs

theorem den_good {d : Nd α} {l r : Tr α} (h : d.shifts = []) : den (.node d l r) = den l ++ d.fl :: den r := by
  rw [den, h, mvs_nil, List.map_id]

theorem Good.den {d : Nd α} {l r : Tr α} (h : Good d l r) : den (.node d l r) = den l ++ d.fl :: den r :=
  den_good h.none

theorem Good.inv {d : Nd α} {l r : Tr α} (h : Good d l r) : Inv (.node d l r) :=
  ⟨h.il, h.ir, h.ord, h.ok, by rw [h.none]; intro s hs; cases hs⟩

theorem size_den (t : Tr α) : t.size = (den t).length := by
  induction t with
  | nil => rfl
  | node d l r ihl ihr => rw [Tr.size, den, List.length_map, List.length_append, List.length_cons, ihl, ihr]; omega

theorem addShift_den (s : Shift) (t : Tr α) : den (t.addShift s) = (den t).map (mv s) := by
  cases t with
  | nil => rfl
  | node d l r =>
    rw [Tr.addShift, den, den, List.map_map]
    refine List.map_congr_left fun f _ => ?_
    exact mvs_append _ _ _

theorem addShift_inv {s : Shift} (hs : 0 ≤ s.amt) {t : Tr α} (h : Inv t) : Inv (t.addShift s) := by
  cases t with
  | nil => exact h
  | node d l r =>
    obtain ⟨h1, h2, h3, h4, h5⟩ := h
    refine ⟨h1, h2, h3, h4, fun x hx => ?_⟩
    rcases List.mem_append.1 hx with hx | hx
    · exact h5 x hx
    · rw [List.mem_singleton.1 hx]; exact hs

theorem addShifts_den (S : List Shift) : ∀ t : Tr α,
    den (S.foldl (fun t sh => t.addShift sh) t) = (den t).map (mvs S) := by
  induction S with
  | nil => intro t; rw [mvs_nil, List.map_id]; rfl
  | cons s S ih =>
    intro t
    rw [List.foldl_cons, ih, addShift_den, List.map_map]
    rfl

theorem addShifts_inv (S : List Shift) : (∀ s ∈ S, 0 ≤ s.amt) → ∀ t : Tr α, Inv t →
    Inv (S.foldl (fun t sh => t.addShift sh) t) := by
  induction S with
  | nil => intro _ t h; exact h
  | cons s S ih =>
    intro hS t h
    exact ih (fun x hx => hS x (List.mem_cons_of_mem _ hx)) _ (addShift_inv (hS s List.mem_cons_self) h)

theorem applyShift_fl {d : Nd α} (h : d.pos ≤ d.mx) (s : Shift) : (applyShift d s).fl = mv s d.fl := by
  by_cases h1 : d.mx ≥ s.idx
  · by_cases h2 : d.pos ≥ s.idx
    · simp [applyShift, mv, h1, h2, Nd.fl]
    · simp [applyShift, mv, h1, h2, Nd.fl]
  · have h2 : ¬ d.pos ≥ s.idx := by omega
    simp [applyShift, mv, h1, h2, Nd.fl]

theorem applyShift_mx {d : Nd α} (s : Shift) (hs : 0 ≤ s.amt) {f : Fl α} (h : FOK d.mx f) :
    FOK (applyShift d s).mx (mv s f) := by
  obtain ⟨h1, h2⟩ := h
  have hm : (applyShift d s).mx = if d.mx ≥ s.idx then d.mx + s.amt else d.mx := by
    rw [applyShift]
    split
    · split <;> rfl
    · rfl
  rw [hm]
  by_cases hp : f.pos ≥ s.idx
  · rw [mv, if_pos hp, if_pos (by omega)]
    refine ⟨by simp only []; omega, fun i hi => ?_⟩
    obtain ⟨j, hj, rfl⟩ := List.mem_map.1 hi
    obtain ⟨h3, h4⟩ := h2 j hj
    simp only [Ival.shift]
    omega
  · rw [mv, if_neg hp]
    have : d.mx ≤ if d.mx ≥ s.idx then d.mx + s.amt else d.mx := by split <;> omega
    exact ⟨by omega, fun i hi => ⟨(h2 i hi).1, by have := (h2 i hi).2; omega⟩⟩

theorem applyShifts_spec (S : List Shift) : (∀ s ∈ S, 0 ≤ s.amt) → ∀ d : Nd α, FOK d.mx d.fl →
    (S.foldl applyShift d).fl = mvs S d.fl ∧
    ∀ f : Fl α, FOK d.mx f → FOK (S.foldl applyShift d).mx (mvs S f) := by
  induction S with
  | nil => intro _ d _; exact ⟨rfl, fun f h => h⟩
  | cons s S ih =>
    intro hS d hd
    have hs := hS s List.mem_cons_self
    have e := applyShift_fl hd.1 s
    have hd' : FOK (applyShift d s).mx (applyShift d s).fl := by rw [e]; exact applyShift_mx s hs hd
    obtain ⟨h1, h2⟩ := ih (fun x hx => hS x (List.mem_cons_of_mem _ hx)) _ hd'
    refine ⟨?_, fun f hf => ?_⟩
    · rw [List.foldl_cons, h1, e]; rfl
    · exact h2 _ (applyShift_mx s hs hf)

theorem sync_nil {t : Tr α} (h : t.sync = .nil) : t = .nil := by
  cases t with
  | nil => rfl
  | node d l r => rw [Tr.sync] at h; cases h

theorem sync_node {t : Tr α} (h : Inv t) {d : Nd α} {l r : Tr α} (e : t.sync = .node d l r) :
    Good d l r ∧ den t = den l ++ d.fl :: den r := by
  cases t with
  | nil => cases e
  | node d0 l0 r0 =>
    obtain ⟨h1, h2, h3, h4, h5⟩ := h
    rw [Tr.sync] at e
    injection e with e1 e2 e3
    subst e1 e2 e3
    have hd := h4 d0.fl (by simp)
    obtain ⟨a1, a2⟩ := applyShifts_spec d0.shifts h5 d0 hd
    have hfl : ({ d0.shifts.foldl applyShift d0 with shifts := [] } : Nd α).fl = mvs d0.shifts d0.fl := a1
    have hb : den (d0.shifts.foldl (fun t sh => t.addShift sh) l0) ++
        ({ d0.shifts.foldl applyShift d0 with shifts := [] } : Nd α).fl ::
        den (d0.shifts.foldl (fun t sh => t.addShift sh) r0) =
        (den l0 ++ d0.fl :: den r0).map (mvs d0.shifts) := by
      rw [addShifts_den, addShifts_den, hfl, List.map_append, List.map_cons]
    refine ⟨⟨rfl, addShifts_inv _ h5 _ h1, addShifts_inv _ h5 _ h2, ?_, ?_⟩, ?_⟩
    · rw [hb]; exact h3.map_mvs h5
    · rw [hb]
      intro f hf
      obtain ⟨g, hg, rfl⟩ := List.mem_map.1 hf
      exact a2 g (h4 g hg)
    · rw [hb, den]

theorem sync_good {d : Nd α} {l r : Tr α} (h : d.shifts = []) : (Tr.node d l r).sync = .node d l r := by
  cases d
  simp only [] at h
  subst h
  rfl

/-- The tree is a node without pending shifts whose invariant holds, with the contents `L`. -/
def Res (t : Tr α) (L : List (Fl α)) : Prop :=
  ∃ d l r, t = .node d l r ∧ Good d l r ∧ den l ++ d.fl :: den r = L

theorem Res.inv {t : Tr α} {L : List (Fl α)} (h : Res t L) : Inv t := by
  obtain ⟨d, l, r, rfl, g, -⟩ := h
  exact g.inv

theorem Res.den {t : Tr α} {L : List (Fl α)} (h : Res t L) : den t = L := by
  obtain ⟨d, l, r, rfl, g, rfl⟩ := h
  exact g.den

theorem Res.bound {t : Tr α} {L : List (Fl α)} (h : Res t L) :
    ∃ m, t.mx? = some m ∧ ∀ f ∈ L, FOK m f := by
  obtain ⟨d, l, r, rfl, g, rfl⟩ := h
  exact ⟨d.mx, rfl, g.ok⟩

theorem updateMax_ge (d : Nd α) (lm rm : Option Int) : d.mx ≤ (updateMax d lm rm).mx := by
  cases lm <;> cases rm <;> simp only [updateMax] <;> omega

theorem updateMax_l (d : Nd α) (m : Int) (rm : Option Int) : m ≤ (updateMax d (some m) rm).mx := by
  cases rm <;> simp only [updateMax] <;> omega

theorem updateMax_r (d : Nd α) (m : Int) (lm : Option Int) : m ≤ (updateMax d lm (some m)).mx := by
  cases lm <;> simp only [updateMax] <;> omega

theorem updateMax_own (d : Nd α) (lm rm : Option Int) : calcMax d.ivs ≤ (updateMax d lm rm).mx := by
  cases lm <;> cases rm <;> simp only [updateMax] <;> omega

theorem updateMax_fl (d : Nd α) (lm rm : Option Int) : (updateMax d lm rm).fl = d.fl := rfl

theorem FOK.mono {m m' : Int} (h : m ≤ m') {f : Fl α} (hf : FOK m f) : FOK m' f :=
  ⟨by have := hf.1; omega, fun i hi => ⟨(hf.2 i hi).1, by have := (hf.2 i hi).2; omega⟩⟩

theorem calcMax_aux (ivs : List (Ival α)) : ∀ m : Int,
    m ≤ ivs.foldl (fun m i => if i.high > m then i.high else m) m ∧
    ∀ i ∈ ivs, i.high ≤ ivs.foldl (fun m i => if i.high > m then i.high else m) m := by
  induction ivs with
  | nil => intro m; exact ⟨Int.le_refl _, fun i h => by cases h⟩
  | cons j js ih =>
    intro m
    rw [List.foldl_cons]
    obtain ⟨h1, h2⟩ := ih (if j.high > m then j.high else m)
    have h3 : m ≤ (if j.high > m then j.high else m) ∧ j.high ≤ (if j.high > m then j.high else m) := by
      split <;> omega
    refine ⟨by omega, fun i hi => ?_⟩
    rcases List.mem_cons.1 hi with rfl | hi
    · omega
    · exact h2 i hi

theorem calcMax_ge {ivs : List (Ival α)} {i : Ival α} (h : i ∈ ivs) : i.high ≤ calcMax ivs :=
  (calcMax_aux ivs 0).2 i h

theorem mk_res {d : Nd α} {l r : Tr α} (hn : d.shifts = []) (hl : Inv l) (hr : Inv r)
    (ho : Sorted (den l ++ d.fl :: den r))
    (hk : ∀ f ∈ den l ++ d.fl :: den r,
      FOK (updateMax d l.mx? r.mx?).mx f) :
    Res (mk d l r) (den l ++ d.fl :: den r) :=
  ⟨_, l, r, rfl, ⟨hn, hl, hr, ho, hk⟩, rfl⟩

theorem sorted_of_append_left {L M : List (Fl α)} (h : Sorted (L ++ M)) : Sorted L :=
  h.sub ((List.sublist_append_left L M).map _)

theorem sorted_of_append_right {L M : List (Fl α)} (h : Sorted (L ++ M)) : Sorted M :=
  h.sub ((List.sublist_append_right L M).map _)

theorem rotateLeft_res {d : Nd α} {l r : Tr α} (g : Good d l r) (hr : r ≠ .nil) :
    Res (rotateLeft (.node d l r)) (den l ++ d.fl :: den r) := by
  rw [rotateLeft, sync_good g.none]
  simp only []
  cases e : r.sync with
  | nil => exact absurd (sync_nil e) hr
  | node c rl rr =>
    obtain ⟨gr, er⟩ := sync_node g.ir e
    simp only []
    have hb : den l ++ d.fl :: den r = (den l ++ d.fl :: den rl) ++ c.fl :: den rr := by
      rw [er]; simp
    have ho := g.ord
    have hk := g.ok
    rw [hb] at ho hk ⊢
    have h1 : Res (mk d l rl) (den l ++ d.fl :: den rl) := by
      refine mk_res g.none g.il gr.il (sorted_of_append_left ho) fun f hf => ?_
      exact (hk f (List.mem_append_left _ hf)).mono (updateMax_ge _ _ _)
    have h2 : d.mx ≤ (updateMax d l.mx? rl.mx?).mx := updateMax_ge _ _ _
    have h3 := mk_res (r := rr) gr.none h1.inv gr.ir (by rw [h1.den]; exact ho) (fun f hf => by
      rw [h1.den] at hf
      exact (hk f hf).mono (Int.le_trans h2 (updateMax_l _ _ _)))
    rw [h1.den] at h3
    exact h3

theorem rotateRight_res {d : Nd α} {l r : Tr α} (g : Good d l r) (hl : l ≠ .nil) :
    Res (rotateRight (.node d l r)) (den l ++ d.fl :: den r) := by
  rw [rotateRight, sync_good g.none]
  simp only []
  cases e : l.sync with
  | nil => exact absurd (sync_nil e) hl
  | node c ll lr =>
    obtain ⟨gl, el⟩ := sync_node g.il e
    simp only []
    have hb : den l ++ d.fl :: den r = den ll ++ c.fl :: (den lr ++ d.fl :: den r) := by
      rw [el]; simp
    have ho := g.ord
    have hk := g.ok
    rw [hb] at ho hk ⊢
    have h1 : Res (mk d lr r) (den lr ++ d.fl :: den r) := by
      refine mk_res g.none gl.ir g.ir (sorted_of_append_right (L := [c.fl]) (sorted_of_append_right ho)) fun f hf => ?_
      exact (hk f (List.mem_append_right _ (List.mem_cons_of_mem _ hf))).mono (updateMax_ge _ _ _)
    have h2 : d.mx ≤ (updateMax d lr.mx? r.mx?).mx := updateMax_ge _ _ _
    have h3 := mk_res (l := ll) gl.none gl.il h1.inv (by rw [h1.den]; exact ho) (fun f hf => by
      rw [h1.den] at hf
      exact (hk f hf).mono (Int.le_trans h2 (updateMax_r _ _ _)))
    rw [h1.den] at h3
    exact h3

theorem rotateLeft_sync (t : Tr α) (h : Inv t) (hr : t.right ≠ .nil) : Res (rotateLeft t) (den t) := by
  cases e : t.sync with
  | nil => rw [sync_nil e] at hr; exact absurd rfl hr
  | node d l r =>
    obtain ⟨g, ed⟩ := sync_node h e
    rw [ed]
    have : rotateLeft t = rotateLeft (.node d l r) := by
      rw [rotateLeft, rotateLeft, e, sync_good g.none]
    rw [this]
    refine rotateLeft_res g ?_
    intro hn
    apply hr
    cases t with
    | nil => rfl
    | node d0 l0 r0 =>
      rw [Tr.sync] at e
      injection e with _ _ e3
      subst hn
      rw [Tr.right]
      have := addShifts_den d0.shifts r0
      rw [e3, den] at this
      have := List.map_eq_nil_iff.1 this.symm
      cases r0 with
      | nil => rfl
      | node => rw [den, List.map_eq_nil_iff] at this; simp at this

theorem rotateRight_sync (t : Tr α) (h : Inv t) (hl : t.left ≠ .nil) : Res (rotateRight t) (den t) := by
  cases e : t.sync with
  | nil => rw [sync_nil e] at hl; exact absurd rfl hl
  | node d l r =>
    obtain ⟨g, ed⟩ := sync_node h e
    rw [ed]
    have : rotateRight t = rotateRight (.node d l r) := by
      rw [rotateRight, rotateRight, e, sync_good g.none]
    rw [this]
    refine rotateRight_res g ?_
    intro hn
    apply hl
    cases t with
    | nil => rfl
    | node d0 l0 r0 =>
      rw [Tr.sync] at e
      injection e with _ e2 _
      subst hn
      rw [Tr.left]
      have := addShifts_den d0.shifts l0
      rw [e2, den] at this
      have := List.map_eq_nil_iff.1 this.symm
      cases l0 with
      | nil => rfl
      | node => rw [den, List.map_eq_nil_iff] at this; simp at this

theorem height_pos {t : Tr α} (h : 0 < t.height) : t ≠ .nil := by
  rintro rfl
  exact absurd h (by simp [Tr.height])

theorem rebalance_res {d : Nd α} {l r : Tr α} (hn : d.shifts = []) (hl : Inv l) (hr : Inv r)
    (ho : Sorted (den l ++ d.fl :: den r))
    (hk : ∀ f ∈ den l ++ d.fl :: den r,
      FOK (updateMax d l.mx? r.mx?).mx f) :
    Res (rebalance d l r) (den l ++ d.fl :: den r) := by
  rw [rebalance]
  simp only []
  have hk : ∀ f ∈ den l ++ d.fl :: den r,
      FOK (updateMax { d with h := 1 + max l.height r.height } l.mx? r.mx?).mx f := hk
  generalize hd : updateMax { d with h := 1 + max l.height r.height } l.mx? r.mx? = d' at hk ⊢
  have hfl : d'.fl = d.fl := by rw [← hd]; rfl
  have hn' : d'.shifts = [] := by rw [← hd]; exact hn
  rw [← hfl] at ho hk ⊢
  split
  · rename_i hh
    have hr0 : r ≠ .nil := height_pos (by omega)
    have key : ∀ r', Inv r' → den r' = den r → r' ≠ .nil →
        Res (rotateLeft (.node d' l r')) (den l ++ d'.fl :: den r) := by
      intro r' h1 h2 h3
      rw [← h2] at ho hk ⊢
      exact rotateLeft_res ⟨hn', hl, h1, ho, hk⟩ h3
    split
    · rename_i hh'
      have h1 := rotateRight_sync r hr (height_pos (by omega))
      refine key _ h1.inv h1.den ?_
      obtain ⟨_, _, _, e, _⟩ := h1
      rw [e]; exact fun h => by cases h
    · exact key r hr rfl hr0
  · split
    · rename_i hh
      have hl0 : l ≠ .nil := height_pos (by omega)
      have key : ∀ l', Inv l' → den l' = den l → l' ≠ .nil →
          Res (rotateRight (.node d' l' r)) (den l ++ d'.fl :: den r) := by
        intro l' h1 h2 h3
        rw [← h2] at ho hk ⊢
        exact rotateRight_res ⟨hn', h1, hr, ho, hk⟩ h3
      split
      · rename_i hh'
        have h1 := rotateLeft_sync l hl (height_pos (by omega))
        refine key _ h1.inv h1.den ?_
        obtain ⟨_, _, _, e, _⟩ := h1
        rw [e]; exact fun h => by cases h
      · exact key l hl rfl hl0
    · exact ⟨d', l, r, rfl, ⟨hn', hl, hr, ho, hk⟩, rfl⟩

theorem rebalance_good {d : Nd α} {l r : Tr α} (g : Good d l r) :
    Res (rebalance d l r) (den l ++ d.fl :: den r) :=
  rebalance_res g.none g.il g.ir g.ord fun f hf => (g.ok f hf).mono (updateMax_ge _ _ _)

end Gpeg.Lazy
