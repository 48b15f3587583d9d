import Verif.LazyLogOps
/-! # The interval tree before the first shift, and how a shift changes it -/
namespace Gpeg.LazyLog
variable {α : Type}

theorem good_nil : Good [] := ⟨fun _ _ h => by simp at h, fun _ h => by cases h⟩

@[simp] theorem sync_nil (t : Tr α) : t.sync [] = t := by cases t <;> rfl

/-- Without shifts: the field `max` of a node is not smaller than that of its children. -/
inductive Dom : Tr α → Prop
  | nil : Dom .nil
  | node {d : Nd α} {l r : Tr α} (hl : ∀ x, l.mx? = some x → x ≤ d.mx) (hr : ∀ x, r.mx? = some x → x ≤ d.mx)
      (hh : highOf d.ins ≤ d.mx) (dl : Dom l) (dr : Dom r) : Dom (.node d l r)

/-- A property of all nodes. -/
inductive All (P : Nd α → Prop) : Tr α → Prop
  | nil : All P .nil
  | node {d : Nd α} {l r : Tr α} (h : P d) (hl : All P l) (hr : All P r) : All P (.node d l r)

/-- Properties of nodes that survive a larger field `max` and another height. -/
def Stable (P : Nd α → Prop) : Prop :=
  ∀ (d : Nd α) (m : Int) (h : Nat), P d → d.mx ≤ m → P { d with mx := m, h := h }

theorem updateMax_le {d : Nd α} {l r : Tr α} {m : Int} (h : d.mx ≤ m) (hl : ∀ x, l.mx? = some x → x ≤ m)
    (hr : ∀ x, r.mx? = some x → x ≤ m) (hh : highOf d.ins ≤ m) :
    (updateMax (recalc d l r) l.mx? r.mx?).mx ≤ m := by
  rw [updateMax_mx]
  have h1 : omax d.mx r.mx? ≤ m := by
    generalize r.mx? = o at hr
    cases o with
    | none => exact h
    | some x => have := hr x rfl; simp only [omax]; omega
  have h2 : omax (omax d.mx r.mx?) l.mx? ≤ m := by
    generalize l.mx? = o at hl
    cases o with
    | none => exact h1
    | some x => have := hl x rfl; simp only [omax] at h1 ⊢; omega
  simp only [recalc_mx, recalc_ins]
  omega

theorem mk_dom {d : Nd α} {l r : Tr α} (dl : Dom l) (dr : Dom r) : Dom (mk d l r) := by
  obtain ⟨g0, gl, gr, gh⟩ := mk_ge d l r
  exact .node gl gr gh dl dr

theorem mk_all {P : Nd α → Prop} (hP : Stable P) {d : Nd α} {l r : Tr α} (h : P d) (hl : All P l)
    (hr : All P r) : All P (mk d l r) :=
  .node (hP (recalc d l r) _ (recalc d l r).h (hP d _ _ h (Int.le_refl _)) (updateMax_ge _ _ _).1) hl hr

theorem rotateLeft_dom {d : Nd α} {l r : Tr α} (h : Dom (.node d l r)) :
    Dom (rotateLeft [] (.node d l r)) ∧ ∀ x, (rotateLeft [] (.node d l r)).mx? = some x → x ≤ d.mx := by
  cases h with | node hl hr hh dl dr => ?_
  rw [rotateLeft, applyShifts_nil]
  simp only [sync_nil]
  cases r with
  | nil => exact ⟨.node hl hr hh dl dr, fun x hx => by cases hx; exact Int.le_refl _⟩
  | node e rl rr =>
    cases dr with | node h1 h2 h3 d1 d2 => ?_
    have he := hr _ rfl
    refine ⟨mk_dom (mk_dom dl d1) d2, ?_⟩
    intro x hx
    cases hx
    refine updateMax_le he ?_ (fun x hx => Int.le_trans (h2 x hx) he) (Int.le_trans h3 he)
    intro x hx
    cases hx
    exact updateMax_le (Int.le_refl _) hl (fun x hx => Int.le_trans (h1 x hx) he) hh

theorem rotateRight_dom {d : Nd α} {l r : Tr α} (h : Dom (.node d l r)) :
    Dom (rotateRight [] (.node d l r)) ∧ ∀ x, (rotateRight [] (.node d l r)).mx? = some x → x ≤ d.mx := by
  cases h with | node hl hr hh dl dr => ?_
  rw [rotateRight, applyShifts_nil]
  simp only [sync_nil]
  cases l with
  | nil => exact ⟨.node hl hr hh dl dr, fun x hx => by cases hx; exact Int.le_refl _⟩
  | node e ll lr =>
    cases dl with | node h1 h2 h3 d1 d2 => ?_
    have he := hl _ rfl
    refine ⟨mk_dom d1 (mk_dom d2 dr), ?_⟩
    intro x hx
    cases hx
    refine updateMax_le he (fun x hx => Int.le_trans (h1 x hx) he) ?_ (Int.le_trans h3 he)
    intro x hx
    cases hx
    exact updateMax_le (Int.le_refl _) (fun x hx => Int.le_trans (h2 x hx) he) hr hh

theorem rotateLeft_all {P : Nd α → Prop} (hP : Stable P) {t : Tr α} (h : All P t) :
    All P (rotateLeft [] t) := by
  cases h with
  | nil => exact .nil
  | @node d l r h hl hr =>
    rw [rotateLeft, applyShifts_nil]
    simp only [sync_nil]
    cases hr with
    | nil => exact .node h hl .nil
    | node he h1 h2 => exact mk_all hP he (mk_all hP h hl h1) h2

theorem rotateRight_all {P : Nd α → Prop} (hP : Stable P) {t : Tr α} (h : All P t) :
    All P (rotateRight [] t) := by
  cases h with
  | nil => exact .nil
  | @node d l r h hl hr =>
    rw [rotateRight, applyShifts_nil]
    simp only [sync_nil]
    cases hl with
    | nil => exact .node h .nil hr
    | node he h1 h2 => exact mk_all hP he h1 (mk_all hP h h2 hr)

theorem rebalance_dom {d : Nd α} {l r : Tr α} (dl : Dom l) (dr : Dom r) :
    Dom (rebalance [] (.node d l r)) ∧
    ∀ x, (rebalance [] (.node d l r)).mx? = some x → x ≤ (updateMax (recalc d l r) l.mx? r.mx?).mx := by
  obtain ⟨g0, gl, gr, gh⟩ := mk_ge d l r
  rw [rebalance]
  simp only []
  split
  · refine rotateLeft_dom (.node gl ?_ gh dl ?_)
    · split
      · cases r with
        | nil => intro x hx; cases hx
        | node e rl rr => exact fun x hx => Int.le_trans ((rotateRight_dom dr).2 x hx) (gr _ rfl)
      · exact gr
    · split
      · cases r with
        | nil => exact .nil
        | node e rl rr => exact (rotateRight_dom dr).1
      · exact dr
  · split
    · refine rotateRight_dom (.node ?_ gr gh ?_ dr)
      · split
        · cases l with
          | nil => intro x hx; cases hx
          | node e rl rr => exact fun x hx => Int.le_trans ((rotateLeft_dom dl).2 x hx) (gl _ rfl)
        · exact gl
      · split
        · cases l with
          | nil => exact .nil
          | node e rl rr => exact (rotateLeft_dom dl).1
        · exact dl
    · exact ⟨.node gl gr gh dl dr, fun x hx => by cases hx; exact Int.le_refl _⟩

theorem rebalance_dom' {d : Nd α} {l r : Tr α} (h : Dom (.node d l r)) :
    Dom (rebalance [] (.node d l r)) ∧ ∀ x, (rebalance [] (.node d l r)).mx? = some x → x ≤ d.mx := by
  cases h with | node hl hr hh dl dr => ?_
  obtain ⟨h1, h2⟩ := rebalance_dom (d := d) dl dr
  exact ⟨h1, fun x hx => Int.le_trans (h2 x hx) (updateMax_le (Int.le_refl _) hl hr hh)⟩

theorem rebalance_all {P : Nd α → Prop} (hP : Stable P) {t : Tr α} (h : All P t) :
    All P (rebalance [] t) := by
  cases h with
  | nil => exact .nil
  | @node d l r h hl hr =>
    have h' : P (updateMax (recalc d l r) l.mx? r.mx?) :=
      hP (recalc d l r) _ (recalc d l r).h (hP d _ _ h (Int.le_refl _)) (updateMax_ge _ _ _).1
    rw [rebalance]
    simp only []
    split
    · refine rotateLeft_all hP (.node h' hl ?_)
      split
      · exact rotateRight_all hP hr
      · exact hr
    · split
      · refine rotateRight_all hP (.node h' ?_ hr)
        split
        · exact rotateLeft_all hP hl
        · exact hl
      · exact .node h' hl hr

/-! ## Adding -/

theorem add_dom (a : Nat) (pos id : Int) (v : Ival α) (h0 : 0 ≤ v.high) : ∀ t : Tr α, Dom t →
    Dom (add [] 0 a pos id v t).1 := by
  intro t h
  induction h with
  | nil =>
    refine .node (fun x hx => by cases hx) (fun x hx => by cases hx) ?_ .nil .nil
    simp only [highOf, List.foldl_cons, List.foldl_nil]
    split <;> omega
  | @node d l r hl hr hh dl dr ihl ihr =>
    rw [add, applyShifts_nil]
    simp only []
    split
    · exact (rebalance_dom ihl dr).1
    · exact (rebalance_dom dl ihr).1
    · exact (rebalance_dom dl dr).1

/-- No node is empty. -/
def Full (t : Tr α) : Prop := All (fun d => d.ins ≠ []) t

theorem full_stable : Stable (α := α) (fun d => d.ins ≠ []) := fun _ _ _ h _ => h

theorem add_full (a : Nat) (pos id : Int) (v : Ival α) : ∀ t : Tr α, Full t →
    Full (add [] 0 a pos id v t).1 := by
  intro t h
  induction h with
  | nil => exact .node (by simp) .nil .nil
  | @node d l r hd hl hr ihl ihr =>
    rw [add, applyShifts_nil]
    simp only []
    split
    · exact rebalance_all full_stable (.node hd ihl hr)
    · exact rebalance_all full_stable (.node hd hl ihr)
    · exact rebalance_all full_stable (.node (by simp) hl hr)

theorem search_nil (pos id : Int) : ∀ t : Tr α, (search [] pos id t).1 = t := by
  intro t
  induction t with
  | nil => rfl
  | node d l r ihl ihr =>
    rw [search, applyShifts_nil]
    simp only []
    split
    · simp only [ihl]
    · simp only [ihr]
    · rfl

theorem touch_nil (a : Nat) : ∀ t : Tr α, t.touch [] a = t := by
  intro t
  induction t with
  | nil => rfl
  | node d l r ihl ihr =>
    rw [Tr.touch, applyShifts_nil, ihl, ihr]
    split <;> rfl

/-! ## Removing -/

theorem findSmallest_nil : ∀ (l : Tr α) (d : Nd α) (r : Tr α), (findSmallest [] d l r).1 = .node d l r := by
  intro l
  induction l with
  | nil => intro d r; rfl
  | node e ll lr ihl ihr =>
    intro d r
    rw [findSmallest, applyShifts_nil]
    simp only [ihl]

theorem removeMin_dom {P : Nd α → Prop} (hP : Stable P) : ∀ (f : Nat) (t : Tr α) (f0 : Fl α)
    (rest : List (Fl α)), t.size ≤ f → t.Ord [] → t.flat [] = f0 :: rest → Dom t → All P t →
    Dom (remove [] f f0.pos f0.id t) ∧ All P (remove [] f f0.pos f0.id t) ∧
    (∀ m, (∀ x, t.mx? = some x → x ≤ m) → ∀ x, (remove [] f f0.pos f0.id t).mx? = some x → x ≤ m) := by
  intro f
  induction f with
  | zero =>
    intro t f0 rest hf _ hfl
    rw [size_eq [], hfl] at hf
    simp at hf
  | succ f ih =>
    intro t f0 rest hf ho hfl hdom hall
    cases hdom with
    | nil => cases hfl
    | @node d l r hl hr hh dl dr =>
      cases hall with | node hd al ar => ?_
      rw [remove_succ]
      simp only [applyShifts_nil, sync_nil]
      have hdfl : d.fl [] = ⟨d.addr, d.pos, d.id, d.ins⟩ := by simp [Nd.fl, shiftIns_zero]
      simp only [Tr.size] at hf
      cases hlf : l.flat [] with
      | nil =>
        have hlnil : l = .nil := by
          cases l with
          | nil => rfl
          | node => simp [Tr.flat] at hlf
        subst hlnil
        simp only [Tr.flat, List.nil_append, List.cons.injEq] at hfl
        obtain ⟨rfl, rfl⟩ := hfl
        rw [hdfl]
        simp only [compareKey_refl]
        cases r with
        | nil => exact ⟨.nil, .nil, fun _ _ _ h => by cases h⟩
        | node g rl rr =>
          simp only []
          obtain ⟨z1, z2⟩ := rebalance_dom' dr
          exact ⟨z1, rebalance_all hP ar, fun m hm x hx =>
            Int.le_trans (z2 x hx) (Int.le_trans (hr _ rfl) (hm _ rfl))⟩
      | cons f1 rest1 =>
        rw [Tr.flat, hlf] at hfl
        simp only [List.cons_append, List.cons.injEq] at hfl
        obtain ⟨rfl, rfl⟩ := hfl
        have hlt := ho.lt_left f1 (by rw [hlf]; exact List.mem_cons_self)
        rw [hdfl] at hlt
        rw [compareKey_of_lt hlt]
        simp only []
        obtain ⟨i1, i2, i3⟩ := ih l f1 rest1 (by omega) ho.left hlf dl al
        obtain ⟨z1, z2⟩ := rebalance_dom' (.node (i3 _ hl) hr hh i1 dr)
        exact ⟨z1, rebalance_all hP (.node hd i2 ar), fun m hm x hx => Int.le_trans (z2 x hx) (hm _ rfl)⟩

theorem highOf_nil : highOf ([] : List (Ival α)) = 0 := rfl

theorem removeRoot_dom {P : Nd α → Prop} (hP : Stable P) (f : Nat) (d : Nd α) (l r : Tr α)
    (hP' : ∀ p i, P { d with pos := p, id := i })
    (hf : (Tr.node d l r).size ≤ f) (h : Inv [] (.node d l r)) (ho : (Tr.node d l r).Ord [])
    (he : d.ins = []) (hdom : Dom (.node d l r)) (hall : All P (.node d l r)) :
    Dom (remove [] f d.pos d.id (.node d l r)) ∧ All P (remove [] f d.pos d.id (.node d l r)) ∧
    ∀ x, (remove [] f d.pos d.id (.node d l r)).mx? = some x → x ≤ d.mx := by
  have ht : d.t = 0 := by
    cases h with | node own => have := own.time; simpa using this
  cases f with
  | zero => simp [Tr.size] at hf
  | succ f =>
    cases hdom with | node hl hr hh dl dr => ?_
    cases hall with | node hd al ar => ?_
    have hinvr : Inv [] r := by cases h with | node _ _ hr => exact hr
    rw [remove_succ]
    simp only [applyShifts_nil, sync_nil, compareKey_refl]
    cases hlc : l with
    | nil =>
      cases hrc : r with
      | nil => exact ⟨.nil, .nil, fun _ h => by cases h⟩
      | node g rl rr =>
        subst hrc
        simp only []
        obtain ⟨z1, z2⟩ := rebalance_dom' dr
        exact ⟨z1, rebalance_all hP ar, fun x hx => Int.le_trans (z2 x hx) (hr _ rfl)⟩
    | node e ll lr =>
      subst hlc
      cases hrc : r with
      | nil =>
        simp only []
        obtain ⟨z1, z2⟩ := rebalance_dom' dl
        exact ⟨z1, rebalance_all hP al, fun x hx => Int.le_trans (z2 x hx) (hl _ rfl)⟩
      | node g rl rr =>
        subst hrc
        simp only []
        have hg : g.t = ([] : List Shift).length := by
          cases hinvr with | node own => have := own.time; simpa using this
        obtain ⟨m, rest, h1, h2, h3, h4, h5, h6⟩ := findSmallest_spec good_nil rl g rr hinvr hg
        rw [findSmallest_nil]
        generalize (findSmallest [] g rl rr).2 = m' at *
        subst h1
        have hmfl := Nd.fl_done [] m' h2
        obtain ⟨i1, i2, i3⟩ := removeMin_dom hP f (.node g rl rr) (m'.fl []) rest
          (by simp only [Tr.size] at hf ⊢; omega) ho.right h6 dr ar
        rw [hmfl] at i1 i2 i3
        simp only [] at i1 i2 i3
        have hc : copyIns d.ins m'.ins = d.ins := by simp [copyIns, he]
        have hm't : m'.t = d.t := by simpa [ht] using h2
        rw [hc, hm't]
        obtain ⟨z1, z2⟩ := rebalance_dom' (d := { d with pos := m'.pos, id := m'.id })
          (.node hl (i3 _ hr) hh dl i1)
        exact ⟨z1, rebalance_all hP (.node (hP' _ _) al i2), z2⟩

/-- What the tree must satisfy for empty nodes: they start after the range, or the search will come by. -/
def Visit (low high : Int) (d : Nd α) : Prop := d.ins = [] → high < d.pos ∨ low ≤ d.mx

theorem visit_stable (low high : Int) : Stable (α := α) (Visit low high) := by
  intro d m h hv hm he
  rcases hv he with h1 | h1
  · exact .inl h1
  · exact .inr (by simp only []; omega)

theorem all_of_flat {low high : Int} {t : Tr α} (h : Inv [] t)
    (hq : ∀ f ∈ t.flat [], f.ins = [] → high < f.pos) : All (Visit low high) t := by
  induction h with
  | nil => exact .nil
  | @node d l r own hl hr bl br ihl ihr =>
    refine .node ?_ (ihl fun f hf => hq f (by simp [Tr.flat, hf])) (ihr fun f hf => hq f (by simp [Tr.flat, hf]))
    intro he
    have := hq (d.fl []) (by simp [Tr.flat])
    simp only [Nd.fl, List.drop_nil, movePosL_nil, Int.sub_self, shiftIns_zero] at this
    exact .inl (this he)

theorem all_low {low high : Int} {t : Tr α} (hdom : Dom t) (hall : All (Visit low high) t)
    (hx : ∀ x, t.mx? = some x → x < low) : ∀ f ∈ t.flat [], f.ins = [] → high < f.pos := by
  induction hall with
  | nil => intro f hf; cases hf
  | @node d l r hd al ar ihl ihr =>
    cases hdom with | node hl hr hh dl dr => ?_
    have hd0 := hx _ rfl
    intro f hf he
    simp only [Tr.flat, List.mem_append, List.mem_cons] at hf
    rcases hf with hf | rfl | hf
    · exact ihl dl (fun x h => by have := hl x h; omega) f hf he
    · simp only [Nd.fl, List.drop_nil, movePosL_nil, Int.sub_self, shiftIns_zero] at he ⊢
      rcases hd he with h | h
      · exact h
      · omega
    · exact ihr dr (fun x h => by have := hr x h; omega) f hf he

/-- Before the first shift, `removeOverlaps` leaves no empty node in front of or inside the range. -/
theorem removeOverlaps_empty (low high : Int) : ∀ (f : Nat) (t : Tr α), t.size ≤ f → Inv [] t → t.Ord [] →
    Dom t → All (Visit low high) t →
    Dom (removeOverlaps [] low high f t) ∧
    (∀ m, (∀ x, t.mx? = some x → x ≤ m) → ∀ x, (removeOverlaps [] low high f t).mx? = some x → x ≤ m) ∧
    (∀ g ∈ (removeOverlaps [] low high f t).flat [], g.ins = [] → high < g.pos) := by
  intro f
  induction f with
  | zero =>
    intro t hf _ _ _ _
    cases t with
    | nil => exact ⟨.nil, (fun _ _ _ h => by cases h), (fun _ h => by cases h)⟩
    | node => simp [Tr.size] at hf
  | succ f ih =>
    intro t hf h ho hdom hall
    have h0 := h
    have hall0 := hall
    have hdom0 := hdom
    cases hdom with
    | nil => exact ⟨.nil, (fun _ _ _ h => by cases h), (fun _ h => by cases h)⟩
    | @node d l r hl hr hh dl dr =>
      cases hall with | node hd al ar => ?_
      have s3 : d.t = ([] : List Shift).length := by
        cases h with | node own => have := own.time; simpa using this
      obtain ⟨own, hil, hir, bl, br⟩ := h.done_parts s3
      have hdfl := Nd.fl_done [] d s3
      rw [removeOverlaps, applyShifts_nil]
      simp only [Tr.size] at hf
      simp only []
      by_cases hmx : low > d.mx
      · rw [if_pos hmx]
        refine ⟨hdom0, fun m hm => hm, all_low hdom0 hall0 ?_⟩
        intro x hx
        cases hx
        omega
      · rw [if_neg hmx]
        obtain ⟨l1, l2, l3⟩ := removeOverlaps_spec good_nil low high f l (by omega) hil ho.left
        obtain ⟨k1, k2, k3⟩ := ih l (by omega) hil ho.left dl al
        generalize removeOverlaps [] low high f l = l' at *
        generalize hins : swapRemove (Ival.overlaps low high) d.ins.length d.ins = ins'
        have hmem : ∀ i ∈ ins', i ∈ d.ins := by
          intro i hi
          rw [← hins] at hi
          exact (swapRemove_mem.1 hi).1
        have hdm : 0 ≤ d.mx := Int.le_trans (highOf_foldl d.ins 0).1 hh
        have hh' : highOf ins' ≤ d.mx := by
          have : ∀ (L : List (Ival α)) (m0 : Int), m0 ≤ d.mx → (∀ i ∈ L, i.high ≤ d.mx) →
              L.foldl (fun high i => if i.high > high then i.high else high) m0 ≤ d.mx := by
            intro L
            induction L with
            | nil => intro m0 h _; exact h
            | cons i is ihL =>
              intro m0 h hL
              refine ihL _ ?_ (fun j hj => hL j (List.mem_cons_of_mem _ hj))
              have := hL i List.mem_cons_self
              show (if i.high > m0 then i.high else m0) ≤ d.mx
              split <;> omega
          exact this ins' 0 hdm (fun i hi => own.high i (hmem i hi))
        have hsd : Sub [({ d with ins := ins' } : Nd α).fl []] [d.fl []] := by
          rw [hdfl, Nd.fl_done [] { d with ins := ins' } s3]
          refine ⟨.refl _, .refl _, ?_⟩
          intro g hg
          simp only [List.mem_singleton] at hg
          subst hg
          exact .inr ⟨_, List.mem_singleton.2 rfl, rfl, rfl, rfl, fun i hi => hmem i hi⟩
        have hinv : Inv [] (.node { d with ins := ins' } l' r) :=
          Inv.mk_done s3 (fun i hi => own.wf i (hmem i hi)) own.pos (fun i hi => own.high i (hmem i hi))
            l1 hir (l2.le bl) br
        have hord : (Tr.node { d with ins := ins' } l' r).Ord [] :=
          (l2.append (hsd.append (Sub.refl (r.flat [])))).ord ho
        have hdn : Dom (.node { d with ins := ins' } l' r) := .node (k2 _ hl) hr hh' k1 dr
        by_cases hemp : ins'.isEmpty = true
        · rw [if_pos hemp]
          have he : ins' = [] := List.isEmpty_iff.1 hemp
          have hP' : ∀ p i, Visit low high { ({ d with ins := ins' } : Nd α) with pos := p, id := i } :=
            fun p i _ => .inr (by simp only []; omega)
          have han : All (Visit low high) (.node { d with ins := ins' } l' r) :=
            .node (hP' d.pos d.id) (all_of_flat l1 k3) ar
          obtain ⟨r1, r2⟩ := removeRoot_spec good_nil _ { d with ins := ins' } l' r (Nat.le_refl _)
            hinv hord s3 he
          obtain ⟨v1, v2, v3⟩ := removeRoot_dom (visit_stable low high) _ { d with ins := ins' } l' r hP'
            (Nat.le_refl _) hinv hord he hdn han
          generalize remove [] (Tr.node { d with ins := ins' } l' r).size
            ({ d with ins := ins' } : Nd α).pos ({ d with ins := ins' } : Nd α).id
            (.node { d with ins := ins' } l' r) = n at *
          have hnsub : Sub (n.flat []) ((Tr.node { d with ins := ins' } l' r).flat []) := r2.sub (S := [])
          by_cases hge : high ≥ d.pos
          · rw [if_pos hge]
            have hsz : n.size ≤ f := by
              rw [size_eq [], r2.length]
              have := l2.length
              rw [← size_eq []] at this
              rw [← size_eq [], ← size_eq []] at *
              omega
            obtain ⟨i1, i2, i3⟩ := ih n hsz r1 (hnsub.ord hord) v1 v2
            exact ⟨i1, fun m hm => i2 m (fun x hx => Int.le_trans (v3 x hx) (hm _ rfl)), i3⟩
          · rw [if_neg hge]
            refine ⟨v1, fun m hm x hx => Int.le_trans (v3 x hx) (hm _ rfl), ?_⟩
            have hrp : ∀ g ∈ r.flat [], high < g.pos := by
              intro g hg
              have := ho.lt_right g hg
              rw [hdfl] at this
              simp only [Fl.lt, klt] at this
              omega
            intro g hg hge'
            rcases r2 with e | ⟨m, B, e1, -, e2⟩
            · rw [e] at hg
              rcases List.mem_append.1 hg with hg | hg
              · exact k3 g hg hge'
              · exact hrp g hg
            · rw [e2, List.mem_append, List.mem_cons] at hg
              rcases hg with hg | rfl | hg
              · exact k3 g hg hge'
              · exact hrp m (by rw [e1]; exact List.mem_cons_self)
              · exact hrp g (by rw [e1]; exact List.mem_cons_of_mem _ hg)
        · rw [if_neg hemp]
          have hne : ins' ≠ [] := fun h => hemp (by simp [h])
          have hrest : ∀ r' : Tr α, (∀ g ∈ r'.flat [], g.ins = [] → high < g.pos) →
              ∀ g ∈ (Tr.node { d with ins := ins' } l' r').flat [], g.ins = [] → high < g.pos := by
            intro r' hr' g hg hge
            simp only [Tr.flat, List.mem_append, List.mem_cons] at hg
            rcases hg with hg | hg | hg
            · exact k3 g hg hge
            · rw [Nd.fl_done [] { d with ins := ins' } s3] at hg
              rw [hg] at hge
              exact absurd hge hne
            · exact hr' g hg hge
          by_cases hge : high < d.pos
          · rw [if_pos hge]
            refine ⟨hdn, fun m hm x hx => by cases hx; exact hm _ rfl, hrest r ?_⟩
            intro g hg _
            have := ho.lt_right g hg
            rw [hdfl] at this
            simp only [Fl.lt, klt] at this
            omega
          · rw [if_neg hge]
            obtain ⟨q1, q2, q3⟩ := ih r (by omega) hir ho.right dr ar
            exact ⟨.node (k2 _ hl) (q2 _ hr) hh' k1 q1, fun m hm x hx => by cases hx; exact hm _ rfl, hrest _ q3⟩

/-! ## A new shift -/

/-- A node moved by a shift. -/
def Fl.move (s : Shift) (f : Fl α) : Fl α :=
  { f with pos := movePos s f.pos, ins := shiftIns (movePos s f.pos - f.pos) f.ins }

theorem fl_snoc {S : List Shift} {d : Nd α} (ht : d.t ≤ S.length) (s : Shift) :
    d.fl (S ++ [s]) = (d.fl S).move s := by
  simp only [Nd.fl, Fl.move, List.drop_append_of_le_length ht, movePosL_snoc, shiftIns_add]
  congr 2
  omega

theorem flat_snoc {S : List Shift} {t : Tr α} (h : Inv S t) (s : Shift) :
    t.flat (S ++ [s]) = (t.flat S).map (Fl.move s) := by
  induction h with
  | nil => rfl
  | node own _ _ _ _ ihl ihr => simp only [Tr.flat, ihl, ihr, fl_snoc own.time, List.map_append, List.map_cons]

theorem move_le {s : Shift} {f : Fl α} {m : Int} (h : f.le m) (hs : 0 ≤ s.amt) :
    (f.move s).le (if m < s.idx then m else m + s.amt) := by
  have h1 := h.1
  refine ⟨?_, ?_⟩
  · simp only [Fl.move, movePos]
    split <;> split <;> omega
  · intro i hi
    obtain ⟨j, hj, -, e, -⟩ := mem_shiftIns hi
    have := h.2 j hj
    rw [e]
    simp only [movePos]
    split <;> split <;> omega

theorem adv_snoc {S : List Shift} {t : Nat} {m : Int} {c : Option Int} {s : Shift} (ht : t ≤ S.length) :
    (if adv S t m c < s.idx then adv S t m c else adv S t m c + s.amt) ≤ adv (S ++ [s]) t m c := by
  cases t with
  | zero =>
    cases S with
    | nil =>
      show (if m < s.idx then m else m + s.amt) ≤ (if m < s.idx then m else omax (m + s.amt) c)
      by_cases hh : m < s.idx
      · rw [if_pos hh, if_pos hh]; exact Int.le_refl _
      · rw [if_neg hh, if_neg hh]; exact le_omax _ _
    | cons a S' =>
      simp only [adv, List.cons_append, moveMax_snoc]
      omega
  | succ t =>
    simp only [adv, List.drop_append_of_le_length ht, moveMax_snoc]
    omega

theorem later_shift {S : List Shift} {t : Tr α} (h : Inv S t) (ho : t.Ord S) (s : Shift) (hs : 0 ≤ s.amt) :
    Inv (S ++ [s]) t ∧ t.Ord (S ++ [s]) := by
  refine ⟨?_, ?_⟩
  · clear ho
    induction h with
    | nil => exact .nil
    | @node d l r own hl hr bl br ihl ihr =>
      refine .node ⟨?_, own.wf, own.pos, own.high, ?_⟩ ihl ihr ?_ ?_
      · have := own.time
        simp only [List.length_append]
        omega
      · intro s0 S' he h1 h2 h3 h4
        cases S with
        | nil =>
          simp only [List.nil_append, List.cons.injEq] at he
          have := own.pos
          rw [← he.1]
          omega
        | cons a S'' =>
          simp only [List.cons_append, List.cons.injEq] at he
          have := own.empty a S'' rfl h1 h2
          rw [he.1] at this
          exact this h3 h4
      · intro f hf
        rw [flat_snoc hl] at hf
        obtain ⟨g, hg, rfl⟩ := List.mem_map.1 hf
        exact Fl.le_trans (move_le (bl g hg) hs) (adv_snoc own.time)
      · intro f hf
        rw [flat_snoc hr] at hf
        obtain ⟨g, hg, rfl⟩ := List.mem_map.1 hf
        exact Fl.le_trans (move_le (br g hg) hs) (adv_snoc own.time)
  · rw [Tr.Ord, flat_snoc h, List.pairwise_map]
    refine List.Pairwise.imp ?_ ho
    intro a b hab
    simp only [Fl.lt, Fl.move, klt, movePos] at hab ⊢
    split <;> split <;> omega

theorem first_le {t : Tr α} (h : Inv [] t) {m : Int} (hm : ∀ f ∈ t.flat [], f.le m) (s : Shift) :
    ∀ f ∈ t.flat [s], f.le (if m < s.idx then m else omax (m + s.amt) t.mx?) := by
  intro f hf
  rw [show [s] = [] ++ [s] from rfl, flat_snoc h] at hf
  obtain ⟨g, hg, rfl⟩ := List.mem_map.1 hf
  cases h with
  | nil => cases hg
  | @node d l r own hl hr bl br =>
    have h1 := hm g hg
    have ht : d.t = ([] : List Shift).length := by have := own.time; simpa using this
    have h2 := (Inv.node own hl hr bl br).bound ht g hg
    have h11 := h1.1
    have h21 := h2.1
    simp only [Tr.mx?, omax]
    refine ⟨?_, ?_⟩
    · simp only [Fl.move, movePos]
      split <;> split <;> omega
    · intro i hi
      obtain ⟨j, hj, -, e, -⟩ := mem_shiftIns hi
      have h12 := h1.2 j hj
      have h22 := h2.2 j hj
      rw [e]
      simp only [movePos]
      split <;> split <;> omega

/-- The first shift may move to the left, if the range has been cleared. -/
theorem first_shift {t : Tr α} (h : Inv [] t) (ho : t.Ord []) {low high amt : Int} {k : Nat}
    (hc : Clear low high (t.flat [])) (hq : ∀ f ∈ t.flat [], f.ins = [] → high < f.pos)
    (hlh : low ≤ high) (ha : low - high ≤ amt) :
    Inv [⟨low, amt, k⟩] t ∧ t.Ord [⟨low, amt, k⟩] := by
  have hside : ∀ f ∈ t.flat [], f.pos < low ∨ high < f.pos := by
    intro f hf
    cases hi : f.ins with
    | nil => exact .inr (hq f hf hi)
    | cons i is =>
      have hm : i ∈ f.ins := by rw [hi]; exact List.mem_cons_self
      have h1 := hc f hf i hm
      have h2 := h.wf_flat f hf i hm
      simp only [Ival.overlaps, Bool.and_eq_false_iff, decide_eq_false_iff_not] at h1
      omega
  refine ⟨?_, ?_⟩
  · clear ho hc hside
    induction h with
    | nil => exact .nil
    | @node d l r own hl hr bl br ihl ihr =>
      have ht : d.t = ([] : List Shift).length := by have := own.time; simpa using this
      have hdfl := Nd.fl_done [] d ht
      have ht0 : d.t = 0 := ht
      refine .node ⟨by simp [ht0], own.wf, own.pos, own.high, ?_⟩
        (ihl fun f hf => hq f (by simp [Tr.flat, hf])) (ihr fun f hf => hq f (by simp [Tr.flat, hf])) ?_ ?_
      · intro s0 S' he h1 h2 h3 h4
        have := hq (d.fl []) (by simp [Tr.flat])
        rw [hdfl] at this
        have := this h2
        simp only [List.cons.injEq] at he
        rw [← he.1] at h4
        simp only [] at *
        omega
      · rw [ht0] at bl ⊢
        exact first_le hl bl _
      · rw [ht0] at br ⊢
        exact first_le hr br _
  · rw [Tr.Ord, show [(⟨low, amt, k⟩ : Shift)] = [] ++ [⟨low, amt, k⟩] from rfl, flat_snoc h, List.pairwise_map]
    refine List.Pairwise.imp_of_mem ?_ ho
    intro a b hma hmb hab
    have h1 := hside a hma
    have h2 := hside b hmb
    simp only [Fl.lt, Fl.move, klt, movePos] at hab ⊢
    split <;> split <;> omega

theorem Good.snoc {S : List Shift} (h : Good S) {s : Shift} (ht : s.tstamp = S.length + 1)
    (hs : S = [] ∨ 0 ≤ s.amt) : Good (S ++ [s]) := by
  refine ⟨?_, ?_⟩
  · intro i x hx
    rcases Nat.lt_trichotomy i S.length with hi | hi | hi
    · rw [List.getElem?_append_left hi] at hx
      exact h.wf i x hx
    · subst hi
      rw [List.getElem?_append_right (Nat.le_refl _)] at hx
      simp only [Nat.sub_self, List.getElem?_cons_zero, Option.some.injEq] at hx
      rw [← hx]; exact ht
    · rw [List.getElem?_eq_none (by simp; omega)] at hx
      cases hx
  · intro x hx
    cases S with
    | nil => simp at hx
    | cons a S' =>
      simp only [List.cons_append, List.tail_cons, List.mem_append, List.mem_singleton] at hx
      rcases hx with hx | rfl
      · exact h.pos x hx
      · rcases hs with hs | hs
        · cases hs
        · exact hs

end Gpeg.LazyLog
