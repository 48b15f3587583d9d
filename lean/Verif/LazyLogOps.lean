import Verif.LazyLogInv
import Verif.Props.IntervalArray
/-! # The operations on the interval tree preserve its invariants -/
namespace Gpeg.LazyLog
variable {α : Type}

/-- The order of keys. -/
def klt (p i p' i' : Int) : Prop := p < p' ∨ (p = p' ∧ i < i')

/-- The order of nodes by their keys. -/
def Fl.lt (f g : Fl α) : Prop := klt f.pos f.id g.pos g.id

theorem klt_trans {a b c d e f : Int} (h : klt a b c d) (h' : klt c d e f) : klt a b e f := by
  simp only [klt] at *; omega

theorem compareKey_lt {p i p' i' : Int} (h : compareKey p i p' i' = .lt) : klt p i p' i' := by
  simp only [compareKey] at h
  simp only [klt]
  split_ifs at h <;> omega

theorem compareKey_gt {p i p' i' : Int} (h : compareKey p i p' i' = .gt) : klt p' i' p i := by
  simp only [compareKey] at h
  simp only [klt]
  split_ifs at h <;> omega

theorem compareKey_eq {p i p' i' : Int} (h : compareKey p i p' i' = .eq) : p = p' ∧ i = i' := by
  simp only [compareKey] at h
  split_ifs at h <;> omega

theorem compareKey_of_lt {p i p' i' : Int} (h : klt p i p' i') : compareKey p i p' i' = .lt := by
  simp only [klt] at h
  simp only [compareKey]
  split_ifs <;> first | rfl | omega

theorem compareKey_refl (p i : Int) : compareKey p i p i = .eq := by
  simp only [compareKey]
  split_ifs <;> first | rfl | omega

/-- The keys are in order. -/
def Tr.Ord (S : List Shift) (t : Tr α) : Prop := (t.flat S).Pairwise Fl.lt

theorem Tr.Ord.left {S : List Shift} {d : Nd α} {l r : Tr α} (h : (Tr.node d l r).Ord S) : l.Ord S :=
  (List.pairwise_append.1 h).1

theorem Tr.Ord.right {S : List Shift} {d : Nd α} {l r : Tr α} (h : (Tr.node d l r).Ord S) : r.Ord S :=
  (List.pairwise_cons.1 (List.pairwise_append.1 h).2.1).2

theorem Tr.Ord.lt_left {S : List Shift} {d : Nd α} {l r : Tr α} (h : (Tr.node d l r).Ord S) :
    ∀ f ∈ l.flat S, f.lt (d.fl S) :=
  fun f hf => (List.pairwise_append.1 h).2.2 f hf _ List.mem_cons_self

theorem Tr.Ord.lt_right {S : List Shift} {d : Nd α} {l r : Tr α} (h : (Tr.node d l r).Ord S) :
    ∀ f ∈ r.flat S, (d.fl S).lt f :=
  (List.pairwise_cons.1 (List.pairwise_append.1 h).2.1).1

theorem size_eq (S : List Shift) (t : Tr α) : t.size = (t.flat S).length := by
  induction t with
  | nil => rfl
  | node d l r ihl ihr => simp [Tr.size, Tr.flat, ihl, ihr]; omega

/-! ## Adding -/

/-- How the nodes of a tree change when the interval `v` is added under `(pos, id)`: either a new node is made
between the smaller and the larger keys, or `v` is appended to the node with this key. -/
def AddRel (L L' : List (Fl α)) (a : Nat) (pos id : Int) (v : Ival α) (loc : Nat) : Prop :=
  (∃ A B, L = A ++ B ∧ L' = A ++ ⟨a, pos, id, [v]⟩ :: B ∧ loc = a ∧
    (∀ f ∈ A, klt f.pos f.id pos id) ∧ (∀ f ∈ B, klt pos id f.pos f.id)) ∨
  (∃ A f B, L = A ++ f :: B ∧ L' = A ++ { f with ins := f.ins ++ [v] } :: B ∧ loc = f.addr ∧
    f.pos = pos ∧ f.id = id)

theorem Inv.done_parts {S : List Shift} {d : Nd α} {l r : Tr α} (h : Inv S (.node d l r))
    (ht : d.t = S.length) :
    Own S d ∧ Inv S l ∧ Inv S r ∧ (∀ f ∈ l.flat S, f.le d.mx) ∧ (∀ f ∈ r.flat S, f.le d.mx) := by
  cases h with | node own hl hr bl br => ?_
  rw [adv_done _ _ _ _ ht] at bl br
  exact ⟨own, hl, hr, bl, br⟩

theorem add_spec {S : List Shift} (hS : Good S) (a : Nat) (pos id : Int) (v : Ival α) (hv : v.low = pos)
    (hv' : v.low ≤ v.high) : ∀ t : Tr α, Inv S t → t.Ord S →
    Inv S (add S S.length a pos id v t).1 ∧ (add S S.length a pos id v t).1.Done S ∧
    AddRel (t.flat S) ((add S S.length a pos id v t).1.flat S) a pos id v (add S S.length a pos id v t).2 := by
  intro t
  induction t with
  | nil =>
    intro _ _
    refine ⟨?_, rfl, .inl ⟨[], [], rfl, ?_, rfl, (fun _ h => by cases h), (fun _ h => by cases h)⟩⟩
    · refine Inv.mk_done rfl ?_ ?_ ?_ .nil .nil (fun _ h => by cases h) (fun _ h => by cases h)
      · intro i hi
        simp only [List.mem_singleton] at hi
        subst hi
        exact ⟨hv, hv'⟩
      · simp only []
        omega
      · intro i hi
        simp only [List.mem_singleton] at hi
        subst hi
        exact Int.le_refl _
    · simp [add, Tr.flat, Nd.fl_done]
  | node d l r ihl ihr =>
    intro h ho
    obtain ⟨s1, s2, s3⟩ := applyShifts_inv hS h
    have hfl : (Tr.node d l r).flat S = l.flat S ++ (applyShifts S l.mx? r.mx? d).fl S :: r.flat S := by
      rw [s2]; rfl
    have ho' : (Tr.node (applyShifts S l.mx? r.mx? d) l r).Ord S := by
      rw [Tr.Ord, Tr.flat, s2]; exact ho
    rw [add]
    simp only []
    generalize applyShifts S l.mx? r.mx? d = d' at *
    obtain ⟨own, hl, hr, bl, br⟩ := s1.done_parts s3
    have hdfl := Nd.fl_done S d' s3
    cases hc : compareKey pos id d'.pos d'.id with
    | lt =>
      simp only []
      obtain ⟨i1, i2, i3⟩ := ihl hl ho'.left
      generalize hadd : add S S.length a pos id v l = res at *
      obtain ⟨l', loc⟩ := res
      simp only [] at i1 i2 i3 ⊢
      obtain ⟨g0, gl, gr, gh⟩ := mk_ge d' l' r
      obtain ⟨k1, k2, k3, -⟩ := rebalance_inv hS s3 own.wf (Int.le_trans own.pos g0) i1 hr
        (fun f hf => i1.boundTr i2 f hf _ gl) (fun f hf => Fl.le_trans (br f hf) g0)
      refine ⟨k1, k3, ?_⟩
      rw [k2, hfl]
      simp only [Tr.flat]
      have hlt := compareKey_lt hc
      rcases i3 with ⟨A, B, e1, e2, e3, e4, e5⟩ | ⟨A, f, B, e1, e2, e3, e4, e5⟩
      · refine .inl ⟨A, B ++ d'.fl S :: r.flat S, ?_, ?_, e3, e4, ?_⟩
        · rw [e1, List.append_assoc]
        · rw [e2]; simp
        · intro f hf
          simp only [List.mem_append, List.mem_cons] at hf
          rcases hf with hf | rfl | hf
          · exact e5 f hf
          · rw [hdfl]; exact hlt
          · have := ho'.lt_right f hf
            rw [hdfl] at this
            exact klt_trans hlt this
      · refine .inr ⟨A, f, B ++ d'.fl S :: r.flat S, ?_, ?_, e3, e4, e5⟩
        · rw [e1]; simp
        · rw [e2]; simp
    | gt =>
      simp only []
      obtain ⟨i1, i2, i3⟩ := ihr hr ho'.right
      generalize hadd : add S S.length a pos id v r = res at *
      obtain ⟨r', loc⟩ := res
      simp only [] at i1 i2 i3 ⊢
      obtain ⟨g0, gl, gr, gh⟩ := mk_ge d' l r'
      obtain ⟨k1, k2, k3, -⟩ := rebalance_inv hS s3 own.wf (Int.le_trans own.pos g0) hl i1
        (fun f hf => Fl.le_trans (bl f hf) g0) (fun f hf => i1.boundTr i2 f hf _ gr)
      refine ⟨k1, k3, ?_⟩
      rw [k2, hfl]
      simp only [Tr.flat]
      have hlt := compareKey_gt hc
      rcases i3 with ⟨A, B, e1, e2, e3, e4, e5⟩ | ⟨A, f, B, e1, e2, e3, e4, e5⟩
      · refine .inl ⟨l.flat S ++ d'.fl S :: A, B, ?_, ?_, e3, ?_, e5⟩
        · rw [e1]; simp
        · rw [e2]; simp
        · intro f hf
          simp only [List.mem_append, List.mem_cons] at hf
          rcases hf with hf | rfl | hf
          · have := ho'.lt_left f hf
            rw [hdfl] at this
            exact klt_trans this hlt
          · rw [hdfl]; exact hlt
          · exact e4 f hf
      · refine .inr ⟨l.flat S ++ d'.fl S :: A, f, B, ?_, ?_, e3, e4, e5⟩
        · rw [e1]; simp
        · rw [e2]; simp
    | eq =>
      simp only []
      obtain ⟨q1, q2⟩ := compareKey_eq hc
      obtain ⟨g0, gl, gr, gh⟩ := mk_ge { d' with ins := d'.ins ++ [v], t := S.length } l r
      have wf : ({ d' with ins := d'.ins ++ [v], t := S.length } : Nd α).Wf := by
        intro i hi
        simp only [List.mem_append, List.mem_singleton] at hi
        rcases hi with hi | rfl
        · exact own.wf i hi
        · simp only []; omega
      obtain ⟨k1, k2, k3, -⟩ := rebalance_inv (d := { d' with ins := d'.ins ++ [v], t := S.length }) hS rfl wf
        (Int.le_trans own.pos g0) hl hr
        (fun f hf => Fl.le_trans (bl f hf) g0) (fun f hf => Fl.le_trans (br f hf) g0)
      refine ⟨k1, k3, .inr ⟨l.flat S, d'.fl S, r.flat S, hfl, ?_, ?_, ?_, ?_⟩⟩
      · rw [k2, Tr.flat, hdfl, Nd.fl_done _ _ rfl]
      · rw [hdfl]
      · rw [hdfl]; exact q1.symm
      · rw [hdfl]; exact q2.symm

theorem AddRel.ord {L L' : List (Fl α)} {a : Nat} {pos id : Int} {v : Ival α} {loc : Nat}
    (h : AddRel L L' a pos id v loc) (ho : L.Pairwise Fl.lt) : L'.Pairwise Fl.lt := by
  rcases h with ⟨A, B, rfl, rfl, -, e4, e5⟩ | ⟨A, f, B, rfl, rfl, -⟩
  · rw [List.pairwise_append] at ho ⊢
    refine ⟨ho.1, List.pairwise_cons.2 ⟨e5, ho.2.1⟩, ?_⟩
    intro x hx y hy
    rcases List.mem_cons.1 hy with rfl | hy
    · exact e4 x hx
    · exact ho.2.2 x hx y hy
  · rw [List.pairwise_append] at ho ⊢
    obtain ⟨h1, h2, h3⟩ := ho
    rw [List.pairwise_cons] at h2
    refine ⟨h1, List.pairwise_cons.2 ⟨h2.1, h2.2⟩, ?_⟩
    intro x hx y hy
    rcases List.mem_cons.1 hy with rfl | hy
    · exact h3 x hx f List.mem_cons_self
    · exact h3 x hx y (List.mem_cons_of_mem _ hy)

/-! ## Searching -/

theorem search_spec {S : List Shift} (hS : Good S) (pos id : Int) : ∀ t : Tr α, Inv S t → t.Ord S →
    Inv S (search S pos id t).1 ∧ (search S pos id t).1.flat S = t.flat S ∧
    match (search S pos id t).2 with
    | some d => d.t = S.length ∧ d.pos = pos ∧ d.id = id ∧ d.fl S ∈ t.flat S
    | none => ∀ f ∈ t.flat S, ¬ (f.pos = pos ∧ f.id = id) := by
  intro t
  induction t with
  | nil => intro h _; exact ⟨h, rfl, fun _ h => by cases h⟩
  | node d l r ihl ihr =>
    intro h ho
    obtain ⟨s1, s2, s3⟩ := applyShifts_inv hS h
    have hfl : (Tr.node d l r).flat S = l.flat S ++ (applyShifts S l.mx? r.mx? d).fl S :: r.flat S := by
      rw [s2]; rfl
    have ho' : (Tr.node (applyShifts S l.mx? r.mx? d) l r).Ord S := by
      rw [Tr.Ord, Tr.flat, s2]; exact ho
    rw [search]
    simp only []
    generalize applyShifts S l.mx? r.mx? d = d' at *
    obtain ⟨own, hl, hr, bl, br⟩ := s1.done_parts s3
    have hdfl := Nd.fl_done S d' s3
    cases hc : compareKey pos id d'.pos d'.id with
    | lt =>
      simp only []
      obtain ⟨i1, i2, i3⟩ := ihl hl ho'.left
      generalize search S pos id l = res at *
      obtain ⟨l', o⟩ := res
      simp only [] at i1 i2 i3 ⊢
      refine ⟨Inv.mk_done s3 own.wf own.pos own.high i1 hr (by rw [i2]; exact bl) br, ?_, ?_⟩
      · rw [hfl, Tr.flat, i2]
      · cases o with
        | some e => exact ⟨i3.1, i3.2.1, i3.2.2.1, by rw [hfl]; exact List.mem_append_left _ i3.2.2.2⟩
        | none =>
          intro f hf
          rw [hfl, List.mem_append, List.mem_cons] at hf
          have hlt := compareKey_lt hc
          rcases hf with hf | rfl | hf
          · exact i3 f hf
          · rw [hdfl]; simp only [klt] at hlt ⊢; omega
          · have := ho'.lt_right f hf
            rw [hdfl] at this
            simp only [klt, Fl.lt] at hlt this ⊢
            omega
    | gt =>
      simp only []
      obtain ⟨i1, i2, i3⟩ := ihr hr ho'.right
      generalize search S pos id r = res at *
      obtain ⟨r', o⟩ := res
      simp only [] at i1 i2 i3 ⊢
      refine ⟨Inv.mk_done s3 own.wf own.pos own.high hl i1 bl (by rw [i2]; exact br), ?_, ?_⟩
      · rw [hfl, Tr.flat, i2]
      · cases o with
        | some e => exact ⟨i3.1, i3.2.1, i3.2.2.1, by rw [hfl]; simp [i3.2.2.2]⟩
        | none =>
          intro f hf
          rw [hfl, List.mem_append, List.mem_cons] at hf
          have hlt := compareKey_gt hc
          rcases hf with hf | rfl | hf
          · have := ho'.lt_left f hf
            rw [hdfl] at this
            simp only [klt, Fl.lt] at hlt this ⊢
            omega
          · rw [hdfl]; simp only [klt] at hlt ⊢; omega
          · exact i3 f hf
    | eq =>
      simp only []
      obtain ⟨q1, q2⟩ := compareKey_eq hc
      exact ⟨s1, hfl.symm, s3, q1.symm, q2.symm, by rw [hfl]; simp⟩

/-! ## Asking for a position -/

/-- Changing a child without changing what it stands for, if its field `max` is the same or it has seen all
shifts. -/
theorem child_le {S : List Shift} (hS : Good S) {t : Nat} {m : Int} {l l' : Tr α} (hl' : Inv S l')
    (hf : l'.flat S = l.flat S) (hx : l'.mx? = l.mx? ∨ l'.Done S)
    (bl : ∀ f ∈ l.flat S, f.le (adv S t m l.mx?)) : ∀ f ∈ l'.flat S, f.le (adv S t m l'.mx?) := by
  intro f hfm
  have hb := bl f (by rwa [hf] at hfm)
  rcases hx with hx | hx
  · rw [hx]; exact hb
  · cases t with
    | succ t => exact hb
    | zero =>
      cases S with
      | nil => exact hb
      | cons s S' =>
        simp only [adv] at hb ⊢
        split at hb
        · rename_i hlt
          rw [if_pos hlt]
          exact hb
        · rename_i hlt
          rw [if_neg hlt]
          refine hl'.boundTr hx f hfm _ ?_
          intro x hxe
          rw [hxe]
          refine Int.le_trans ?_ (le_moveMax S' (fun s hs => hS.pos s hs) _)
          simp only [omax]
          omega

theorem touch_spec {S : List Shift} (hS : Good S) (a : Nat) : ∀ t : Tr α, Inv S t →
    Inv S (t.touch S a) ∧ (t.touch S a).flat S = t.flat S ∧
    ((t.touch S a).mx? = t.mx? ∨ (t.touch S a).Done S) := by
  intro t
  induction t with
  | nil => intro h; exact ⟨h, rfl, .inl rfl⟩
  | node d l r ihl ihr =>
    intro h
    rw [Tr.touch]
    split
    · obtain ⟨s1, s2, s3⟩ := applyShifts_inv hS h
      exact ⟨s1, by simp only [Tr.flat, s2], .inr s3⟩
    · cases h with | node own hl hr bl br => ?_
      obtain ⟨l1, l2, l3⟩ := ihl hl
      obtain ⟨r1, r2, r3⟩ := ihr hr
      exact ⟨.node own l1 r1 (child_le hS l1 l2 l3 bl) (child_le hS r1 r2 r3 br),
        by simp only [Tr.flat, l2, r2], .inl rfl⟩

/-! ## Removing a node -/

theorem findSmallest_spec {S : List Shift} (hS : Good S) : ∀ (l : Tr α) (d : Nd α) (r : Tr α),
    Inv S (.node d l r) → d.t = S.length →
    ∃ m rest, (findSmallest S d l r).2 = m ∧ m.t = S.length ∧
      Inv S (findSmallest S d l r).1 ∧ (findSmallest S d l r).1.Done S ∧
      (findSmallest S d l r).1.flat S = (Tr.node d l r).flat S ∧
      (Tr.node d l r).flat S = m.fl S :: rest := by
  intro l
  induction l with
  | nil =>
    intro d r h ht
    exact ⟨d, r.flat S, rfl, ht, h, ht, rfl, rfl⟩
  | node e ll lr ihl ihr =>
    intro d r h ht
    obtain ⟨own, hl, hr, bl, br⟩ := h.done_parts ht
    obtain ⟨s1, s2, s3⟩ := applyShifts_inv hS hl
    obtain ⟨m, rest, h1, h2, h3, h4, h5, h6⟩ := ihl _ _ s1 s3
    have hle : (Tr.node (applyShifts S ll.mx? lr.mx? e) ll lr).flat S = (Tr.node e ll lr).flat S := by
      simp only [Tr.flat, s2]
    rw [findSmallest]
    generalize findSmallest S (applyShifts S ll.mx? lr.mx? e) ll lr = res at *
    obtain ⟨l', m'⟩ := res
    simp only [] at h1 h3 h4 h5 ⊢
    refine ⟨m, rest ++ d.fl S :: r.flat S, h1, h2, ?_, ht, ?_, ?_⟩
    · exact Inv.mk_done ht own.wf own.pos own.high h3 hr (by rw [h5, hle]; exact bl) br
    · rw [Tr.flat, h5, hle]; rfl
    · rw [Tr.flat, ← hle, h6]; rfl

theorem remove_succ (S : List Shift) (f : Nat) (pos id : Int) (d : Nd α) (l r : Tr α) :
    remove S (f + 1) pos id (.node d l r) =
      match compareKey pos id (applyShifts S l.mx? r.mx? d).pos (applyShifts S l.mx? r.mx? d).id with
      | .lt => rebalance S (.node (applyShifts S l.mx? r.mx? d) (remove S f pos id l) r)
      | .gt => rebalance S (.node (applyShifts S l.mx? r.mx? d) l (remove S f pos id r))
      | .eq =>
        match l, r with
        | .node e ll lr, .node g rl rr =>
          rebalance S (.node { applyShifts S l.mx? r.mx? d with
              pos := (findSmallest S (applyShifts S rl.mx? rr.mx? g) rl rr).2.pos
              id := (findSmallest S (applyShifts S rl.mx? rr.mx? g) rl rr).2.id
              ins := copyIns (applyShifts S l.mx? r.mx? d).ins
                (findSmallest S (applyShifts S rl.mx? rr.mx? g) rl rr).2.ins
              t := (findSmallest S (applyShifts S rl.mx? rr.mx? g) rl rr).2.t }
            (Tr.sync S (.node e ll lr))
            (remove S f (findSmallest S (applyShifts S rl.mx? rr.mx? g) rl rr).2.pos
              (findSmallest S (applyShifts S rl.mx? rr.mx? g) rl rr).2.id
              (findSmallest S (applyShifts S rl.mx? rr.mx? g) rl rr).1))
        | .node e ll lr, .nil => rebalance S (Tr.sync S (.node e ll lr))
        | .nil, .node g rl rr => rebalance S (Tr.sync S (.node g rl rr))
        | .nil, .nil => .nil := by
  cases l <;> cases r <;> rfl

/-- Removing the first node. -/
theorem removeMin_spec {S : List Shift} (hS : Good S) : ∀ (f : Nat) (t : Tr α) (f0 : Fl α) (rest : List (Fl α)),
    t.size ≤ f → Inv S t → t.Ord S → t.flat S = f0 :: rest →
    Inv S (remove S f f0.pos f0.id t) ∧ (remove S f f0.pos f0.id t).flat S = rest ∧
    (remove S f f0.pos f0.id t).Done S := by
  intro f
  induction f with
  | zero =>
    intro t f0 rest hf _ _ hfl
    rw [size_eq S, hfl] at hf
    simp at hf
  | succ f ih =>
    intro t f0 rest hf h ho hfl
    cases t with
    | nil => cases hfl
    | node d l r =>
      obtain ⟨s1, s2, s3⟩ := applyShifts_inv hS h
      have ho' : (Tr.node (applyShifts S l.mx? r.mx? d) l r).Ord S := by
        rw [Tr.Ord, Tr.flat, s2]; exact ho
      rw [Tr.flat, ← s2] at hfl
      rw [remove_succ]
      generalize applyShifts S l.mx? r.mx? d = d' at *
      obtain ⟨own, hl, hr, bl, br⟩ := s1.done_parts s3
      have hdfl := Nd.fl_done S d' s3
      simp only [Tr.size] at hf
      cases hlf : l.flat S with
      | nil =>
        have hlnil : l = .nil := by
          cases l with
          | nil => rfl
          | node => simp [Tr.flat] at hlf
        subst hlnil
        simp only [Tr.flat, List.nil_append, List.cons.injEq] at hfl
        obtain ⟨rfl, rfl⟩ := hfl
        rw [hdfl]
        simp only [compareKey_refl]
        cases r with
        | nil => exact ⟨.nil, rfl, trivial⟩
        | node g rl rr =>
          simp only [Tr.sync]
          obtain ⟨y1, y2, y3⟩ := sync_inv hS hr
          obtain ⟨z1, z2, z3, -⟩ := rebalance_inv' hS y1 y3
          exact ⟨z1, by rw [z2]; exact y2, z3⟩
      | cons f1 rest1 =>
        rw [hlf] at hfl
        simp only [List.cons_append, List.cons.injEq] at hfl
        obtain ⟨rfl, rfl⟩ := hfl
        have hlt := ho'.lt_left f1 (by rw [hlf]; exact List.mem_cons_self)
        rw [hdfl] at hlt
        rw [compareKey_of_lt hlt]
        simp only []
        obtain ⟨i1, i2, i3⟩ := ih l f1 rest1 (by omega) hl ho'.left hlf
        obtain ⟨z1, z2, z3, -⟩ := rebalance_inv' hS
          (Inv.mk_done s3 own.wf own.pos own.high i1 hr
            (by rw [i2]; intro x hx; exact bl x (by rw [hlf]; exact List.mem_cons_of_mem _ hx)) br) s3
        exact ⟨z1, by rw [z2, Tr.flat, i2], z3⟩

/-- How the nodes change when an empty node at the root is removed: it goes away, or it takes the key of the
next node, which goes away with its intervals. -/
def RemRel (d : Nd α) (L R L' : List (Fl α)) : Prop :=
  L' = L ++ R ∨ ∃ m B, R = m :: B ∧ L ≠ [] ∧ L' = L ++ ⟨d.addr, m.pos, m.id, []⟩ :: B

theorem removeRoot_spec {S : List Shift} (hS : Good S) (f : Nat) (d : Nd α) (l r : Tr α)
    (hf : (Tr.node d l r).size ≤ f) (h : Inv S (.node d l r)) (ho : (Tr.node d l r).Ord S)
    (ht : d.t = S.length) (he : d.ins = []) :
    Inv S (remove S f d.pos d.id (.node d l r)) ∧
    RemRel d (l.flat S) (r.flat S) ((remove S f d.pos d.id (.node d l r)).flat S) := by
  cases f with
  | zero => simp [Tr.size] at hf
  | succ f =>
    obtain ⟨own, hl, hr, bl, br⟩ := h.done_parts ht
    rw [remove_succ, applyShifts_done _ hS.wf _ _ _ ht]
    simp only [compareKey_refl]
    cases hlc : l with
    | nil =>
      cases hrc : r with
      | nil => exact ⟨.nil, .inl rfl⟩
      | node g rl rr =>
        subst hrc
        obtain ⟨y1, y2, y3⟩ := sync_inv hS hr
        simp only [Tr.sync] at y1 y2 y3 ⊢
        obtain ⟨z1, z2, z3, -⟩ := rebalance_inv' hS y1 y3
        exact ⟨z1, .inl (by rw [z2]; exact y2)⟩
    | node e ll lr =>
      subst hlc
      obtain ⟨y1, y2, y3⟩ := sync_inv hS hl
      simp only [Tr.sync] at y1 y2 y3
      cases hrc : r with
      | nil =>
        subst hrc
        simp only [Tr.sync]
        obtain ⟨z1, z2, z3, -⟩ := rebalance_inv' hS y1 y3
        exact ⟨z1, .inl (by rw [z2, y2]; simp [Tr.flat])⟩
      | node g rl rr =>
        subst hrc
        obtain ⟨s1, s2, s3⟩ := applyShifts_inv hS hr
        obtain ⟨m, rest, h1, h2, h3, h4, h5, h6⟩ := findSmallest_spec hS rl _ rr s1 s3
        have hre : (Tr.node (applyShifts S rl.mx? rr.mx? g) rl rr).flat S = (Tr.node g rl rr).flat S := by
          simp only [Tr.flat, s2]
        dsimp only
        generalize findSmallest S (applyShifts S rl.mx? rr.mx? g) rl rr = res at *
        obtain ⟨r', m'⟩ := res
        simp only [] at h1 h3 h4 h5
        subst h1
        simp only [Tr.sync]
        have hr'f : r'.flat S = m'.fl S :: rest := h5.trans h6
        have hro : r'.Ord S := by
          rw [Tr.Ord, h5, hre]; exact ho.right
        have hsz : r'.size ≤ f := by
          rw [size_eq S, h5, hre, ← size_eq S]
          simp only [Tr.size] at hf ⊢
          omega
        obtain ⟨i1, i2, i3⟩ := removeMin_spec hS f r' (m'.fl S) rest hsz h3 hro hr'f
        have hmfl := Nd.fl_done S m' h2
        rw [hmfl] at i1 i2 i3
        simp only [] at i1 i2 i3
        have hmem : m'.fl S ∈ (Tr.node g rl rr).flat S := by
          rw [← hre, h6]; exact List.mem_cons_self
        have hmle := br _ hmem
        rw [hmfl] at hmle
        have hc : copyIns d.ins m'.ins = [] := by simp [copyIns, he]
        rw [hc]
        obtain ⟨z1, z2, z3, -⟩ := rebalance_inv'
          (d := { d with pos := m'.pos, id := m'.id, ins := [], t := m'.t }) hS
          (Inv.mk_done h2 (fun _ h => by cases h) hmle.1 (fun _ h => by cases h) y1 i1
            (by rw [y2]; exact bl)
            (by
              rw [i2]
              intro x hx
              exact br x (by rw [← hre, h6]; exact List.mem_cons_of_mem _ hx))) h2
        refine ⟨z1, .inr ⟨m'.fl S, rest, ?_, ?_, ?_⟩⟩
        · rw [← hre, h6]
        · simp [Tr.flat]
        · rw [z2, Tr.flat, i2, y2, Nd.fl_done S { d with pos := m'.pos, id := m'.id, ins := [], t := m'.t } h2,
            Nd.fl_done S m' h2]

/-! ## Removing overlapping intervals -/

/-- The key of a node. -/
def Fl.key (f : Fl α) : Int × Int := (f.pos, f.id)

/-- What is left of a list of nodes: keys and addresses are among the old ones, and so are the intervals of
each node, unless the node is empty. -/
structure Sub (L' L : List (Fl α)) : Prop where
  keys : (L'.map Fl.key).Sublist (L.map Fl.key)
  addrs : (L'.map Fl.addr).Sublist (L.map Fl.addr)
  ins : ∀ f' ∈ L', f'.ins = [] ∨
    ∃ f ∈ L, f.pos = f'.pos ∧ f.id = f'.id ∧ f.addr = f'.addr ∧ ∀ i ∈ f'.ins, i ∈ f.ins

theorem Sub.refl (L : List (Fl α)) : Sub L L :=
  ⟨.refl _, .refl _, fun f hf => .inr ⟨f, hf, rfl, rfl, rfl, fun _ h => h⟩⟩

theorem Sub.trans {L1 L2 L3 : List (Fl α)} (h : Sub L1 L2) (h' : Sub L2 L3) : Sub L1 L3 := by
  refine ⟨h.keys.trans h'.keys, h.addrs.trans h'.addrs, ?_⟩
  intro f hf
  rcases h.ins f hf with he | ⟨g, hg, e1, e2, e3, e4⟩
  · exact .inl he
  · rcases h'.ins g hg with he | ⟨k, hk, k1, k2, k3, k4⟩
    · refine .inl ?_
      cases hfi : f.ins with
      | nil => rfl
      | cons i is =>
        have := e4 i (by rw [hfi]; exact List.mem_cons_self)
        rw [he] at this
        cases this
    · exact .inr ⟨k, hk, k1.trans e1, k2.trans e2, k3.trans e3, fun i hi => k4 i (e4 i hi)⟩

theorem Sub.append {A A' B B' : List (Fl α)} (h : Sub A' A) (h' : Sub B' B) : Sub (A' ++ B') (A ++ B) := by
  refine ⟨?_, ?_, ?_⟩
  · rw [List.map_append, List.map_append]; exact h.keys.append h'.keys
  · rw [List.map_append, List.map_append]; exact h.addrs.append h'.addrs
  · intro f hf
    rcases List.mem_append.1 hf with hf | hf
    · rcases h.ins f hf with he | ⟨g, hg, hh⟩
      · exact .inl he
      · exact .inr ⟨g, List.mem_append_left _ hg, hh⟩
    · rcases h'.ins f hf with he | ⟨g, hg, hh⟩
      · exact .inl he
      · exact .inr ⟨g, List.mem_append_right _ hg, hh⟩

theorem Sub.mem_key {L L' : List (Fl α)} (h : Sub L' L) {f : Fl α} (hf : f ∈ L') :
    ∃ g ∈ L, g.pos = f.pos ∧ g.id = f.id := by
  have := h.keys.subset (List.mem_map_of_mem hf)
  obtain ⟨g, hg, e⟩ := List.mem_map.1 this
  simp only [Fl.key, Prod.mk.injEq] at e
  exact ⟨g, hg, e⟩

theorem Sub.le {L L' : List (Fl α)} (h : Sub L' L) {m : Int} (hm : ∀ f ∈ L, f.le m) :
    ∀ f ∈ L', f.le m := by
  intro f hf
  obtain ⟨g, hg, e1, e2⟩ := h.mem_key hf
  refine ⟨by rw [← e1]; exact (hm g hg).1, ?_⟩
  intro i hi
  rcases h.ins f hf with he | ⟨k, hk, -, -, -, k4⟩
  · rw [he] at hi; cases hi
  · exact (hm k hk).2 i (k4 i hi)

theorem Sub.length {L L' : List (Fl α)} (h : Sub L' L) : L'.length ≤ L.length := by
  simpa using h.keys.length_le

theorem ord_keys (L : List (Fl α)) :
    L.Pairwise Fl.lt ↔ (L.map Fl.key).Pairwise (fun a b => klt a.1 a.2 b.1 b.2) := by
  rw [List.pairwise_map]; rfl

theorem Sub.ord {L L' : List (Fl α)} (h : Sub L' L) (ho : L.Pairwise Fl.lt) : L'.Pairwise Fl.lt := by
  rw [ord_keys] at ho ⊢
  exact ho.sublist h.keys

theorem Inv.wf_flat {S : List Shift} {t : Tr α} (h : Inv S t) :
    ∀ f ∈ t.flat S, ∀ i ∈ f.ins, i.low = f.pos ∧ i.low ≤ i.high := by
  induction h with
  | nil => intro f hf; cases hf
  | node own hl hr bl br ihl ihr =>
    intro f hf
    simp only [Tr.flat, List.mem_append, List.mem_cons] at hf
    rcases hf with hf | rfl | hf
    · exact ihl f hf
    · intro i hi
      obtain ⟨j, hj, e1, e2, -⟩ := mem_shiftIns hi
      obtain ⟨w1, w2⟩ := own.wf j hj
      simp only [Nd.fl]
      omega
    · exact ihr f hf

theorem RemRel.sub {d : Nd α} {S : List Shift} {L R L' : List (Fl α)} (h : RemRel d L R L') :
    Sub L' (L ++ d.fl S :: R) := by
  rcases h with rfl | ⟨m, B, rfl, -, rfl⟩
  · refine (Sub.refl L).append ⟨?_, ?_, ?_⟩
    · exact List.sublist_cons_self _ _
    · exact List.sublist_cons_self _ _
    · exact fun f hf => .inr ⟨f, List.mem_cons_of_mem _ hf, rfl, rfl, rfl, fun _ h => h⟩
  · refine (Sub.refl L).append ⟨?_, ?_, ?_⟩
    · exact List.sublist_cons_self _ _
    · simp only [List.map_cons]
      exact List.Sublist.cons_cons _ (List.sublist_cons_self _ _)
    · intro f hf
      rcases List.mem_cons.1 hf with rfl | hf
      · exact .inl rfl
      · exact .inr ⟨f, List.mem_cons_of_mem _ (List.mem_cons_of_mem _ hf), rfl, rfl, rfl, fun _ h => h⟩

theorem RemRel.length {d : Nd α} {L R L' : List (Fl α)} (h : RemRel d L R L') :
    L'.length = L.length + R.length := by
  rcases h with rfl | ⟨m, B, rfl, -, rfl⟩ <;> simp

/-- No interval of the nodes meets the closed range. -/
def Clear (low high : Int) (L : List (Fl α)) : Prop :=
  ∀ f ∈ L, ∀ i ∈ f.ins, Ival.overlaps low high i = false

theorem clear_of_pos {low high : Int} {L : List (Fl α)}
    (hw : ∀ f ∈ L, ∀ i ∈ f.ins, i.low = f.pos ∧ i.low ≤ i.high) (hp : ∀ f ∈ L, high < f.pos) :
    Clear low high L := by
  intro f hf i hi
  have h1 := hw f hf i hi
  have h2 := hp f hf
  simp only [Ival.overlaps, Bool.and_eq_false_iff, decide_eq_false_iff_not]
  omega

theorem swapRemove_mem {β : Type} {p : β → Bool} {l : List β} {x : β} :
    x ∈ swapRemove p l.length l ↔ x ∈ l ∧ p x = false := by
  rw [(swapRemove_perm p l.length l (Nat.le_refl _)).mem_iff, List.mem_filter]
  simp

theorem removeOverlaps_spec {S : List Shift} (hS : Good S) (low high : Int) : ∀ (f : Nat) (t : Tr α),
    t.size ≤ f → Inv S t → t.Ord S →
    Inv S (removeOverlaps S low high f t) ∧ Sub ((removeOverlaps S low high f t).flat S) (t.flat S) ∧
    Clear low high ((removeOverlaps S low high f t).flat S) := by
  intro f
  induction f with
  | zero =>
    intro t hf h _
    cases t with
    | nil => exact ⟨h, Sub.refl _, fun _ h => by cases h⟩
    | node => simp [Tr.size] at hf
  | succ f ih =>
    intro t hf h ho
    cases t with
    | nil => exact ⟨h, Sub.refl _, fun _ h => by cases h⟩
    | node d l r =>
      obtain ⟨s1, s2, s3⟩ := applyShifts_inv hS h
      have hfl : (Tr.node d l r).flat S = l.flat S ++ (applyShifts S l.mx? r.mx? d).fl S :: r.flat S := by
        rw [s2]; rfl
      have ho' : (Tr.node (applyShifts S l.mx? r.mx? d) l r).Ord S := by
        rw [Tr.Ord, Tr.flat, s2]; exact ho
      rw [removeOverlaps, hfl]
      simp only []
      generalize applyShifts S l.mx? r.mx? d = d' at *
      obtain ⟨own, hl, hr, bl, br⟩ := s1.done_parts s3
      have hdfl := Nd.fl_done S d' s3
      have hb := s1.bound s3
      simp only [Tr.size] at hf
      by_cases hmx : low > d'.mx
      · rw [if_pos hmx]
        refine ⟨s1, Sub.refl _, ?_⟩
        intro g hg i hi
        have := (hb g hg).2 i hi
        simp only [Ival.overlaps, Bool.and_eq_false_iff, decide_eq_false_iff_not]
        omega
      · rw [if_neg hmx]
        obtain ⟨l1, l2, l3⟩ := ih l (by omega) hl ho'.left
        generalize removeOverlaps S low high f l = l' at *
        generalize hins : swapRemove (Ival.overlaps low high) d'.ins.length d'.ins = ins'
        have hmem : ∀ i ∈ ins', i ∈ d'.ins ∧ Ival.overlaps low high i = false := by
          intro i hi
          rw [← hins] at hi
          exact swapRemove_mem.1 hi
        have hsd : Sub [({ d' with ins := ins' } : Nd α).fl S] [d'.fl S] := by
          rw [hdfl, Nd.fl_done S { d' with ins := ins' } s3]
          refine ⟨.refl _, .refl _, ?_⟩
          intro g hg
          simp only [List.mem_singleton] at hg
          subst hg
          exact .inr ⟨_, List.mem_singleton.2 rfl, rfl, rfl, rfl, fun i hi => (hmem i hi).1⟩
        have hinv : ∀ r', Inv S r' → Sub (r'.flat S) (r.flat S) →
            Inv S (.node { d' with ins := ins' } l' r') := fun r' h1 h2 =>
          Inv.mk_done s3 (fun i hi => own.wf i (hmem i hi).1) own.pos (fun i hi => own.high i (hmem i hi).1)
            l1 h1 (l2.le bl) (h2.le br)
        have hsub : ∀ r' : Tr α, Sub (r'.flat S) (r.flat S) →
            Sub ((Tr.node { d' with ins := ins' } l' r').flat S) (l.flat S ++ d'.fl S :: r.flat S) :=
          fun r' h2 => l2.append (hsd.append h2)
        have hdc : Clear low high [({ d' with ins := ins' } : Nd α).fl S] := by
          rw [Nd.fl_done S { d' with ins := ins' } s3]
          intro g hg
          simp only [List.mem_singleton] at hg
          subst hg
          exact fun i hi => (hmem i hi).2
        have hw := hr.wf_flat
        by_cases hemp : ins'.isEmpty = true
        · rw [if_pos hemp]
          have he : ins' = [] := List.isEmpty_iff.1 hemp
          have hordn : (Tr.node { d' with ins := ins' } l' r).Ord S := (hsub r (Sub.refl _)).ord ho'
          obtain ⟨r1, r2⟩ := removeRoot_spec hS _ { d' with ins := ins' } l' r (Nat.le_refl _)
            (hinv r hr (Sub.refl _)) hordn s3 he
          generalize remove S (Tr.node { d' with ins := ins' } l' r).size
            ({ d' with ins := ins' } : Nd α).pos ({ d' with ins := ins' } : Nd α).id
            (.node { d' with ins := ins' } l' r) = n at *
          have hnsub : Sub (n.flat S) (l.flat S ++ d'.fl S :: r.flat S) :=
            (r2.sub (S := S)).trans (hsub r (Sub.refl _))
          by_cases hge : high ≥ d'.pos
          · rw [if_pos hge]
            have hsz : n.size ≤ f := by
              rw [size_eq S, r2.length]
              have := l2.length
              rw [← size_eq S] at this
              rw [← size_eq S, ← size_eq S] at *
              omega
            obtain ⟨i1, i2, i3⟩ := ih n hsz r1 (hnsub.ord ho')
            exact ⟨i1, i2.trans hnsub, i3⟩
          · rw [if_neg hge]
            refine ⟨r1, hnsub, ?_⟩
            have hrp : ∀ g ∈ r.flat S, high < g.pos := by
              intro g hg
              have := ho'.lt_right g hg
              rw [hdfl] at this
              simp only [Fl.lt, klt] at this
              omega
            have hrc := clear_of_pos (low := low) hw hrp
            intro g hg i hi
            rcases r2 with e | ⟨m, B, e1, -, e2⟩
            · rw [e] at hg
              rcases List.mem_append.1 hg with hg | hg
              · exact l3 g hg i hi
              · exact hrc g hg i hi
            · rw [e2, List.mem_append, List.mem_cons] at hg
              rcases hg with hg | rfl | hg
              · exact l3 g hg i hi
              · cases hi
              · exact hrc g (by rw [e1]; exact List.mem_cons_of_mem _ hg) i hi
        · rw [if_neg hemp]
          have hrest : ∀ r' : Tr α, Clear low high (r'.flat S) →
              Clear low high ((Tr.node { d' with ins := ins' } l' r').flat S) := by
            intro r' hc g hg i hi
            simp only [Tr.flat, List.mem_append, List.mem_cons] at hg
            rcases hg with hg | hg | hg
            · exact l3 g hg i hi
            · exact hdc g (by rw [hg]; exact List.mem_singleton.2 rfl) i hi
            · exact hc g hg i hi
          by_cases hge : high < d'.pos
          · rw [if_pos hge]
            refine ⟨hinv r hr (Sub.refl _), hsub r (Sub.refl _), hrest r (clear_of_pos hw ?_)⟩
            intro g hg
            have := ho'.lt_right g hg
            rw [hdfl] at this
            simp only [Fl.lt, klt] at this
            omega
          · rw [if_neg hge]
            obtain ⟨q1, q2, q3⟩ := ih r (by omega) hr ho'.right
            exact ⟨hinv _ q1 q2, hsub _ q2, hrest _ q3⟩

end Gpeg.LazyLog
