import Verif.TreeTable
/-! # C33: what `TreeTable.Put` stores -/
namespace Gpeg

namespace LazyLog
variable {α : Type}

theorem applyShift_vals (lm rm : Option Int) (d : Nd α) (s : Shift) :
    (applyShift lm rm d s).ins.map Ival.val = d.ins.map Ival.val := by
  unfold applyShift
  split
  · rfl
  · simp only []
    split
    · rfl
    · simp only [updateMax]
      split
      · simp [shiftIns, Function.comp_def]
      · rfl

theorem applyShifts_vals (S : List Shift) (lm rm : Option Int) (d : Nd α) :
    (applyShifts S lm rm d).ins.map Ival.val = d.ins.map Ival.val := by
  have h : ∀ (l : List Shift) (d : Nd α), (l.foldl (applyShift lm rm) d).ins.map Ival.val = d.ins.map Ival.val := by
    intro l
    induction l with
    | nil => intro d; rfl
    | cons s l ih => intro d; rw [List.foldl_cons, ih, applyShift_vals]
  rw [applyShifts]
  split
  · rfl
  · split
    · rfl
    · exact h _ _

theorem sync_vals (S : List Shift) (t : Tr α) : (t.sync S).allvals = t.allvals := by
  cases t with
  | nil => rfl
  | node d l r => simp only [Tr.sync, Tr.allvals, applyShifts_vals]

theorem mk_vals (d : Nd α) (l r : Tr α) :
    (mk d l r).allvals = l.allvals ++ d.ins.map Ival.val ++ r.allvals := rfl

theorem rotateLeft_vals (S : List Shift) (t : Tr α) : (rotateLeft S t).allvals = t.allvals := by
  cases t with
  | nil => rfl
  | node d l r =>
    have hs := sync_vals S r
    rw [rotateLeft]
    cases h : r.sync S with
    | nil => rw [h] at hs; simp only [Tr.allvals, applyShifts_vals, ← hs]
    | node e rl rr =>
      rw [h] at hs
      simp only [mk_vals, Tr.allvals, applyShifts_vals] at hs ⊢
      rw [← hs]; simp

theorem rotateRight_vals (S : List Shift) (t : Tr α) : (rotateRight S t).allvals = t.allvals := by
  cases t with
  | nil => rfl
  | node d l r =>
    have hs := sync_vals S l
    rw [rotateRight]
    cases h : l.sync S with
    | nil => rw [h] at hs; simp only [Tr.allvals, applyShifts_vals, ← hs]
    | node e rl rr =>
      rw [h] at hs
      simp only [mk_vals, Tr.allvals, applyShifts_vals] at hs ⊢
      rw [← hs]; simp

theorem rebalance_vals (S : List Shift) (t : Tr α) : (rebalance S t).allvals = t.allvals := by
  cases t with
  | nil => rfl
  | node d l r =>
    rw [rebalance]
    simp only []
    split
    · rw [rotateLeft_vals]
      simp only [Tr.allvals]
      split
      · rw [rotateRight_vals]; rfl
      · rfl
    · split
      · rw [rotateRight_vals]
        simp only [Tr.allvals]
        split
        · rw [rotateLeft_vals]; rfl
        · rfl
      · rfl

theorem add_vals (S : List Shift) (T a : Nat) (pos id : Int) (v : Ival α) : ∀ t : Tr α,
    (add S T a pos id v t).1.allvals.Perm (v.val :: t.allvals)
  | .nil => List.Perm.refl _
  | .node d l r => by
    rw [add]
    simp only []
    split
    · have ih := add_vals S T a pos id v l
      simp only [rebalance_vals, Tr.allvals, applyShifts_vals]
      exact (ih.append_right _).append_right _
    · have ih := add_vals S T a pos id v r
      simp only [rebalance_vals, Tr.allvals, applyShifts_vals]
      exact (ih.append_left _).trans List.perm_middle
    · simp only [rebalance_vals, Tr.allvals, List.map_append, applyShifts_vals, List.map_cons, List.map_nil]
      refine List.Perm.trans ?_ List.perm_middle
      simp only [List.append_assoc]
      exact List.Perm.refl _

/-- Where something is stored, a look-up finds something at least as long. -/
theorem find_ge {b : Bool} {st : St α} (h : Hist b st) {f : Fl α} (hf : f ∈ st.tree.root.flat st.tree.shifts)
    {i : Ival α} (hi : i ∈ f.ins) :
    ∃ s ∈ st.live, (st.tree.findLargest f.id f.pos).2 = some s.1.val ∧ s.1.id = f.id ∧ s.1.low = f.pos ∧
      i.high - i.low ≤ s.1.high - s.1.low := by
  obtain ⟨-, -, h3⟩ := search_spec h.good f.pos f.id _ h.inv h.ord
  simp only [Tree.findLargest]
  cases hsr : (search st.tree.shifts f.pos f.id st.tree.root).2 with
  | none =>
    rw [hsr] at h3
    exact absurd ⟨rfl, rfl⟩ (h3 f hf)
  | some d =>
    rw [hsr] at h3
    obtain ⟨h4, h5, h6, h7⟩ := h3
    have hdfl := Nd.fl_done _ d h4
    have hfd : f = d.fl st.tree.shifts := by
      have hor : ∀ (L : List (Fl α)), L.Pairwise Fl.lt → ∀ a ∈ L, ∀ b ∈ L, a.pos = b.pos → a.id = b.id → a = b := by
        intro L hL
        induction hL with
        | nil => intro a ha; cases ha
        | @cons x xs hx _ ih =>
          intro a ha b hb e1 e2
          rcases List.mem_cons.1 ha with rfl | ha
          · rcases List.mem_cons.1 hb with rfl | hb
            · rfl
            · have := hx b hb
              simp only [Fl.lt, klt] at this
              omega
          · rcases List.mem_cons.1 hb with rfl | hb
            · have := hx a (by assumption)
              simp only [Fl.lt, klt] at this
              omega
            · exact ih a ha b hb e1 e2
      exact hor _ h.ord f hf _ h7 (by rw [hdfl]; exact h5.symm) (by rw [hdfl]; exact h6.symm)
    have hw := h.inv.wf_flat _ h7
    have hst := h.stored _ h7
    rw [hfd, hdfl] at hi
    rw [hdfl] at hw hst
    simp only [] at hi
    cases hins : d.ins with
    | nil => rw [hins] at hi; cases hi
    | cons j js =>
      have hm := largest_mem js j
      have hg := largest_ge js j i (by rw [← hins]; exact hi)
      rw [← hins] at hm
      have hw' := (hw _ hm).1
      simp only [] at hw'
      refine ⟨_, hst _ hm, by simp only [hins], h6, ?_, hg⟩
      simp only []
      omega

end LazyLog

open LazyLog

/-- **C33**. `Put` leaves the table alone if fewer bytes were examined than the threshold asks or the length
is zero; otherwise it adds exactly one entry, which has the given length, count and captures, and an examined
length that is the given one or the length, whichever is larger. -/
theorem C33_put (T : TreeTable) (id : Int) (start : Nat) (length : Option Nat) (examined count : Nat)
    (captures : List Capture) :
    ((examined : Int) < T.threshold ∨ length = some 0 → T.put id start length examined count captures = T) ∧
    (T.threshold ≤ examined → length ≠ some 0 →
      ∃ e : TEnt, (T.put id start length examined count captures).map.allValues.Perm (e :: T.map.allValues) ∧
        e.start = start ∧ e.ent.length = length ∧ e.ent.count = count ∧ e.ent.captures = captures ∧
        examined ≤ e.ent.examined ∧ (∀ n, length = some n → n ≤ e.ent.examined) ∧
        (e.ent.examined = examined ∨ length = some e.ent.examined)) := by
  refine ⟨fun h => if_pos h, fun h1 h2 => ?_⟩
  refine ⟨⟨start, ⟨length, max examined (length.getD 0), count, captures⟩⟩, ?_, rfl, rfl, rfl, rfl,
    Nat.le_max_left .., ?_, ?_⟩
  · rw [TreeTable.put, if_neg (by rintro (h | h); exacts [by omega, h2 h])]
    exact add_vals ..
  · rintro n rfl
    exact Nat.le_max_right ..
  · cases length with
    | none => left; simp
    | some n => rcases Nat.le_total examined n with h | h <;> simp [h]

/-- Operations on a table. -/
inductive TOp
  | put (id : Int) (start : Nat) (length : Option Nat) (examined count : Nat) (captures : List Capture)
  | get (id : Int) (pos : Nat)
  | edit (e : Edit)

/-- One operation. -/
def TreeTable.op (T : TreeTable) : TOp → TreeTable
  | .put id s l x c cs => T.put id s l x c cs
  | .get id pos => (T.get id pos).2
  | .edit e => T.applyEdit e

/-- Histories without backward ranges where all edits but the first keep or increase the length of the text;
the flag tells that there has been an edit. -/
def TGrows : Bool → List TOp → Prop
  | _, [] => True
  | b, .edit e :: ops => e.start ≤ e.stop ∧ (b = true → e.stop - e.start ≤ e.len) ∧ TGrows true ops
  | b, .put .. :: ops => TGrows b ops
  | b, .get .. :: ops => TGrows b ops

theorem tabInv_run : ∀ (ops : List TOp) (b : Bool) (T : TreeTable),
    TabInv b T (fun s => s.high - s.low = s.val.ent.examined) → TGrows b ops →
    ∃ b', TabInv b' (ops.foldl TreeTable.op T) (fun s => s.high - s.low = s.val.ent.examined) ∧
      (ops.foldl TreeTable.op T).threshold = T.threshold
  | [], b, T, h, _ => ⟨b, h, rfl⟩
  | op :: ops, b, T, h, hg => by
    rw [List.foldl_cons]
    cases op with
    | put id s l x c cs =>
      obtain ⟨b', h1, h2⟩ := tabInv_run ops b (T.put id s l x c cs) (h.put fun x _ => by simp only []; omega) hg
      refine ⟨b', h1, h2.trans ?_⟩
      unfold TreeTable.put; split <;> rfl
    | get id pos =>
      exact tabInv_run ops b (T.get id pos).2 (h.get (id := id) (pos := pos) rfl).1 hg
    | edit e =>
      refine tabInv_run ops true (T.applyEdit e) ((h.edit e hg.1 hg.2.1).weaken ?_) hg.2.2
      rintro s ⟨s0, h0, hf⟩
      unfold follow at hf
      split at hf
      · cases hf
      · split at hf
        · cases hf; simp only [] at h0 ⊢; omega
        · cases hf; exact h0

/-- **C33**, seen from `Get`: after a `Put` that passes the filter, `Get` at that place finds an entry that
examined at least as much (in tables with the histories of C29). -/
theorem C33_get_after_put (th : Int) (ops : List TOp) (hg : TGrows false ops) (id : Int) (start : Nat)
    (length : Option Nat) (examined count : Nat) (captures : List Capture) (h1 : th ≤ examined)
    (h2 : length ≠ some 0) :
    ∃ e, (((ops.foldl TreeTable.op (TreeTable.new th)).put id start length examined count captures).get
      id start).1 = some e ∧ examined ≤ e.examined ∧ ∀ n, length = some n → n ≤ e.examined := by
  obtain ⟨b, h, hth⟩ := tabInv_run ops false (TreeTable.new th) (tabInv_new th _) hg
  generalize ops.foldl TreeTable.op (TreeTable.new th) = T at h hth ⊢
  obtain ⟨live, h3, h4⟩ := h
  rw [TreeTable.put, if_neg (by rw [hth]; rintro (h | h); exacts [by simp only [TreeTable.new] at h; omega, h2 h])]
  simp only []
  let v : TEnt := ⟨start, ⟨length, max examined (length.getD 0), count, captures⟩⟩
  have h5 := hist_add (st := ⟨T.map, live⟩) h3 (id := id) (low := start)
      (high := start + (max examined (length.getD 0) : Nat)) (v := v) (by omega) (by omega)
  obtain ⟨-, -, h8⟩ := add_spec h3.good T.map.next start id
    ⟨start, start + (max examined (length.getD 0) : Nat), v⟩ rfl (by simp only []; omega) T.map.root h3.inv h3.ord
  have h9 : ∃ f ∈ (T.map.add id start (start + (max examined (length.getD 0) : Nat)) v).1.root.flat T.map.shifts,
      f.id = id ∧ f.pos = start ∧ ⟨start, start + (max examined (length.getD 0) : Nat), v⟩ ∈ f.ins := by
    have ht := h3.time
    simp only [] at ht
    simp only [Tree.add]
    rw [ht]
    rcases h8 with ⟨A, B, -, e2, -, -⟩ | ⟨A, g, B, -, e2, -, e4, e5⟩
    · rw [e2]
      exact ⟨_, List.mem_append_right _ List.mem_cons_self, rfl, rfl, List.mem_singleton.2 rfl⟩
    · rw [e2]
      exact ⟨_, List.mem_append_right _ List.mem_cons_self, e5, e4, List.mem_append_right _ (List.mem_singleton.2 rfl)⟩
  obtain ⟨f, hf, hf1, hf2, hf3⟩ := h9
  obtain ⟨s, hs, hs1, hs2, hs3, hs4⟩ := find_ge h5 (f := f) hf hf3
  rw [hf1, hf2] at hs1
  have hx : s.1.high - s.1.low = s.1.val.ent.examined := by
    rcases List.mem_append.1 hs with hs | hs
    · exact h4 s hs
    · rw [List.mem_singleton] at hs
      subst hs
      simp only [v]; omega
  refine ⟨s.1.val.at start, ?_, ?_⟩
  · simp only [TreeTable.get]
    exact congrArg (Option.map fun e => e.at start) hs1
  · simp only [TEnt.at]
    simp only [] at hs4
    refine ⟨by omega, ?_⟩
    rintro n rfl
    simp only [Option.getD_some] at hs4
    omega

/-- A history as in `C33_get_after_put`; the first `Put` is below the threshold and not stored. -/
example : TGrows false [.put 1 4 (some 2) 1 1 [], .put 1 4 (some 5) 3 1 [], .edit ⟨0, 2, 1⟩, .get 1 3, .edit ⟨0, 0, 1⟩] ∧
    (([.put 1 4 (some 2) 1 1 [], .put 1 4 (some 5) 3 1 [], .edit ⟨0, 2, 1⟩, .get 1 3, .edit ⟨0, 0, 1⟩].foldl
      TreeTable.op (TreeTable.new 2)).get 1 4).1.map MEntry.examined = some 5 := by
  refine ⟨?_, by decide +kernel⟩
  simp [TGrows]

end Gpeg
