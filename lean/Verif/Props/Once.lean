import Verif.Once
import Verif.Build
import Verif.Props.TreeTable
import Mathlib.Data.List.Dedup
import Mathlib.Data.List.Nodup
import Mathlib.Data.List.ProdSigma
/-! # C74: a memoized pattern is parsed once at a place -/
namespace Gpeg
variable {σ : Type}

/-! ## What is stored is found -/

open LazyLog in
/-- Something is stored for `id` at `pos`. -/
def Has (T : TreeTable) (id : Int) (pos : Nat) : Prop :=
  ∃ f ∈ T.map.root.flat T.map.shifts, f.id = id ∧ f.pos = pos ∧ f.ins ≠ []

/-- The table is in a state reached by looking things up and storing them. -/
abbrev TabReached (T : TreeTable) : Prop := TabInv false T fun _ => True

/-- The table does not keep the result (`memo/tree.go:33-35`). -/
def Refuses (T : TreeTable) (len : Option Nat) (exam : Nat) : Prop := (exam : Int) < T.threshold ∨ len = some 0

theorem Has.found {T : TreeTable} {id : Int} {pos : Nat} (hT : TabReached T) (h : Has T id pos) : (T.get id pos).1 ≠ none := by
  obtain ⟨live, h1, -⟩ := hT
  obtain ⟨f, hf, rfl, hp, hi⟩ := h
  cases hins : f.ins with
  | nil => exact absurd hins hi
  | cons i is =>
    obtain ⟨s, -, h2, -⟩ := LazyLog.find_ge h1 hf (i := i) (by rw [hins]; exact List.mem_cons_self)
    simp only [TreeTable.get, ← hp]
    rw [show (T.map.findLargest f.id f.pos).2 = _ from h2]
    simp

theorem Has.get {T : TreeTable} {id : Int} {pos : Nat} (hT : TabReached T) (h : Has T id pos) (id' : Int) (pos' : Nat) : Has (T.get id' pos').2 id pos := by
  obtain ⟨live, h1, -⟩ := hT
  obtain ⟨-, h2, -⟩ := LazyLog.search_spec h1.good pos' id' _ h1.inv h1.ord
  obtain ⟨f, hf, h3⟩ := h
  refine ⟨f, ?_, h3⟩
  simp only [TreeTable.get, LazyLog.Tree.findLargest]
  rw [h2]
  exact hf

theorem put_threshold (T : TreeTable) (id : Int) (pos : Nat) (len : Option Nat) (exam count : Nat) (capt : List Capture) :
    (T.put id pos len exam count capt).threshold = T.threshold := by
  unfold TreeTable.put; split <;> rfl

theorem Has.put {T : TreeTable} {id : Int} {pos : Nat} (hT : TabReached T) {id' : Int} {pos' : Nat} {len : Option Nat} {exam count : Nat} {capt : List Capture}
    (h : Has T id pos ∨ (id = id' ∧ pos = pos' ∧ ¬ Refuses T len exam)) : Has (T.put id' pos' len exam count capt) id pos := by
  obtain ⟨live, h3, -⟩ := hT
  unfold TreeTable.put
  split
  · rename_i hr
    rcases h with h | h
    · exact h
    · exact absurd hr h.2.2
  · rename_i hr
    have hA := (LazyLog.add_spec h3.good T.map.next pos' id' ⟨pos', pos' + (max exam (len.getD 0) : Nat),
      (⟨pos', ⟨len, max exam (len.getD 0), count, capt⟩⟩ : TEnt)⟩ rfl (by simp only []; omega) T.map.root h3.inv h3.ord).2.2
    have ht := h3.time
    simp only [] at ht
    simp only [Has, LazyLog.Tree.add]
    rw [ht]
    rcases hA with ⟨A, B, e1, e2, -⟩ | ⟨A, g, B, e1, e2, -, e4, e5⟩
    · rw [e2]
      rcases h with ⟨f, hf, h⟩ | ⟨rfl, rfl, -⟩
      · rw [e1] at hf
        refine ⟨f, ?_, h⟩
        rcases List.mem_append.1 hf with hf | hf
        · exact List.mem_append_left _ hf
        · exact List.mem_append_right _ (List.mem_cons_of_mem _ hf)
      · exact ⟨_, List.mem_append_right _ List.mem_cons_self, rfl, rfl, by simp⟩
    · rw [e2]
      rcases h with ⟨f, hf, h⟩ | ⟨rfl, rfl, -⟩
      · rw [e1] at hf
        rcases List.mem_append.1 hf with hf | hf
        · exact ⟨f, List.mem_append_left _ hf, h⟩
        · rcases List.mem_cons.1 hf with rfl | hf
          · exact ⟨_, List.mem_append_right _ List.mem_cons_self, h.1, h.2.1, by simp⟩
          · exact ⟨f, List.mem_append_right _ (List.mem_cons_of_mem _ hf), h⟩
      · exact ⟨_, List.mem_append_right _ List.mem_cons_self, e5, e4, by simp⟩

/-- After a result has been kept, looking it up does not fail. -/
theorem Serves.found {T T' : TreeTable} {h : List (Nat × TEv)} (hT : TabReached T) (H : Serves T h T') :
    TabReached T' ∧ T'.threshold = T.threshold ∧
    (∀ i id pos len exam count capt, (i, TEv.put id pos len exam count capt) ∈ h → ¬ Refuses T len exam → Has T' id pos) ∧
    ∀ h1 h2 i j id pos len exam count capt, h = h1 ++ (j, .get id pos none) :: h2 → (i, TEv.put id pos len exam count capt) ∈ h1 → Refuses T len exam := by
  induction H with
  | nil => exact ⟨hT, rfl, fun _ _ _ _ _ _ _ h => (by cases h), fun h1 _ _ _ _ _ _ _ _ _ h => by cases h1 <;> cases h⟩
  | @get h T1 T2 i id pos a hsv hg ih =>
    obtain ⟨h1, h2, h3, h4⟩ := ih
    have hg2 : (T1.get id pos).2 = T2 := by rw [hg]
    refine ⟨(TabInv.get h1 hg).1, ?_, fun i' id' pos' len exam count capt hm hr => ?_, fun hA hB i' j id' pos' len exam count capt he hm => ?_⟩
    · rw [← hg2, ← h2]; rfl
    · rcases List.mem_append.1 hm with hm | hm
      · rw [← hg2]
        exact (h3 _ _ _ _ _ _ _ hm hr).get h1 _ _
      · simp at hm
    · rcases snoc_eq he with ⟨rfl, e, -⟩ | ⟨hB', rfl, e⟩
      · injection e with e1 e2
        injection e2 with e2 e3 e4
        subst e2 e3 e4
        refine Classical.byContradiction fun hr => (h3 _ _ _ _ _ _ _ hm hr).found h1 ?_
        rw [hg]
      · exact h4 _ _ _ _ _ _ _ _ _ _ e hm
  | @put h T1 i id pos len exam count capt hsv ih =>
    obtain ⟨h1, h2, h3, h4⟩ := ih
    have hR : ∀ len exam, Refuses T1 len exam ↔ Refuses T len exam := fun len exam => by unfold Refuses; rw [h2]
    refine ⟨TabInv.put h1 fun _ _ => trivial, (put_threshold _ _ _ _ _ _ _).trans h2, fun i' id' pos' len' exam' count' capt' hm hr => ?_,
      fun hA hB i' j id' pos' len' exam' count' capt' he hm => ?_⟩
    · rcases List.mem_append.1 hm with hm | hm
      · exact Has.put h1 (.inl (h3 _ _ _ _ _ _ _ hm hr))
      · cases List.mem_singleton.1 hm
        exact Has.put h1 (.inr ⟨rfl, rfl, fun h => hr ((hR _ _).1 h)⟩)
    · rcases snoc_eq he with ⟨rfl, e, -⟩ | ⟨hB', rfl, e⟩
      · cases e
      · exact h4 _ _ _ _ _ _ _ _ _ _ e hm

theorem callsOf_split {i : Nat} {x : TEv} : ∀ {h : List (Nat × TEv)} {A B : List TEv}, callsOf i h = A ++ x :: B →
    ∃ hA hB, h = hA ++ (i, x) :: hB ∧ callsOf i hA = A := by
  intro h
  induction h with
  | nil => intro A B he; cases A <;> cases he
  | cons c h ih =>
    intro A B he
    obtain ⟨j, ev⟩ := c
    by_cases hj : j = i
    · subst hj
      have e : callsOf j ((j, ev) :: h) = ev :: callsOf j h := by simp [callsOf]
      rw [e] at he
      cases A with
      | nil => cases he; exact ⟨[], h, rfl, rfl⟩
      | cons a A =>
        injection he with e1 e2
        subst e1
        obtain ⟨hA, hB, rfl, rfl⟩ := ih e2
        exact ⟨(j, ev) :: hA, hB, rfl, by simp [callsOf]⟩
    · have e : callsOf i ((j, ev) :: h) = callsOf i h := by simp [callsOf, hj]
      rw [e] at he
      obtain ⟨hA, hB, rfl, rfl⟩ := ih he
      exact ⟨(j, ev) :: hA, hB, rfl, by simp [callsOf, hj]⟩

/-! ## Counting -/

theorem countP_between {α : Type} (m r : α → Bool) : ∀ (n : Nat) (L : List α), L.length ≤ n →
    (∀ h1 x h2 y h3, L = h1 ++ x :: (h2 ++ y :: h3) → m x = true → m y = true → ∃ z ∈ h2, r z = true) → L.countP m ≤ 1 + L.countP r := by
  intro n
  induction n with
  | zero =>
    intro L hn _
    cases L with
    | nil => simp
    | cons a L => simp at hn
  | succ n ih =>
    intro L hn h
    cases L with
    | nil => simp
    | cons a L =>
      have hn : L.length ≤ n := by simpa using hn
      cases ha : m a with
      | false =>
        have := ih L hn fun h1 x h2 y h3 e => h (a :: h1) x h2 y h3 (by rw [e]; rfl)
        simp only [List.countP_cons, ha]
        simp only [Bool.false_eq_true, if_false]
        omega
      | true =>
        by_cases hm : ∃ x ∈ L, m x = true
        · obtain ⟨x, hx, hmx⟩ := hm
          have hsome : (L.find? m).isSome = true := List.find?_isSome.2 ⟨x, hx, hmx⟩
          obtain ⟨y, hy⟩ := Option.isSome_iff_exists.1 hsome
          obtain ⟨hmy, h2, h3, rfl, hno⟩ := List.find?_eq_some_iff_append.1 hy
          obtain ⟨z, hz, hrz⟩ := h [] a h2 y h3 rfl ha hmy
          have h4 := ih (y :: h3) (by simp at hn ⊢; omega) fun g1 x g2 y' g3 e => h (a :: h2 ++ g1) x g2 y' g3 (by rw [e]; simp)
          have h5 : h2.countP m = 0 := List.countP_eq_zero.2 fun x hx hmx => by
            have := hno x hx
            rw [hmx] at this
            cases this
          have h6 : 0 < h2.countP r := List.countP_pos_iff.2 ⟨z, hz, hrz⟩
          rw [List.countP_cons (p := m), List.countP_cons (p := r), List.countP_append, List.countP_append, h5, ha]
          simp only [if_true]
          omega
        · have : L.countP m = 0 := List.countP_eq_zero.2 fun x hx hmx => hm ⟨x, hx, hmx⟩
          rw [List.countP_cons, this]
          split <;> omega

theorem countP_split {α : Type} (q f : α → Bool) (L : List α) : L.countP q ≤ L.countP f + L.countP (fun x => q x && !f x) := by
  induction L with
  | nil => simp
  | cons a L ih => cases hq : q a <;> cases hf : f a <;> simp [hq, hf] <;> omega

theorem countP_cover {α κ : Type} (f : κ → α → Bool) (L : List α) : ∀ (K : List κ) (q : α → Bool), (∀ x ∈ L, q x = true → ∃ k ∈ K, f k x = true) →
    L.countP q ≤ (K.map fun k => L.countP (f k)).sum
  | [], q, h => by
    rw [List.countP_eq_zero.2 fun x hx hq => by obtain ⟨k, hk, -⟩ := h x hx hq; cases hk]
    exact Nat.zero_le _
  | k :: K, q, h => by
    have := countP_cover f L K (fun x => q x && !f k x) (fun x hx hq => by
      simp only [Bool.and_eq_true, Bool.not_eq_true'] at hq
      obtain ⟨k', hk', hf⟩ := h x hx hq.1
      rcases List.mem_cons.1 hk' with rfl | hk'
      · rw [hq.2] at hf; cases hf
      · exact ⟨k', hk', hf⟩)
    have h2 := countP_split q (f k) L
    simp only [List.map_cons, List.sum_cons]
    omega

theorem countP_disjoint {α κ : Type} (f : κ → α → Bool) (hf : ∀ k k' x, f k x = true → f k' x = true → k = k') (L : List α) :
    ∀ (K : List κ) (q : α → Bool), K.Nodup → (∀ k ∈ K, ∀ x ∈ L, f k x = true → q x = true) → (K.map fun k => L.countP (f k)).sum ≤ L.countP q
  | [], q, _, _ => by simp
  | k :: K, q, hn, h => by
    obtain ⟨hn1, hn2⟩ := List.nodup_cons.1 hn
    have := countP_disjoint f hf L K (fun x => q x && !f k x) hn2 (fun k' hk' x hx hfx => by
      simp only [Bool.and_eq_true, Bool.not_eq_true']
      refine ⟨h k' (List.mem_cons_of_mem _ hk') x hx hfx, ?_⟩
      cases hfk : f k x with
      | false => rfl
      | true => exact absurd (hf _ _ _ hfk hfx ▸ hk') hn1)
    have h2 : L.countP (f k) + L.countP (fun x => q x && !f k x) ≤ L.countP q := by
      have hk := h k List.mem_cons_self
      clear this h
      induction L with
      | nil => simp
      | cons a L ih =>
        have h3 := ih fun x hx => hk x (List.mem_cons_of_mem _ hx)
        have h4 := hk a List.mem_cons_self
        cases hq : q a <;> cases hfa : f k a <;> simp [hq, hfa] at h4 ⊢ <;> omega
    simp only [List.map_cons, List.sum_cons]
    omega

theorem sum_le_add {κ : Type} (K : List κ) (f g : κ → Nat) (h : ∀ k ∈ K, f k ≤ 1 + g k) : (K.map f).sum ≤ K.length + (K.map g).sum := by
  induction K with
  | nil => simp
  | cons k K ih =>
    have h1 := h k List.mem_cons_self
    have h2 := ih fun k hk => h k (List.mem_cons_of_mem _ hk)
    simp only [List.map_cons, List.sum_cons, List.length_cons]
    omega

/-- The call looks up `id` at `pos`, in vain. -/
def TEv.misses (k : Int × Nat) : TEv → Bool
  | .get id pos none => id == k.1 && pos == k.2
  | _ => false

/-- The call stores something for `id` at `pos` that a table with the threshold `th` does not keep. -/
def TEv.wasted (th : Int) (k : Int × Nat) : TEv → Bool
  | .put id pos len exam _ _ => id == k.1 && pos == k.2 && (decide ((exam : Int) < th) || len == some 0)
  | _ => false

/-- The call looks up a pattern memoized by the caller (those have ids up to `top`), in vain. -/
def TEv.missesAny (top : Int) : TEv → Bool
  | .get id _ none => decide (id ≤ top)
  | _ => false

/-- The call stores something that a table with the threshold `th` does not keep. -/
def TEv.wastedAny (th : Int) : TEv → Bool
  | .put _ _ len exam _ _ => decide ((exam : Int) < th) || len == some 0
  | _ => false

section
variable {p : Pat} {code : Code} {chk : CheckFn σ} {data : List UInt8} {top : Int}

/-- What is known of the calls of a thread. -/
theorem Concurrent.once (hc : CompiledAt top p code) (hd : p.Dots1) (hs : p.Scoped) (hchk : CheckOK chk) (hm : p.MemosOK chk top) {T T' : TreeTable}
    (hT : Warm chk code data T) {threads : List (Thread σ)} (hb : ∀ t ∈ threads, 0 < t.bufsz)
    (hstop : ∀ t ∈ threads, ∃ r', RunsTo chk none code t.bufsz data t.st r') {h : List (Nat × TEv)} (H : Concurrent chk code data threads T h T') (i : Nat) :
    (∀ id ≤ top, ∀ pos h1 h2 h3, callsOf i h = h1 ++ .get id pos none :: (h2 ++ .get id pos none :: h3) →
      ∃ len exam count capt, TEv.put id pos len exam count capt ∈ h2 ∧ ((exam : Int) < T.threshold ∨ len = some 0)) ∧
    ∀ id ≤ top, ∀ pos a, TEv.get id pos a ∈ callsOf i h → pos ≤ data.length ∧ id ∈ p.mids := by
  obtain ⟨k, cst, raw, cst', rfl, hc, he⟩ := hc.raw
  have hocc := occsOK_of hc hs hm
  have hTi := hT.inv hc he hd hs hchk hm
  obtain ⟨-, hev⟩ := H.inv hchk hd hs hc he hocc hb hstop hTi
  let Q : Occ → Prop := fun o => o.id ∈ p.mids
  have hof := memoOcc_of (σ := σ) (P := Q) (fun id q e q' e' _ h => h) k (env := []) hc hs fun o ho => List.mem_map_of_mem ho
  have hpl : ∀ id ≤ cst.memo, PlainId (memoOcc k [] p cst) id := by
    intro id hid o ho hoid
    cases hst : o.star with
    | false => rfl
    | true =>
      have := (hof.star o ho hst).2.1
      omega
  cases ht : threads[i]? with
  | none =>
    have e : callsOf i h = [] := by
      cases hc : callsOf i h with
      | nil => rfl
      | cons x L =>
        have := H.known (i, x) (mem_callsOf (by rw [hc]; exact List.mem_cons_self))
        rw [List.getElem?_eq_none_iff] at ht
        simp only [] at this
        omega
    rw [e]
    exact ⟨fun _ _ _ h1 _ _ h => absurd h (by simp), fun _ _ _ _ h => absurd h List.not_mem_nil⟩
  | some t =>
    have ht' := List.mem_of_getElem? ht
    obtain ⟨h1, h2⟩ := thread_once hchk hd hs hc he (hb t ht') hocc (hstop t ht') (H.perf i t ht) fun id pos e hm => hev _ (mem_callsOf hm) e rfl
    refine ⟨fun id hid pos hA hB hC hsp => ?_, fun id hid pos a hm => ?_⟩
    · obtain ⟨len, exam, count, capt, hput⟩ := h1 id pos hA hB hC (hpl id hid) hsp
      refine ⟨len, exam, count, capt, hput, ?_⟩
      rw [← List.cons_append, ← List.append_assoc] at hsp
      obtain ⟨gA, gB, e1, e2⟩ := callsOf_split hsp
      exact (H.serves.found (hTi.weaken fun _ _ => trivial)).2.2.2 gA gB i i id pos len exam count capt e1
        (mem_callsOf (e2 ▸ List.mem_append_right _ (List.mem_cons_of_mem _ hput)))
    · obtain ⟨h3, o, ho, rfl⟩ := h2 id pos a hm (hpl id hid)
      exact ⟨h3, hof.plain o ho (hpl _ hid o ho rfl)⟩

/-- **C74**. Threads parse one text with one tree table. If a thread looks up the result of a memoized pattern at one place twice and in vain (and so
parses it twice there), then in between it has parsed the pattern, and the table has not kept the result: it has length zero, or less was
examined than the threshold asks. -/
theorem C74_once_partial (hc : CompiledAt top p code) (hd : p.Dots1) (hs : p.Scoped) (hchk : CheckOK chk) (hm : p.MemosOK chk top) {T T' : TreeTable}
    (hT : Warm chk code data T) {threads : List (Thread σ)} (hb : ∀ t ∈ threads, 0 < t.bufsz)
    (hstop : ∀ t ∈ threads, ∃ r', RunsTo chk none code t.bufsz data t.st r') {h : List (Nat × TEv)} (H : Concurrent chk code data threads T h T')
    {i : Nat} {id : Int} (hid : id ≤ top) {pos : Nat} {h1 h2 h3 : List TEv}
    (he : callsOf i h = h1 ++ .get id pos none :: (h2 ++ .get id pos none :: h3)) :
    ∃ len exam count capt, TEv.put id pos len exam count capt ∈ h2 ∧ ((exam : Int) < T.threshold ∨ len = some 0) :=
  (H.once hc hd hs hchk hm hT hb hstop i).1 id hid pos h1 h2 h3 he

/-- **C74**, counted: a thread parses a memoized pattern at one place at most once more than it gets a result that the table does not keep. -/
theorem C74_count_partial (hc : CompiledAt top p code) (hd : p.Dots1) (hs : p.Scoped) (hchk : CheckOK chk) (hm : p.MemosOK chk top) {T T' : TreeTable}
    (hT : Warm chk code data T) {threads : List (Thread σ)} (hb : ∀ t ∈ threads, 0 < t.bufsz)
    (hstop : ∀ t ∈ threads, ∃ r', RunsTo chk none code t.bufsz data t.st r') {h : List (Nat × TEv)} (H : Concurrent chk code data threads T h T')
    (i : Nat) {id : Int} (hid : id ≤ top) (pos : Nat) :
    (callsOf i h).countP (TEv.misses (id, pos)) ≤ 1 + (callsOf i h).countP (TEv.wasted T.threshold (id, pos)) := by
  refine countP_between _ _ _ _ (Nat.le_refl _) fun h1 x h2 y h3 he hx hy => ?_
  have key : ∀ z : TEv, z.misses (id, pos) = true → z = .get id pos none := by
    intro z hz
    cases z with
    | put => cases hz
    | get id' pos' a =>
      cases a with
      | some m => cases hz
      | none =>
        simp only [TEv.misses, Bool.and_eq_true, beq_iff_eq] at hz
        rw [hz.1, hz.2]
  rw [key x hx, key y hy] at he
  obtain ⟨len, exam, count, capt, hput, hr⟩ := C74_once_partial hc hd hs hchk hm hT hb hstop H hid he
  exact ⟨_, hput, by simpa [TEv.wasted] using hr⟩

/-- **C74**, in total: the number of times a thread parses memoized patterns (other than repetitions) is at most the number of memoized patterns times the
number of places in the text, plus the number of results that the table does not keep. -/
theorem C74_total_partial (hc : CompiledAt top p code) (hd : p.Dots1) (hs : p.Scoped) (hchk : CheckOK chk) (hm : p.MemosOK chk top) {T T' : TreeTable}
    (hT : Warm chk code data T) {threads : List (Thread σ)} (hb : ∀ t ∈ threads, 0 < t.bufsz)
    (hstop : ∀ t ∈ threads, ∃ r', RunsTo chk none code t.bufsz data t.st r') {h : List (Nat × TEv)} (H : Concurrent chk code data threads T h T')
    (i : Nat) :
    (callsOf i h).countP (TEv.missesAny top) ≤ p.mids.length * (data.length + 1) + (callsOf i h).countP (TEv.wastedAny T.threshold) := by
  have hask := (H.once hc hd hs hchk hm hT hb hstop i).2
  have hle : ∀ id ∈ p.mids, id ≤ top := fun id hi => by
    obtain ⟨o, ho, rfl⟩ := List.mem_map.1 hi
    exact hm.le o ho
  let K : List (Int × Nat) := p.mids.dedup ×ˢ List.range (data.length + 1)
  have hK : K.Nodup := (List.nodup_dedup _).product List.nodup_range
  have hKl : K.length ≤ p.mids.length * (data.length + 1) := by
    simp only [K, List.length_product, List.length_range]
    exact Nat.mul_le_mul_right _ (List.dedup_sublist _).length_le
  have h1 := countP_cover (fun k => TEv.misses k) (callsOf i h) K (TEv.missesAny top) (fun x hx hq => by
    cases x with
    | put => cases hq
    | get id pos a =>
      cases a with
      | some m => cases hq
      | none =>
        simp only [TEv.missesAny, decide_eq_true_eq] at hq
        obtain ⟨e1, e2⟩ := hask id hq pos none hx
        exact ⟨(id, pos), List.mem_product.2 ⟨List.mem_dedup.2 e2, List.mem_range.2 (by omega)⟩, by simp [TEv.misses]⟩)
  have h2 := countP_disjoint (fun k => TEv.wasted T.threshold k) (fun k k' x h h' => by
    obtain ⟨a, b⟩ := k
    obtain ⟨a', b'⟩ := k'
    cases x with
    | get => cases h
    | put id pos =>
      simp only [TEv.wasted, Bool.and_eq_true, beq_iff_eq] at h h'
      rw [← h.1.1, ← h.1.2, h'.1.1, h'.1.2]) (callsOf i h) K (TEv.wastedAny T.threshold) hK (fun k _ x _ hf => by
    cases x with
    | get => cases hf
    | put id pos =>
      simp only [TEv.wasted, Bool.and_eq_true] at hf
      exact hf.2)
  have h3 := sum_le_add K (fun k => (callsOf i h).countP (TEv.misses k)) (fun k => (callsOf i h).countP (TEv.wasted T.threshold k)) (fun k hk =>
    C74_count_partial hc hd hs hchk hm hT hb hstop H i (hle _ (List.mem_dedup.1 (List.mem_product.1 hk).1)) k.2)
  omega

theorem callsOf_zero {h : List (Nat × TEv)} (hk : ∀ c ∈ h, c.1 < 1) : (callsOf 0 h).map (fun e => (0, e)) = h := by
  induction h with
  | nil => rfl
  | cons c h ih =>
    have h0 : c.1 = 0 := by have := hk c List.mem_cons_self; omega
    have := ih fun c hc => hk c (List.mem_cons_of_mem _ hc)
    obtain ⟨i, e⟩ := c
    cases h0
    simp only [callsOf, List.filter_cons, beq_self_eq_true, if_true, List.map_cons] at this ⊢
    rw [this]

/-- **C74**, for one parse with a tree table: with the calls it makes, the bounds hold. -/
theorem C74_exec_partial (hc : CompiledAt top p code) (hd : p.Dots1) (hs : p.Scoped) (hchk : CheckOK chk) (hm : p.MemosOK chk top) {T T' : TreeTable}
    (hT : Warm chk code data T) {bufsz : Nat} (hb : 0 < bufsz) {st st' : σ} {ok : Bool} {cap : Option Capture} {src : Input} {errs : List PErr}
    (hr : RunsTree chk code bufsz data T st (.done ok cap src errs T' st')) :
    ∃ E : List TEv, Thread.Finishes chk code data ⟨bufsz, st⟩ E (.done ok cap src errs E st') ∧ Serves T (E.map fun e => (0, e)) T' ∧
      (∀ id ≤ top, ∀ pos, E.countP (TEv.misses (id, pos)) ≤ 1 + E.countP (TEv.wasted T.threshold (id, pos))) ∧
      E.countP (TEv.missesAny top) ≤ p.mids.length * (data.length + 1) + E.countP (TEv.wastedAny T.threshold) := by
  obtain ⟨h, H, hf⟩ := C71_alone hr
  have hstop : ∀ t ∈ [(⟨bufsz, st⟩ : Thread σ)], ∃ r', RunsTo chk none code t.bufsz data t.st r' := by
    intro t ht
    cases List.mem_singleton.1 ht
    obtain ⟨r', h, -⟩ := (C27_memo_transparent_partial hc hd hs hchk hm hb hT).1 _ hr
    exact ⟨r', h⟩
  have hb' : ∀ t ∈ [(⟨bufsz, st⟩ : Thread σ)], 0 < t.bufsz := by
    intro t ht
    cases List.mem_singleton.1 ht
    exact hb
  refine ⟨callsOf 0 h, hf, ?_, fun id hid pos => C74_count_partial hc hd hs hchk hm hT hb' hstop H 0 hid pos, C74_total_partial hc hd hs hchk hm hT hb' hstop H 0⟩
  rw [callsOf_zero H.known]
  exact H.serves

end

/-! ## The claim without the exception is false

A result of length zero is not kept (`memo/tree.go:33`), although it may have taken any amount of work. -/

/-- `{{&'a'}} 'x' / {{&'a'}}` with one id. -/
def twiceA : Pat := .alt (.seq (.memo (.and (.lit [97])) 1) (.lit [120])) (.memo (.and (.lit [97])) 1)

/-- The calls of a parse of "ab" with `twiceA`. -/
def twiceLog : List (Nat × TEv) := [(0, .get 1 0 none), (0, .put 1 0 (some 0) 1 1 []), (0, .get 1 0 none), (0, .put 1 0 (some 0) 1 1 [])]

/-- `twiceA` on "ab" with a new table: the hypotheses of the theorems above, with a place looked up in vain twice. -/
theorem twiceA_run : ∃ code, CompiledAt 1 twiceA code ∧ twiceA.Dots1 ∧ twiceA.Scoped ∧ CheckOK noChk ∧ twiceA.MemosOK noChk 1 ∧
    (∀ t ∈ [(⟨4096, ()⟩ : Thread Unit)], 0 < t.bufsz ∧ ∃ r', RunsTo noChk none code t.bufsz [97, 98] t.st r') ∧
    ∃ T', Concurrent noChk code [97, 98] [(⟨4096, ()⟩ : Thread Unit)] (TreeTable.new 0) twiceLog T' := by
  have hsv : ∃ T', Serves (TreeTable.new 0) twiceLog T' :=
    ⟨_, .put (h := [(0, .get 1 0 none), (0, .put 1 0 (some 0) 1 1 []), (0, .get 1 0 none)])
      (.get (h := [(0, .get 1 0 none), (0, .put 1 0 (some 0) 1 1 [])]) (.put (h := [(0, .get 1 0 none)]) (.get (h := []) .nil rfl)) rfl)⟩
  obtain ⟨T', hsv⟩ := hsv
  refine ⟨_, ⟨10, ⟨0, 1, true⟩, _, _, rfl, rfl, rfl⟩, ?_, ?_, ?_, ⟨?_, ?_, ?_⟩, ?_, T', ⟨hsv, by simp [twiceLog], ?_⟩⟩
  · intro n hn
    simp [twiceA, Pat.leaves] at hn
  · simp [twiceA, Pat.Scoped]
  · exact fun _ _ _ _ _ _ _ _ _ _ h => by cases h
  · intro o ho
    have h := twiceA.memos_pure (by simp [twiceA, Pat.Pure, Pat.leaves]) (fun _ h => by cases h) o ho
    exact Occ.quiet_of_pure h.1 h.2
  · intro o ho o' ho' _
    simp only [twiceA, Pat.memos, List.nil_append, List.append_nil, List.cons_append, List.mem_cons, List.not_mem_nil, or_false, or_self] at ho ho'
    rw [ho, ho']
    exact ⟨rfl, fun _ _ _ _ => rfl⟩
  · simp [twiceA, Pat.memos]
  · intro t ht
    simp only [List.mem_cons, List.not_mem_nil, or_false] at ht
    subst ht
    exact ⟨by decide, _, 30, _, rfl, rfl⟩
  · intro i t ht
    match i, ht with
    | 0, ht => cases ht; exact ⟨fun _ _ _ => none, 30, [], rfl⟩
    | i + 1, ht => simp at ht

/-- **C74**: "at most once at a place" is false as it stands. -/
theorem C74_false : ¬ ∀ (p : Pat) (code : Code) (data : List UInt8) (top : Int) (threads : List (Thread Unit)) (T' : TreeTable) (h : List (Nat × TEv)),
    CompiledAt top p code → p.Dots1 → p.Scoped → p.MemosOK noChk top →
    (∀ t ∈ threads, 0 < t.bufsz ∧ ∃ r', RunsTo noChk none code t.bufsz data t.st r') →
    Concurrent noChk code data threads (TreeTable.new 0) h T' → ∀ i, ∀ id ≤ top, ∀ pos, (callsOf i h).countP (TEv.misses (id, pos)) ≤ 1 := by
  intro h
  obtain ⟨code, h1, h2, h3, -, h4, h5, T', h6⟩ := twiceA_run
  have := h _ _ _ _ _ _ _ h1 h2 h3 h4 h5 h6 0 1 (by decide) 0
  exact absurd this (by decide)

end Gpeg
