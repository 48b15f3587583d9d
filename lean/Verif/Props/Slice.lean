import Verif.SliceStep
import Verif.LazyLogRel
import Verif.Props.Memo
/-!
# Captures and the sharing of slices (C44)

The machine of `Verif/Slice.lean` keeps captures in Go slices, which share arrays and are written in place by
`append`; the machine of `Verif/Vm.lean` keeps them in lists. Without a memo table they agree
(`C44_no_table`). With one, the code as it is gives captures that no use of the table explains (`C44_false`), and even a
capture that is its own descendant (`C44_cyclic`). If `stackEntry.addCapt` did not keep the spare capacity, they would
agree (`C44_clipped`).
-/
namespace Gpeg.Slice
open Gpeg
variable {ι τ τ' σ : Type}

/-- `Exec` of the machine with slices, started with arrays `h`. -/
def sstart (h : Heap) (src : ι) (t : τ) (cst : σ) : SVM ι τ σ := ⟨0, [], {}, src, t, [], cst, ⟨0, 0⟩, h⟩

/-- The machine with slices, started with arrays `h`, stops with the given outcome. -/
def SRuns (c : SCfg ι τ σ) (code : Code) (h : Heap) (src : ι) (t : τ) (cst : σ) (o : SOut ι τ σ) : Prop :=
  ∃ k, srunOut (sstepB c code) k (sstart h src t cst) = some o

/-- A final outcome of the machine with slices shows result `r`: the same flag, input, errors and checker state, and
the captures read from the arrays are those of `r`. The table is not compared. -/
inductive Shows : SOut ι τ' σ → XRes ι τ σ → Prop
  | done {b : Bool} {x : SCap} {c : Capture} {s : SVM ι τ' σ} {tbl : τ} : Reads s.heap x c →
    Shows (.halt b (some x) s) (.done b (some c) s.src s.errs tbl s.cst)
  | none {b : Bool} {s : SVM ι τ' σ} {tbl : τ} : Shows (.halt b none s) (.done b none s.src s.errs tbl s.cst)
  | panic : Shows .panic .panic

/-! ## Without a table -/

theorem tabSim_none (al : Sl → Sl) : TabSim al sNone noneTable fun _ _ _ _ => True :=
  ⟨fun _ _ => trivial, fun _ => ⟨trivial, trivial⟩, fun _ _ _ => trivial⟩

theorem Rel.start {R : Heap → (Nat → Nat) → τ' → τ → Prop} {h : Heap} {fz : Nat → Nat} (hw : WF h fz) (src : ι) {a : τ'}
    {b : τ} (hR : R h fz a b) (cst : σ) : Rel R fz (sstart h src a cst) ⟨0, [], [], src, b, [], cst, ⟨0, 0⟩⟩ :=
  ⟨rfl, rfl, rfl, rfl, rfl, rfl, hw,
    ⟨DenS.nil h fz, ⟨fun _ => rfl, .inl rfl⟩, List.forall_mem_nil _, trivial⟩, hR⟩

/-- Corresponding final outcomes show the same. -/
theorem ORel.shows {R : Heap → (Nat → Nat) → τ' → τ → Prop} {o : SOut ι τ' σ} {o' : Out ι τ σ} (h : ORel R o o')
    {r : XRes ι τ σ} (hr : o'.res = some r) : Shows o r := by
  cases h with
  | next h => cases hr
  | @halt fz b x c s t h1 h2 =>
    simp only [Out.res, Option.some.injEq] at hr
    subst hr
    rw [← h2.src, ← h2.errs, ← h2.cst]
    match x, c, h1 with
    | none, none, _ => exact .none
    | some x, some c, h1 => exact .done (DenC.reads h1)
  | panic =>
    simp only [Out.res, Option.some.injEq] at hr
    subst hr
    exact .panic

theorem ORel.shows' {R : Heap → (Nat → Nat) → τ' → τ → Prop} {o : SOut ι τ' σ} {o' : Out ι τ σ} (h : ORel R o o')
    (hf : ∀ s, o ≠ .next s) : ∃ r, o'.res = some r ∧ Shows o r := by
  cases hr : o'.res with
  | some r => exact ⟨r, rfl, h.shows hr⟩
  | none =>
    cases h with
    | next _ => exact absurd rfl (hf _)
    | halt _ _ => cases hr
    | panic => cases hr

theorem srunOut_final {step : SVM ι τ σ → SOut ι τ σ} : ∀ {k : Nat} {s : SVM ι τ σ} {o : SOut ι τ σ},
    srunOut step k s = some o → ∀ s', o ≠ .next s'
  | 0, _, _, h => by cases h
  | k + 1, s, o, h => by
    unfold srunOut at h
    cases hs : step s with
    | next s' => rw [hs] at h; exact srunOut_final h
    | halt b x s' => rw [hs] at h; cases h; intro _ h; cases h
    | panic => rw [hs] at h; cases h; intro _ h; cases h

/-- Two machines in corresponding states stop with results that show the same. -/
theorem runs_shows {R : Heap → (Nat → Nat) → τ' → τ → Prop} {c : SCfg ι τ' σ} {T : TableOps τ} {fz : Nat → Nat}
    {s : SVM ι τ' σ} {t : VM ι τ σ} (hP : AlOK c.par.al) (hT : TabSim c.par.al c.tab T R) (code : Code)
    (h : Rel R fz s t) :
    (∀ o, (∃ k, srunOut (sstepB c code) k s = some o) → ∃ r, Yields (stepB (c.toCfg T) code) t r ∧ Shows o r) ∧
    (∀ r, Yields (stepB (c.toCfg T) code) t r → ∃ o, (∃ k, srunOut (sstepB c code) k s = some o) ∧ Shows o r) := by
  refine ⟨?_, ?_⟩
  · rintro o ⟨k, hk⟩
    rcases run_rel hP hT code k h with ⟨h1, _⟩ | ⟨o1, o2, h1, h2, h3⟩
    · rw [h1] at hk; cases hk
    · rw [h1] at hk; cases hk
      obtain ⟨r, hr, hs⟩ := h3.shows' (srunOut_final h1)
      exact ⟨r, ⟨k, _, h2, hr⟩, hs⟩
  · rintro r ⟨k, o', hk, hr⟩
    rcases run_rel hP hT code k h with ⟨_, h1⟩ | ⟨o1, o2, h1, h2, h3⟩
    · rw [h1] at hk; cases hk
    · rw [h2] at hk; cases hk
      exact ⟨_, ⟨k, h1⟩, h3.shows hr⟩

theorem wf_nil : WF [] fun _ => 0 := by
  intro a
  simp

/-- **C44**, without a memo table: for every bytecode, growth of slices, input and checkers, the machine with slices
stops with exactly the results of the machine with lists. -/
theorem C44_no_table (g : Nat → Nat → Nat) (inp : InputOps ι) (chk : CheckFn σ) (code : Code) (src : ι) (st : σ) :
    (∀ o, SRuns ⟨⟨g, id⟩, inp, sNone, chk, none⟩ code [] src () st o →
      ∃ r, Execs ⟨inp, noneTable, chk, none⟩ code src () st r ∧ Shows o r) ∧
    (∀ r, Execs ⟨inp, noneTable, chk, none⟩ code src () st r →
      ∃ o, SRuns ⟨⟨g, id⟩, inp, sNone, chk, none⟩ code [] src () st o ∧ Shows o r) :=
  runs_shows (c := ⟨⟨g, id⟩, inp, sNone, chk, none⟩) (.inl rfl) (tabSim_none id) code
    (Rel.start wf_nil src (R := fun _ _ _ _ => True) trivial st)

/-! ## With a table, not keeping the spare capacity -/

/-- Corresponding entries. -/
def TERel (h : Heap) (fz : Nat → Nat) (m : SMEnt) (e : TEnt) : Prop :=
  m.length = e.ent.length ∧ m.count = e.ent.count ∧ DenS h fz m.captures e.ent.captures ∧
    m.captures.len ≤ fz m.captures.arr

/-- Corresponding tables. -/
structure TTRel (h : Heap) (fz : Nat → Nat) (a : STree) (b : TreeTable) : Prop where
  th : a.threshold = b.threshold
  map : LazyLog.TreeRel (TERel h fz) a.map b.map
  inv : TabInv false b fun s => (s.val.start : Int) = s.low

theorem tabSim_tree : TabSim clip sTree treeTable TTRel where
  mono hle h := ⟨h.th, h.map.mono fun _ _ e => ⟨e.1, e.2.1, e.2.2.1.mono hle e.2.2.2, Nat.le_trans e.2.2.2 (hle.up _)⟩, h.inv⟩
  get := by
    intro h fz a b id pos hR
    have hf := hR.map.find id pos
    have hi := hR.inv.get (id := id) (pos := pos) rfl
    refine ⟨?_, hR.th, hf.1, hi.1⟩
    have h2 := hf.2
    have h3 : ∀ e, (b.map.findLargest id pos).2 = some e → e.start = pos := by
      obtain ⟨live, g1, g2⟩ := hR.inv
      intro e he
      obtain ⟨s, hs, _, h5, h6⟩ := LazyLog.find_stored (st := ⟨b.map, live⟩) g1 he
      have h7 : (s.1.val.start : Int) = s.1.low := g2 s hs
      rw [← h6]
      omega
    simp only [sTree, treeTable, TreeTable.get]
    revert h2 h3
    rcases (a.map.findLargest id pos).2 with _ | m
    · rcases (b.map.findLargest id pos).2 with _ | e
      · intros; trivial
      · intro h2; exact h2.elim
    · rcases (b.map.findLargest id pos).2 with _ | e
      · intro h2; exact h2.elim
      · intro (h2 : TERel h fz m e) h3
        have hcs : (e.at pos).captures = e.ent.captures := by
          simp only [TEnt.at, h3 e rfl, Capture.shiftL_self]
        exact ⟨h2.1, h2.2.1, by rw [hcs]; exact h2.2.2.1, h2.2.2.2, Nat.le_refl _⟩
  put := by
    intro h fz a b id start length examined count s cs hR hd hl
    have hi := hR.inv.put (id := id) (start := start) (length := length) (examined := examined) (count := count)
      (captures := cs) (fun _ _ => rfl)
    refine ⟨?_, ?_, hi⟩
    · simp only [sTree, treeTable, TreeTable.put, hR.th]
      split <;> simp [hR.th]
    · simp only [sTree, treeTable, TreeTable.put, hR.th]
      split
      · exact hR.map
      · exact hR.map.add _ _ _ ⟨rfl, rfl, hd, hl⟩

/-- Arrays and tables of the two machines after the same runs, each with bytecode and input of its own, starting with a
new table. -/
inductive Twin (g : Nat → Nat → Nat) (chk : CheckFn σ) : Heap → STree → TreeTable → Prop
  | new (th : Int) : Twin g chk [] ⟨{}, th⟩ (TreeTable.new th)
  | run {h : Heap} {a : STree} {b : TreeTable} {code : Code} {bufsz : Nat} {data : List UInt8} {st : σ} {k : Nat}
      {m m' : Bool} {x : Option SCap} {c : Option Capture} {s : SVM Input STree σ} {t : VM Input TreeTable σ} :
      Twin g chk h a b →
      srunOut (sstepB ⟨⟨g, clip⟩, chunkedOps, sTree, chk, none⟩ code) k (sstart h (Input.new bufsz data) a st) =
        some (.halt m x s) →
      runOut (stepB ⟨chunkedOps, treeTable, chk, none⟩ code) k (initVM ⟨chunkedOps, treeTable, chk, none⟩
        (Input.new bufsz data) b st) = some (.halt m' c t) →
      Twin g chk s.heap s.tbl t.tbl

theorem Twin.rel {g : Nat → Nat → Nat} {chk : CheckFn σ} {h : Heap} {a : STree} {b : TreeTable}
    (ht : Twin g chk h a b) : ∃ fz, WF h fz ∧ TTRel h fz a b := by
  induction ht with
  | new th => exact ⟨_, wf_nil, rfl, ⟨trivial, rfl, rfl, rfl⟩, tabInv_new th _⟩
  | @run h a b code bufsz data st k m m' x c s t _ h1 h2 ih =>
    obtain ⟨fz, hw, hR⟩ := ih
    rcases run_rel (c := ⟨⟨g, clip⟩, chunkedOps, sTree, chk, none⟩) (.inr rfl) tabSim_tree code k
      (Rel.start hw (Input.new bufsz data) hR st) with ⟨h3, _⟩ | ⟨o1, o2, h3, h4, h5⟩
    · exact absurd (h3.symm.trans h1) (by simp)
    · have e1 := Option.some.inj (h3.symm.trans h1)
      have e2 := Option.some.inj (h4.symm.trans h2)
      subst e1 e2
      cases h5 with
      | halt _ h7 => exact ⟨_, h7.wf, h7.tab⟩

/-- **C44**, if `stackEntry.addCapt` kept `capt[:len(capt):len(capt)]`: for every bytecode, growth of slices, input and
checkers, and tables filled by any earlier runs, the machine with slices stops with exactly the results of the machine
with lists, in which what is stored in a table never changes. (What is missing for C44: the code keeps the spare
capacity, see `C44_false`.) -/
theorem C44_clipped_partial {g : Nat → Nat → Nat} {chk : CheckFn σ} {h : Heap} {a : STree} {b : TreeTable}
    (ht : Twin g chk h a b) (code : Code) (bufsz : Nat) (data : List UInt8) (st : σ) :
    (∀ o, SRuns ⟨⟨g, clip⟩, chunkedOps, sTree, chk, none⟩ code h (Input.new bufsz data) a st o →
      ∃ r, RunsTree chk code bufsz data b st r ∧ Shows o r) ∧
    (∀ r, RunsTree chk code bufsz data b st r →
      ∃ o, SRuns ⟨⟨g, clip⟩, chunkedOps, sTree, chk, none⟩ code h (Input.new bufsz data) a st o ∧ Shows o r) := by
  obtain ⟨fz, hw, hR⟩ := ht.rel
  exact runs_shows (c := ⟨⟨g, clip⟩, chunkedOps, sTree, chk, none⟩) (.inr rfl) tabSim_tree code
    (Rel.start hw (Input.new bufsz data) hR st)

/-- What a caller sees of a run with the table (reading the captures from the arrays) is then what they see of a run
without one: `C44_clipped_partial` together with `C27_memo_transparent_partial`. -/
theorem C44_clipped_transparent_partial {p : Pat} {code : Code} {top : Int} {data : List UInt8} {bufsz : Nat} {st : σ}
    {g : Nat → Nat → Nat} {chk : CheckFn σ} {h : Heap} {a : STree} {b : TreeTable}
    (hc : CompiledAt top p code) (hd : p.Dots1) (hs : p.Scoped) (hchk : CheckOK chk) (hm : p.MemosOK chk top)
    (hb : 0 < bufsz) (ht : Twin g chk h a b) (hw : Warm chk code data b) :
    (∀ o, SRuns ⟨⟨g, clip⟩, chunkedOps, sTree, chk, none⟩ code h (Input.new bufsz data) a st o →
      ∃ (r : XRes Input TreeTable σ) (r' : XRes Input Unit σ),
        Shows o r ∧ RunsTo chk none code bufsz data st r' ∧ r.view = r'.view) ∧
    (∀ r', RunsTo chk none code bufsz data st r' → ∃ o, ∃ r : XRes Input TreeTable σ,
      SRuns ⟨⟨g, clip⟩, chunkedOps, sTree, chk, none⟩ code h (Input.new bufsz data) a st o ∧
        Shows o r ∧ r.view = r'.view) := by
  have h1 := C44_clipped_partial ht code bufsz data st
  have h2 := C27_memo_transparent_partial (st := st) hc hd hs hchk hm hb hw
  refine ⟨fun o ho => ?_, fun r' hr' => ?_⟩
  · obtain ⟨r, hr, hsh⟩ := h1.1 o ho
    obtain ⟨r', hr', hv⟩ := h2.1 r hr
    exact ⟨r, r', hsh, hr', hv⟩
  · obtain ⟨r, hr, hv⟩ := h2.2 r' hr'
    obtain ⟨o, ho, hsh⟩ := h1.2 r hr
    exact ⟨o, r, ho, hsh, hv⟩

/-! ## The code as it is -/

/-- `Memo('a' 'b' 'c')`, each captured. -/
def wIn : Pat := .memo (.seq (.cap (.lit [97]) 1) (.seq (.cap (.lit [98]) 2) (.cap (.lit [99]) 3))) 2
/-- `Memo(wIn 'd')`, with the `d` captured as 10. -/
def wA : Pat := .memo (.seq wIn (.cap (.lit [100]) 10)) 1
/-- `Memo(wIn 'd')`, with the `d` captured as 20. -/
def wB : Pat := .memo (.seq wIn (.cap (.lit [100]) 20)) 3
/-- `wA 'z' / wB 'w' / wA 'q'`. -/
def wP : Pat := .alt (.seq wA (.lit [122])) (.alt (.seq wB (.lit [119])) (.seq wA (.lit [113])))

/-- The tables and arrays of the code as it is. -/
abbrev asIs : SCfg Input STree Unit := ⟨code, chunkedOps, sTree, noChk, none⟩

set_option maxRecDepth 100000 in
/-- **C44** is false: on `abcdq`, `wP` gives the capture 10 for `d`, but with a new table the code gives 20, the id
used by another pattern which failed. -/
theorem C44_false : ∃ p bc, CompiledAt 3 p bc ∧
    (∃ src, RunsTo noChk none bc 4096 [97, 98, 99, 100, 113] () (.done true
      (some (.dummy 0 5 [.node 1 0 1 [], .node 2 1 1 [], .node 3 2 1 [], .node 10 3 1 []])) src [] () ())) ∧
    ∃ x s, SRuns asIs bc [] (Input.new 4096 [97, 98, 99, 100, 113]) ⟨{}, 0⟩ () (.halt true (some x) s) ∧
      Reads s.heap x (.dummy 0 5 [.node 1 0 1 [], .node 2 1 1 [], .node 3 2 1 [], .node 20 3 1 []]) := by
  refine ⟨wP, _, ⟨20, ⟨0, 3, true⟩, _, _, rfl, rfl, rfl⟩, ⟨_, 200, _, rfl, rfl⟩, _, _, ⟨200, rfl⟩, ?_⟩
  exact .dummy (.cons (.node .nil) (.cons (.node .nil) (.cons (.node .nil) (.cons (.node .nil) .nil))))

theorem ReadsL.mem {h : Heap} : ∀ {xs : List SCap} {cs : List Capture}, ReadsL h xs cs → ∀ x ∈ xs,
    ∃ c ∈ cs, Reads h x c
  | _, _, .nil, _, hx => by cases hx
  | _, _, .cons h1 h2, x, hx => by
    rcases List.mem_cons.1 hx with rfl | hx
    · exact ⟨_, List.mem_cons_self, h1⟩
    · obtain ⟨c, hc, h3⟩ := h2.mem x hx
      exact ⟨c, List.mem_cons_of_mem _ hc, h3⟩

set_option maxRecDepth 100000 in
/-- The same pattern, with a table left by a run on the same input, without the spare capacity: the hypotheses of
`C44_clipped_transparent_partial` hold, and the capture is 10. -/
example : ∃ bc h a b, CompiledAt 3 wP bc ∧ wP.Dots1 ∧ wP.Scoped ∧ CheckOK noChk ∧ wP.MemosOK noChk 3 ∧
    Twin goGrow noChk h a b ∧ Warm noChk bc [97, 98, 99, 100, 113] b ∧ a.map.root ≠ .nil ∧
    ∃ x s, SRuns ⟨⟨goGrow, clip⟩, chunkedOps, sTree, noChk, none⟩ bc h (Input.new 4096 [97, 98, 99, 100, 113]) a ()
        (.halt true (some x) s) ∧
      Reads s.heap x (.dummy 0 5 [.node 1 0 1 [], .node 2 1 1 [], .node 3 2 1 [], .node 10 3 1 []]) := by
  have h : ∃ bc, CompiledAt 3 wP bc ∧
      ∃ m x s m' c t, srunOut (sstepB ⟨⟨goGrow, clip⟩, chunkedOps, sTree, noChk, none⟩ bc) 200
        (sstart [] (Input.new 4096 [97, 98, 99, 100, 113]) ⟨{}, 0⟩ ()) = some (.halt m x s) ∧
      runOut (stepB ⟨chunkedOps, treeTable, noChk, none⟩ bc) 200 (initVM ⟨chunkedOps, treeTable, noChk, none⟩
        (Input.new 4096 [97, 98, 99, 100, 113]) (TreeTable.new 0) ()) = some (.halt m' c t) ∧ s.tbl.map.root ≠ .nil ∧
      ∃ x s', SRuns ⟨⟨goGrow, clip⟩, chunkedOps, sTree, noChk, none⟩ bc s.heap
        (Input.new 4096 [97, 98, 99, 100, 113]) s.tbl () (.halt true (some x) s') ∧
        Reads s'.heap x (.dummy 0 5 [.node 1 0 1 [], .node 2 1 1 [], .node 3 2 1 [], .node 10 3 1 []]) :=
    ⟨_, ⟨20, ⟨0, 3, true⟩, _, _, rfl, rfl, rfl⟩, _, _, _, _, _, _, rfl, rfl, (fun h => nomatch h), _, _, ⟨200, rfl⟩,
      .dummy (.cons (.node .nil) (.cons (.node .nil) (.cons (.node .nil) (.cons (.node .nil) .nil))))⟩
  obtain ⟨bc, hc, m, x, s, m', c, t, h1, h2, h3, h4⟩ := h
  refine ⟨bc, s.heap, s.tbl, t.tbl, hc, ?_, ?_, ?_, ⟨?_, ?_, ?_⟩, .run (.new 0) h1 h2,
    .run (bufsz := 4096) (st := ()) (.new 0) (by decide) ⟨200, _, h2, rfl⟩, h3, h4⟩
  · intro n hn
    simp [wP, wA, wB, wIn, Pat.leaves] at hn
  · simp [wP, wA, wB, wIn, Pat.Scoped]
  · intro _ _ _ _ _ _ _ _ _ _ h
    cases h
  · intro o ho
    have hp : wP.Pure := by simp [wP, wA, wB, wIn, Pat.Pure, Pat.leaves]
    have := wP.memos_pure hp (fun _ h => by cases h) o ho
    exact Occ.quiet_of_pure this.1 this.2
  · intro o ho o' ho' hid
    have : o = o' := by
      simp only [wP, wA, wB, wIn, Pat.memos, List.append_nil, List.cons_append, List.nil_append, List.mem_cons,
        List.not_mem_nil, or_false] at ho ho'
      rcases ho with rfl | rfl | rfl | rfl | rfl | rfl <;> rcases ho' with rfl | rfl | rfl | rfl | rfl | rfl <;>
        first | rfl | cases hid
    subst this
    exact ⟨rfl, fun _ _ _ _ => rfl⟩
  · simp [wP, wA, wB, wIn, Pat.memos]

/-- A capture which is one of its own children is no tree. -/
theorem no_tree {h : Heap} {id : Int} {s n : Nat} {ch : Sl} (hm : SCap.node id s n ch ∈ cells h ch) (c : Capture)
    (hr : Reads h (.node id s n ch) c) : False := by
  cases hr with
  | node hl =>
    obtain ⟨c', hc, h'⟩ := hl.mem _ hm
    exact no_tree hm c' h'
termination_by sizeOf c
decreasing_by
  subst_vars
  have := List.sizeOf_lt_of_mem hc
  simp only [Capture.node.sizeOf_spec]
  omega

/-- `Memo({wIn 'd'})`, with the whole captured as 5 and the `d` as 10. -/
def wC : Pat := .memo (.cap (.seq wIn (.cap (.lit [100]) 10)) 5) 1
/-- `wC 'z' / {&wIn wC}`, with the second alternative captured as 7. -/
def wQ : Pat := .alt (.seq wC (.lit [122])) (.cap (.seq (.and wIn) wC) 7)

set_option maxRecDepth 100000 in
/-- The code as it is can even give a capture that is its own descendant: with a new table, on `abcdq`, no finite tree
is what the capture of `wQ` reads as; without a table it is one. -/
theorem C44_cyclic : ∃ p bc, CompiledAt 3 p bc ∧
    (∃ c src, RunsTo noChk none bc 4096 [97, 98, 99, 100, 113] () (.done true (some c) src [] () ())) ∧
    ∃ x s, SRuns asIs bc [] (Input.new 4096 [97, 98, 99, 100, 113]) ⟨{}, 0⟩ () (.halt true (some x) s) ∧
      ∀ c, ¬ Reads s.heap x c := by
  refine ⟨wQ, _, ⟨20, ⟨0, 3, true⟩, _, _, rfl, rfl, rfl⟩, ⟨_, _, 200, _, rfl, rfl⟩, _, _, ⟨200, rfl⟩, ?_⟩
  intro c hc
  cases hc with
  | dummy hl =>
    obtain ⟨c1, _, h1⟩ := hl.mem _ (List.mem_cons_self)
    cases h1 with
    | node hl =>
      obtain ⟨c2, _, h2⟩ := hl.mem _ (List.mem_cons_of_mem _ (List.mem_cons_of_mem _ (List.mem_cons_of_mem _ List.mem_cons_self)))
      exact no_tree (List.mem_cons_of_mem _ (List.mem_cons_of_mem _ (List.mem_cons_of_mem _ List.mem_cons_self))) c2 h2

end Gpeg.Slice
