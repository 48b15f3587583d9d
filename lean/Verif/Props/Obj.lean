import Verif.ObjSim
import Verif.Props.Session
/-!
# Property C65: capture objects that belong to an entry
-/
namespace Gpeg.Obj
variable {σ : Type}

/-- The result of a final outcome; the captures are read (`Start`, `Len`, `Id`, `Dummy`, `Children`) when the machine has
stopped. -/
def OOut.res {ι : Type} : OOut ι σ → Option (XRes ι OTab σ)
  | .next _ => none
  | .halt b c s => some (.done b (c.map (read s.tbl (s.tbl.caps.length + 1))) s.src s.errs s.tbl s.cst)
  | .panic => some .panic

/-- `Exec` (`vm/vm.go:31-44`) of the machine with capture objects stops with result `r`. -/
def RunsObj (chk : CheckFn σ) (code : Code) (bufsz : Nat) (d : List UInt8) (T : OTab) (st : σ) (r : XRes Input OTab σ) : Prop :=
  ∃ k o, orunOut (ostepB ⟨chunkedOps, chk, none⟩ code) k (oinit (Input.new bufsz d) T st) = some o ∧ o.res = some r

/-- `Session` with capture objects; `P` is what is asked of edits. -/
inductive OSession (P : OTab → Edit → Prop) (chk : CheckFn σ) (code : Code) : Bool → OTab → List UInt8 → Prop
  | new (th : Int) (d : List UInt8) : OSession P chk code false { threshold := th } d
  | parse {b : Bool} {T T' : OTab} {d : List UInt8} {bufsz : Nat} {st st' : σ} {ok : Bool} {cap : Option Capture} {src : Input}
      {errs : List PErr} : OSession P chk code b T d → 0 < bufsz → RunsObj chk code bufsz d T st (.done ok cap src errs T' st') →
      OSession P chk code b T' d
  | edit {b : Bool} {T : OTab} {d : List UInt8} (e : TextEdit) : OSession P chk code b T d → e.start ≤ e.stop →
      e.stop ≤ d.length → (b = true → e.stop - e.start ≤ e.ins.length) → P T e.edit →
      OSession P chk code true (T.applyEdit e.edit) (e.text d)

/-- The results are equal but for the table. -/
def SameRes {τ τ' : Type} : XRes Input τ σ → XRes Input τ' σ → Prop
  | .panic, .panic => True
  | .done ok cap src errs _ st, .done ok' cap' src' errs' _ st' => ok = ok' ∧ cap = cap' ∧ src = src' ∧ errs = errs' ∧ st = st'
  | _, _ => False

theorem SameRes.view {τ τ' : Type} : ∀ {r : XRes Input τ σ} {r' : XRes Input τ' σ}, SameRes r r' → r.view = r'.view
  | .panic, .panic, _ => rfl
  | .done ok cap src errs _ st, .done ok' cap' src' errs' _ st', h => by
    obtain ⟨rfl, rfl, rfl, rfl, rfl⟩ := h
    cases ok <;> rfl
  | .panic, .done .., h | .done .., .panic, h => h.elim

section
variable {b : Bool} {φ : Nat → TEnt} {T : OTab} {T' : TreeTable} {chk : CheckFn σ} {code : Code} {bufsz : Nat} {d : List UInt8} {st : σ}

theorem rel_init {ι : Type} (h : TSim b φ T T') (c : OCfg ι σ) (hi : c.intrvl = none) (src : ι) :
    Rel b (oinit src T st) (initVM c.toCfg src T' st) := by
  have : initVM c.toCfg src T' st = ⟨0, [], [], src, T', [], st, ⟨0, 0⟩⟩ := by
    unfold initVM OCfg.toCfg
    rw [hi]
  rw [this]
  exact ⟨rfl, rfl, rfl, rfl, rfl, trivial, .nil, ⟨φ, h⟩⟩

theorem ORel.res {o : OOut Input σ} {o' : Out Input TreeTable σ} (h : ORel b o o') :
    (o.res = none ∧ o'.res = none) ∨ ∃ r r', o.res = some r ∧ o'.res = some r' ∧ SameRes r r' ∧
      ∀ {ok cap src errs T st}, r = .done ok cap src errs T st → ∃ T' φ, r' = .done ok cap src errs T' st ∧ TSim b φ T T' := by
  cases h with
  | next _ => exact .inl ⟨rfl, rfl⟩
  | panic => exact .inr ⟨_, _, rfl, rfl, trivial, fun h => by cases h⟩
  | @halt f x v s t hc hr =>
    have he : x.map (read s.tbl (s.tbl.caps.length + 1)) = v := by
      match x, v, hc with
      | none, none, _ => rfl
      | some r, some v, hc =>
        obtain ⟨φ, hT⟩ := hr.tab
        exact congrArg some (Reads.read hT.tinv hT.older hc (Nat.lt_succ_of_lt hc.lt))
      | none, some _, hc | some _, none, hc => exact hc.elim
    refine .inr ⟨_, _, rfl, rfl, ⟨rfl, he, hr.src, hr.errs, hr.cst⟩, ?_⟩
    intro ok cap src errs T st h
    cases h
    obtain ⟨φ, hT⟩ := hr.tab
    rw [he, hr.src, hr.errs, hr.cst]
    exact ⟨_, φ, rfl, hT⟩

/-- One run from corresponding tables. -/
theorem runs_obj (h : TSim b φ T T') :
    (∀ r, RunsObj chk code bufsz d T st r → ∃ r', RunsTree chk code bufsz d T' st r' ∧ SameRes r r' ∧
      ∀ {ok cap src errs T st}, r = .done ok cap src errs T st → ∃ T' φ, r' = .done ok cap src errs T' st ∧ TSim b φ T T') ∧
    (∀ r', RunsTree chk code bufsz d T' st r' → ∃ r, RunsObj chk code bufsz d T st r ∧ SameRes r r') := by
  have hi := rel_init (st := st) h ⟨chunkedOps, chk, none⟩ rfl (Input.new bufsz d)
  constructor
  · rintro r ⟨k, o, h1, h2⟩
    rcases run_rel code k hi with ⟨h3, -⟩ | ⟨o1, o', h3, h4, h5⟩
    · rw [h3] at h1; cases h1
    · rw [h3] at h1; cases h1
      rcases h5.res with ⟨h6, -⟩ | ⟨r1, r', h6, h7, h8, h9⟩
      · rw [h6] at h2; cases h2
      · rw [h6] at h2; cases h2
        exact ⟨r', ⟨k, o', h4, h7⟩, h8, h9⟩
  · rintro r' ⟨k, o', h1, h2⟩
    rcases run_rel code k hi with ⟨-, h3⟩ | ⟨o, o1, h3, h4, h5⟩
    · have h1 : runOut (stepB (OCfg.toCfg ⟨chunkedOps, chk, none⟩) code) k (initVM (OCfg.toCfg ⟨chunkedOps, chk, none⟩)
        (Input.new bufsz d) T' st) = some o' := h1
      rw [h3] at h1; cases h1
    · have h1 : runOut (stepB (OCfg.toCfg ⟨chunkedOps, chk, none⟩) code) k (initVM (OCfg.toCfg ⟨chunkedOps, chk, none⟩)
        (Input.new bufsz d) T' st) = some o' := h1
      rw [h4] at h1; cases h1
      rcases h5.res with ⟨-, h6⟩ | ⟨r, r1, h6, h7, h8, -⟩
      · rw [h6] at h2; cases h2
      · rw [h7] at h2; cases h2
        exact ⟨r, ⟨k, o, h3, h6⟩, h8⟩

end

/-- A session with objects is one with values. -/
theorem OSession.value {chk : CheckFn σ} {code : Code} {b : Bool} {T : OTab} {d : List UInt8}
    (h : OSession Tight chk code b T d) : ∃ T' φ, Session chk code b T' d ∧ TSim b φ T T' := by
  induction h with
  | new th d => exact ⟨_, fun _ => default, .new th d, tsim_new th _⟩
  | parse _ hb hr ih =>
    obtain ⟨T', φ, h1, h2⟩ := ih
    obtain ⟨r', h3, -, h4⟩ := (runs_obj h2).1 _ hr
    obtain ⟨T'', ψ, rfl, h5⟩ := h4 rfl
    exact ⟨T'', ψ, .parse h1 hb h3, h5⟩
  | edit e _ h1 h2 h3 ht ih =>
    obtain ⟨T', φ, h4, h5⟩ := ih
    exact ⟨_, φ, .edit e h4 h1 h2 h3, h5.edit h1 h3 ht⟩

/-- **C65**: a capture tree that the machine returns says where the captures are in the text. In the code a capture
object says where it is relative to the first table entry it was stored in. When all edits in a session do to that entry what
they do to every other entry that holds the capture (`Tight`), the machine with capture objects (`Verif/Obj.lean`), any bytecode
whatever, gives the results of the machine where captures are values and every entry moves its own captures
(`Verif/Vm.lean`). Missing: sessions in which an edit meets an entry and not one that shares captures with it, see
`C65_false`. -/
theorem C65_objects_partial {chk : CheckFn σ} {code : Code} {b : Bool} {T : OTab} {d : List UInt8} {bufsz : Nat} {st : σ}
    (h : OSession Tight chk code b T d) : ∃ V, Session chk code b V d ∧
      (∀ r, RunsObj chk code bufsz d T st r → ∃ r', RunsTree chk code bufsz d V st r' ∧ SameRes r r') ∧
      (∀ r', RunsTree chk code bufsz d V st r' → ∃ r, RunsObj chk code bufsz d T st r ∧ SameRes r r') := by
  obtain ⟨V, φ, h1, h2⟩ := h.value
  refine ⟨V, h1, fun r hr => ?_, (runs_obj h2).2⟩
  obtain ⟨r', h3, h4, -⟩ := (runs_obj h2).1 r hr
  exact ⟨r', h3, h4⟩

/-- **C65**, with C28: the results in a session are those of parses without a table, for the patterns of
`C28_session_partial`. -/
theorem C65_session_partial {p : Pat} {code : Code} {chk : CheckFn σ} {d : List UInt8} {bufsz : Nat} {st : σ} {top : Int}
    (hc : CompiledAt top p code) (hd : p.Dots1) (hs : p.Scoped) (hchk : CheckOK chk) (hm : p.MemosOK chk top)
    (hl : ∀ o ∈ p.memos [], Covered chk o.env o.q) (hsh : ∀ o ∈ p.memos [], o.Short σ) (hb : 0 < bufsz) {edited : Bool} {T : OTab}
    (h : OSession Tight chk code edited T d) :
    (∀ r, RunsObj chk code bufsz d T st r → ∃ r', RunsTo chk none code bufsz d st r' ∧ r.view = r'.view) ∧
    (∀ r', RunsTo chk none code bufsz d st r' → ∃ r, RunsObj chk code bufsz d T st r ∧ r.view = r'.view) := by
  obtain ⟨V, h1, h2, h3⟩ := C65_objects_partial (bufsz := bufsz) (st := st) h
  obtain ⟨h4, h5⟩ := C28_session_partial (st := st) hc hd hs hchk hm hl hsh hb h1
  refine ⟨fun r hr => ?_, fun r' hr => ?_⟩
  · obtain ⟨r1, a1, a2⟩ := h2 r hr
    obtain ⟨r', a3, a4⟩ := h4 r1 a1
    exact ⟨r', a3, a2.view.trans a4⟩
  · obtain ⟨r1, a1, a2⟩ := h5 r' hr
    obtain ⟨r, a3, a4⟩ := h3 r1 a1
    exact ⟨r, a3, a4.view.trans a2⟩

/-! ## The code violates C65 -/

/-- Run the machine for at most `n` steps with a table. -/
def runO (code : Code) (n : Nat) (d : List UInt8) (T : OTab) : Option (Bool × Option Capture × OTab) :=
  match orunOut (ostepB (⟨chunkedOps, noChk, none⟩ : OCfg Input Unit) code) n (oinit (Input.new 4096 d) T ()) with
  | some (.halt ok c s) => some (ok, c.map (read s.tbl (s.tbl.caps.length + 1)), s.tbl)
  | _ => none

theorem runO_sound {code : Code} {n : Nat} {d : List UInt8} {T T' : OTab} {ok : Bool} {cap : Option Capture}
    (h : runO code n d T = some (ok, cap, T')) :
    ∃ src errs, RunsObj noChk code 4096 d T () (.done ok cap src errs T' ()) := by
  unfold runO at h
  split at h
  · rename_i ok' c s hr
    cases h
    exact ⟨s.src, s.errs, n, _, hr, rfl⟩
  · cases h

/-- Run the machine with values. -/
def runV {τ : Type} (tab : TableOps τ) (code : Code) (n : Nat) (d : List UInt8) (T : τ) : Option (Bool × Option Capture × τ) :=
  let c : Cfg Input τ Unit := ⟨chunkedOps, tab, noChk, none⟩
  match runOut (stepB c code) n (initVM c (Input.new 4096 d) T ()) with
  | some (.halt ok cap s) => some (ok, cap, s.tbl)
  | _ => none

theorem runV_sound {τ : Type} {tab : TableOps τ} {code : Code} {n : Nat} {d : List UInt8} {T T' : τ} {ok : Bool} {cap : Option Capture}
    (h : runV tab code n d T = some (ok, cap, T')) :
    ∃ src errs, Execs ⟨chunkedOps, tab, noChk, none⟩ code (Input.new 4096 d) T () (.done ok cap src errs T' ()) := by
  unfold runV at h
  simp only [] at h
  split at h
  · rename_i ok' c s hr
    cases h
    exact ⟨s.src, s.errs, n, _, hr, rfl⟩
  · cases h

/-- `(Memo([xy] 'z' Memo(< 'a' > &'bc')) / .)*` -/
def sharing : Pat := .star (.alt (.memo (.seq (.cls (CSet.new [120, 121])) (.seq (.lit [122])
  (.memo (.seq (.cap (.lit [97]) 7) (.and (.lit [98, 99]))) 0))) 1) (.dot 1))

/-- `xzabc......xzabc` -/
def shared₀ : List UInt8 := [120, 122, 97, 98, 99, 46, 46, 46, 46, 46, 46, 120, 122, 97, 98, 99]
/-- `yzabc......xzabc` -/
def shared₁ : List UInt8 := [121, 122, 97, 98, 99, 46, 46, 46, 46, 46, 46, 120, 122, 97, 98, 99]
/-- `yzabc.......xzabc` -/
def shared₂ : List UInt8 := [121, 122, 97, 98, 99, 46, 46, 46, 46, 46, 46, 46, 120, 122, 97, 98, 99]

/-- The capture tree, an `a` at each of these positions. -/
def asAt (p q n : Nat) : Capture := .dummy 0 n [.node 7 p 1 [], .node 7 q 1 []]

/-- Is this the tree? -/
def isAsAt (p q n : Nat) : Option Capture → Bool
  | some (.dummy s m [.node i a k [], .node j b l []]) =>
    decide (s = 0) && decide (m = n) && decide (i = 7) && decide (a = p) && decide (k = 1) && decide (j = 7) && decide (b = q) && decide (l = 1)
  | _ => false

theorem isAsAt_eq {p q n : Nat} {c : Option Capture} (h : isAsAt p q n c = true) : c = some (asAt p q n) := by
  unfold isAsAt at h
  split at h
  · simp only [Bool.and_eq_true, decide_eq_true_eq] at h
    obtain ⟨⟨⟨⟨⟨⟨⟨rfl, rfl⟩, rfl⟩, rfl⟩, rfl⟩, rfl⟩, rfl⟩, rfl⟩ := h
    rfl
  · cases h

/-- The three parses, with the edits between them. -/
def sharedRun (code : Code) : Bool :=
  (match runO code 2000 shared₀ { threshold := 3 } with
  | some (true, _, T) => match runO code 2000 shared₁ (T.applyEdit ⟨0, 1, 1⟩) with
    | some (true, _, T) => match runO code 2000 shared₂ (T.applyEdit ⟨5, 5, 1⟩) with
      | some (true, c, _) => isAsAt 14 14 17 c
      | _ => false
    | _ => false
  | _ => false) &&
  (match runV treeTable code 2000 shared₀ (TreeTable.new 3) with
  | some (true, _, T) => match runV treeTable code 2000 shared₁ (T.applyEdit ⟨0, 1, 1⟩) with
    | some (true, _, T) => match runV treeTable code 2000 shared₂ (T.applyEdit ⟨5, 5, 1⟩) with
      | some (true, c, _) => isAsAt 2 14 17 c
      | _ => false
    | _ => false
  | _ => false) &&
  match runV noneTable code 2000 shared₂ () with
  | some (true, c, _) => isAsAt 2 14 17 c
  | _ => false

set_option maxRecDepth 100000 in
theorem sharedRun_ok : (match compileF 30 sharing ⟨0, 1, true⟩ with
    | .ok (raw, _) => (encode (optimize raw)).any sharedRun
    | _ => false) = true := by
  decide +kernel

/-- **C65** is false of the code. `xzabc......xzabc` is parsed with `(Memo([xy] 'z' Memo(< 'a' > &'bc')) / .)*`, the first `x` is
replaced by `y`, the text is parsed again, a `.` is inserted at 5, the text is parsed again. The first reparse takes the
capture of the first `a` from the table and stores it in the new entry for `yza` too. The insertion at 5 takes the entry for
`a` out of the table, since its parse has looked at `bc`, but not the entry for `yza`. The second reparse finds that entry,
and its capture still belongs to the node of the entry that was taken out. That node gets the positions of the second `a`: the
result says that there is an `a` at 14 twice, and none at 2. With captures as values, or without a table, the result is right.
(Memo entries that look at fewer than 3 bytes are not stored.) -/
theorem C65_false : ∃ code, CompiledAt 1 sharing code ∧
    (∃ T, OSession (fun _ _ => True) noChk code true T shared₂ ∧
      ∃ src errs T', RunsObj noChk code 4096 shared₂ T () (.done true (some (asAt 14 14 17)) src errs T' ())) ∧
    (∃ V, Session noChk code true V shared₂ ∧
      ∃ src errs V', RunsTree noChk code 4096 shared₂ V () (.done true (some (asAt 2 14 17)) src errs V' ())) ∧
    ∃ src errs, RunsTo noChk none code 4096 shared₂ () (.done true (some (asAt 2 14 17)) src errs () ()) := by
  have h := sharedRun_ok
  split at h
  · rename_i raw cst' hr
    cases he : encode (optimize raw) with
    | none => rw [he] at h; cases h
    | some code =>
      rw [he] at h
      have h : sharedRun code = true := h
      unfold sharedRun at h
      simp only [Bool.and_eq_true] at h
      obtain ⟨⟨ho, hv⟩, hf⟩ := h
      refine ⟨code, ⟨30, ⟨0, 1, true⟩, _, cst', rfl, cm_bind.2 ⟨raw, cst', hr, rfl⟩, he⟩, ?_, ?_, ?_⟩
      · split at ho
        · rename_i c0 T0 h0
          split at ho
          · rename_i c1 T1 h1
            split at ho
            · rename_i c2 T2 h2
              cases isAsAt_eq ho
              obtain ⟨_, _, h0⟩ := runO_sound h0
              obtain ⟨_, _, h1⟩ := runO_sound h1
              obtain ⟨_, _, h2⟩ := runO_sound h2
              exact ⟨_, .edit ⟨5, 5, [46]⟩ (.parse (.edit ⟨0, 1, [121]⟩ (.parse (.new 3 shared₀) (by decide) h0) (by decide) (by decide)
                (fun h => by cases h) trivial) (by decide) h1) (by decide) (by decide) (fun _ => by decide) trivial, _, _, _, h2⟩
            · cases ho
          · cases ho
        · cases ho
      · split at hv
        · rename_i c0 T0 h0
          split at hv
          · rename_i c1 T1 h1
            split at hv
            · rename_i c2 T2 h2
              cases isAsAt_eq hv
              obtain ⟨_, _, h0⟩ := runV_sound h0
              obtain ⟨_, _, h1⟩ := runV_sound h1
              obtain ⟨_, _, h2⟩ := runV_sound h2
              exact ⟨_, .edit ⟨5, 5, [46]⟩ (.parse (.edit ⟨0, 1, [121]⟩ (.parse (.new 3 shared₀) (by decide) h0) (by decide) (by decide)
                (fun h => by cases h)) (by decide) h1) (by decide) (by decide) (fun _ => by decide), _, _, _, h2⟩
            · cases hv
          · cases hv
        · cases hv
      · split at hf
        · rename_i c T h0
          cases isAsAt_eq hf
          obtain ⟨_, _, h0⟩ := runV_sound h0
          exact ⟨_, _, h0⟩
        · cases hf
  · cases h

/-! ## Sessions that satisfy the hypotheses -/

/-- The objects and their children, and so on, to this depth. -/
def reach (H : List CObj) : Nat → List Ref → List Ref
  | 0, rs => rs
  | n + 1, rs => rs ++ reach H n (rs.flatMap fun r => (H[r]?.getD default).children)

/-- A sufficient test for `Tight`. -/
def tightTest (T : OTab) (e : Edit) : Bool :=
  T.flat.all fun f => f.ins.all fun i => (decide (i.low ≤ e.high) && decide ((e.start : Int) ≤ i.high)) ||
    match T.ents[i.val]? with
    | none => true
    | some x =>
      let S := reach T.caps T.caps.length x.captures
      x.captures.all (fun r => S.contains r) &&
      S.all fun r => match T.caps[r]? with
        | none => true
        | some c => c.children.all (fun k => S.contains k) && decide (i.low ≤ T.start c) &&
          match c.ment with
          | none => true
          | some A => match T.ents[A]? with
            | none => true
            | some y => (T.flat ++ T.away).all fun g => !decide (g.addr = y.pos) || g.ins.all fun j => !decide (j.val = A) ||
              (!(decide (j.low ≤ e.high) && decide ((e.start : Int) ≤ j.high)) &&
                decide (toward e j.low - j.low = toward e i.low - i.low))

theorem tight_of_test {T : OTab} {e : Edit} (h : tightTest T e = true) : Tight T e := by
  intro f hf i hi hno x hx r c hb hc
  have h := List.all_eq_true.1 (List.all_eq_true.1 h f hf) i hi
  have hn : (decide (i.low ≤ e.high) && decide ((e.start : Int) ≤ i.high)) = false := by
    unfold Meets at hno
    rw [Bool.eq_false_iff]
    intro h'
    simp only [Bool.and_eq_true, decide_eq_true_eq] at h'
    exact hno h'
  rw [hn, Bool.false_or, hx] at h
  simp only [Bool.and_eq_true] at h
  obtain ⟨h1, h2⟩ := h
  have hS : ∀ r, Below T.caps x.captures r → r ∈ reach T.caps T.caps.length x.captures := by
    intro r hr
    induction hr with
    | here hr => exact List.contains_iff_mem.1 (List.all_eq_true.1 h1 _ hr)
    | child _ hc hk ih =>
      have := List.all_eq_true.1 h2 _ ih
      rw [hc] at this
      simp only [Bool.and_eq_true] at this
      exact List.contains_iff_mem.1 (List.all_eq_true.1 this.1.1 _ hk)
  have h3 := List.all_eq_true.1 h2 _ (hS r hb)
  rw [hc] at h3
  simp only [Bool.and_eq_true, decide_eq_true_eq] at h3
  obtain ⟨⟨-, h4⟩, h5⟩ := h3
  refine ⟨h4, fun A hA lo hi' hh => ?_⟩
  rw [hA] at h5
  obtain ⟨y, g, hy, hg, ha, hj⟩ := hh
  simp only [hy] at h5
  have h6 := List.all_eq_true.1 h5 g (List.mem_append.2 hg)
  simp only [ha, decide_true, Bool.not_true, Bool.false_or] at h6
  have h7 := List.all_eq_true.1 h6 _ hj
  simp only [decide_true, Bool.not_true, Bool.false_or, Bool.and_eq_true, Bool.not_eq_true', decide_eq_true_eq] at h7
  refine ⟨fun hm => ?_, h7.2⟩
  have := h7.1
  simp only [hm.1, hm.2, decide_true, Bool.and_self] at this
  cases this

/-- A parse, an edit, a parse, and another edit. -/
def tightRun (code : Code) (th : Int) (d d' : List UInt8) (e e' : Edit) : Bool :=
  match runO code 2000 d { threshold := th } with
  | some (_, _, T) => tightTest T e && match runO code 2000 d' (T.applyEdit e) with
    | some (_, _, T) => tightTest T e'
    | _ => false
  | _ => false

theorem tightRun_sound {code : Code} {th : Int} {d : List UInt8} {e e' : TextEdit} (h1 : e.start ≤ e.stop) (h2 : e.stop ≤ d.length)
    (h1' : e'.start ≤ e'.stop) (h2' : e'.stop ≤ (e.text d).length) (h3 : e'.stop - e'.start ≤ e'.ins.length)
    (h : tightRun code th d (e.text d) e.edit e'.edit = true) : ∃ T, OSession Tight noChk code true T (e'.text (e.text d)) := by
  unfold tightRun at h
  split at h
  · rename_i T h0
    simp only [Bool.and_eq_true] at h
    obtain ⟨ht, h⟩ := h
    split at h
    · rename_i T' h0'
      obtain ⟨_, _, h0⟩ := runO_sound h0
      obtain ⟨_, _, h0'⟩ := runO_sound h0'
      exact ⟨_, .edit e' (.parse (.edit e (.parse (.new th d) (by decide) h0) h1 h2 (fun h => by cases h) (tight_of_test ht))
        (by decide) h0') h1' h2' (fun _ => h3) (tight_of_test h)⟩
    · cases h
  · cases h

set_option maxRecDepth 100000 in
theorem sharing_tight : (match compileF 30 sharing ⟨0, 1, true⟩ with
    | .ok (raw, _) => (encode (optimize raw)).any fun code => tightRun code 3 shared₀ shared₁ ⟨0, 1, 1⟩ ⟨8, 8, 1⟩
    | _ => false) = true := by
  decide +kernel

/-- In the session of `C65_false` the first edit is tight, and so is the insertion of a `.` at 8 instead of 5, though the
entries for `yza` and for `a` share a capture. -/
example : ∃ code, CompiledAt 1 sharing code ∧ ∃ T, OSession Tight noChk code true T shared₂ := by
  have h := sharing_tight
  split at h
  · rename_i raw cst' hr
    cases he : encode (optimize raw) with
    | none => rw [he] at h; cases h
    | some code =>
      rw [he] at h
      obtain ⟨T, hT⟩ := tightRun_sound (d := shared₀) (e := ⟨0, 1, [121]⟩) (e' := ⟨8, 8, [46]⟩) (by decide) (by decide) (by decide) (by decide)
        (by decide) h
      exact ⟨code, ⟨30, ⟨0, 1, true⟩, _, cst', rfl, cm_bind.2 ⟨raw, cst', hr, rfl⟩, he⟩, T, hT⟩
  · cases h

set_option maxRecDepth 100000 in
theorem blankTokens_tight : (match compileF 20 blankTokens ⟨0, 0, true⟩ with
    | .ok (raw, _) => (encode (optimize raw)).any fun code =>
      tightRun code 0 [97, 98, 32, 97] [97, 98, 32, 98, 98] ⟨3, 4, 2⟩ ⟨0, 0, 1⟩
    | _ => false) = true := by
  decide +kernel

/-- The example of `C28_session_partial` with capture objects: `ab a` is made `ab bb` and `cab bb`. (See there for the
other hypotheses.) -/
example : ∃ code, CompiledAt 0 blankTokens code ∧ ∃ T, OSession Tight noChk code true T [99, 97, 98, 32, 98, 98] := by
  have h := blankTokens_tight
  split at h
  · rename_i raw cst' hr
    cases he : encode (optimize raw) with
    | none => rw [he] at h; cases h
    | some code =>
      rw [he] at h
      obtain ⟨T, hT⟩ := tightRun_sound (d := [97, 98, 32, 97]) (e := ⟨3, 4, [98, 98]⟩) (e' := ⟨0, 0, [99]⟩) (by decide) (by decide) (by decide)
        (by decide) (by decide) h
      exact ⟨code, ⟨20, ⟨0, 0, true⟩, _, cst', rfl, cm_bind.2 ⟨raw, cst', hr, rfl⟩, he⟩, T, hT⟩
  · cases h

end Gpeg.Obj
