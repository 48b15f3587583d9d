import Verif.MemoIds
import Verif.Props.Compile
/-!
# Property C27: memoization is transparent
-/
namespace Gpeg
variable {σ : Type}

/-- What a caller sees of a run: the match flag, on a match the end and the capture tree, the errors, and the
state of the checkers. (The returned position of a failed match is not part of it: it does depend on the table,
see `C27_position_false`.) -/
def XRes.view {τ : Type} : XRes Input τ σ → Option (Bool × Option (Nat × List CTree) × List PErr × σ)
  | .panic => none
  | .done false _ _ errs _ st => some (false, none, errs, st)
  | .done true cap src errs _ st => some (true, some (src.pos, match cap with
      | some c => c.trees
      | none => []), errs, st)

/-- `Compiled` started with `memoId = top`. -/
def CompiledAt (top : Int) (p : Pat) (code : Code) : Prop :=
  ∃ k cst prog cst', cst.memo = top ∧ compile k p cst = .ok (prog, cst') ∧ encode prog = some code

theorem CompiledAt.raw {top : Int} {p : Pat} {code : Code} (h : CompiledAt top p code) :
    ∃ k cst raw cst', cst.memo = top ∧ CM.Ok (compileF k p) cst raw cst' ∧ encode (optimize raw) = some code := by
  obtain ⟨k, cst, prog, cst', ht, h, he⟩ := h
  obtain ⟨raw, s1, h1, h2⟩ := cm_bind.1 h
  obtain ⟨rfl, rfl⟩ := cm_pure.1 h2
  exact ⟨k, cst, raw, _, ht, h1, he⟩

/-- `Exec` with a tree table `T`. -/
abbrev RunsTree (chk : CheckFn σ) (code : Code) (bufsz : Nat) (data : List UInt8) (T : TreeTable) (st : σ)
    (r : XRes Input TreeTable σ) : Prop :=
  Execs ⟨chunkedOps, treeTable, chk, none⟩ code (Input.new bufsz data) T st r

/-- The tables that arise from running `code` on `data` any number of times. -/
inductive Warm (chk : CheckFn σ) (code : Code) (data : List UInt8) : TreeTable → Prop
  | new (threshold : Int) : Warm chk code data (TreeTable.new threshold)
  | run {T T' : TreeTable} {bufsz : Nat} {st st' : σ} {ok : Bool} {cap : Option Capture} {src : Input}
      {errs : List PErr} : Warm chk code data T → 0 < bufsz →
      RunsTree chk code bufsz data T st (.done ok cap src errs T' st') → Warm chk code data T'

section
variable {p : Pat} {code : Code} {chk : CheckFn σ} {data : List UInt8} {bufsz : Nat} {st : σ} {top : Int}

theorem progOK_raw {k : Nat} {cst cst' : CState} {raw : Program} (hd : p.Dots1)
    (hc : CM.Ok (compileF k p) cst raw cst') : ProgOK (withEnd raw) where
  lab := lab_raw hc
  any1 i n h := by
    rcases List.mem_append.1 (List.mem_of_getElem? h) with h | h
    · exact dots_raw hd hc h
    · simp at h

theorem Warm.inv {k : Nat} {cst cst' : CState} {raw : Program} {T : TreeTable}
    (hc : CM.Ok (compileF k p) cst raw cst') (he : encode (optimize raw) = some code) (hd : p.Dots1) (hs : p.Scoped)
    (hchk : CheckOK chk) (hm : p.MemosOK chk cst.memo) (h : Warm chk code data T) :
    TabInv false T (SlotOK ⟨data, chk, false⟩ False (memoOcc k [] p cst) 0) := by
  induction h with
  | new th => exact tabInv_new _ _
  | run _ hb hr ih =>
    obtain ⟨e, _, _, h⟩ := (exec_tree hchk hd hs hc he hb (progOK_raw hd hc) (occsOK_of hc hs hm) _ ih _).2 _ hr
    refine TabInv.weaken h ?_
    rintro s ⟨pos, h1, h2, _, h3⟩
    refine ⟨pos, h1, h2, False.elim, fun o ho hid => ?_⟩
    obtain ⟨far, _, h4⟩ := h3 o ho hid
    exact ⟨far, False.elim, h4⟩

theorem ExecRes.view_eq {τ τ' : Type} {e : Ev σ} {r : XRes Input τ σ} {r' : XRes Input τ' σ} (h : ExecRes none e r)
    (h' : ExecRes none e r') : r.view = r'.view := by
  obtain ⟨res, far, w⟩ := e
  cases res with
  | ok pos cs =>
    obtain ⟨a, b, ch, src, tbl, rfl, h1, h2, h3⟩ := h
    obtain ⟨a', b', ch', src', tbl', rfl, h1', h2', h3'⟩ := h'
    simp only [XRes.view, Capture.trees, h1, h1', h2, h2']
  | fail =>
    obtain ⟨src, tbl, rfl⟩ := h
    obtain ⟨src', tbl', rfl⟩ := h'
    rfl
  | abort pos =>
    obtain ⟨cap, src, tbl, rfl, _⟩ := h
    obtain ⟨cap', src', tbl', rfl, _⟩ := h'
    rfl

/-- **C27**. With a tree table that earlier runs on the same text have filled, the machine stops iff it stops
with `NoneTable`, and callers see the same. -/
theorem C27_memo_transparent_partial (hc : CompiledAt top p code) (hd : p.Dots1) (hs : p.Scoped) (hchk : CheckOK chk)
    (hm : p.MemosOK chk top) (hb : 0 < bufsz) {T : TreeTable} (hT : Warm chk code data T) :
    (∀ r, RunsTree chk code bufsz data T st r → ∃ r', RunsTo chk none code bufsz data st r' ∧ r.view = r'.view) ∧
    (∀ r', RunsTo chk none code bufsz data st r' → ∃ r, RunsTree chk code bufsz data T st r ∧ r.view = r'.view) := by
  obtain ⟨k, cst, raw, cst', rfl, hc, he⟩ := hc.raw
  have h1 := exec_tree hchk hd hs hc he hb (progOK_raw hd hc) (occsOK_of hc hs hm) T
    (hT.inv hc he hd hs hchk hm) st
  have h2 := exec_none (data := data) (iv := none) hchk hd hs hc he hb st
  refine ⟨fun r hr => ?_, fun r' hr => ?_⟩
  · obtain ⟨e, hev, hx, _⟩ := h1.2 r hr
    obtain ⟨r', hr', hx'⟩ := h2.1 e hev
    exact ⟨r', hr', hx.view_eq hx'⟩
  · obtain ⟨e, hev, hx'⟩ := h2.2 r' hr
    obtain ⟨r, hr, hx, _⟩ := h1.1 e hev
    exact ⟨r, hr, hx.view_eq hx'⟩

end

mutual
theorem Pat.memos_pure : ∀ (p : Pat) {env : Env}, p.Pure → Env.Pure env → ∀ o ∈ p.memos env, o.q.Pure ∧ Env.Pure o.env
  | .alt l r, env, hp, he, o, ho | .seq l r, env, hp, he, o, ho => by
    simp only [Pat.Pure, Pat.leaves, List.mem_append, not_or] at hp
    rcases List.mem_append.1 ho with ho | ho
    · exact Pat.memos_pure l ⟨hp.1.1, hp.2.1⟩ he o ho
    · exact Pat.memos_pure r ⟨hp.1.2, hp.2.2⟩ he o ho
  | .star p, env, hp, he, o, ho | .plus p, env, hp, he, o, ho | .opt p, env, hp, he, o, ho
  | .not p, env, hp, he, o, ho | .and p, env, hp, he, o, ho | .cap p _, env, hp, he, o, ho
  | .inl _ p, env, hp, he, o, ho => Pat.memos_pure p (by simpa only [Pat.Pure, Pat.leaves] using hp) he o ho
  | .check p _ _ _, env, hp, he, o, ho | .errRec _ p, env, hp, he, o, ho | .search p, env, hp, he, o, ho => by
    simp only [Pat.Pure, Pat.leaves, List.mem_cons, not_or] at hp
    exact Pat.memos_pure p ⟨hp.1.2, hp.2.2⟩ he o ho
  | .memo p id, env, hp, he, o, ho => by
    have hp' : p.Pure := by simpa only [Pat.Pure, Pat.leaves] using hp
    rcases List.mem_cons.1 ho with rfl | ho
    · exact ⟨hp', he⟩
    · exact Pat.memos_pure p hp' he o ho
  | .grammar _ ds, env, hp, he, o, ho => by
    have hp' : ds.Pure := by simpa only [Pat.Pure, Defs.Pure, Pat.leaves] using hp
    refine Defs.memos_pure ds hp' (fun d hd => ?_) o ho
    rcases List.mem_cons.1 hd with rfl | hd
    · exact hp'
    · exact he d hd
  | .dot _, _, _, _, o, ho | .err _, _, _, _, o, ho | .nonterm _, _, _, _, o, ho
  | .cls _, _, _, _, o, ho | .lit _, _, _, _, o, ho | .emptyOp _, _, _, _, o, ho
  | .empty, _, _, _, o, ho => by cases ho
theorem Defs.memos_pure : ∀ (ds : Defs) {env : Env}, ds.Pure → Env.Pure env → ∀ o ∈ ds.memos env, o.q.Pure ∧ Env.Pure o.env
  | .nil, _, _, _, o, ho => by cases ho
  | .cons _ p rest, env, hp, he, o, ho => by
    simp only [Defs.Pure, Defs.leaves, List.mem_append, not_or] at hp
    rcases List.mem_append.1 ho with ho | ho
    · exact Pat.memos_pure p ⟨hp.1.1, hp.2.1⟩ he o ho
    · exact Defs.memos_pure rest ⟨hp.1.2, hp.2.2⟩ he o ho
end

/-- The usual case: no errors and checkers, and every call of `Memo` got its own id. -/
theorem Pat.memosOK_of_pure {chk : CheckFn σ} {p : Pat} {top : Int} (hp : p.Pure) (hn : ((p.memos []).map Occ.id).Nodup)
    (hle : ∀ o ∈ p.memos [], o.id ≤ top) : p.MemosOK chk top where
  quiet o ho :=
    have h := p.memos_pure hp (fun _ h => by cases h) o ho
    Occ.quiet_of_pure h.1 h.2
  same o ho o' ho' hid := by
    have := pairwise_forall (R := fun o o' : Occ => o.id = o'.id → o.Same σ o')
      (fun a b hab h => (hab h.symm).symm) (fun x _ _ => ⟨rfl, fun _ _ _ _ => rfl⟩)
      ((List.pairwise_map.1 hn).imp fun hab h => absurd h hab) ho ho'
    exact this hid
  le := hle

/-- A grammar of memoized list items, with a memoized repetition, meets the hypotheses. -/
example : let p : Pat := .grammar "L" (.cons "L" (.seq (.star (.memo (.nonterm "I") 1)) (.memo (.not (.dot 1)) 2))
      (.cons "I" (.cap (.seq (.lit [97]) (.lit [44])) 3) .nil))
    (∃ code, CompiledAt 2 p code) ∧ p.Dots1 ∧ p.Scoped ∧ p.MemosOK noChk 2 := by
  intro p
  refine ⟨⟨_, 20, ⟨0, 2, true⟩, _, _, rfl, rfl, rfl⟩, ?_, ?_, Pat.memosOK_of_pure ?_ ?_ ?_⟩
  · intro n hn
    simpa [p, Pat.leaves, Defs.leaves] using hn
  · simp [p, Pat.Scoped, Defs.Scoped, Defs.noCap, Pat.noCap]
  · simp [p, Pat.Pure, Pat.leaves, Defs.leaves]
  · simp [p, Pat.memos, Defs.memos]
  · simp [p, Pat.memos, Defs.memos]

/-! ## What the hypotheses exclude -/

/-- No checkers. -/
abbrev noChk : CheckFn Unit := fun _ s _ _ _ _ _ => (none, s)

/-- The position returned with a failed match does depend on the table: `Memo("abc")` on `abd` stops at 2, and at
0 when run again. -/
theorem C27_position_false : ∃ p code T, CompiledAt 0 p code ∧ Warm noChk code [97, 98, 100] T ∧
    (∃ src, RunsTo noChk none code 4096 [97, 98, 100] () (.done false none src [] () ()) ∧ src.pos = 2) ∧
    ∃ src T', RunsTree noChk code 4096 [97, 98, 100] T () (.done false none src [] T' ()) ∧ src.pos = 0 :=
  ⟨.memo (.lit [97, 98, 99]) 0, _, _, ⟨10, ⟨0, 0, true⟩, _, _, rfl, rfl, rfl⟩,
    .run (bufsz := 4096) (st := ()) (.new 0) (by decide) ⟨20, _, rfl, rfl⟩,
    ⟨_, ⟨20, _, rfl, rfl⟩, rfl⟩, _, _, ⟨20, _, rfl, rfl⟩, rfl⟩

/-- Two patterns sharing an id, as `MemoId` allows: `Memo('a', 0) / Memo('b', 0)` does not match `b`. -/
theorem C27_same_id_false : ∃ p code, CompiledAt 0 p code ∧
    (∃ src, RunsTo noChk none code 4096 [98] () (.done true (some (.dummy 0 1 [])) src [] () ())) ∧
    ∃ src T', RunsTree noChk code 4096 [98] (TreeTable.new 0) () (.done false none src [] T' ()) :=
  ⟨.alt (.memo (.lit [97]) 0) (.memo (.lit [98]) 0), _, ⟨10, ⟨0, 0, true⟩, _, _, rfl, rfl, rfl⟩,
    ⟨_, ⟨20, _, rfl, rfl⟩⟩, _, _, ⟨20, _, rfl, rfl⟩⟩

/-- Errors under `Memo` are not reported again. -/
theorem C27_errors_false : ∃ p code T, CompiledAt 0 p code ∧ Warm noChk code [97] T ∧
    (∃ src, RunsTo noChk none code 4096 [97] () (.done true (some (.dummy 0 1 [])) src [⟨"x", 1⟩] () ())) ∧
    ∃ src T', RunsTree noChk code 4096 [97] T () (.done true (some (.dummy 0 1 [])) src [] T' ()) :=
  ⟨.memo (.seq (.lit [97]) (.errRec "x" .empty)) 0, _, _, ⟨10, ⟨0, 0, true⟩, _, _, rfl, rfl, rfl⟩,
    .run (bufsz := 4096) (st := ()) (.new 0) (by decide) ⟨20, _, rfl, rfl⟩,
    ⟨_, ⟨20, _, rfl, rfl⟩⟩, _, _, ⟨20, _, rfl, rfl⟩⟩

end Gpeg
