import Verif.IvPar
import Verif.CapFree
import Verif.Props.Memo
/-!
# C63: `ExecInterval` with a memo table
-/
namespace Gpeg
variable {σ : Type}

/-- `Sub a b`: the forest `a` is `b` with some nodes left out, each with its children. -/
inductive CTree.Sub : List CTree → List CTree → Prop
  | nil : Sub [] []
  | keep {id : Int} {s n : Nat} {ch ch' cs cs' : List CTree} : Sub ch ch' → Sub cs cs' →
      Sub (.node id s n ch :: cs) (.node id s n ch' :: cs')
  | drop {t : CTree} {cs cs' : List CTree} : Sub cs cs' → Sub cs (t :: cs')

theorem CTree.Sub.append {a b a' b' : List CTree} (h : Sub a b) (h' : Sub a' b') : Sub (a ++ a') (b ++ b') := by
  induction h with
  | nil => exact h'
  | keep h1 _ _ ih => exact .keep h1 ih
  | drop _ ih => exact .drop ih

theorem CTree.Sub.nil_left : ∀ b : List CTree, Sub [] b
  | [] => .nil
  | _ :: b => .drop (nil_left b)

/-- `Exec` or `ExecInterval` with a tree table `T`. -/
abbrev RunsIv (chk : CheckFn σ) (iv : Option Interval) (code : Code) (bufsz : Nat) (data : List UInt8) (T : TreeTable) (st : σ)
    (r : XRes Input TreeTable σ) : Prop :=
  Execs ⟨chunkedOps, treeTable, chk, iv⟩ code (Input.new bufsz data) T st r

/-- An interval with its ends in order. -/
def IvOK (iv : Option Interval) : Prop := ∀ I, iv = some I → I.low ≤ I.high

/-- The tables that arise from running `code` on `data` any number of times, with `Exec` and with `ExecInterval`. -/
inductive WarmIv (chk : CheckFn σ) (code : Code) (data : List UInt8) : TreeTable → Prop
  | new (threshold : Int) : WarmIv chk code data (TreeTable.new threshold)
  | run {T T' : TreeTable} {iv : Option Interval} {bufsz : Nat} {st st' : σ} {ok : Bool} {cap : Option Capture} {src : Input}
      {errs : List PErr} : WarmIv chk code data T → IvOK iv → 0 < bufsz →
      RunsIv chk iv code bufsz data T st (.done ok cap src errs T' st') → WarmIv chk code data T'

/-- What a caller sees of a run but for the captures: the match flag, on a match the end, the errors, and the state of the
checkers. -/
def XRes.outcome {τ : Type} : XRes Input τ σ → Option (Bool × Option Nat × List PErr × σ)
  | .panic => none
  | .done ok _ src errs _ st => some (ok, if ok then some src.pos else none, errs, st)

/-- The captures of a run that matched. -/
def XRes.captures {τ : Type} : XRes Input τ σ → List CTree
  | .done true (some c) _ _ _ _ => c.trees
  | _ => []

/-- The captures found are captures of the text. -/
theorem capOK_sub (c : Ctx σ) (iv : Option Interval) (occs : List Occ) :
    CapOK c iv occs (fun a b => CTree.Sub (Capture.treesL a) b) (fun a b => CTree.Sub (Capture.treesL a) b) where
  nil := .nil
  app h h' := by rw [treesL_append]; exact h.append h'
  node id _ _ h := by
    simp only [Capture.treesL, Capture.trees, List.append_nil]
    exact .keep h .nil
  skip id _ _ _ := .nil_left _
  dummy s l _ h := by simpa only [Capture.treesL, Capture.trees, List.append_nil] using h
  hit h := h
  put o _ pos w pos' cs far w' capt _ h := by
    split
    · exact .nil_left _
    · exact h
  puts o _ pos w pos' cs far w' capt _ h := by
    split
    · exact .nil_left _
    · exact h

/-- The memoized pattern captures nothing. -/
def Occ.Bare (σ : Type) (o : Occ) : Prop :=
  ∀ (n : Nat) (c : Ctx σ) (pos : Nat) (w : World σ) (e : Ev σ), eval n c o.env o.q pos w = some e → e.Bare

theorem Occ.bare_of (S : String → Bool) {o : Occ} (h : o.q.capless S = true) (he : ∀ d ∈ o.env, d.capless S = true) : o.Bare σ :=
  fun n c pos w e hev => eval_bare c n o.env o.q pos w e h he hev

theorem occs_bare {k : Nat} {p : Pat} {s s' : CState} {raw : Program} (hc : CM.Ok (compileF k p) s raw s')
    (hs : p.Scoped) (hm : ∀ o ∈ p.memos [], o.Bare σ) : ∀ o ∈ memoOcc k [] p s, o.Bare σ := by
  let P : Occ → Prop := fun o => o.Bare σ
  have hP : OccInv σ P := by
    intro id q e q' e' he h n c pos w ev hev
    exact h n c pos w ev (by rw [← hev]; exact (he n c pos w).symm)
  have h := memoOcc_of hP k (env := []) hc hs hm
  intro o ho
  cases hst : o.star with
  | false => exact h.plain o ho hst
  | true =>
    obtain ⟨⟨id, h0⟩, _⟩ := h.star o ho hst
    exact h0

theorem Iter.bare {o : Occ} (h : o.Bare σ) {c : Ctx σ} {pos pos' far : Nat} {w w' : World σ} {cs : List CTree}
    (hi : Iter c o.env o.q pos w pos' cs far w') : cs = [] := by
  induction hi with
  | one hev => obtain ⟨n, hev⟩ := hev; exact h n _ _ _ _ hev _ _ rfl
  | trans _ _ ih1 ih2 => rw [ih1, ih2]; rfl

/-- Entries without captures. -/
theorem capOK_bare (c : Ctx σ) (iv : Option Interval) {occs : List Occ} (h : ∀ o ∈ occs, o.Bare σ) :
    CapOK c iv occs (fun a b => Capture.treesL a = CTree.pruneL iv b) (fun a b => Capture.treesL a = [] ∧ b = []) where
  nil := rfl
  app := (cr_ok iv).1
  node id h1 h2 h3 := (cr_ok iv).2.1 id h1 h2 h3
  skip id h1 h2 _ := (cr_ok iv).2.2.1 id h1 h2
  dummy s l _ h := (cr_ok iv).2.2.2 s l h
  hit := by rintro a b ⟨h1, rfl⟩; exact h1
  put o ho pos w pos' cs far w' capt hev hr := by
    obtain ⟨n, hev⟩ := hev
    obtain rfl : cs = [] := h o ho n _ _ _ _ hev _ _ rfl
    refine ⟨?_, rfl⟩
    split
    · rfl
    · exact hr
  puts o ho pos w pos' cs far w' capt hi hr := by
    obtain rfl := hi.bare (h o ho)
    refine ⟨?_, rfl⟩
    split
    · rfl
    · exact hr

section
variable {p : Pat} {code : Code} {chk : CheckFn σ} {data : List UInt8} {bufsz : Nat} {st : σ} {top : Int} {iv : Option Interval}

theorem WarmIv.inv {k : Nat} {cst cst' : CState} {raw : Program} {T : TreeTable}
    (hc : CM.Ok (compileF k p) cst raw cst') (he : encode (optimize raw) = some code) (hd : p.Dots1) (hs : p.Scoped)
    (hchk : CheckOK chk) (hm : p.MemosOK chk cst.memo) {R : Option Interval → List Capture → List CTree → Prop}
    {S : List Capture → List CTree → Prop} (hR : ∀ iv, CapOK ⟨data, chk, false⟩ iv (memoOcc k [] p cst) (R iv) S)
    (h : WarmIv chk code data T) : ITab ⟨data, chk, false⟩ S (memoOcc k [] p cst) T := by
  induction h with
  | new th => exact ⟨false, tabInv_new _ _⟩
  | run _ hI hb hr ih =>
    obtain ⟨e, _, _, h⟩ := (exec_iv hchk hd hs hc he hb (progOK_raw hd hc) (occsOK_of hc hs hm) (hR _) hI _ ih _).2 _ hr
    exact h

theorem IvRes.outcome_eq {R : List Capture → List CTree → Prop} {τ : Type} {iv' : Option Interval} {e : Ev σ} {r : XRes Input TreeTable σ}
    {r' : XRes Input τ σ} (h : IvRes R e r) (h' : ExecRes iv' e r') : r.outcome = r'.outcome := by
  obtain ⟨res, far, w⟩ := e
  cases res with
  | ok pos cs =>
    obtain ⟨a, b, ch, src, tbl, rfl, h1, h2⟩ := h
    obtain ⟨a', b', ch', src', tbl', rfl, h1', h2', h3'⟩ := h'
    simp only [XRes.outcome, h1, h1']
  | fail =>
    obtain ⟨src, tbl, rfl⟩ := h
    obtain ⟨src', tbl', rfl⟩ := h'
    rfl
  | abort pos =>
    obtain ⟨cap, src, tbl, rfl⟩ := h
    obtain ⟨cap', src', tbl', rfl, _⟩ := h'
    rfl

theorem IvRes.sub {τ : Type} {e : Ev σ} {r : XRes Input TreeTable σ} {r' : XRes Input τ σ}
    (h : IvRes (fun a b => CTree.Sub (Capture.treesL a) b) e r) (h' : ExecRes none e r') : CTree.Sub r.captures r'.captures := by
  obtain ⟨res, far, w⟩ := e
  cases res with
  | ok pos cs =>
    obtain ⟨a, b, ch, src, tbl, rfl, h1, h2⟩ := h
    obtain ⟨a', b', ch', src', tbl', rfl, h1', h2', h3'⟩ := h'
    rw [pruneL_none] at h2'
    simp only [XRes.captures, Capture.trees, h2']
    exact h2
  | fail =>
    obtain ⟨src, tbl, rfl⟩ := h
    exact .nil_left _
  | abort pos =>
    obtain ⟨cap, src, tbl, rfl⟩ := h
    exact .nil_left _

theorem IvRes.view_eq {τ : Type} {iv : Option Interval} {e : Ev σ} {r : XRes Input TreeTable σ} {r' : XRes Input τ σ}
    (h : IvRes (fun a b => Capture.treesL a = CTree.pruneL iv b) e r) (h' : ExecRes iv e r') : r.view = r'.view := by
  obtain ⟨res, far, w⟩ := e
  cases res with
  | ok pos cs =>
    obtain ⟨a, b, ch, src, tbl, rfl, h1, h2⟩ := h
    obtain ⟨a', b', ch', src', tbl', rfl, h1', h2', h3'⟩ := h'
    simp only [XRes.view, Capture.trees, h1, h1', h2, h2']
  | fail =>
    obtain ⟨src, tbl, rfl⟩ := h
    obtain ⟨src', tbl', rfl⟩ := h'
    rfl
  | abort pos =>
    obtain ⟨cap, src, tbl, rfl⟩ := h
    obtain ⟨cap', src', tbl', rfl, _⟩ := h'
    rfl

/-- **C63**, what holds of all patterns that C27 is about: with a table that earlier runs of `Exec` and `ExecInterval` on the same
text have filled, with whatever intervals, `ExecInterval` and `Exec` stop iff `Exec` without a table does, with the same match
flag, end, errors and checker state; and every capture found is a capture that `Exec` without a table finds, at the same place and
under the same captures. (Missing: that all captures in the interval are found. That is false, see below.) -/
theorem C63_sound_partial (hc : CompiledAt top p code) (hd : p.Dots1) (hs : p.Scoped) (hchk : CheckOK chk)
    (hm : p.MemosOK chk top) (hI : IvOK iv) (hb : 0 < bufsz) {T : TreeTable} (hT : WarmIv chk code data T) :
    (∀ r, RunsIv chk iv code bufsz data T st r → ∃ r', RunsTo chk none code bufsz data st r' ∧ r.outcome = r'.outcome ∧
      CTree.Sub r.captures r'.captures) ∧
    (∀ r', RunsTo chk none code bufsz data st r' → ∃ r, RunsIv chk iv code bufsz data T st r ∧ r.outcome = r'.outcome ∧
      CTree.Sub r.captures r'.captures) := by
  obtain ⟨k, cst, raw, cst', rfl, hc, he⟩ := hc.raw
  have h1 := exec_iv (iv := iv) hchk hd hs hc he hb (progOK_raw hd hc) (occsOK_of hc hs hm) (capOK_sub ⟨data, chk, false⟩ iv _) hI T
    (hT.inv hc he hd hs hchk hm fun iv => capOK_sub _ iv _) st
  have h2 := exec_none (data := data) (iv := none) hchk hd hs hc he hb st
  refine ⟨fun r hr => ?_, fun r' hr => ?_⟩
  · obtain ⟨e, hev, hx, _⟩ := h1.2 r hr
    obtain ⟨r', hr', hx'⟩ := h2.1 e hev
    exact ⟨r', hr', hx.outcome_eq hx', hx.sub hx'⟩
  · obtain ⟨e, hev, hx'⟩ := h2.2 r' hr
    obtain ⟨r, hr, hx, _⟩ := h1.1 e hev
    exact ⟨r, hr, hx.outcome_eq hx', hx.sub hx'⟩

/-- **C63** for patterns whose memoized parts capture nothing: with such a table `ExecInterval` gives what it gives without. -/
theorem C63_bare_partial (hc : CompiledAt top p code) (hd : p.Dots1) (hs : p.Scoped) (hchk : CheckOK chk)
    (hm : p.MemosOK chk top) (hbare : ∀ o ∈ p.memos [], o.Bare σ) (hI : IvOK iv) (hb : 0 < bufsz) {T : TreeTable}
    (hT : WarmIv chk code data T) :
    (∀ r, RunsIv chk iv code bufsz data T st r → ∃ r', RunsTo chk iv code bufsz data st r' ∧ r.view = r'.view) ∧
    (∀ r', RunsTo chk iv code bufsz data st r' → ∃ r, RunsIv chk iv code bufsz data T st r ∧ r.view = r'.view) := by
  obtain ⟨k, cst, raw, cst', rfl, hc, he⟩ := hc.raw
  have hbare := occs_bare hc hs hbare
  have h1 := exec_iv (iv := iv) hchk hd hs hc he hb (progOK_raw hd hc) (occsOK_of hc hs hm) (capOK_bare ⟨data, chk, false⟩ iv hbare) hI T
    (hT.inv hc he hd hs hchk hm fun iv => capOK_bare _ iv hbare) st
  have h2 := exec_none (data := data) (iv := iv) hchk hd hs hc he hb st
  refine ⟨fun r hr => ?_, fun r' hr => ?_⟩
  · obtain ⟨e, hev, hx, _⟩ := h1.2 r hr
    obtain ⟨r', hr', hx'⟩ := h2.1 e hev
    exact ⟨r', hr', hx.view_eq hx'⟩
  · obtain ⟨e, hev, hx'⟩ := h2.2 r' hr
    obtain ⟨r, hr, hx, _⟩ := h1.1 e hev
    exact ⟨r, hr, hx.view_eq hx'⟩

/-- **C63**, the purpose of the edit with which `ExecInterval` begins (`vm/vm.go:63-73`): of what earlier runs have stored, nothing
is found that looked at a place of the interval. -/
theorem C63_cleared_partial (hc : CompiledAt top p code) (hd : p.Dots1) (hs : p.Scoped) (hchk : CheckOK chk)
    (hm : p.MemosOK chk top) {T T' : TreeTable} (hT : WarmIv chk code data T) {I : Interval} (hI : I.low ≤ I.high) {src : Input}
    {id : Int} {pos : Nat} {e : MEntry}
    (hg : (initVM ⟨chunkedOps, treeTable, chk, some I⟩ src T st).tbl.get id pos = (some e, T')) :
    pos + e.examined < I.low ∨ I.high < pos := by
  obtain ⟨k, cst, raw, cst', rfl, hc, he⟩ := hc.raw
  exact (hT.inv hc he hd hs hchk hm fun iv => capOK_sub _ iv _).cleared hI hg

end

/-- Captures around memoized words meet the hypotheses. -/
example : let p : Pat := .grammar "L" (.cons "L" (.star (.cap (.seq (.memo (.plus (.nonterm "I")) 1) (.opt (.lit [44]))) 3))
      (.cons "I" (.cls (CSet.mk 0 (2 ^ 33) 0 0)) .nil))
    (∃ code, CompiledAt 2 p code) ∧ p.Dots1 ∧ p.Scoped ∧ p.MemosOK noChk 2 ∧ (∀ o ∈ p.memos [], o.Bare Unit) := by
  intro p
  refine ⟨⟨_, 20, ⟨0, 2, true⟩, _, _, rfl, rfl, rfl⟩, ?_, ?_, Pat.memosOK_of_pure ?_ ?_ ?_, ?_⟩
  · intro n hn
    simp [p, Pat.leaves, Defs.leaves] at hn
  · simp [p, Pat.Scoped, Defs.Scoped, Defs.noCap, Pat.noCap]
  · simp [p, Pat.Pure, Pat.leaves, Defs.leaves]
  · simp [p, Pat.memos, Defs.memos]
  · simp [p, Pat.memos, Defs.memos]
  · intro o ho
    simp only [p, Pat.memos, Defs.memos, List.mem_append, List.mem_cons, List.not_mem_nil, or_false] at ho
    subst ho
    exact Occ.bare_of (fun n => n == "I") rfl (by simp [Defs.capless, Pat.capless])

/-- The pattern `{{ {'a'} }} 'x' / {{ {'a'} }} 'y'` with one memoized non-terminal. -/
def twice : Pat := .grammar "S" (.cons "S" (.alt (.seq (.nonterm "M") (.lit [120])) (.seq (.nonterm "M") (.lit [121])))
  (.cons "M" (.memo (.cap (.lit [97]) 7) 1) .nil))

/-- **C63** is false: `ExecInterval` with an empty table. When the second alternative is tried, the table has an entry for the
memoized part, made by the first, without captures. The comment in `vm/vm.go:65-67` says that clearing the interval ensures "that
we find all captures in the requested interval". -/
theorem C63_false : ∃ code, CompiledAt 1 twice code ∧
    (∃ src, RunsTo noChk (some ⟨0, 2⟩) code 4096 [97, 121] () (.done true (some (.dummy 0 2 [.node 7 0 1 []])) src [] () ())) ∧
    ∃ src T, RunsIv noChk (some ⟨0, 2⟩) code 4096 [97, 121] (TreeTable.new 0) () (.done true (some (.dummy 0 2 [])) src [] T ()) :=
  ⟨_, ⟨20, ⟨0, 1, true⟩, _, _, rfl, rfl, rfl⟩, ⟨_, ⟨30, _, rfl, rfl⟩⟩, _, _, ⟨30, _, rfl, rfl⟩⟩

/-- `Exec` with a table that `ExecInterval` has used: the captures outside the interval are lost. -/
theorem C63_exec_false : ∃ p code T, CompiledAt 1 p code ∧
    (∃ ok cap src errs st', RunsIv noChk (some ⟨5, 6⟩) code 4096 [97] (TreeTable.new 0) () (.done ok cap src errs T st')) ∧
    (∃ src, RunsTo noChk none code 4096 [97] () (.done true (some (.dummy 0 1 [.node 7 0 1 []])) src [] () ())) ∧
    ∃ src T', RunsIv noChk none code 4096 [97] T () (.done true (some (.dummy 0 1 [])) src [] T' ()) :=
  ⟨.memo (.cap (.lit [97]) 7) 1, _, _, ⟨20, ⟨0, 1, true⟩, _, _, rfl, rfl, rfl⟩, ⟨_, _, _, _, _, ⟨30, _, rfl, rfl⟩⟩,
    ⟨_, ⟨30, _, rfl, rfl⟩⟩, _, _, ⟨30, _, rfl, rfl⟩⟩

/-- The table after `Exec` with `{{ {'a'} }}` on `a`. -/
def warmTable : TreeTable := ⟨⟨.node ⟨0, 0, 1, 2, [⟨0, 2, ⟨0, ⟨some 1, 2, 1, [.node 7 0 1 []]⟩⟩⟩], 0, 1⟩ .nil .nil, [], 0, 1⟩, 0⟩

/-- The entry of this table is found when the interval begins beyond what it looked at, and not when it begins within. -/
example : ((initVM ⟨chunkedOps, treeTable, noChk, some ⟨5, 6⟩⟩ (Input.new 4096 [97]) warmTable ()).tbl.get 1 0).1.isSome = true ∧
    ((initVM ⟨chunkedOps, treeTable, noChk, some ⟨1, 6⟩⟩ (Input.new 4096 [97]) warmTable ()).tbl.get 1 0).1.isSome = false :=
  ⟨rfl, rfl⟩

/-- `ExecInterval` with a table that `Exec` has used: captures outside the interval are returned. -/
theorem C63_more_false : ∃ p code T, CompiledAt 1 p code ∧
    (∃ ok cap src errs st', RunsTree noChk code 4096 [97] (TreeTable.new 0) () (.done ok cap src errs T st')) ∧
    (∃ src, RunsTo noChk (some ⟨5, 6⟩) code 4096 [97] () (.done true (some (.dummy 5 1 [])) src [] () ())) ∧
    ∃ src T', RunsIv noChk (some ⟨5, 6⟩) code 4096 [97] T () (.done true (some (.dummy 5 1 [.node 7 0 1 []])) src [] T' ()) :=
  ⟨.memo (.cap (.lit [97]) 7) 1, _, warmTable, ⟨20, ⟨0, 1, true⟩, _, _, rfl, rfl, rfl⟩,
    ⟨_, _, _, _, _, ⟨30, _, rfl, rfl⟩⟩,
    ⟨_, ⟨30, _, rfl, rfl⟩⟩, _, _, ⟨30, _, rfl, rfl⟩⟩

end Gpeg
