import Verif.Top
/-!
# Compiler correctness without a memo table
-/
namespace Gpeg
variable {τ σ : Type}

/-! ## Captures as trees -/

mutual
/-- The capture trees that a `Capture` stands for: a dummy stands for its children (C35 shows that
this is what `ChildIterator` enumerates). -/
def Capture.trees : Capture → List CTree
  | .node id s n ch => [.node id s n (Capture.treesL ch)]
  | .dummy _ _ ch => Capture.treesL ch
/-- `Capture.trees` of all elements. -/
def Capture.treesL : List Capture → List CTree
  | [] => []
  | c :: cs => c.trees ++ Capture.treesL cs
end

theorem treesL_append (a b : List Capture) :
    Capture.treesL (a ++ b) = Capture.treesL a ++ Capture.treesL b := by
  induction a with
  | nil => simp [Capture.treesL]
  | cons x a ih => simp [Capture.treesL, ih]

mutual
/-- The captures overlapping the interval: a capture that does not overlap is dropped together with
its children. -/
def CTree.prune (iv : Option Interval) : CTree → List CTree
  | .node id s n ch => if overlapsIv iv s (s + n) then [.node id s n (CTree.pruneL iv ch)] else []
/-- `CTree.prune` of all elements. -/
def CTree.pruneL (iv : Option Interval) : List CTree → List CTree
  | [] => []
  | c :: cs => c.prune iv ++ CTree.pruneL iv cs
end

theorem pruneL_append (iv : Option Interval) (a b : List CTree) :
    CTree.pruneL iv (a ++ b) = CTree.pruneL iv a ++ CTree.pruneL iv b := by
  induction a with
  | nil => simp [CTree.pruneL]
  | cons x a ih => simp [CTree.pruneL, ih]

mutual
theorem prune_none : ∀ c : CTree, c.prune none = [c]
  | .node id s n ch => by
    have := pruneL_none ch
    simp [CTree.prune, overlapsIv, this]
theorem pruneL_none : ∀ cs : List CTree, CTree.pruneL none cs = cs
  | [] => by simp [CTree.pruneL]
  | c :: cs => by
    have h1 := prune_none c
    have h2 := pruneL_none cs
    simp [CTree.pruneL, h1, h2]
end

/-! ## The parameters of the proof -/

/-- Assumption about checkers: they do not ask to skip past the end of the data. -/
def CheckOK (chk : CheckFn σ) : Prop :=
  ∀ k st m d pos id flag n st', pos ≤ d.length → chk k st m d pos id flag = (some n, st') → pos + n ≤ d.length

/-- No memo table. -/
def nonePar (data : List UInt8) (chk : CheckFn σ) (iv : Option Interval) (prog : Program) : Par Unit σ where
  data := data
  tab := noneTable
  chk := chk
  iv := iv
  prog := prog
  trk := False
  lo := false
  cr caps cs := Capture.treesL caps = CTree.pruneL iv cs
  TInv _ _ := True
  Mget _ _ _ _ := False
  Mput _ _ _ _ := True

theorem cr_ok (iv : Option Interval) :
    (∀ {a b a' b'}, Capture.treesL a = CTree.pruneL iv b → Capture.treesL a' = CTree.pruneL iv b' →
      Capture.treesL (a ++ a') = CTree.pruneL iv (b ++ b')) ∧
    (∀ {s e ch ch'} (id : Int), overlapsIv iv s e = true → s ≤ e → Capture.treesL ch = CTree.pruneL iv ch' →
      Capture.treesL [.node id s (e - s) ch] = CTree.pruneL iv [.node id s (e - s) ch']) ∧
    (∀ {s e ch'} (id : Int), overlapsIv iv s e = false → s ≤ e →
      Capture.treesL [] = CTree.pruneL iv [.node id s (e - s) ch']) ∧
    (∀ {ch ch'} (s l : Nat), Capture.treesL ch = CTree.pruneL iv ch' →
      Capture.treesL [.dummy s l ch] = CTree.pruneL iv ch') := by
  refine ⟨fun h1 h2 => ?_, fun {s e ch ch'} id h1 h2 h3 => ?_, fun {s e ch'} id h1 h2 => ?_,
    fun {ch ch'} s l h => ?_⟩
  · rw [treesL_append, pruneL_append, h1, h2]
  · have : s + (e - s) = e := by omega
    simp [Capture.treesL, Capture.trees, CTree.pruneL, CTree.prune, this, h1, h3]
  · have : s + (e - s) = e := by omega
    simp [Capture.treesL, CTree.pruneL, CTree.prune, this, h1]
  · simp [Capture.treesL, Capture.trees, h]

theorem nonePar_ok {data : List UInt8} {chk : CheckFn σ} {iv : Option Interval} {k : Nat} {p : Pat}
    {cst cst' : CState} {raw : Program} (hchk : CheckOK chk) (hd : p.Dots1)
    (hc : CM.Ok (compileF k p) cst raw cst') : (nonePar data chk iv (withEnd raw)).Ok where
  lab := lab_raw hc
  any1 i n h := by
    have : Insn.any n ∈ raw := by
      have := List.mem_of_getElem? h
      rcases List.mem_append.1 this with h | h
      · exact h
      · simp at h
    exact dots_raw hd hc this
  chk := hchk
  cr_nil := by simp [nonePar, Capture.treesL, CTree.pruneL]
  cr_app := (cr_ok iv).1
  cr_node id h1 h2 h3 := (cr_ok iv).2.1 id h1 h2 h3
  cr_skip id h1 h2 _ := (cr_ok iv).2.2.1 id h1 h2
  cr_dummy s l _ h := (cr_ok iv).2.2.2 s l h
  tmono _ _ := trivial
  get {t f id pos r t'} _ h _ := by
    refine ⟨trivial, fun m hm => ?_⟩
    subst hm
    cases h
  put _ _ := trivial

theorem nonePar_occ (data : List UInt8) (chk : CheckFn σ) (iv : Option Interval) (prog : Program) (o : Occ) :
    OccOK (nonePar data chk iv prog) o := by
  unfold OccOK
  split
  · exact ⟨fun _ _ _ _ _ _ => trivial, fun _ _ h => h.elim, trivial⟩
  · exact ⟨fun _ _ _ _ _ _ => trivial, fun _ _ h => h.elim, trivial⟩

/-! ## The theorem -/

/-- What `Exec`/`ExecInterval` returns, compared with the evaluation of the pattern. -/
def ExecRes (iv : Option Interval) (e : Ev σ) (r : XRes Input τ σ) : Prop :=
  match e with
  | (.ok pos cs, _, w) => ∃ a b ch src tbl,
      r = .done true (some (.dummy a b ch)) src w.errs tbl w.cst ∧ src.pos = pos ∧
      Capture.treesL ch = CTree.pruneL iv cs ∧ (iv = none → a = 0 ∧ b = pos)
  | (.fail, _, w) => ∃ src tbl, r = .done false none src w.errs tbl w.cst
  | (.abort pos, _, w) => ∃ cap src tbl, r = .done false cap src w.errs tbl w.cst ∧ src.pos = pos

theorem execRes_of {P : Par τ σ} (hcr : P.cr = fun caps cs => Capture.treesL caps = CTree.pruneL P.iv cs)
    {e : Ev σ} {r : XRes Input τ σ} (h : TopRes P e (r.map Input.flat)) : ExecRes P.iv e r := by
  obtain ⟨res, far, w⟩ := e
  cases r with
  | panic =>
    cases res with
    | ok pos cs => obtain ⟨a, b, ch, src, tbl, h, _⟩ := h; cases h
    | fail => obtain ⟨src, tbl, h, _⟩ := h; cases h
    | abort pos => obtain ⟨cap, src, tbl, h, _⟩ := h; cases h
  | done ok cap src errs tbl cst =>
    cases res with
    | ok pos cs =>
      obtain ⟨a, b, ch, src', tbl', h, h1, h2, h3, h4, h5, h6⟩ := h
      cases h
      rw [hcr] at h3
      exact ⟨a, b, ch, src, tbl, rfl, h2, h3, h4⟩
    | fail => obtain ⟨src', tbl', h, _⟩ := h; cases h; exact ⟨src, tbl, rfl⟩
    | abort pos => obtain ⟨cap', src', tbl', h, h1, h2, _⟩ := h; cases h; exact ⟨cap, src, tbl, rfl, h2⟩

/-- Compiler correctness with no memo table. -/
theorem exec_none {data : List UInt8} {chk : CheckFn σ} {iv : Option Interval} {k : Nat} {p : Pat}
    {cst cst' : CState} {raw : Program} {code : Code} {bufsz : Nat} (hchk : CheckOK chk) (hd : p.Dots1)
    (hs : p.Scoped) (hc : CM.Ok (compileF k p) cst raw cst') (he : encode (optimize raw) = some code)
    (hb : 0 < bufsz) (st : σ) :
    (∀ e, Evals ⟨data, chk, false⟩ [] p 0 ⟨[], st⟩ e →
      ∃ r, Execs ⟨chunkedOps, noneTable, chk, iv⟩ code (Input.new bufsz data) () st r ∧ ExecRes iv e r) ∧
    (∀ r, Execs ⟨chunkedOps, noneTable, chk, iv⟩ code (Input.new bufsz data) () st r →
      ∃ e, Evals ⟨data, chk, false⟩ [] p 0 ⟨[], st⟩ e ∧ ExecRes iv e r) := by
  have hP := nonePar_ok (data := data) (iv := iv) hchk hd hc
  have hno : ∀ n, .openCall n ∉ raw := fun n hn => encode_openCall he n (optimize_openCall hn)
  have hch := chain noneTable chk iv (dots1_raw hd hc) he (i := Input.new bufsz data) (f := ⟨data, 0, 0⟩)
    ⟨Input.new_inv hb data, rfl, rfl, rfl⟩ () st
  have ho := fun o (_ : o ∈ memoOcc k [] p cst) => nonePar_occ data chk iv (withEnd raw) o
  refine ⟨fun e hev => ?_, fun r hr => ?_⟩
  · obtain ⟨x, hx, hres⟩ := (top_sim hP rfl hc ho hs hno () st trivial).1 e hev
    obtain ⟨r, hr, rfl⟩ := (hch x).2 hx
    exact ⟨r, hr, execRes_of rfl hres⟩
  · have hx := (hch (r.map Input.flat)).1 ⟨r, hr, rfl⟩
    obtain ⟨e, hev, hres⟩ := top_sim' hP rfl hc ho hs hno () st trivial hx
    exact ⟨e, hev, execRes_of rfl hres⟩

end Gpeg
