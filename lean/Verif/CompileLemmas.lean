import Verif.Compile
/-! # Inversion lemmas for the compiler -/
namespace Gpeg

/-- `x` run in state `s` succeeds with `a` and state `s'`. -/
abbrev CM.Ok {α : Type} (x : CM α) (s : CState) (a : α) (s' : CState) : Prop := x s = .ok (a, s')

theorem cm_bind {α β : Type} {x : CM α} {f : α → CM β} {s s' : CState} {b : β} :
    CM.Ok (x >>= f) s b s' ↔ ∃ a s1, CM.Ok x s a s1 ∧ CM.Ok (f a) s1 b s' := by
  have hb : (x >>= f) s = (match x s with | .ok (a, s1) => f a s1 | .error e => .error e) := by
    show StateT.bind x f s = _
    unfold StateT.bind
    cases x s <;> rfl
  unfold CM.Ok
  rw [hb]
  cases hx : x s with
  | error e => simp
  | ok as =>
    obtain ⟨a, s1⟩ := as
    simp only [Except.ok.injEq, Prod.mk.injEq]
    constructor
    · intro h; exact ⟨a, s1, ⟨rfl, rfl⟩, h⟩
    · rintro ⟨a', s1', ⟨rfl, rfl⟩, h⟩; exact h

theorem cm_pure {α : Type} {a b : α} {s s' : CState} :
    CM.Ok (pure a) s b s' ↔ a = b ∧ s = s' := by
  show Except.ok (a, s) = Except.ok (b, s') ↔ _
  simp

theorem cm_label {s s' : CState} {l : Nat} :
    CM.Ok newLabel s l s' ↔ l = s.lbl + 1 ∧ s' = { s with lbl := s.lbl + 1 } := by
  show Except.ok (s.lbl + 1, { s with lbl := s.lbl + 1 }) = Except.ok (l, s') ↔ _
  rw [Except.ok.injEq, Prod.mk.injEq, eq_comm, @eq_comm _ _ s']

theorem cm_tco {s s' : CState} {t : Bool} : CM.Ok useTco s t s' ↔ t = s.tco ∧ s' = s := by
  show Except.ok (s.tco, s) = Except.ok (t, s') ↔ _
  rw [Except.ok.injEq, Prod.mk.injEq, eq_comm, @eq_comm _ _ s']

theorem cm_memoId {s s' : CState} {i : Int} :
    CM.Ok newMemoId s i s' ↔ i = s.memo + 1 ∧ s' = { s with memo := s.memo + 1 } := by
  show Except.ok (s.memo + 1, { s with memo := s.memo + 1 }) = Except.ok (i, s') ↔ _
  rw [Except.ok.injEq, Prod.mk.injEq, eq_comm, @eq_comm _ _ s']

theorem cm_throw {α : Type} {e : CErr} {s s' : CState} {a : α} :
    CM.Ok (cthrow e) s a s' ↔ False := by
  show Except.error e = Except.ok (a, s') ↔ False
  simp

variable {k : Nat} {s s' : CState} {raw : Program}

/-- Advance the label counter. -/
def CState.bump (s : CState) (n : Nat) : CState := { s with lbl := s.lbl + n }

theorem comp_zero {p : Pat} : ¬ CM.Ok (compileF 0 p) s raw s' := by
  intro h; exact cm_throw.1 h

theorem comp_alt_some {l r : Pat} {cs : CSet} (hc : combine (get l) (get r) = some cs)
    (h : CM.Ok (compileF (k + 1) (.alt l r)) s raw s') : raw = [.set cs] ∧ s' = s := by
  unfold compileF at h
  simp only [hc] at h
  obtain ⟨rfl, rfl⟩ := cm_pure.1 h
  exact ⟨rfl, rfl⟩

theorem comp_alt_none {l r : Pat} (hc : combine (get l) (get r) = none)
    (h : CM.Ok (compileF (k + 1) (.alt l r)) s raw s') :
    ∃ lc s1 rc s2, CM.Ok (compileF k (get l)) s lc s1 ∧ CM.Ok (compileF k (get r)) s1 rc s2 ∧
      raw = altCode lc rc (s2.lbl + 1) (s2.lbl + 2) ∧ s' = s2.bump 2 := by
  unfold compileF at h
  simp only [hc, cm_bind, cm_label, cm_pure] at h
  obtain ⟨lc, s1, h1, rc, s2, h2, l1, s3, ⟨rfl, rfl⟩, l2, s4, ⟨rfl, rfl⟩, rfl, rfl⟩ := h
  exact ⟨lc, s1, rc, s2, h1, h2, rfl, rfl⟩

theorem comp_seq {l r : Pat} (h : CM.Ok (compileF (k + 1) (.seq l r)) s raw s') :
    ∃ lc s1 rc, CM.Ok (compileF k (get l)) s lc s1 ∧ CM.Ok (compileF k (get r)) s1 rc s' ∧
      raw = lc ++ rc := by
  unfold compileF at h
  simp only [cm_bind, cm_pure] at h
  obtain ⟨lc, s1, h1, rc, s2, h2, rfl, rfl⟩ := h
  exact ⟨lc, s1, rc, h1, h2, rfl⟩

/-- The three shapes of a repetition. -/
inductive StarCase (k : Nat) (p : Pat) (s : CState) (raw : Program) (s' : CState) : Prop
  | cls (cs : CSet) (hg : get p = .cls cs) (hraw : raw = [.span cs]) (hs : s' = s)
  | memo (q : Pat) (id : Int) (hg : get p = .memo q id) (sub : Program) (s1 : CState)
      (h : CM.Ok (compileF k (get q)) s sub s1)
      (hraw : raw = [.label (s1.lbl + 1), .memoTreeOpen (s1.lbl + 3) (s1.memo + 1),
        .choice (s1.lbl + 2)] ++ sub ++
        [.commit (s1.lbl + 4), .label (s1.lbl + 4), .memoTreeInsert, .label (s1.lbl + 3),
          .memoTree, .jump (s1.lbl + 1), .label (s1.lbl + 2), .memoTreeClose (s1.memo + 1)])
      (hs : s' = { (s1.bump 4) with memo := s1.memo + 1 })
  | plain (hm : ∀ q id, get p ≠ .memo q id) (hcl : ∀ cs, get p ≠ .cls cs) (sub : Program)
      (s1 : CState) (h : CM.Ok (compileF k (get p)) s sub s1)
      (hraw : raw = [.choice (s1.lbl + 2), .label (s1.lbl + 1)] ++ sub ++
        [.partialCommit (s1.lbl + 1), .label (s1.lbl + 2)])
      (hs : s' = s1.bump 2)

theorem comp_star {p : Pat} (h : CM.Ok (compileF (k + 1) (.star p)) s raw s') :
    StarCase k p s raw s' := by
  unfold compileF at h
  simp only at h
  split at h
  · rename_i cs hg
    obtain ⟨rfl, rfl⟩ := cm_pure.1 h
    exact .cls cs hg rfl rfl
  · rename_i q id hg
    simp only [cm_bind, cm_label, cm_memoId, cm_pure] at h
    obtain ⟨sub, s1, h1, l1, s2, ⟨rfl, rfl⟩, l2, s3, ⟨rfl, rfl⟩, l3, s4, ⟨rfl, rfl⟩, l4, s5,
      ⟨rfl, rfl⟩, i, s6, ⟨rfl, rfl⟩, rfl, rfl⟩ := h
    exact .memo q id hg sub s1 h1 rfl rfl
  · rename_i hcl hm
    simp only [cm_bind, cm_label, cm_pure] at h
    obtain ⟨sub, s1, h1, l1, s2, ⟨rfl, rfl⟩, l2, s3, ⟨rfl, rfl⟩, rfl, rfl⟩ := h
    exact .plain (fun q id hg => hm q id hg) (fun cs hg => hcl cs hg) sub s1 h1 rfl rfl

theorem comp_plus {p : Pat} (h : CM.Ok (compileF (k + 1) (.plus p)) s raw s') :
    ∃ st s1 sub, CM.Ok (compileF k (.star (get p))) s st s1 ∧
      CM.Ok (compileF k (get p)) s1 sub s' ∧ raw = sub ++ st := by
  unfold compileF at h
  simp only [cm_bind, cm_pure] at h
  obtain ⟨st, s1, h1, sub, s2, h2, rfl, rfl⟩ := h
  exact ⟨st, s1, sub, h1, h2, rfl⟩

/-- The three shapes of an optional. -/
inductive OptCase (k : Nat) (p : Pat) (s : CState) (raw : Program) (s' : CState) : Prop
  | lit (b : UInt8) (hg : get p = .lit [b])
      (hraw : raw = [.testCharNC b (s.lbl + 1), .label (s.lbl + 1)]) (hs : s' = s.bump 1)
  | cls (cs : CSet) (hg : get p = .cls cs)
      (hraw : raw = [.testSetNC cs (s.lbl + 1), .label (s.lbl + 1)]) (hs : s' = s.bump 1)
  | plain (hl : ∀ b, get p ≠ .lit [b]) (hc : ∀ cs, get p ≠ .cls cs)
      (h : CM.Ok (compileF k (.alt (get p) .empty)) s raw s')

theorem comp_opt {p : Pat} (h : CM.Ok (compileF (k + 1) (.opt p)) s raw s') :
    OptCase k p s raw s' := by
  unfold compileF at h
  simp only at h
  split at h
  · rename_i b hg
    simp only [cm_bind, cm_label, cm_pure] at h
    obtain ⟨l1, s1, ⟨rfl, rfl⟩, rfl, rfl⟩ := h
    exact .lit b hg rfl rfl
  · rename_i cs hg
    simp only [cm_bind, cm_label, cm_pure] at h
    obtain ⟨l1, s1, ⟨rfl, rfl⟩, rfl, rfl⟩ := h
    exact .cls cs hg rfl rfl
  · rename_i hl hc
    exact .plain (fun b hg => hl b hg) (fun cs hg => hc cs hg) h

theorem comp_not {p : Pat} (h : CM.Ok (compileF (k + 1) (.not p)) s raw s') :
    ∃ sub s1, CM.Ok (compileF k (get p)) s sub s1 ∧
      raw = [.choice (s1.lbl + 1)] ++ sub ++ [.failTwice, .label (s1.lbl + 1)] ∧
      s' = s1.bump 1 := by
  unfold compileF at h
  simp only [cm_bind, cm_label, cm_pure] at h
  obtain ⟨sub, s1, h1, l1, s2, ⟨rfl, rfl⟩, rfl, rfl⟩ := h
  exact ⟨sub, s1, h1, rfl, rfl⟩

theorem comp_and {p : Pat} (h : CM.Ok (compileF (k + 1) (.and p)) s raw s') :
    ∃ sub s1, CM.Ok (compileF k (get p)) s sub s1 ∧
      raw = [.choice (s1.lbl + 1)] ++ sub ++
        [.backCommit (s1.lbl + 2), .label (s1.lbl + 1), .fail, .label (s1.lbl + 2)] ∧
      s' = s1.bump 2 := by
  unfold compileF at h
  simp only [cm_bind, cm_label, cm_pure] at h
  obtain ⟨sub, s1, h1, l1, s2, ⟨rfl, rfl⟩, l2, s3, ⟨rfl, rfl⟩, rfl, rfl⟩ := h
  exact ⟨sub, s1, h1, rfl, rfl⟩

theorem comp_cap {p : Pat} {id : Int} (h : CM.Ok (compileF (k + 1) (.cap p id)) s raw s') :
    ∃ sub, CM.Ok (compileF k (get p)) s sub s' ∧ raw = capCode sub id := by
  unfold compileF at h
  simp only [cm_bind, cm_pure] at h
  obtain ⟨sub, s1, h1, rfl, rfl⟩ := h
  exact ⟨sub, h1, rfl⟩

theorem comp_memo {p : Pat} {id : Int} (h : CM.Ok (compileF (k + 1) (.memo p id)) s raw s') :
    ∃ sub, CM.Ok (compileF k (get p)) (s.bump 1) sub s' ∧
      raw = [.memoOpen (s.lbl + 1) id] ++ sub ++ [.memoClose, .label (s.lbl + 1)] := by
  unfold compileF at h
  simp only [cm_bind, cm_label, cm_pure] at h
  obtain ⟨l1, s1, ⟨rfl, rfl⟩, sub, s2, h1, rfl, rfl⟩ := h
  exact ⟨sub, h1, rfl⟩

theorem comp_check {p : Pat} {c : Nat} {id flag : Int}
    (h : CM.Ok (compileF (k + 1) (.check p c id flag)) s raw s') :
    ∃ sub, CM.Ok (compileF k (get p)) (s.bump 1) sub s' ∧
      raw = [.checkBegin id flag] ++ sub ++ [.checkEnd c, .label (s.lbl + 1)] := by
  unfold compileF at h
  simp only [cm_bind, cm_label, cm_pure] at h
  obtain ⟨l1, s1, ⟨rfl, rfl⟩, sub, s2, h1, rfl, rfl⟩ := h
  exact ⟨sub, h1, rfl⟩

theorem comp_search {p : Pat} (h : CM.Ok (compileF (k + 1) (.search p)) s raw s') :
    ∃ sub s1, CM.Ok (compileF k (get p)) s sub s1 ∧
      CM.Ok (compileF k (.grammar "S"
        (.cons "S" (.alt (get p) (.seq (.dot 1) (searchRest sub))) .nil))) s1 raw s' := by
  unfold compileF at h
  simp only [cm_bind] at h
  obtain ⟨sub, s1, h1, h2⟩ := h
  exact ⟨sub, s1, h1, h2⟩

/-- The two shapes of a grammar. -/
inductive GrammarCase (k : Nat) (start : String) (defs : Defs) (s : CState) (raw : Program)
    (s' : CState) : Prop
  | unused (hu : defs.nts = []) (b : Pat) (hb : defs.find start = some b)
      (h : CM.Ok (compileF k b) s raw s')
  | used (hu : defs.nts ≠ []) (labels : List (String × Nat)) (fns code : Program)
      (h : CM.Ok (compileDefs (compileF k) start defs.nts defs) (s.bump 1) (labels, fns) s')
      (hr : resolve s.tco labels ([.openCall start, .jump (s.lbl + 1)] ++ fns) = .ok code)
      (hraw : raw = code ++ [.label (s.lbl + 1)])

theorem comp_grammar {start : String} {defs0 : Defs}
    (h : CM.Ok (compileF (k + 1) (.grammar start defs0)) s raw s') :
    GrammarCase k start defs0.inline s raw s' := by
  unfold compileF at h
  simp only at h
  split at h
  · rename_i hu
    split at h
    · rename_i b hb
      exact .unused hu b hb h
    · exact (cm_throw.1 h).elim
  · rename_i hu
    simp only [cm_bind, cm_label, cm_tco, cm_pure] at h
    obtain ⟨_, s0, ⟨rfl, rfl⟩, l1, s1, ⟨rfl, rfl⟩, ⟨labels, fns⟩, s2, h1, code, s3, h2, rfl, rfl⟩ := h
    have h2' : ((resolve s0.tco labels ([.openCall start, .jump (s0.lbl + 1)] ++ fns)).map (·, s2)) =
      .ok (code, s3) := h2
    cases hr : resolve s0.tco labels ([.openCall start, .jump (s0.lbl + 1)] ++ fns) with
    | error e => rw [hr] at h2'; cases h2'
    | ok code' =>
      rw [hr] at h2'
      cases h2'
      exact .used hu labels fns code h1 hr rfl

theorem comp_emptyOp {op : UInt8} (h : CM.Ok (compileF (k + 1) (.emptyOp op)) s raw s') :
    raw = [.emptyOp op] ∧ s' = s := by
  obtain ⟨rfl, rfl⟩ := cm_pure.1 h; exact ⟨rfl, rfl⟩

theorem comp_cls {cs : CSet} (h : CM.Ok (compileF (k + 1) (.cls cs)) s raw s') :
    raw = [.set cs] ∧ s' = s := by
  obtain ⟨rfl, rfl⟩ := cm_pure.1 h; exact ⟨rfl, rfl⟩

theorem comp_lit {l : List UInt8} (h : CM.Ok (compileF (k + 1) (.lit l)) s raw s') :
    raw = l.map .char ∧ s' = s := by
  obtain ⟨rfl, rfl⟩ := cm_pure.1 h; exact ⟨rfl, rfl⟩

theorem comp_nonterm {n : String} (h : CM.Ok (compileF (k + 1) (.nonterm n)) s raw s') :
    raw = [.openCall n] ∧ s' = s := by
  obtain ⟨rfl, rfl⟩ := cm_pure.1 h; exact ⟨rfl, rfl⟩

theorem comp_inl {n : String} {b : Pat} (h : CM.Ok (compileF (k + 1) (.inl n b)) s raw s') :
    CM.Ok (compileF k b) s raw s' := h

theorem comp_dot {n : UInt8} (h : CM.Ok (compileF (k + 1) (.dot n)) s raw s') :
    raw = [.any n] ∧ s' = s := by
  obtain ⟨rfl, rfl⟩ := cm_pure.1 h; exact ⟨rfl, rfl⟩

theorem comp_err {m : String} (h : CM.Ok (compileF (k + 1) (.err m)) s raw s') :
    raw = [.error m, .endI true] ∧ s' = s := by
  obtain ⟨rfl, rfl⟩ := cm_pure.1 h; exact ⟨rfl, rfl⟩

theorem comp_errRec {m : String} {p : Pat}
    (h : CM.Ok (compileF (k + 1) (.errRec m p)) s raw s') :
    ∃ sub, CM.Ok (compileF k (get p)) s sub s' ∧ raw = [.error m] ++ sub := by
  unfold compileF at h
  simp only [cm_bind, cm_pure] at h
  obtain ⟨sub, s1, h1, rfl, rfl⟩ := h
  exact ⟨sub, h1, rfl⟩

theorem comp_empty (h : CM.Ok (compileF (k + 1) .empty) s raw s') : raw = [] ∧ s' = s := by
  obtain ⟨rfl, rfl⟩ := cm_pure.1 h; exact ⟨rfl, rfl⟩

/-- One definition and the rest. -/
theorem compDefs_nil {comp : Pat → CM Program} {start : String} {used : List String}
    {ls : List (String × Nat)} {code : Program}
    (h : CM.Ok (compileDefs comp start used .nil) s (ls, code) s') :
    ls = [] ∧ code = [] ∧ s' = s := by
  obtain ⟨h1, h2⟩ := cm_pure.1 h
  cases h1
  exact ⟨rfl, rfl, h2.symm⟩

theorem compDefs_skip {comp : Pat → CM Program} {start : String} {used : List String} {n : String}
    {v : Pat} {rest : Defs} {x : List (String × Nat) × Program} (hn : n ≠ start ∧ n ∉ used)
    (h : CM.Ok (compileDefs comp start used (.cons n v rest)) s x s') :
    CM.Ok (compileDefs comp start used rest) s x s' := by
  unfold compileDefs at h
  rw [if_pos hn] at h
  exact h

theorem compDefs_cons {comp : Pat → CM Program} {start : String} {used : List String} {n : String}
    {v : Pat} {rest : Defs} {ls : List (String × Nat)} {code : Program}
    (hn : ¬ (n ≠ start ∧ n ∉ used))
    (h : CM.Ok (compileDefs comp start used (.cons n v rest)) s (ls, code) s') :
    ∃ fn s1 ls' code', CM.Ok (comp v) (s.bump 1) fn s1 ∧
      CM.Ok (compileDefs comp start used rest) s1 (ls', code') s' ∧
      ls = (n, s.lbl + 1) :: ls' ∧ code = [.label (s.lbl + 1)] ++ fn ++ [.ret] ++ code' := by
  unfold compileDefs at h
  rw [if_neg hn] at h
  simp only [cm_bind, cm_label, cm_pure] at h
  obtain ⟨l1, s1, ⟨rfl, rfl⟩, fn, s2, h1, ⟨ls', code'⟩, s3, h2, h3, rfl⟩ := h
  cases h3
  exact ⟨fn, s2, ls', code', h1, h2, rfl, rfl⟩

end Gpeg
