import Verif.Top
import Verif.Labels
/-!
# Compiling with labels from any supply

`isa.NewLabel` (`isa/isa.go:50-55`) numbers the labels of all programs of the process with one
package-level counter. Here the numbers come from an arbitrary function: what a goroutine gets
when other goroutines use the counter too.
-/
namespace Gpeg

/-- `isa/isa.go:50-55` `NewLabel`, when the `n`-th call of this goroutine returns the number
`sup n`; `lbl` counts the calls. -/
def newLabelS (sup : Nat → Nat) : CM Nat :=
  fun s => .ok (sup (s.lbl + 1), { s with lbl := s.lbl + 1 })

/-- `pattern/compile.go:391-405`, as `compileDefs`. -/
def compileDefsS (sup : Nat → Nat) (comp : Pat → CM Program) (start : String) (used : List String) :
    Defs → CM (List (String × Nat) × Program)
  | .nil => pure ([], [])
  | .cons k v rest =>
    if k ≠ start ∧ k ∉ used then compileDefsS sup comp start used rest
    else do
      let l ← newLabelS sup
      let fn ← comp v
      let (ls, code) ← compileDefsS sup comp start used rest
      pure ((k, l) :: ls, [.label l] ++ fn ++ [.ret] ++ code)

/-- `p.Compile()` for every node type (`pattern/compile.go:53-500`), as `compileF`, with the
labels from `sup`. -/
def compileS (sup : Nat → Nat) : Nat → Pat → CM Program
  | 0, _ => cthrow .fuel
  | k + 1, p =>
    match p with
    | .alt l r =>                                                     -- :53-113
      match combine (get l) (get r) with
      | some set => pure [.set set]
      | none => do
        let lc ← compileS sup k (get l)
        let rc ← compileS sup k (get r)
        let l1 ← newLabelS sup
        let l2 ← newLabelS sup
        pure (altCode lc rc l1 l2)
    | .seq l r => do                                                  -- :116-127
      let lc ← compileS sup k (get l)
      let rc ← compileS sup k (get r)
      pure (lc ++ rc)
    | .star p =>                                                      -- :130-175
      match get p with
      | .cls cs => pure [.span cs]
      | .memo q _ => do
        let sub ← compileS sup k (get q)
        let l1 ← newLabelS sup
        let l2 ← newLabelS sup
        let l3 ← newLabelS sup
        let nj ← newLabelS sup
        let id ← newMemoId
        pure ([.label l1, .memoTreeOpen l3 id, .choice l2] ++ sub ++
          [.commit nj, .label nj, .memoTreeInsert, .label l3, .memoTree, .jump l1, .label l2,
            .memoTreeClose id])
      | gp => do
        let sub ← compileS sup k gp
        let l1 ← newLabelS sup
        let l2 ← newLabelS sup
        pure ([.choice l2, .label l1] ++ sub ++ [.partialCommit l1, .label l2])
    | .plus p => do                                                   -- :178-193
      let star ← compileS sup k (.star (get p))
      let sub ← compileS sup k (get p)
      pure (sub ++ star)
    | .opt p =>                                                       -- :196-222
      match get p with
      | .lit [b] => do
        let l1 ← newLabelS sup
        pure [.testCharNC b l1, .label l1]
      | .cls cs => do
        let l1 ← newLabelS sup
        pure [.testSetNC cs l1, .label l1]
      | gp => compileS sup k (.alt gp .empty)
    | .not p => do                                                    -- :225-234
      let sub ← compileS sup k (get p)
      let l1 ← newLabelS sup
      pure ([.choice l1] ++ sub ++ [.failTwice, .label l1])
    | .and p => do                                                    -- :237-250
      let sub ← compileS sup k (get p)
      let l1 ← newLabelS sup
      let l2 ← newLabelS sup
      pure ([.choice l1] ++ sub ++ [.backCommit l2, .label l1, .fail, .label l2])
    | .cap p id => do                                                 -- :253-289
      let sub ← compileS sup k (get p)
      pure (capCode sub id)
    | .memo p id => do                                                -- :292-301
      let l1 ← newLabelS sup
      let sub ← compileS sup k (get p)
      pure ([.memoOpen l1 id] ++ sub ++ [.memoClose, .label l1])
    | .check p c id flag => do                                        -- :304-316
      let l1 ← newLabelS sup
      let sub ← compileS sup k (get p)
      pure ([.checkBegin id flag] ++ sub ++ [.checkEnd c, .label l1])
    | .search p => do                                                 -- :319-356
      let sub ← compileS sup k (get p)
      compileS sup k (.grammar "S"
        (.cons "S" (.alt (get p) (.seq (.dot 1) (searchRest sub))) .nil))
    | .emptyOp op => pure [.emptyOp op]                               -- :359-365
    | .grammar start defs0 =>                                         -- :368-443
      let defs := defs0.inline
      let used := defs.nts
      if used = [] then
        match defs.find start with
        | some b => compileS sup k b
        | none => cthrow .panic
      else do
        let tco ← useTco
        let lend ← newLabelS sup
        let (labels, fns) ← compileDefsS sup (compileS sup k) start used defs
        let code ← (fun s => (resolve tco labels ([.openCall start, .jump lend] ++ fns)).map (·, s)
          : CM Program)
        pure (code ++ [.label lend])
    | .cls cs => pure [.set cs]                                       -- :446-450
    | .lit s => pure (s.map .char)                                    -- :453-459
    | .nonterm n => pure [.openCall n]                                -- :462-469
    | .inl _ b => compileS sup k b                                    -- :463-465
    | .dot n => pure [.any n]                                         -- :472-476
    | .err m => pure [.error m, .endI true]                           -- :479-495
    | .errRec m p => do
      let rcv ← compileS sup k (get p)
      pure ([.error m] ++ rcv)
    | .empty => pure []                                               -- :498-500

/-- Another number for every label of an instruction. -/
def Insn.relabel (g : Nat → Nat) : Insn → Insn
  | .label l => .label (g l) | .jump l => .jump (g l) | .choice l => .choice (g l)
  | .call l => .call (g l) | .commit l => .commit (g l) | .partialCommit l => .partialCommit (g l)
  | .backCommit l => .backCommit (g l) | .testChar b l => .testChar b (g l)
  | .testCharNC b l => .testCharNC b (g l) | .testSet s l => .testSet s (g l)
  | .testSetNC s l => .testSetNC s (g l) | .testAny n l => .testAny n (g l)
  | .memoOpen l i => .memoOpen (g l) i | .memoTreeOpen l i => .memoTreeOpen (g l) i
  | i => i

/-- The program with other label numbers. -/
abbrev relab (g : Nat → Nat) (p : Program) : Program := p.map (Insn.relabel g)

section relab
variable (g : Nat → Nat)

theorem relab_isSkip (i : Insn) : (i.relabel g).isSkip = i.isSkip := by cases i <;> rfl

theorem relab_size (i : Insn) : (i.relabel g).size = i.size := by cases i <;> rfl

theorem relab_nextInsn : ∀ p : Program, nextInsn (relab g p) = (nextInsn p).map (Insn.relabel g)
  | [] => rfl
  | i :: p => by
    simp only [relab, List.map_cons, nextInsn, relab_isSkip]
    split
    · exact relab_nextInsn p
    · rfl

theorem relab_labelBefore : ∀ p : Program, labelBefore (relab g p) = labelBefore p
  | [] => rfl
  | i :: p => by
    have := relab_labelBefore p
    cases i <;> simp_all [relab, labelBefore, Insn.relabel]

theorem relab_nopNext : ∀ p : Program, nopNext (relab g p) = relab g (nopNext p)
  | [] => rfl
  | i :: p => by
    have := relab_nopNext p
    cases i <;> simp_all [relab, nopNext, Insn.relabel]

theorem relab_capPrefix : ∀ p : Program, capPrefix (relab g p) = capPrefix p
  | [] => rfl
  | i :: p => by
    have := relab_capPrefix p
    cases i <;> simp_all [relab, capPrefix, Insn.relabel]

theorem relab_capCode (p : Program) (id : Int) :
    capCode (relab g p) id = relab g (capCode p id) := by
  unfold capCode
  rw [relab_capPrefix]
  simp only [List.length_map]
  split
  · simp [relab, Insn.relabel]
  · split
    · simp [relab, Insn.relabel]
    · simp [relab, Insn.relabel]

theorem relab_altTest (l r : Program) (l1 : Nat) :
    altTest (relab g l) (relab g r) (g l1) = (altTest l r l1).map (Insn.relabel g) := by
  unfold altTest
  rw [relab_nextInsn, relab_nextInsn]
  rcases nextInsn l with _ | a <;> rcases nextInsn r with _ | b <;>
    first | rfl | (cases a <;> rfl) | (cases a <;> cases b <;> simp only [Option.map_some, Insn.relabel, Option.map_none] <;> split <;> rfl)

theorem relab_altCode (l r : Program) (l1 l2 : Nat) :
    altCode (relab g l) (relab g r) (g l1) (g l2) = relab g (altCode l r l1 l2) := by
  unfold altCode
  rw [relab_altTest]
  cases altTest l r l1 <;> simp [relab, Insn.relabel]

theorem relab_searchRest (p : Program) : searchRest (relab g p) = searchRest p := by
  unfold searchRest
  rw [relab_nextInsn]
  rcases nextInsn p with _ | a
  · rfl
  · cases a <;> rfl

theorem relab_lookup (n : String) : ∀ ls : List (String × Nat),
    (ls.map fun e => (e.1, g e.2)).lookup n = (ls.lookup n).map g
  | [] => rfl
  | (k, l) :: ls => by
    simp only [List.map_cons, List.lookup_cons, relab_lookup n ls]
    split <;> rfl

theorem relab_resolve (tco : Bool) (ls : List (String × Nat)) : ∀ p : Program,
    resolve tco (ls.map fun e => (e.1, g e.2)) (relab g p) = (resolve tco ls p).map (relab g)
  | [] => rfl
  | i :: p => by
    have ih := relab_resolve tco ls p
    have hn : (nextInsn (relab g p) = some .ret) ↔ (nextInsn p = some .ret) := by
      rw [relab_nextInsn]
      rcases nextInsn p with _ | a
      · simp
      · cases a <;> simp [Insn.relabel]
    cases i
    case openCall n =>
      show resolve tco _ (.openCall n :: relab g p) = _
      simp only [resolve, relab_lookup, ih]
      cases ls.lookup n with
      | none => rfl
      | some l =>
        simp only [Option.map_some]
        cases resolve tco ls p with
        | error e => rfl
        | ok q =>
          simp only [Except.map, hn, relab_labelBefore]
          split
          · split
            · rfl
            · simp [relab_nopNext, Insn.relabel]
          · rfl
    all_goals
      simp only [relab, List.map_cons, Insn.relabel, resolve] at ih ⊢
      rw [ih]
      cases resolve tco ls p <;> rfl

end relab

/-- The state after `d` more calls of `NewLabel`. -/
def CState.up (d : Nat) (s : CState) : CState := { s with lbl := d + s.lbl }

/-- The run `m'` from the state after `d` more calls does what `m` does, with other labels. -/
def Follows {α : Type} (d : Nat) (φ : α → α) (m m' : CM α) : Prop :=
  ∀ s, m' (s.up d) = (m s).map fun r => (φ r.1, r.2.up d)

theorem Follows.bind {α β : Type} {d : Nat} {φ : α → α} {ψ : β → β} {m m' : CM α} {f f' : α → CM β}
    (h : Follows d φ m m') (hf : ∀ a, Follows d ψ (f a) (f' (φ a))) :
    Follows d ψ (m >>= f) (m' >>= f') := by
  intro s
  show (m' (s.up d)).bind _ = ((m s).bind _).map _
  rw [h s]
  cases m s with
  | error e => rfl
  | ok r => exact hf r.1 r.2

theorem Follows.pure {α : Type} {d : Nat} {φ : α → α} {a b : α} (h : b = φ a) :
    Follows d φ (Pure.pure a) (Pure.pure b) := by
  intro s
  subst h
  rfl

theorem Follows.throw {α : Type} {d : Nat} {φ : α → α} {e : CErr} :
    Follows d φ (cthrow e) (cthrow e) := fun _ => rfl

theorem Follows.newLabel {sup sup' g : Nat → Nat} {d : Nat} (h : ∀ i, sup' (d + i) = g (sup i)) :
    Follows d g (newLabelS sup) (newLabelS sup') := by
  intro s
  simp only [newLabelS, CState.up, Except.map, Nat.add_assoc, h]

theorem Follows.newMemoId {d : Nat} : Follows d id newMemoId newMemoId := fun _ => rfl

theorem Follows.useTco {d : Nat} : Follows d id useTco useTco := fun _ => rfl

theorem compileDefsS_follows {sup sup' g : Nat → Nat} {d : Nat}
    (h : ∀ i, sup' (d + i) = g (sup i)) {comp comp' : Pat → CM Program}
    (hc : ∀ p, Follows d (relab g) (comp p) (comp' p)) (start : String) (used : List String) :
    ∀ defs : Defs, Follows d (fun r => (r.1.map fun e => (e.1, g e.2), relab g r.2))
      (compileDefsS sup comp start used defs) (compileDefsS sup' comp' start used defs)
  | .nil => Follows.pure rfl
  | .cons k v rest => by
    unfold compileDefsS
    split
    · exact compileDefsS_follows h hc start used rest
    · refine (Follows.newLabel h).bind fun l => (hc v).bind fun fn =>
        (compileDefsS_follows h hc start used rest).bind fun r => Follows.pure ?_
      simp [relab, Insn.relabel]

/-- The compiler never looks at the numbers of the labels. -/
theorem compileS_follows {sup sup' g : Nat → Nat} {d : Nat}
    (h : ∀ i, sup' (d + i) = g (sup i)) : ∀ (k : Nat) (p : Pat),
    Follows d (relab g) (compileS sup k p) (compileS sup' k p)
  | 0, _ => Follows.throw
  | k + 1, p => by
    have ih := compileS_follows h k
    have nl := Follows.newLabel h
    cases p with
    | alt l r =>
      simp only [compileS]
      split
      · exact Follows.pure rfl
      · exact (ih _).bind fun a => (ih _).bind fun b => nl.bind fun l1 => nl.bind fun l2 =>
          Follows.pure (relab_altCode ..)
    | seq l r =>
      simp only [compileS]
      exact (ih _).bind fun a => (ih _).bind fun b => Follows.pure (by simp)
    | star p =>
      simp only [compileS]
      split
      · exact Follows.pure rfl
      · exact (ih _).bind fun a => nl.bind fun l1 => nl.bind fun l2 => nl.bind fun l3 =>
          nl.bind fun l4 => Follows.newMemoId.bind fun id => Follows.pure (by simp [Insn.relabel])
      · exact (ih _).bind fun a => nl.bind fun l1 => nl.bind fun l2 =>
          Follows.pure (by simp [Insn.relabel])
    | plus p =>
      simp only [compileS]
      exact (ih _).bind fun a => (ih _).bind fun b => Follows.pure (by simp)
    | opt p =>
      simp only [compileS]
      split
      · exact nl.bind fun l1 => Follows.pure rfl
      · exact nl.bind fun l1 => Follows.pure rfl
      · exact ih _
    | not p =>
      simp only [compileS]
      exact (ih _).bind fun a => nl.bind fun l1 => Follows.pure (by simp [Insn.relabel])
    | and p =>
      simp only [compileS]
      exact (ih _).bind fun a => nl.bind fun l1 => nl.bind fun l2 =>
        Follows.pure (by simp [Insn.relabel])
    | cap p id =>
      simp only [compileS]
      exact (ih _).bind fun a => Follows.pure (relab_capCode ..)
    | memo p id =>
      simp only [compileS]
      exact nl.bind fun l1 => (ih _).bind fun a => Follows.pure (by simp [Insn.relabel])
    | check p c id flag =>
      simp only [compileS]
      exact nl.bind fun l1 => (ih _).bind fun a => Follows.pure (by simp [Insn.relabel])
    | search p =>
      simp only [compileS]
      refine (ih _).bind fun a => ?_
      rw [relab_searchRest]
      exact ih _
    | grammar start defs =>
      simp only [compileS]
      split
      · split
        · exact ih _
        · exact Follows.throw
      · refine Follows.useTco.bind fun tco => nl.bind fun lend =>
          (compileDefsS_follows h ih start _ _).bind fun r => ?_
        refine Follows.bind (φ := relab g) (fun s => ?_) fun code => Follows.pure (by simp [Insn.relabel])
        have := relab_resolve g tco r.1 ([.openCall start, .jump lend] ++ r.2)
        simp only [relab, List.map_append, List.map_cons, List.map_nil, Insn.relabel] at this
        show (resolve (id tco) _ _).map _ = ((resolve tco _ _).map _).map _
        simp only [id]
        rw [this]
        cases resolve tco r.1 ([.openCall start, .jump lend] ++ r.2) <;> rfl
    | inl n b =>
      simp only [compileS]
      exact ih _
    | errRec m p =>
      simp only [compileS]
      exact (ih _).bind fun a => Follows.pure (by simp [Insn.relabel])
    | lit s =>
      simp only [compileS]
      exact Follows.pure (by simp [Insn.relabel])
    | _ => exact Follows.pure rfl

theorem compileDefsS_id (comp : Pat → CM Program) (start : String) (used : List String) :
    ∀ defs : Defs, compileDefsS id comp start used defs = compileDefs comp start used defs
  | .nil => rfl
  | .cons k v rest => by
    unfold compileDefsS compileDefs
    rw [compileDefsS_id comp start used rest]
    rfl

/-- With the counter of the process as the supply it is `compileF`. -/
theorem compileS_id : ∀ (k : Nat) (p : Pat), compileS id k p = compileF k p
  | 0, _ => rfl
  | k + 1, p => by
    have ih : compileS id k = compileF k := funext (compileS_id k)
    have nl : newLabelS id = newLabel := rfl
    have cd := compileDefsS_id (compileF k)
    cases p <;> simp only [compileS, compileF, ih, nl, cd] <;> rfl

/-! ## The bytes do not depend on the numbers -/

section inj
variable {g : Nat → Nat} (hg : ∀ a b, g a = g b → a = b)
include hg

theorem relab_labelIdxFrom (l : Nat) : ∀ (p : Program) (i d : Nat),
    labelIdxFrom (g l) (relab g p) i d = labelIdxFrom l p i d
  | [], _, _ => rfl
  | x :: p, i, d => by
    have ih := relab_labelIdxFrom l p
    have hl : ∀ l', (g l' = g l) ↔ (l' = l) := fun l' => ⟨hg _ _, fun h => h ▸ rfl⟩
    cases x <;> simp only [relab, List.map_cons, Insn.relabel, labelIdxFrom] at ih ⊢ <;>
      simp only [ih, hl]

theorem relab_labelOffs (l : Nat) : ∀ (p : Program) (i d : Nat),
    labelOffs (g l) (relab g p) i d = labelOffs l p i d
  | [], _, _ => rfl
  | x :: p, i, d => by
    have ih := relab_labelOffs l p
    have hl : ∀ l', (g l' = g l) ↔ (l' = l) := fun l' => ⟨hg _ _, fun h => h ▸ rfl⟩
    cases x <;> simp only [relab, List.map_cons, Insn.relabel, labelOffs, Insn.size] at ih ⊢ <;>
      simp only [ih, hl]

omit hg in
theorem relab_optStep {lb lb' : Nat → Nat} (h : ∀ l, lb' (g l) = lb l) (p : Program) (i : Nat) :
    optStep lb' (relab g p) i = relab g (optStep lb p i) := by
  unfold optStep
  simp only [relab, List.getElem?_map]
  rcases p[i]? with _ | x
  · rfl
  · cases x <;> simp only [Option.map_some, Insn.relabel]
    case choice l =>
      rcases p[i + 1]? with _ | y
      · rfl
      · cases y <;> simp only [Option.map_some, Insn.relabel, List.map_set]
    case jump l =>
      rw [h, ← List.map_drop, relab_nextInsn]
      rcases nextInsn (p.drop (lb l)) with _ | y
      · rfl
      · have : isCtl (y.relabel g) = isCtl y := by cases y <;> rfl
        simp only [Option.map_some, this]
        split
        · simp only [List.map_set]
        · rfl

theorem relab_optimize (p : Program) : optimize (relab g p) = relab g (optimize p) := by
  have h : ∀ l, labelIdx (relab g p) (g l) = labelIdx p l := fun l => relab_labelIdxFrom hg l p 0 0
  unfold optimize
  simp only [List.length_map]
  generalize labelIdx (relab g p) = lb' at h
  generalize labelIdx p = lb at h
  generalize List.range p.length = is
  induction is generalizing p with
  | nil => rfl
  | cons i is ih =>
    simp only [List.foldl_cons]
    rw [relab_optStep h, ih]

omit hg in
theorem relab_encodeLoop {lb lb' : Nat → Nat} (h : ∀ l, lb' (g l) = lb l) : ∀ (p : Program) (c : Code),
    encodeLoop lb' c (relab g p) = encodeLoop lb c p
  | [], _ => rfl
  | x :: p, c => by
    have ih := relab_encodeLoop h p
    have ha : encodeArgs lb' c (x.relabel g) = encodeArgs lb c x := by
      cases x <;> simp only [Insn.relabel, encodeArgs, h]
    have ho : opc (x.relabel g) = opc x := by cases x <;> rfl
    simp only [relab, List.map_cons, encodeLoop, relab_isSkip, ha, ho] at ih ⊢
    simp only [ih]

theorem relab_encode (p : Program) : encode (relab g p) = encode p := by
  unfold encode
  rw [relab_encodeLoop (fun l => relab_labelOffs hg l p 0 0)]

end inj

end Gpeg
