import Verif.SimMain
import Verif.OptSim
import Verif.Leaves
/-!
# From the simulation of segments to whole runs
-/
namespace Gpeg
variable {τ σ : Type}

/-- `pattern.Compile` (`pattern/compile.go:19-29`): `k` bounds the recursion of the model. -/
def compile (k : Nat) (p : Pat) : CM Program := do
  let c ← compileF k p
  pure (optimize c)

/-- The result `r` of a whole run corresponds to the evaluation `e`. -/
def TopRes (P : Par τ σ) (e : Ev σ) (r : XRes Flat τ σ) : Prop :=
  match e with
  | (.ok pos cs, far, w) => ∃ a b ch src tbl,
      r = .done true (some (.dummy a b ch)) src w.errs tbl w.cst ∧ src.data = P.data ∧ src.pos = pos ∧
      P.cr ch cs ∧ (P.iv = none → a = 0 ∧ b = pos) ∧ P.TInv tbl src.furthest ∧
      (P.trk → far ≤ src.furthest + 1)
  | (.fail, far, w) => ∃ src tbl, r = .done false none src w.errs tbl w.cst ∧ src.data = P.data ∧
      P.TInv tbl src.furthest ∧ (P.trk → far ≤ src.furthest + 1)
  | (.abort pos, far, w) => ∃ cap src tbl, r = .done false cap src w.errs tbl w.cst ∧ src.data = P.data ∧
      src.pos = pos ∧ P.TInv tbl src.furthest ∧ (P.trk → far ≤ src.furthest + 1)

/-- The initial state of a run. -/
def Par.init (P : Par τ σ) (t : τ) (cst : σ) : VM Flat τ σ := initVM P.cfg ⟨P.data, 0, 0⟩ t cst

theorem top_seg {P : Par τ σ} {raw : Program} (hprog : P.prog = withEnd raw) (hno : ∀ n, .openCall n ∉ raw) :
    Seg P.prog (fun _ => none) false 0 0 raw := by
  intro i insn _ hi
  have hp : P.prog[i]? = some insn := by rw [hprog]; exact withEnd_some hi
  rw [Nat.zero_add]
  cases insn with
  | openCall n => exact absurd (List.mem_of_getElem? hi) (hno n)
  | _ => exact hp

theorem top_pre {P : Par τ σ} {t : τ} {st : σ} (hT : P.TInv (P.init t st).tbl 0) : Pre P (P.init t st) 0 0 ⟨[], st⟩ := by
  have hstk : (P.init t st).stk = [] := by unfold Par.init initVM; split <;> rfl
  refine ⟨?_, ?_, ?_, Nat.zero_le _, ?_, ?_, ?_, ?_⟩
  · unfold Par.init initVM; split <;> rfl
  · unfold Par.init initVM; split <;> rfl
  · unfold Par.init initVM; split <;> rfl
  · have : (P.init t st).src.furthest = 0 := by unfold Par.init initVM; split <;> rfl
    rw [this]; exact hT
  · unfold Par.init initVM; split <;> rfl
  · unfold Par.init initVM; split <;> rfl
  · intro e r h; rw [hstk] at h; cases h

/-- The forward direction, from the simulation of the pattern in this direction. -/
theorem top_fwd {P : Par τ σ} {k : Nat} {p : Pat} {cst cst' : CState} {raw : Program} (hsim : ∀ n, SimPat P (.fwd n) k p)
    (hprog : P.prog = withEnd raw) (hc : CM.Ok (compileF k p) cst raw cst')
    (ho : ∀ o ∈ memoOcc k [] p cst, OccOK P o) (hs : p.Scoped) (hno : ∀ n, .openCall n ∉ raw)
    (t : τ) (st : σ) (hT : P.TInv (P.init t st).tbl 0)
    (e : Ev σ) (he : Evals P.ctx [] p 0 ⟨[], st⟩ e) : ∃ r, Yields P.step (P.init t st) r ∧ TopRes P e r := by
  have hseg := top_seg hprog hno
  have hg : GOK P [] (fun _ => none) := fun n L h => by cases h
  have hpre := top_pre hT
  have hstk : (P.init t st).stk = [] := by unfold Par.init initVM; split <;> rfl
  have hcapt : (P.init t st).capt = [] := by unfold Par.init initVM; split <;> rfl
  obtain ⟨n, he⟩ := he
  obtain ⟨o, hreach, hgood⟩ := hsim n false [] _ cst cst' raw 0 0 0 _ _ hc hg ho hs hseg (matched_zero _ _ _) hpre (fun _ => noted_start _ _ _)
    (fun h => by cases h) e he
  obtain ⟨res, far, w⟩ := e
  rw [hstk, hcapt] at hgood
  cases res with
  | ok pos cs =>
    obtain ⟨s, caps, rfl, hx, hpos, hcr, hpost⟩ := hgood
    obtain ⟨hip, _, hcp⟩ := hx
    have hcp' : s.capt = caps := by
      rw [hcp]; rfl
    have hip' : s.ip = raw.length := by rw [hip, Nat.zero_add]
    have hend : P.prog[s.ip]? = some (.endI false) := by
      rw [hip', hprog]; simp [withEnd]
    have hstep : P.step s = .halt true (some (match P.iv with
        | some _ => Capture.dummy s.rng.low (s.rng.high - s.rng.low) s.capt
        | none => Capture.dummy 0 s.src.pos s.capt)) s := by
      unfold Par.step stepL
      rw [hend]; rfl
    refine ⟨.done true (some (match P.iv with
        | some _ => Capture.dummy s.rng.low (s.rng.high - s.rng.low) s.capt
        | none => Capture.dummy 0 s.src.pos s.capt)) s.src s.errs s.tbl s.cst,
      yields_iff.2 ⟨_, hreach.trans ((Reach.one s)), ?_⟩, ?_⟩
    · rw [hstep]; rfl
    · rw [hcp', hpos]
      cases hiv : P.iv with
      | none =>
        exact ⟨0, pos, caps, s.src, s.tbl, by rw [hpost.errs, hpost.cst], hpost.data, hpos, hcr,
          fun _ => ⟨rfl, rfl⟩, hpost.tinv, hpost.far⟩
      | some iv =>
        exact ⟨_, _, caps, s.src, s.tbl, by rw [hpost.errs, hpost.cst], hpost.data, hpos, hcr,
          fun h => (by rw [hiv] at h; cases h), hpost.tinv, hpost.far⟩
  | fail =>
    obtain ⟨s, rfl, _, hpost⟩ := hgood
    refine ⟨.done false none s.src s.errs s.tbl s.cst, yields_iff.2 ⟨_, hreach, rfl⟩, ?_⟩
    exact ⟨s.src, s.tbl, by rw [hpost.errs, hpost.cst], hpost.data, hpost.tinv, hpost.far⟩
  | abort pos =>
    obtain ⟨s, cap, rfl, hpos, hpost⟩ := hgood
    refine ⟨.done false cap s.src s.errs s.tbl s.cst, yields_iff.2 ⟨_, hreach, rfl⟩, ?_⟩
    exact ⟨cap, s.src, s.tbl, by rw [hpost.errs, hpost.cst], hpost.data, hpos, hpost.tinv, hpost.far⟩

theorem top_sim {P : Par τ σ} (hP : P.Ok) {k : Nat} {p : Pat} {cst cst' : CState} {raw : Program}
    (hprog : P.prog = withEnd raw) (hc : CM.Ok (compileF k p) cst raw cst')
    (ho : ∀ o ∈ memoOcc k [] p cst, OccOK P o) (hs : p.Scoped) (hno : ∀ n, .openCall n ∉ raw)
    (t : τ) (st : σ) (hT : P.TInv (P.init t st).tbl 0)
    (hA : ∀ id, P.Ask id := by exact fun _ => trivial) :
    (∀ e, Evals P.ctx [] p 0 ⟨[], st⟩ e → ∃ r, Yields P.step (P.init t st) r ∧ TopRes P e r) ∧
    ((∃ r, Yields P.step (P.init t st) r) → ∃ e, Evals P.ctx [] p 0 ⟨[], st⟩ e) := by
  refine ⟨top_fwd (fun n => sim_fwd hP hA n k p) hprog hc ho hs hno t st hT, fun ⟨r, hr⟩ =>
    (sim_all hP hA hc (fun n L h => by cases h) ho hs (top_seg hprog hno) (top_pre hT)).2 ?_⟩
  obtain ⟨o, ⟨K, hK⟩, hres⟩ := yields_iff.1 hr
  refine ⟨K, ?_⟩
  unfold StopsIn
  rw [hK]
  cases o <;> first | rfl | cases hres

/-- Both directions in one: a run yields `r` only if the pattern evaluates correspondingly. -/
theorem top_sim' {P : Par τ σ} (hP : P.Ok) {k : Nat} {p : Pat} {cst cst' : CState} {raw : Program}
    (hprog : P.prog = withEnd raw) (hc : CM.Ok (compileF k p) cst raw cst')
    (ho : ∀ o ∈ memoOcc k [] p cst, OccOK P o) (hs : p.Scoped) (hno : ∀ n, .openCall n ∉ raw)
    (t : τ) (st : σ) (hT : P.TInv (P.init t st).tbl 0) {r : XRes Flat τ σ} (hr : Yields P.step (P.init t st) r)
    (hA : ∀ id, P.Ask id := by exact fun _ => trivial) :
    ∃ e, Evals P.ctx [] p 0 ⟨[], st⟩ e ∧ TopRes P e r := by
  obtain ⟨h1, h2⟩ := top_sim hP hprog hc ho hs hno t st hT hA
  obtain ⟨e, he⟩ := h2 ⟨r, hr⟩
  obtain ⟨r', hr', hres⟩ := h1 e he
  rw [hr.unique hr']
  exact ⟨e, he, hres⟩

/-! ## The program is well formed -/

theorem optStep_openCall (lbls : Nat → Nat) (p : Program) (i : Nat) {j : Nat} {n : String}
    (h : p[j]? = some (.openCall n)) : (optStep lbls p i)[j]? = some (.openCall n) := by
  unfold optStep
  split
  · rename_i l hi
    have key : ∀ {x y : Insn}, p[i + 1]? = some x → (∀ n, x ≠ .openCall n) →
        ((p.set i y).set (i + 1) .nop)[j]? = some (.openCall n) := by
      intro x y hx hne
      have h1 : i + 1 ≠ j := by
        rintro rfl; rw [hx] at h; cases h; exact hne n rfl
      have h2 : i ≠ j := by rintro rfl; rw [hi] at h; cases h
      rw [List.getElem?_set_ne h1, List.getElem?_set_ne h2]; exact h
    split
    · rename_i hx; exact key hx (by simp)
    · rename_i hx; exact key hx (by simp)
    · rename_i hx; exact key hx (by simp)
    · exact h
  · rename_i l hi
    have h2 : i ≠ j := by rintro rfl; rw [hi] at h; cases h
    split
    · split
      · rw [List.getElem?_set_ne h2]; exact h
      · exact h
    · exact h
  · exact h

theorem optimize_openCall {p : Program} {n : String} (h : .openCall n ∈ p) : .openCall n ∈ optimize p := by
  obtain ⟨j, hj⟩ := List.getElem?_of_mem h
  have gen : ∀ (is : List Nat) (q : Program), q[j]? = some (.openCall n) →
      (is.foldl (optStep (labelIdx p)) q)[j]? = some (.openCall n) := by
    intro is
    induction is with
    | nil => intro q h; exact h
    | cons i is ih => intro q h; exact ih _ (optStep_openCall _ _ _ h)
  exact List.mem_of_getElem? (gen _ p hj)

theorem encodeLoop_openCall {lb : Nat → Nat} {p : Program} {n : String} (h : .openCall n ∈ p) (c : Code) :
    encodeLoop lb c p = none := by
  induction p generalizing c with
  | nil => cases h
  | cons i p ih =>
    unfold encodeLoop
    rcases List.mem_cons.1 h with rfl | h
    · rfl
    · split
      · exact ih h c
      · split
        · rfl
        · exact ih h _

/-- `Encode` panics on a program with an unresolved call. -/
theorem encode_openCall {p : Program} {code : Code} (h : encode p = some code) (n : String) : .openCall n ∉ p := by
  intro hn
  unfold encode at h
  rw [encodeLoop_openCall hn] at h
  cases h

/-- The pattern skips bytes only one at a time. -/
def Pat.Dots1 (p : Pat) : Prop := ∀ n, Leaf.dot n ∈ p.leaves → n = 1

theorem dots_raw {k : Nat} {p : Pat} {cst cst' : CState} {raw : Program} (hd : p.Dots1)
    (hc : CM.Ok (compileF k p) cst raw cst') {n : UInt8} (h : .any n ∈ raw) : n = 1 :=
  hd n (compile_leaf (i := .any n) rfl k hc h)

theorem testAny_raw {k : Nat} {p : Pat} {cst cst' : CState} {raw : Program} (hd : p.Dots1)
    (hc : CM.Ok (compileF k p) cst raw cst') {n : UInt8} {l : Nat} (h : .testAny n l ∈ raw) : n = 1 :=
  hd n (compile_leaf (i := .testAny n l) rfl k hc h)

theorem dots1_raw {k : Nat} {p : Pat} {cst cst' : CState} {raw : Program} (hd : p.Dots1)
    (hc : CM.Ok (compileF k p) cst raw cst') : Gpeg.Dots1 raw := by
  rintro i hi n (rfl | ⟨l, rfl⟩)
  · rw [dots_raw hd hc hi]; decide
  · rw [testAny_raw hd hc hi]; decide

theorem dots1_withEnd {q : Program} (hq : Gpeg.Dots1 q) : Gpeg.Dots1 (withEnd q) := by
  intro i hi n hn
  rcases List.mem_append.1 hi with h | h
  · exact hq i h n hn
  · simp only [List.mem_singleton] at h
    subst h
    rcases hn with h | ⟨l, h⟩ <;> cases h

theorem lab_raw {k : Nat} {p : Pat} {cst cst' : CState} {raw : Program}
    (hc : CM.Ok (compileF k p) cst raw cst') (i l : Nat) (h : (withEnd raw)[i]? = some (.label l)) :
    labelIdx (withEnd raw) l = i := by
  have hi : raw[i]? = some (.label l) := by
    unfold withEnd at h
    rcases Nat.lt_or_ge i raw.length with h' | h'
    · rw [List.getElem?_append_left h'] at h; exact h
    · rw [List.getElem?_append_right h'] at h
      cases hj : i - raw.length with
      | zero => rw [hj] at h; cases h
      | succ n => rw [hj] at h; cases h
  rw [labelIdx_withEnd]
  exact labelIdx_eq ((compile_lab k hc).one l) hi

/-! ## The whole chain -/

/-- Bytecode on a chunked input, against the labelled, unoptimized program on a flat cursor. -/
theorem chain (tab : TableOps τ) (chk : CheckFn σ) (iv : Option Interval) {raw : Program} {code : Code}
    (hd : Gpeg.Dots1 raw) (he : encode (optimize raw) = some code) {i : Input} {f : Flat} (h : InputRel i f)
    (t : τ) (cst : σ) (x : XRes Flat τ σ) :
    (∃ r, Execs ⟨chunkedOps, tab, chk, iv⟩ code i t cst r ∧ r.map Input.flat = x) ↔
      Yields (stepL ⟨flatOps, tab, chk, iv⟩ (withEnd raw)) (initVM ⟨flatOps, tab, chk, iv⟩ f t cst) x := by
  have ho := optimize_ok tab chk iv hd
  have h1 := (chunked_run tab chk iv (dots1_withEnd ho.dots) h t cst).yields_chunked x
  rw [((ho.run f t cst).yields x), ← h1]
  constructor
  · rintro ⟨r, hr, hx⟩
    exact ⟨r, ((encode_run _ he i t cst).yields r).2 hr, hx⟩
  · rintro ⟨r, hr, hx⟩
    exact ⟨r, ((encode_run _ he i t cst).yields r).1 hr, hx⟩

end Gpeg
