import Verif.Props.Conc
/-!
# Memoized patterns are not entered twice at one place

The simulation of `SimMain` once more, for a machine that logs its calls of the table, with an invariant that says which look-ups have failed and not been
followed by a `Put` yet: those of the memoized patterns that are being parsed. It is carried along with the fuel of the evaluation: a pattern
that is being parsed at a place has no result there with less fuel, so evaluations with less fuel do not come to it.
-/
namespace Gpeg
variable {σ : Type}

/-- Errors are only added, and one is added before the parse is given up. -/
def ErrUp (w : World σ) (e : Ev σ) : Prop :=
  w.errs.length ≤ e.2.2.errs.length ∧ ∀ q, e.1 = .abort q → w.errs.length < e.2.2.errs.length

theorem ErrUp.then {w w1 : World σ} {e : Ev σ} (h : w.errs.length ≤ w1.errs.length) (h' : ErrUp w1 e) : ErrUp w e :=
  ⟨Nat.le_trans h h'.1, fun q hq => Nat.lt_of_le_of_lt h (h'.2 q hq)⟩

theorem ErrUp.same {w w1 : World σ} {r r' : Res} {f f' : Nat} (h : ErrUp w (r, f, w1)) (h' : ∀ q, r' = .abort q → ∃ q', r = .abort q') :
    ErrUp w (r', f', w1) :=
  ⟨h.1, fun q hq => let ⟨q', hq'⟩ := h' q hq; h.2 q' hq'⟩

theorem ErrUp.prep {w w1 : World σ} {r : Res} {f f' : Nat} (cs : List CTree) (h : ErrUp w (r, f, w1)) : ErrUp w (r.prepend cs, f', w1) :=
  h.same (by cases r <;> simp [Res.prepend])

theorem searchLoop_errs {ev : Nat → World σ → Option (Ev σ)} (h : ∀ pos w e, ev pos w = some e → ErrUp w e) :
    ∀ (k pos : Nat) (w : World σ) (e : Ev σ), searchLoop ev k pos w = some e → ErrUp w e := by
  intro k
  induction k with
  | zero =>
    intro pos w e he
    rw [searchLoop] at he
    obtain ⟨⟨res, f, w1⟩, hx, he⟩ := Option.bind_eq_some_iff.1 he
    have h1 := h _ _ _ hx
    cases res <;> cases he
    · exact h1
    · exact h1.same nofun
    · exact h1
  | succ k ih =>
    intro pos w e he
    rw [searchLoop] at he
    obtain ⟨⟨res, f, w1⟩, hx, he⟩ := Option.bind_eq_some_iff.1 he
    have h1 := h _ _ _ hx
    cases res with
    | ok p cs => cases he; exact h1
    | abort p => cases he; exact h1
    | fail =>
      obtain ⟨⟨r', f', w2⟩, hy, rfl⟩ := Option.map_eq_some_iff.1 he
      exact .then h1.1 ((ih _ _ _ hy).same fun q hq => ⟨q, hq⟩)

theorem eval_errs (c : Ctx σ) : ∀ (n : Nat) (env : Env) (p : Pat) (pos : Nat) (w : World σ) (e : Ev σ), eval n c env p pos w = some e → ErrUp w e := by
  intro n
  induction n with
  | zero => intro env p pos w e h; cases h
  | succ n ih =>
    intro env p pos w e h
    have triv : ∀ (r : Res) (f : Nat), (∀ q, r ≠ .abort q) → ErrUp w (r, f, w) := fun r f h => ⟨Nat.le_refl _, fun q hq => absurd hq (h q)⟩
    cases p with
    | empty => cases h; exact triv _ _ nofun
    | lit s => rw [eval] at h; split at h <;> cases h <;> exact triv _ _ nofun
    | cls cs => rw [eval] at h; split at h <;> cases h <;> exact triv _ _ nofun
    | dot k => rw [eval] at h; split at h <;> cases h <;> exact triv _ _ nofun
    | emptyOp op => rw [eval] at h; split at h <;> cases h <;> exact triv _ _ nofun
    | seq l r =>
      rw [eval] at h
      obtain ⟨⟨res, f, w1⟩, hx, h⟩ := Option.bind_eq_some_iff.1 h
      have h1 := ih _ _ _ _ _ hx
      cases res with
      | fail => cases h; exact h1
      | abort p => cases h; exact h1
      | ok pos' cs =>
        obtain ⟨y, hy, rfl⟩ := Option.map_eq_some_iff.1 h
        obtain ⟨⟨r', f', w2⟩, hz, rfl⟩ := Option.map_eq_some_iff.1 hy
        exact .then h1.1 ((ih _ _ _ _ _ hz).prep cs)
    | alt l r =>
      rw [eval] at h
      obtain ⟨⟨res, f, w1⟩, hx, h⟩ := Option.bind_eq_some_iff.1 h
      have h1 := ih _ _ _ _ _ hx
      cases res with
      | ok p cs => cases h; exact h1
      | abort p => cases h; exact h1
      | fail =>
        obtain ⟨⟨r', f', w2⟩, hy, rfl⟩ := Option.map_eq_some_iff.1 h
        exact .then h1.1 ((ih _ _ _ _ _ hy).same fun q hq => ⟨q, hq⟩)
    | star p =>
      rw [eval] at h
      obtain ⟨⟨res, f, w1⟩, hx, h⟩ := Option.bind_eq_some_iff.1 h
      have h1 := ih _ _ _ _ _ hx
      cases res with
      | fail => cases h; exact h1.same nofun
      | abort p => cases h; exact h1
      | ok pos' cs =>
        obtain ⟨⟨r', f', w2⟩, hy, rfl⟩ := Option.map_eq_some_iff.1 h
        exact .then h1.1 ((ih _ _ _ _ _ hy).prep cs)
    | plus p =>
      rw [eval] at h
      obtain ⟨⟨res, f, w1⟩, hx, h⟩ := Option.bind_eq_some_iff.1 h
      have h1 := ih _ _ _ _ _ hx
      cases res with
      | fail => cases h; exact h1
      | abort p => cases h; exact h1
      | ok pos' cs =>
        obtain ⟨y, hy, rfl⟩ := Option.map_eq_some_iff.1 h
        obtain ⟨⟨r', f', w2⟩, hz, rfl⟩ := Option.map_eq_some_iff.1 hy
        exact .then h1.1 ((ih _ _ _ _ _ hz).prep cs)
    | opt p =>
      rw [eval] at h
      obtain ⟨⟨res, f, w1⟩, hx, h⟩ := Option.bind_eq_some_iff.1 h
      have h1 := ih _ _ _ _ _ hx
      cases res with
      | ok p cs => cases h; exact h1
      | abort p => cases h; exact h1
      | fail => cases h; exact h1.same nofun
    | not p =>
      rw [eval] at h
      obtain ⟨⟨res, f, w1⟩, hx, rfl⟩ := Option.map_eq_some_iff.1 h
      have h1 := ih _ _ _ _ _ hx
      cases res with
      | ok p cs => exact h1.same nofun
      | abort p => exact h1
      | fail => exact h1.same nofun
    | and p =>
      rw [eval] at h
      obtain ⟨⟨res, f, w1⟩, hx, rfl⟩ := Option.map_eq_some_iff.1 h
      have h1 := ih _ _ _ _ _ hx
      cases res with
      | ok p cs => exact h1.same nofun
      | abort p => exact h1
      | fail => exact h1
    | cap p id =>
      rw [eval] at h
      obtain ⟨⟨res, f, w1⟩, hx, rfl⟩ := Option.map_eq_some_iff.1 h
      have h1 := ih _ _ _ _ _ hx
      cases res with
      | ok p cs => exact h1.same nofun
      | abort p => exact h1
      | fail => exact h1
    | memo p id =>
      rw [eval] at h
      obtain ⟨⟨res, f, w1⟩, hx, rfl⟩ := Option.map_eq_some_iff.1 h
      rw [Ev.veil_mk]
      exact (ih _ _ _ _ _ hx).same fun q hq => ⟨q, hq⟩
    | inl name p => exact ih env p pos w e h
    | check p k id flag =>
      rw [eval] at h
      obtain ⟨⟨res, f, w1⟩, hx, rfl⟩ := Option.map_eq_some_iff.1 h
      have h1 := ih _ _ _ _ _ hx
      cases res with
      | ok p cs =>
        simp only []
        split
        · exact ⟨h1.1, nofun⟩
        · exact ⟨h1.1, nofun⟩
      | abort p => exact h1
      | fail => exact h1
    | err m => cases h; exact ⟨by simp, fun _ _ => by simp⟩
    | errRec m p => exact .then (by simp) (ih _ _ _ _ _ h)
    | search p =>
      obtain ⟨⟨res, f, w1⟩, hy, rfl⟩ := Option.map_eq_some_iff.1 h
      exact (searchLoop_errs (fun pos w e he => ih env p pos w e he) _ _ _ _ hy).same fun q hq => ⟨q, hq⟩
    | grammar start defs =>
      simp only [eval] at h
      cases hf : defs.find start with
      | none => rw [hf] at h; cases h
      | some b => rw [hf] at h; exact ih _ _ _ _ _ h
    | nonterm name =>
      simp only [eval] at h
      cases hf : lookupNT name env with
      | none => rw [hf] at h; cases h
      | some be => rw [hf] at h; exact ih _ _ _ _ _ h

/-- A memoized pattern that needs no errors and checkers does not give the parse up. -/
theorem Occ.Quiet.no_abort {o : Occ} {c : Ctx σ} (hq : o.Quiet c.chk) {n : Nat} {pos q f : Nat} {w w' : World σ}
    (h : eval n c o.env o.q pos w = some (.abort q, f, w')) : False := by
  have h1 := hq n c pos w _ rfl h w
  rw [h] at h1
  cases h1
  exact Nat.lt_irrefl _ ((eval_errs c n _ _ _ _ _ h).2 q rfl)

/-! ## Logs -/

/-- The id belongs to no memoized repetition. -/
def PlainId (occs : List Occ) (id : Int) : Prop := ∀ o ∈ occs, o.id = id → o.star = false

/-- A look-up failed, and nothing has been stored since. -/
def Pending (L : List TEv) (id : Int) (pos : Nat) : Prop :=
  ∃ h1 h2, L = h1 ++ .get id pos none :: h2 ∧ ∀ len exam count capt, TEv.put id pos len exam count capt ∉ h2

/-- Between two look-ups that fail something is stored. -/
def OnceL (occs : List Occ) (L : List TEv) : Prop :=
  ∀ id pos h1 h2 h3, PlainId occs id → L = h1 ++ .get id pos none :: (h2 ++ .get id pos none :: h3) →
    ∃ len exam count capt, TEv.put id pos len exam count capt ∈ h2

/-- Things are looked up for patterns of the program and at places in the text. -/
def AskedL (n : Nat) (occs : List Occ) (L : List TEv) : Prop :=
  ∀ id pos a, TEv.get id pos a ∈ L → PlainId occs id → pos ≤ n ∧ ∃ o ∈ occs, o.id = id

theorem snoc_eq {α : Type} {L h1 h2 : List α} {x y : α} (h : L ++ [x] = h1 ++ y :: h2) :
    (L = h1 ∧ x = y ∧ h2 = []) ∨ ∃ h2', h2 = h2' ++ [x] ∧ L = h1 ++ y :: h2' := by
  rcases List.eq_nil_or_concat h2 with rfl | ⟨h2', z, rfl⟩
  · obtain ⟨h3, h4⟩ := List.append_inj' h rfl
    exact .inl ⟨h3, by simpa using h4, rfl⟩
  · rw [List.concat_eq_append, ← List.cons_append, ← List.append_assoc] at h
    obtain ⟨h3, h4⟩ := List.append_inj' h rfl
    cases h4
    exact .inr ⟨h2', List.concat_eq_append, h3⟩

theorem Pending.snoc {L : List TEv} {x : TEv} {id : Int} {pos : Nat} (h : Pending (L ++ [x]) id pos) :
    (Pending L id pos ∧ ∀ len exam count capt, x ≠ .put id pos len exam count capt) ∨ x = .get id pos none := by
  obtain ⟨h1, h2, h3, h4⟩ := h
  rcases snoc_eq h3 with ⟨-, rfl, -⟩ | ⟨h2', rfl, h5⟩
  · exact .inr rfl
  · refine .inl ⟨⟨h1, h2', h5, fun len exam count capt hm => h4 _ _ _ _ (List.mem_append_left _ hm)⟩, ?_⟩
    rintro len exam count capt rfl
    exact h4 len exam count capt (List.mem_append_right _ (List.mem_singleton.2 rfl))

theorem OnceL.snoc {occs : List Occ} {L : List TEv} {x : TEv} (h : OnceL occs L)
    (hx : ∀ id pos, x = .get id pos none → PlainId occs id → ¬ Pending L id pos) : OnceL occs (L ++ [x]) := by
  intro id pos h1 h2 h3 hp he
  rw [← List.cons_append, ← List.append_assoc] at he
  rcases snoc_eq he with ⟨e, rfl, -⟩ | ⟨h3', rfl, e⟩
  · refine Classical.byContradiction fun hn => hx id pos rfl hp ⟨h1, h2, e, fun len exam count capt hm => hn ⟨len, exam, count, capt, hm⟩⟩
  · exact h id pos h1 h2 h3' hp (by rw [e, List.append_assoc, List.cons_append])

theorem AskedL.snoc {n : Nat} {occs : List Occ} {L : List TEv} {x : TEv} (h : AskedL n occs L)
    (hx : ∀ id pos a, x = .get id pos a → PlainId occs id → pos ≤ n ∧ ∃ o ∈ occs, o.id = id) : AskedL n occs (L ++ [x]) := by
  intro id pos a hm hp
  rcases List.mem_append.1 hm with hm | hm
  · exact h _ _ _ hm hp
  · exact hx _ _ _ (List.mem_singleton.1 hm).symm hp

/-! ## The simulation -/

section
variable {data : List UInt8} {chk : CheckFn σ} {prog : Program} {occs : List Occ} {ans : Answers} {O : List (Int × Nat)}

/-- What is known of the log while the patterns of `O` are being parsed. -/
structure LogInv (data : List UInt8) (chk : CheckFn σ) (occs : List Occ) (O : List (Int × Nat)) (L : List TEv) : Prop where
  true_ : TrueLog data chk occs L
  once : OnceL occs L
  asked : AskedL data.length occs L
  pend : ∀ id pos, PlainId occs id → Pending L id pos → (id, pos) ∈ O

/-- A run of a thread, while the patterns of `O` are being parsed. -/
def oncePar (data : List UInt8) (chk : CheckFn σ) (prog : Program) (occs : List Occ) (ans : Answers) (O : List (Int × Nat)) : Par (List TEv) σ :=
  { threadPar data chk prog occs ans with
    TInv := fun L _ => LogInv data chk occs O L
    Ask := fun id => ∃ o ∈ occs, o.id = id ∧ o.star = true
    Kn := fun o => o ∈ occs }

theorem trueLog_get {L : List TEv} (h : TrueLog data chk occs L) (id : Int) (pos : Nat) (a : Option MEntry) :
    TrueLog data chk occs (L ++ [.get id pos a]) := by
  intro id' pos' len exam count capt hm
  rcases List.mem_append.1 hm with hm | hm
  · exact h _ _ _ _ _ _ hm
  · simp at hm

theorem LogInv.put {L : List TEv} {O' : List (Int × Nat)} (h : LogInv data chk occs O' L) {id : Int} {pos : Nat} {len : Option Nat} {exam count : Nat}
    {capt : List Capture} {f : Nat} (hm : ∀ o ∈ occs, o.id = id → EntOK ⟨data, chk, false⟩ False o pos ⟨len, exam, count, capt⟩ f)
    (hO : ∀ x ∈ O', x ∈ O ∨ x = (id, pos)) : LogInv data chk occs O (L ++ [.put id pos len exam count capt]) where
  true_ := by
    intro id' pos' len' exam' count' capt' hm'
    rcases List.mem_append.1 hm' with hm' | hm'
    · exact h.true_ _ _ _ _ _ _ hm'
    · cases List.mem_singleton.1 hm'
      exact fun o ho hid => (hm o ho hid).any
  once := h.once.snoc nofun
  asked := h.asked.snoc nofun
  pend id' pos' hp hpe := by
    rcases hpe.snoc with ⟨h1, h2⟩ | h1
    · rcases hO _ (h.pend _ _ hp h1) with h3 | h3
      · exact h3
      · cases h3
        exact absurd rfl (h2 _ _ _ _)
    · cases h1

theorem oncePar_ok (hchk : CheckOK chk) (hp : ProgOK prog) (ha : TrueAns data chk occs ans) : (oncePar data chk prog occs ans O).Ok where
  lab := hp.lab
  any1 := hp.any1
  chk := hchk
  cr_nil := by simp [oncePar, threadPar, Capture.treesL, CTree.pruneL]
  cr_app := (cr_ok none).1
  cr_node id h1 h2 h3 := (cr_ok none).2.1 id h1 h2 h3
  cr_skip id h1 h2 _ := (cr_ok none).2.2.1 id h1 h2
  cr_dummy s l _ h := (cr_ok none).2.2.2 s l h
  tmono h _ := h
  get {t f id pos r t'} h hg hA := by
    cases hg
    obtain ⟨o, ho, hid, hs⟩ := hA
    have hnp : ¬ PlainId occs id := fun h => by have := h o ho hid; rw [hs] at this; cases this
    refine ⟨⟨trueLog_get h.true_ _ _ _, h.once.snoc ?_, h.asked.snoc ?_, fun id' pos' hp hpe => ?_⟩,
      fun m hm o ho hid => (ha _ _ _ _ hm o ho hid).any⟩
    · intro id' pos' he hp
      injection he with e1
      exact absurd (e1 ▸ hp) hnp
    · intro id' pos' a he hp
      injection he with e1
      exact absurd (e1 ▸ hp) hnp
    · rcases hpe.snoc with ⟨h1, -⟩ | h1
      · exact h.pend _ _ hp h1
      · injection h1 with e1
        exact absurd (e1 ▸ hp) hnp
  put {t f id pos len exam count capt} h hm := LogInv.put h hm fun x hx => .inl hx

theorem oncePar_occ (hchk : CheckOK chk) (ho : OccsOK chk occs) (o : Occ) (hm : o ∈ occs) : OccOK (oncePar data chk prog occs ans O) o := by
  have h := threadPar_occ (data := data) (prog := prog) (ans := ans) hchk ho o hm
  unfold OccOK at h ⊢
  split
  · rename_i hs
    rw [if_pos hs] at h
    exact ⟨h.put, h.get, o, hm, rfl, hs⟩
  · rename_i hs
    rw [if_neg hs] at h
    refine ⟨h.put, h.get, ?_⟩
    have : o = ⟨o.id, false, o.q, o.env⟩ := by
      obtain ⟨i, s, q, e⟩ := o
      have : s = false := by simpa using hs
      rw [this]
    exact this ▸ hm

theorem OccOK.once {o : Occ} (h : OccOK (oncePar data chk prog occs ans O) o) (O' : List (Int × Nat)) :
    OccOK (oncePar data chk prog occs ans O') o := by
  unfold OccOK at h ⊢
  split
  · rename_i hs
    rw [if_pos hs] at h
    exact ⟨h.put, h.get, h.ask⟩
  · rename_i hs
    rw [if_neg hs] at h
    exact ⟨h.put, h.get, h.kn⟩

theorem GOK.once {env : Env} {lbls : String → Option Nat} (h : GOK (oncePar data chk prog occs ans O) env lbls) (O' : List (Int × Nat)) :
    GOK (oncePar data chk prog occs ans O') env lbls := by
  intro n L hL
  obtain ⟨d, env0, body, k, cst, raw, cst', tl, h1, h2, h3, h4, h5, h6, h7, h8⟩ := h n L hL
  exact ⟨d, env0, body, k, cst, raw, cst', tl, h1, h2, h3, h4, fun o ho => (h5 o ho).once O', h6, h7, h8⟩

/-- The patterns of `O` have no result with less fuel than `n`. -/
def Starved (data : List UInt8) (chk : CheckFn σ) (occs : List Occ) (n : Nat) (O : List (Int × Nat)) : Prop :=
  ∀ x ∈ O, ∀ o ∈ occs, o.id = x.1 → ∀ m < n, ∀ w, eval m ⟨data, chk, false⟩ o.env o.q x.2 w = none

theorem Starved.mono {n n' : Nat} (h : Starved data chk occs n O) (hn : n' ≤ n) : Starved data chk occs n' O :=
  fun x hx o ho hid m hm w => h x hx o ho hid m (Nat.lt_of_lt_of_le hm hn) w

/-- The least fuel with a result. -/
theorem least_fuel {F : Nat → Option (Ev σ)} {n : Nat} {e : Ev σ} (h : F n = some e) : ∃ m ≤ n, (∃ e, F m = some e) ∧ ∀ j < m, F j = none := by
  induction n using Nat.strongRecOn generalizing e with
  | ind n ih =>
    by_cases hj : ∃ j < n, ∃ e, F j = some e
    · obtain ⟨j, hj, e', he⟩ := hj
      obtain ⟨m, h1, h2⟩ := ih j hj he
      exact ⟨m, by omega, h2⟩
    · refine ⟨n, Nat.le_refl _, ⟨e, h⟩, fun j hjn => ?_⟩
      cases hF : F j with
      | none => rfl
      | some e' => exact absurd ⟨j, hjn, e', hF⟩ hj

theorem memo_once {n k : Nat} (hchk : CheckOK chk) (hprog : ProgOK prog) (ha : TrueAns data chk occs ans) (hocs : OccsOK chk occs)
    (hS : Starved data chk occs (n + 1) O)
    (ih : ∀ m ≤ n, ∀ O, Starved data chk occs m O → ∀ (k : Nat) (p : Pat), SimPat (oncePar data chk prog occs ans O) (.fwd m) k p)
    (p : Pat) (id : Int) : SimPat (oncePar data chk prog occs ans O) (.fwd (n + 1)) (k + 1) (.memo p id) := by
  have hP := oncePar_ok (O := O) hchk hprog ha
  generalize hPd : oncePar data chk prog occs ans O = P at hP ⊢
  refine simPat_of_normal ?_ ?_
  · intro cst raw cst' h
    obtain ⟨sub, h1, rfl⟩ := comp_memo h
    exact noTailOpen_app (insn := .memoClose) nofun rfl (by simp)
  · intro env lbls cst cst' raw a j pos w s hcomp hg hocc hsc hseg hmat hpre htrk htail
    obtain ⟨sub, h1, hraw⟩ := comp_memo hcomp
    have hM : MemoOK P id p env := by
      have := hocc ⟨id, false, p, env⟩ (by simp only [memoOcc]; exact List.mem_cons_self)
      exact this
    have hocc' : ∀ o ∈ memoOcc k env (get p) (cst.bump 1), OccOK P o := fun o ho => hocc o (by
      simp only [memoOcc]; exact List.mem_cons_of_mem _ ho)
    generalize cst.lbl + 1 = l1 at *
    have hj : j = 0 := (show Complex raw from ⟨_, _, by rw [hraw]; rfl, fun _ _ => rfl⟩).matched hmat
    subst hj
    have hlen : a + raw.length = a + 1 + sub.length + 1 + 1 := by rw [hraw]; simp; omega
    have i0 := hseg.at2 (idx := a) [] (sub ++ [.memoClose, .label l1])
      (insn := .memoOpen l1 id) (by rw [hraw]; simp) nofun rfl
    have i1 := hseg.at2 (idx := a + 1 + sub.length) (.memoOpen l1 id :: sub) [.label l1]
      (insn := .memoClose) (by rw [hraw]; simp) nofun (by simp; omega)
    have i2 := hseg.at2 (idx := a + 1 + sub.length + 1) (.memoOpen l1 id :: (sub ++ [.memoClose]))
      [] (insn := .label l1) (by rw [hraw]; simp) nofun (by simp; omega)
    have ss : Seg P.prog lbls false 0 (a + 1) sub := hseg.mid [.memoOpen l1 id] sub
      [.memoClose, .label l1] (by rw [hraw]; simp) (Or.inr rfl) (by simp)
    have hpos0 : s.src.pos = pos := hpre.pos
    have hip0 : s.ip = a := hpre.ip
    have hle : pos ≤ P.data.length := hpre.le
    rw [hlen]
    subst hPd
    let P := oncePar data chk prog occs ans O
    let P' := oncePar data chk prog occs ans ((id, pos) :: O)
    have hin : (⟨id, false, p, env⟩ : Occ) ∈ occs := hM.kn
    have hplain : PlainId occs id := fun o ho hid => (hocs.inj _ hin o ho hid.symm).1.symm
    intro e he
    have he' := he
    simp only [eval] at he'
    obtain ⟨e1, hev0, -⟩ := Option.map_eq_some_iff.1 he'
    have hnO : (id, pos) ∉ O := fun hm => by
      have := hS _ hm _ hin rfl n (Nat.lt_succ_self n) w
      exact absurd (hev0.symm.trans this) nofun
    have hT0 : LogInv data chk occs O s.tbl := hpre.tinv
    revert e
    suffices H : Sim P.step (.fwd (n + 1)) (.next s) (fun n => eval n P.ctx env (.memo p id) pos w)
        (Good P (Exit false (a + 1 + sub.length + 1 + 1) s.stk s.capt) s.stk s.capt s.src.furthest) from fun e he _ => H e he
    cases hget : P.tab.get s.tbl id pos with
    | mk r t' =>
      have hgd : ans s.tbl id pos = r ∧ s.tbl ++ [TEv.get id pos (ans s.tbl id pos)] = t' := by cases hget; exact ⟨rfl, rfl⟩
      cases r with
      | some me =>
        have hT : LogInv data chk occs O t' := by
          obtain ⟨e1, rfl⟩ := hgd
          refine ⟨trueLog_get hT0.true_ _ _ _, hT0.once.snoc ?_, hT0.asked.snoc ?_, fun id' pos' hp hpe => ?_⟩
          · intro id' pos' he _
            injection he with _ _ e3
            rw [e1] at e3; cases e3
          · intro id' pos' a he _
            injection he with e2 e3
            exact ⟨e3 ▸ hle, _, hin, e2⟩
          · rcases hpe.snoc with ⟨h1, -⟩ | h1
            · exact hT0.pend _ _ hp h1
            · injection h1 with _ _ e3
              rw [e1] at e3; cases e3
        have hm : P.Mget id pos me s.src.furthest := fun o ho hid => (ha _ _ _ _ hgd.1 o ho hid).any
        obtain ⟨res, far, hev, hres, hfar⟩ := hM.get w hle hm
        cases hl : me.length with
        | none =>
          rw [hl] at hres
          subst hres
          refine Sim.evals (evals_memo.2 ⟨_, hev, rfl⟩) (reach_at hip0 i0 (o := P.cfg.doFail { s with tbl := t' } s.stk) ?_)
            (Good.veil (P := P) ⟨_, rfl, fun _ => rfl, ⟨hpre.data, Nat.le_refl _, hfar, hT, hpre.errs, hpre.cst⟩⟩)
          have : P.cfg.tab.get s.tbl id (P.cfg.inp.pos s.src) = (some me, t') := by
            rw [← hget, ← hpos0]; rfl
          simp only [Cfg.exec1, this, hl]
          rfl
        | some n =>
          rw [hl] at hres
          obtain ⟨cs, rfl, hcr⟩ := hres
          have hb := Evals.bounds hP.chkOK (show pos ≤ P.ctx.data.length from hle) hev
          have hadv := advance_pos (s := s.src) (n := n)
            (by have := hb.2; rw [hpre.data, hpos0]; exact this)
          refine Sim.evals (evals_memo.2 ⟨_, hev, rfl⟩) (Reach.trans (reach_at hip0 i0 (o := .next { s with
            stk := stkAdd s.stk me.captures, capt := baseAdd s.stk s.capt me.captures, tbl := t', src := ⟨s.src.data, s.src.pos + n, s.src.furthest⟩, ip := labelIdx P.prog l1 }) ?_)
              (reach_to_label hP rfl i2))
            (Good.veil (P := P) ⟨_, me.captures, rfl, ⟨rfl, rfl, rfl⟩, by rw [← hpos0], hcr,
              ⟨hpre.data, Nat.le_refl _, hfar, hT, hpre.errs, hpre.cst⟩⟩)
          have : P.cfg.tab.get s.tbl id (P.cfg.inp.pos s.src) = (some me, t') := by
            rw [← hget, ← hpos0]; rfl
          simp only [Cfg.exec1, this, hl, addCapt_eq]
          rw [show P.cfg.inp.advance s.src n = s.src.advance n from rfl, hadv]
      | none =>
        have hT' : LogInv data chk occs ((id, pos) :: O) t' := by
          obtain ⟨e1, rfl⟩ := hgd
          refine ⟨trueLog_get hT0.true_ _ _ _, hT0.once.snoc ?_, hT0.asked.snoc ?_, fun id' pos' hp hpe => ?_⟩
          · intro id' pos' he hp hpe
            injection he with e2 e3
            subst e2 e3
            exact hnO (hT0.pend _ _ hp hpe)
          · intro id' pos' a he _
            injection he with e2 e3
            exact ⟨e3 ▸ hle, _, hin, e2⟩
          · rcases hpe.snoc with ⟨h1, -⟩ | h1
            · exact List.mem_cons_of_mem _ (hT0.pend _ _ hp h1)
            · injection h1 with e2 e3
              subst e2 e3
              exact List.mem_cons_self
        have hO' : ∀ x ∈ (id, pos) :: O, x ∈ O ∨ x = (id, pos) := fun x hx => (List.mem_cons.1 hx).symm
        refine Sim.unshift (m := .fwd n) rfl ?_
        show Sim P.step (.fwd n) (.next s) (fun n => (eval n P.ctx env p pos w).map (Ev.veil P.lo)) _
        refine Sim.reach (reach_at hip0 i0 (o := .next { s with
          stk := ⟨.memo id pos, []⟩ :: s.stk, tbl := t', ip := a + 1 }) ?_) ?_
        · have : P.cfg.tab.get s.tbl id (P.cfg.inp.pos s.src) = (none, t') := by
            rw [← hget, ← hpos0]; rfl
          simp only [Cfg.exec1, this, VM.push]
          rw [show P.cfg.inp.pos s.src = pos from hpos0]
        obtain ⟨n0, hn0, ⟨e0, he0⟩, hmin⟩ := least_fuel (F := fun n => eval n P.ctx env p pos w) (hev0 : eval n P.ctx env p pos w = some e1)
        have hst : Starved data chk occs n0 ((id, pos) :: O) := by
          intro x hx o ho hid m hm w2
          rcases List.mem_cons.1 hx with rfl | hx
          · have hsame := hocs.inj _ hin o ho hid.symm
            rw [← hsame.2]
            cases hw : eval m ⟨data, chk, false⟩ env p pos w2 with
            | none => rfl
            | some e2 =>
              have := hocs.quiet _ hin m _ _ _ _ rfl hw w
              exact absurd (this.symm.trans (hmin m hm)) nofun
          · exact hS x hx o ho hid m (by omega) w2
        have hy : Hyp P' (.fwd n0) k := ⟨fun k' _ q => ih n0 (by omega) _ hst k' q, fun k' q tl => ih n0 (by omega) _ hst k' q tl⟩
        have hl0 := hy.get (q := p) (tl := false) (w := w) (pos := pos)
          (s := { s with stk := ⟨.memo id pos, []⟩ :: s.stk, tbl := t', ip := a + 1 }) h1 (hg.once _) (fun o ho => (hocc' o ho).once _) hsc ss
          (matched_zero _ _ _) ⟨rfl, hpre.data, hpre.pos, hpre.le, hT', hpre.errs, hpre.cst,
            topOK_push nofun⟩ (fun _ => noted_start _ _ _) (fun h => by cases h)
        have hl : Sim P.step (.fwd n) (.next { s with stk := ⟨.memo id pos, []⟩ :: s.stk, tbl := t', ip := a + 1 })
            (fun n => eval n P.ctx env p pos w) (Good P' (Exit false (a + 1 + sub.length) (⟨.memo id pos, []⟩ :: s.stk) s.capt)
              (⟨.memo id pos, []⟩ :: s.stk) s.capt s.src.furthest) := by
          intro e he
          have : e0 = e := (fmono_eval P.ctx env p pos w).unique he0 he
          exact hl0 e (this ▸ he0)
        refine Sim.map hl ?_
        rintro ⟨res, f, w'⟩ o' hn hgd
        have hfl : ∀ t : VM Flat (List TEv) σ, Post P' s.src.furthest t f w' →
            (P.trk → (if P.lo then 0 else f) ≤ t.src.furthest + 1) := fun t h ht => by
          exact ht.elim
        rw [Ev.veil_mk]
        cases res with
        | ok pos' cs =>
          have hb := Evals.bounds hP.chkOK (show pos ≤ P.ctx.data.length from hpre.le) hn
          obtain ⟨t, caps, rfl, ⟨hip, hstk, hcapt⟩, hpos, hcr, hpost⟩ := hgd
          have hput : P.Mput id pos ⟨some (pos' - pos), max t.src.furthest t.src.pos + 1 - pos, 1,
              if P.iv.isSome then [] else caps⟩ t.src.furthest := by
            refine hM.put 1 hn hle ⟨rfl, hcr⟩ (fun ht => ht.elim) ?_
            intro n hn
            cases hn
            omega
          refine ⟨_, Reach.trans (reach_at hip i1 (o := .next { t with
            stk := stkAdd s.stk caps, capt := baseAdd s.stk s.capt caps, tbl := P.tab.put t.tbl id pos (some (pos' - pos)) (max t.src.furthest t.src.pos + 1 - pos) 1 (if P.iv.isSome then [] else caps), ip := a + 1 + sub.length + 1 }) ?_)
            (reach_label rfl i2), _, caps, rfl, ⟨rfl, rfl, rfl⟩, hpos, hcr,
            ⟨hpost.data, hpost.fle, hfl t hpost, LogInv.put hpost.tinv hput hO', hpost.errs, hpost.cst⟩⟩
          simp only [Cfg.exec1, hstk, stkAdd, addCapt_eq, List.nil_append, memoize_eq]
          rw [hcapt]
          rw [show P.cfg.inp.pos t.src = pos' from hpos]
          rfl
        | fail =>
          obtain ⟨t, rfl, hcapt, hpost⟩ := hgd
          have hput : P.Mput id pos ⟨none, max t.src.furthest t.src.pos + 1 - pos, 0,
              if P.iv.isSome then [] else []⟩ t.src.furthest := by
            refine hM.put 0 hn hle ⟨rfl, rfl⟩ (fun ht => ht.elim) nofun
          exact ⟨_, Reach.refl _, P.cfg.memoize t id pos none 0 [], rfl, fun _ => hcapt (by simp),
            ⟨hpost.data, hpost.fle, hfl t hpost, LogInv.put hpost.tinv hput hO', hpost.errs, hpost.cst⟩⟩
        | abort q =>
          obtain ⟨m, hn⟩ := hn
          exact (Occ.Quiet.no_abort (c := ⟨data, chk, false⟩) (hocs.quiet _ hin) hn).elim

/-- The forward simulation, for every list of patterns that are being parsed. -/
theorem sim_once (hchk : CheckOK chk) (hprog : ProgOK prog) (ha : TrueAns data chk occs ans) (hocs : OccsOK chk occs) (n : Nat) :
    ∀ O, Starved data chk occs n O → ∀ (k : Nat) (p : Pat), SimPat (oncePar data chk prog occs ans O) (.fwd n) k p := by
  induction n using Nat.strongRecOn with
  | ind n ih =>
    intro O hS k p
    cases n with
    | zero =>
      intro tl env lbls cst cst' raw a j pos w s _ _ _ _ _ _ _ _ _ e he
      cases he
    | succ n =>
      cases k with
      | zero =>
        intro tl env lbls cst cst' raw a j pos w s hc
        exact (comp_zero hc).elim
      | succ k =>
        have h := ih n (Nat.lt_succ_self n) O (hS.mono (Nat.le_succ n))
        have hy : Hyp (oncePar data chk prog occs ans O) (.fwd n) k := ⟨fun k' _ q => h k' q, fun k' q tl => h k' q tl⟩
        exact sim_step (m := .fwd n) (oncePar_ok hchk hprog ha) hy
          (fun q id => memo_once hchk hprog ha hocs hS (fun m hm => ih m (Nat.lt_succ_of_le hm)) q id) p

/-- A thread whose answers are true, from its start to its end. -/
theorem exec_once {k : Nat} {p : Pat} {cst cst' : CState} {raw : Program} {code : Code} {bufsz : Nat}
    (hchk : CheckOK chk) (hd : p.Dots1) (hs : p.Scoped) (hc : CM.Ok (compileF k p) cst raw cst') (he : encode (optimize raw) = some code) (hb : 0 < bufsz)
    (hocc : OccsOK chk (memoOcc k [] p cst)) (ha : TrueAns data chk (memoOcc k [] p cst) ans) (st : σ) (e : Ev σ)
    (hev : Evals ⟨data, chk, false⟩ [] p 0 ⟨[], st⟩ e) :
    ∃ r, Execs (Thread.cfg chk ans) code (Input.new bufsz data) [] st r ∧
      ∃ ok cap src errs L st', r = .done ok cap src errs L st' ∧ LogInv data chk (memoOcc k [] p cst) [] L := by
  have hprog := progOK_raw hd hc
  have hno : ∀ n, .openCall n ∉ raw := fun n hn => encode_openCall he n (optimize_openCall hn)
  have hch := chain (logTable ans) chk none (dots1_raw hd hc) he (i := Input.new bufsz data) (f := ⟨data, 0, 0⟩)
    ⟨Input.new_inv hb data, rfl, rfl, rfl⟩ [] st
  have hT : LogInv data chk (memoOcc k [] p cst) [] [] :=
    ⟨(fun _ _ _ _ _ _ h => nomatch h), (fun _ _ h1 _ _ _ h => by cases h1 <;> cases h), (fun _ _ _ h => nomatch h),
      (fun _ _ _ ⟨h1, _, h3, _⟩ => by cases h1 <;> cases h3)⟩
  obtain ⟨x, hx, hres⟩ := top_fwd (P := oncePar data chk (withEnd raw) (memoOcc k [] p cst) ans [])
    (fun n => sim_once hchk hprog ha hocc n [] (fun _ h => by cases h) k p) rfl hc (fun o hm => oncePar_occ hchk hocc o hm) hs hno [] st hT e hev
  obtain ⟨r, hr, rfl⟩ := (hch x).2 hx
  exact ⟨r, hr, logAfter_of hres⟩

theorem OnceL.prefix {E L : List TEv} (h : OnceL occs L) (hp : E <+: L) : OnceL occs E := by
  intro id pos h1 h2 h3 hpl he
  obtain ⟨R, rfl⟩ := hp
  exact h id pos h1 h2 (h3 ++ R) hpl (by rw [he]; simp)

/-- The calls of a thread that got true answers. -/
theorem thread_once {k : Nat} {p : Pat} {cst cst' : CState} {raw : Program} {code : Code} {t : Thread σ} {E : List TEv}
    (hchk : CheckOK chk) (hd : p.Dots1) (hs : p.Scoped) (hc : CM.Ok (compileF k p) cst raw cst') (he : encode (optimize raw) = some code) (hb : 0 < t.bufsz)
    (hocc : OccsOK chk (memoOcc k [] p cst)) (hstop : ∃ r', RunsTo chk none code t.bufsz data t.st r') (hE : t.Performs chk code data E)
    (ha : ∀ id pos e, .get id pos (some e) ∈ E → TruePut data chk (memoOcc k [] p cst) id pos e) :
    OnceL (memoOcc k [] p cst) E ∧ AskedL data.length (memoOcc k [] p cst) E := by
  obtain ⟨r', hr'⟩ := hstop
  obtain ⟨e, hev, _⟩ := (exec_none (data := data) (iv := none) hchk hd hs hc he hb t.st).2 r' hr'
  have hans : TrueAns data chk (memoOcc k [] p cst) (replay E) := fun L id pos e h => ha _ _ _ (replay_mem h)
  obtain ⟨r, hr, ok, cap, src, errs, L, st', rfl, hL⟩ := exec_once hchk hd hs hc he hb hocc hans t.st e hev
  have hpre : E <+: L := by
    obtain ⟨ans, j, hj⟩ := hE
    have hj' := (agreeOn_replay E ans).after hj
    obtain ⟨n, o, ho, hres⟩ := hr
    cases o with
    | next s => cases hres
    | panic => cases hres
    | halt b c s =>
      cases hres
      exact hj'.trans (after_runOut ho (fun h => nomatch h) [])
  exact ⟨hL.once.prefix hpre, fun id pos a hm => hL.asked id pos a (hpre.subset hm)⟩

end
end Gpeg
