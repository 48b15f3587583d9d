import Verif.ObjOwn
import Verif.ObjSim
/-!
# Bytecode whose table entries share no captures

A certificate for bytecode: the addresses the machine can be at, and for those it can be at between a `MemoOpen` and its
`MemoClose`, how many bytes it has read at least since the last place it can go back to. If memoized parts are not nested
and there is no `MemoTree*` instruction, no two table entries ever share a capture.
-/
namespace Gpeg.Obj
variable {σ : Type}

/-- Addresses; with a number for those inside a memoized part. -/
abbrev Cert := List (Nat × Option Nat)

namespace Cert

/-- `a` is in the certificate. -/
def has (C : Cert) (a : Nat) : Bool := C.any fun x => x.1 == a

/-- `a` is in the certificate with at most `d`. -/
def atMost (C : Cert) (a d : Nat) : Bool :=
  C.any fun x => x.1 == a && match x.2 with
    | some d' => decide (d' ≤ d)
    | none => false

/-- From a place with `v` the machine may go on to `a` having read `k` bytes. -/
def goes (C : Cert) (v : Option Nat) (k a : Nat) : Bool :=
  match v with
  | none => C.has a
  | some d => C.atMost a (d + k)

/-- From a place with `v` the machine may later go back to `a`. -/
def back (C : Cert) (v : Option Nat) (a : Nat) : Bool :=
  match v with
  | none => C.has a
  | some _ => C.atMost a 0

/-- The certificate agrees with an instruction. -/
def okI (C : Cert) (v : Option Nat) (nxt : Nat) : Insn → Bool
  | .label _ | .nop | .emptyOp _ | .span _ | .captureBegin _ | .captureEnd | .checkBegin _ _ | .checkEnd _ | .error _ => C.goes v 0 nxt
  | .char _ | .set _ => C.goes v 1 nxt
  | .any n => C.goes v n.toNat nxt
  | .jump l | .commit l | .partialCommit l => C.goes v 0 l
  | .backCommit l => C.back v l
  | .choice l => C.goes v 0 nxt && C.back v l
  | .call l => C.goes v 0 l && C.back v nxt
  | .testChar _ l | .testCharNC _ l | .testSet _ l | .testSetNC _ l => C.goes v 1 nxt && C.back v l
  | .testAny n l => C.goes v n.toNat nxt && C.back v l
  | .captureLate n _ | .captureFull n _ => C.goes v 0 nxt && match v with
    | none => true
    | some d => decide (n.toNat ≤ d)
  | .ret | .fail | .failTwice | .endI _ | .openCall _ => true
  | .memoOpen l _ => v.isNone && C.atMost nxt 0 && C.has l
  | .memoClose => C.has nxt
  | .memoTreeOpen _ _ | .memoTreeInsert | .memoTree | .memoTreeClose _ => false

/-- The certificate is right for the code. -/
def ok (C : Cert) (code : Code) : Bool :=
  C.has 0 && C.all fun x => match decode code x.1 with
    | none => true
    | some (i, sz) => C.okI x.2 (x.1 + sz) i

theorem has_of {C : Cert} {a : Nat} {v : Option Nat} (h : (a, v) ∈ C) : C.has a = true :=
  List.any_eq_true.2 ⟨_, h, by simp⟩

theorem atMost_iff {C : Cert} {a d : Nat} : C.atMost a d = true ↔ ∃ d' ≤ d, (a, some d') ∈ C := by
  unfold atMost
  rw [List.any_eq_true]
  constructor
  · rintro ⟨⟨a', v⟩, hm, h⟩
    simp only [Bool.and_eq_true, beq_iff_eq] at h
    obtain ⟨rfl, h⟩ := h
    cases v with
    | none => cases h
    | some d' => exact ⟨d', of_decide_eq_true h, hm⟩
  · rintro ⟨d', hd, hm⟩
    exact ⟨_, hm, by simp [hd]⟩

theorem has_iff {C : Cert} {a : Nat} : C.has a = true ↔ ∃ v, (a, v) ∈ C := by
  constructor
  · intro h
    obtain ⟨⟨a', v⟩, hm, h⟩ := List.any_eq_true.1 h
    simp only [beq_iff_eq] at h
    exact ⟨v, h ▸ hm⟩
  · rintro ⟨v, h⟩
    exact has_of h

end Cert

/-- The machine can be at `ip` with the input at `p`: outside memoized parts, or in one that began at a given position. -/
def Here (C : Cert) (m : Option Nat) (ip p : Nat) : Prop :=
  match m with
  | none => C.has ip = true
  | some pos => ∃ d, (ip, some d) ∈ C ∧ pos + d ≤ p

theorem Here.mono {C : Cert} {m : Option Nat} {ip p p' : Nat} (h : Here C m ip p) (hp : p ≤ p') : Here C m ip p' := by
  cases m with
  | none => exact h
  | some pos =>
    obtain ⟨d, h1, h2⟩ := h
    exact ⟨d, h1, by omega⟩

theorem Here.out {C : Cert} {m : Option Nat} {ip p : Nat} (h : Here C m ip p) : Here C none ip p := by
  cases m with
  | none => exact h
  | some pos =>
    obtain ⟨d, h1, -⟩ := h
    exact Cert.has_of h1

/-- What a stack entry may be. -/
def KOk (C : Cert) (m : Option Nat) : EKind → Prop
  | .ret ip => Here C m ip (m.getD 0)
  | .btrack ip off => Here C m ip (m.getD 0) ∧ m.getD 0 ≤ off
  | .capt _ p => m.getD 0 ≤ p
  | .check _ _ _ => True
  | .memo _ _ | .memoTree _ _ _ => False

/-- Inside a memoized part the captures are new. -/
def Fr (T : OTab) (m : Option Nat) (rs : List Ref) : Prop := ∀ pos, m = some pos → Fresh T pos rs

theorem Fr.nil {T : OTab} {m : Option Nat} : Fr T m [] := fun _ _ => AllBelow.nil

theorem Fr.append {T : OTab} {m : Option Nat} {a b : List Ref} (h : Fr T m a) (h' : Fr T m b) : Fr T m (a ++ b) :=
  fun p hp => (h p hp).append (h' p hp)

theorem Fr.outside {T : OTab} {rs : List Ref} : Fr T none rs := fun _ h => by cases h

/-- The stack: at most one entry of a memoized part. -/
def ZStk (C : Cert) (T : OTab) : Option Nat → List OEntry → Prop
  | m, [] => m = none
  | m, e :: r => Fr T m e.capt ∧
    ((KOk C m e.kind ∧ ZStk C T m r) ∨ ∃ id pos, m = some pos ∧ e.kind = .memo id pos ∧ ZStk C T none r)

theorem ZStk.caps {C : Cert} {T T' : OTab} (h : ∀ m rs, Fr T m rs → Fr T' m rs) : ∀ {l : List OEntry} {m : Option Nat}, ZStk C T m l → ZStk C T' m l
  | [], _, hs => hs
  | _ :: _, _, hs => by
    refine ⟨h _ _ hs.1, ?_⟩
    rcases hs.2 with ⟨h1, h2⟩ | ⟨id, pos, h1, h2, h3⟩
    · exact .inl ⟨h1, h2.caps h⟩
    · exact .inr ⟨id, pos, h1, h2, h3.caps h⟩

theorem ZStk.outside {C : Cert} {T T' : OTab} : ∀ {l : List OEntry}, ZStk C T none l → ZStk C T' none l
  | [], hs => hs
  | _ :: _, hs => by
    refine ⟨.outside, ?_⟩
    rcases hs.2 with ⟨h1, h2⟩ | ⟨id, pos, h1, h2, h3⟩
    · exact .inl ⟨h1, h2.outside⟩
    · cases h1

theorem Fr.alloc {T : OTab} {m : Option Nat} {rs : List Ref} (h : Fr T m rs) (c : CObj) : Fr (T.alloc c).1 m rs :=
  fun p hp => AllBelow.alloc (h p hp) c

/-- The top entry is popped. -/
theorem ZStk.pop {C : Cert} {T : OTab} {m : Option Nat} {e : OEntry} {r : List OEntry} (h : ZStk C T m (e :: r)) :
    ∃ m', ZStk C T m' r ∧ Fr T m' e.capt ∧ ∀ {ip p}, Here C m ip p → Here C m' ip p := by
  obtain ⟨h1, ⟨-, h2⟩ | ⟨_, _, -, -, h2⟩⟩ := h
  · exact ⟨m, h2, h1, id⟩
  · exact ⟨none, h2, .outside, Here.out⟩

/-- An entry that is not that of the memoized part. -/
theorem ZStk.top {C : Cert} {T : OTab} {m : Option Nat} {e : OEntry} {r : List OEntry} (h : ZStk C T m (e :: r))
    (hk : ∀ id pos, e.kind ≠ .memo id pos) : Fr T m e.capt ∧ KOk C m e.kind ∧ ZStk C T m r := by
  obtain ⟨h1, ⟨h2, h3⟩ | ⟨id, pos, -, h2, -⟩⟩ := h
  · exact ⟨h1, h2, h3⟩
  · exact absurd h2 (hk id pos)

theorem OVM.addCapt_src {ι : Type} (s : OVM ι σ) (rs : List Ref) : (s.addCapt rs).src = s.src := by
  unfold OVM.addCapt; split <;> rfl

theorem OVM.addCapt_tbl {ι : Type} (s : OVM ι σ) (rs : List Ref) : (s.addCapt rs).tbl = s.tbl := by
  unfold OVM.addCapt; split <;> rfl

theorem ZStk.addCapt {C : Cert} {T : OTab} {m : Option Nat} {ι : Type} {s : OVM ι σ} {rs : List Ref} (h : ZStk C T m s.stk)
    (hr : Fr T m rs) : ZStk C T m (s.addCapt rs).stk := by
  unfold OVM.addCapt
  cases hs : s.stk with
  | nil => rw [hs] at h; simpa [hs] using h
  | cons e r => rw [hs] at h; exact ⟨h.1.append hr, h.2⟩

/-- What holds of a state. -/
structure ZInv (C : Cert) (s : OVM Input σ) : Prop where
  src : s.src.Inv
  own : Own s.tbl
  place : ∃ m, ZStk C s.tbl m s.stk ∧ Here C m s.ip s.src.pos

/-- What holds of the outcome of a step. -/
def ZRes (C : Cert) : OOut Input σ → Prop
  | .next s => ZInv C s
  | .halt _ _ s => Own s.tbl
  | .panic => True

theorem zDoFail {C : Cert} {b : Bool} {chk : CheckFn σ} : ∀ (l : List OEntry) {m : Option Nat} {s : OVM Input σ}, (∃ φ T', TSim b φ s.tbl T') →
    s.src.Inv → Own s.tbl → ZStk C s.tbl m l → ZRes C ((⟨chunkedOps, chk, none⟩ : OCfg Input σ).doFail s l)
  | [], _, _, _, _, ho, _ => ho
  | e :: r, m, s, hT, hi, ho, hz => by
    unfold OCfg.doFail
    cases hk : e.kind with
    | btrack ip off =>
      obtain ⟨-, h1, h2⟩ := hz.top (by rw [hk]; exact fun _ _ h => by cases h)
      rw [hk] at h1
      obtain ⟨g1, g2, -⟩ := Input.seekTo_spec hi off
      refine ⟨g1, ho, m, h2, ?_⟩
      show Here C m ip (s.src.seekTo off).2.pos
      rw [g2]
      exact h1.1.mono h1.2
    | memo id pos =>
      obtain ⟨φ, T', hT⟩ := hT
      have hp : ∀ ex, (∃ φ T', TSim b φ (s.tbl.put id pos none ex 0 []) T') ∧ Own (s.tbl.put id pos none ex 0 []) := by
        intro ex
        obtain ⟨ψ, h1, -⟩ := hT.put id pos none ex 0 (captures := []) (vs := []) .nil
        exact ⟨⟨ψ, _, h1⟩, ho.put hT id pos none ex 0 .nil⟩
      have h1 : ZStk C s.tbl none r := by
        rcases hz.2 with ⟨h1, -⟩ | ⟨_, _, -, -, h2⟩
        · rw [hk] at h1; exact h1.elim
        · exact h2
      exact zDoFail r (s := OCfg.memoize _ s id pos none 0 []) (hp _).1 hi (hp _).2 h1.outside
    | ret _ =>
      obtain ⟨-, h1, h2⟩ := hz.top (by rw [hk]; exact fun _ _ h => by cases h)
      exact zDoFail r hT hi ho h2
    | capt _ _ =>
      obtain ⟨-, h1, h2⟩ := hz.top (by rw [hk]; exact fun _ _ h => by cases h)
      exact zDoFail r hT hi ho h2
    | check _ _ _ =>
      obtain ⟨-, h1, h2⟩ := hz.top (by rw [hk]; exact fun _ _ h => by cases h)
      exact zDoFail r hT hi ho h2
    | memoTree _ _ _ =>
      obtain ⟨-, h1, h2⟩ := hz.top (by rw [hk]; exact fun _ _ h => by cases h)
      rw [hk] at h1
      exact h1.elim

/-! ## The input -/

theorem peek_none {i i' : Input} {x : Option UInt8} (h : i.Inv) (hp : i.peek = (x, i')) : i'.Inv ∧ i'.pos = i.pos := by
  have h2 : i' = i.peek.2 := by rw [hp]
  rw [h2, Input.peek_snd]
  exact ⟨Input.inv_furthest h _, rfl⟩

theorem peek_some {i i' : Input} {x : UInt8} (h : i.Inv) (hp : i.peek = (some x, i')) :
    (i'.advance 1).2.Inv ∧ (i'.advance 1).2.pos = i.pos + 1 := by
  have h2 : i' = i.peek.2 := by rw [hp]
  have h1 : i.r[i.pos]? = some x := by rw [← Input.peek_fst h, hp]
  have hlt := (List.getElem?_eq_some_iff.1 h1).1
  obtain ⟨g1, g2⟩ := peek_none h hp
  obtain ⟨g3, g4, -⟩ := Input.advance_spec g1 1
  refine ⟨g3, ?_⟩
  rw [g4, g2, if_pos]
  rw [h2, Input.peek_snd]
  exact hlt

theorem advance_ge {i : Input} (h : i.Inv) (n : Nat) : i.pos ≤ (i.advance n).2.pos := by
  rw [(Input.advance_spec h n).2.1]
  split <;> omega

theorem advance_ok {i i' : Input} {n : Nat} (h : i.Inv) (hp : i.advance n = (true, i')) : i'.Inv ∧ i'.pos = i.pos + n := by
  have h2 : i' = (i.advance n).2 := by rw [hp]
  obtain ⟨g1, g2, -⟩ := Input.advance_spec h n
  have : i.pos < i.r.length := by
    rw [← Input.nonempty_iff h]
    intro h0
    unfold Input.advance at hp
    rw [if_pos h0] at hp
    cases hp
  rw [if_pos this] at g2
  rw [h2]
  exact ⟨g1, g2⟩

theorem span_ge (chk : CheckFn σ) (cs : CSet) : ∀ (k : Nat) {i : Input}, i.Inv →
    ((⟨chunkedOps, chk, none⟩ : OCfg Input σ).spanLoop cs k i).Inv ∧ i.pos ≤ ((⟨chunkedOps, chk, none⟩ : OCfg Input σ).spanLoop cs k i).pos
  | 0, _, h => ⟨h, Nat.le_refl _⟩
  | k + 1, i, h => by
    unfold OCfg.spanLoop
    rcases hp : i.peek with ⟨_ | x, i'⟩
    · obtain ⟨g1, g2⟩ := peek_none h hp
      have hp' : chunkedOps.peek i = (none, i') := hp
      simp only [hp']
      exact ⟨g1, by rw [← g2]; exact Nat.le_refl _⟩
    · obtain ⟨g1, g2⟩ := peek_none h hp
      obtain ⟨g3, g4⟩ := peek_some h hp
      have hp' : chunkedOps.peek i = (some x, i') := hp
      simp only [hp']
      split
      · obtain ⟨g5, g6⟩ := span_ge chk cs k g3
        exact ⟨g5, Nat.le_trans (by rw [g4]; omega) g6⟩
      · exact ⟨g1, by rw [← g2]; exact Nat.le_refl _⟩

/-! ## Steps -/

section
variable {C : Cert} {m : Option Nat} {v : Option Nat} {a p : Nat}

/-- The machine is at a place with `v`. -/
def Place (m v : Option Nat) (p : Nat) : Prop := ∀ pos, m = some pos → ∃ d, v = some d ∧ pos + d ≤ p

theorem Place.goes (h : Place m v p) {k p' : Nat} (hg : C.goes v k a = true) (hp : p + k ≤ p') : Here C m a p' := by
  cases m with
  | none =>
    cases v with
    | none => exact hg
    | some d =>
      obtain ⟨d', -, h2⟩ := Cert.atMost_iff.1 hg
      exact Cert.has_of h2
  | some pos =>
    obtain ⟨d, rfl, h1⟩ := h pos rfl
    obtain ⟨d', h2, h3⟩ := Cert.atMost_iff.1 hg
    exact ⟨d', h3, by omega⟩

theorem Place.back (h : Place m v p) (hg : C.back v a = true) : Here C m a (m.getD 0) := by
  cases m with
  | none =>
    cases v with
    | none => exact hg
    | some d =>
      obtain ⟨d', -, h2⟩ := Cert.atMost_iff.1 hg
      exact Cert.has_of h2
  | some pos =>
    obtain ⟨d, rfl, h1⟩ := h pos rfl
    obtain ⟨d', h2, h3⟩ := Cert.atMost_iff.1 hg
    exact ⟨d', h3, by simp only [Option.getD_some]; omega⟩

theorem Place.le (h : Place m v p) : m.getD 0 ≤ p := by
  cases m with
  | none => exact Nat.zero_le _
  | some pos =>
    obtain ⟨d, -, h1⟩ := h pos rfl
    simp only [Option.getD_some]
    omega

end

theorem zExec1 {C : Cert} {b : Bool} {chk : CheckFn σ} {s : OVM Input σ} {m v : Option Nat} {nxt : Nat} (insn : Insn)
    (hT : ∃ φ T', TSim b φ s.tbl T') (hi : s.src.Inv) (ho : Own s.tbl) (hz : ZStk C s.tbl m s.stk) (hp : Place m v s.src.pos)
    (hok : C.okI v nxt insn = true) : ZRes C ((⟨chunkedOps, chk, none⟩ : OCfg Input σ).exec1 id insn nxt s) := by
  obtain ⟨ip, stk, capt, src, tbl, errs, cst, rng⟩ := s
  simp only at hT hi ho hz hp
  have hgo : ∀ {k a p'}, C.goes v k a = true → src.pos + k ≤ p' → Here C m a p' := fun h h' => hp.goes h h'
  have hbk : ∀ {a}, C.back v a = true → Here C m a (m.getD 0) := fun h => hp.back h
  have hbk' : ∀ {a p'}, C.back v a = true → src.pos ≤ p' → Here C m a p' := fun h h' => (hp.back h).mono (Nat.le_trans hp.le h')
  have hbt : ∀ {a}, C.back v a = true → ZStk C tbl m (⟨.btrack a src.pos, []⟩ :: stk) := fun h => ⟨.nil, .inl ⟨⟨hbk h, hp.le⟩, hz⟩⟩
  have hfail : ∀ {src' : Input} {cst' : σ} {capt'}, src'.Inv → ZRes C ((⟨chunkedOps, chk, none⟩ : OCfg Input σ).fail
      ⟨ip, stk, capt', src', tbl, errs, cst', rng⟩) := fun h => zDoFail stk hT h ho hz
  cases insn with
  | label _ => exact ⟨hi, ho, m, hz, hgo hok (Nat.le_refl _)⟩
  | nop => exact ⟨hi, ho, m, hz, hgo hok (Nat.le_refl _)⟩
  | char x =>
    simp only [OCfg.exec1, chunkedOps]
    rcases hpk : src.peek with ⟨_ | y, i'⟩
    · exact hfail (peek_none hi hpk).1
    · simp only []
      split
      · obtain ⟨g1, g2⟩ := peek_some hi hpk
        exact ⟨g1, ho, m, hz, hgo hok (Nat.le_of_eq g2.symm)⟩
      · exact hfail (peek_none hi hpk).1
  | jump l => exact ⟨hi, ho, m, hz, hgo hok (Nat.le_refl _)⟩
  | choice l =>
    simp only [Cert.okI, Bool.and_eq_true] at hok
    exact ⟨hi, ho, m, hbt hok.2, hgo hok.1 (Nat.le_refl _)⟩
  | call l =>
    simp only [Cert.okI, Bool.and_eq_true] at hok
    exact ⟨hi, ho, m, ⟨.nil, .inl ⟨hbk hok.2, hz⟩⟩, hgo hok.1 (Nat.le_refl _)⟩
  | commit l =>
    simp only [OCfg.exec1]
    cases stk with
    | nil => exact ⟨hi, ho, m, hz, hgo hok (Nat.le_refl _)⟩
    | cons e r =>
      obtain ⟨m', h1, h2, h3⟩ := hz.pop
      refine ⟨?_, ?_, m', ?_, ?_⟩
      · simp only [OVM.addCapt_src]; exact hi
      · simp only [OVM.addCapt_tbl]; exact ho
      · simp only [OVM.addCapt_tbl]; exact ZStk.addCapt h1 h2
      · simp only [OVM.addCapt_src]; exact h3 (hgo hok (Nat.le_refl _))
  | ret =>
    simp only [OCfg.exec1]
    cases stk with
    | nil => trivial
    | cons e r =>
      simp only []
      cases hk : e.kind with
      | ret ip' =>
        obtain ⟨h1, h2, h3⟩ := hz.top (by rw [hk]; exact fun _ _ h => by cases h)
        rw [hk] at h2
        refine ⟨?_, ?_, m, ?_, ?_⟩
        · simp only [OVM.addCapt_src]; exact hi
        · simp only [OVM.addCapt_tbl]; exact ho
        · simp only [OVM.addCapt_tbl]; exact ZStk.addCapt h3 h1
        · simp only [OVM.addCapt_src]; exact h2.mono hp.le
      | _ => trivial
  | fail => exact hfail hi
  | set cs =>
    simp only [OCfg.exec1, chunkedOps]
    rcases hpk : src.peek with ⟨_ | y, i'⟩
    · exact hfail (peek_none hi hpk).1
    · simp only []
      split
      · obtain ⟨g1, g2⟩ := peek_some hi hpk
        exact ⟨g1, ho, m, hz, hgo hok (Nat.le_of_eq g2.symm)⟩
      · exact hfail (peek_none hi hpk).1
  | any n =>
    simp only [OCfg.exec1, chunkedOps]
    rcases hpk : src.advance n.toNat with ⟨_ | _, i'⟩
    · refine hfail ?_
      have : i' = (src.advance n.toNat).2 := by rw [hpk]
      rw [this]
      exact (Input.advance_spec hi _).1
    · obtain ⟨g1, g2⟩ := advance_ok hi hpk
      exact ⟨g1, ho, m, hz, hgo hok (Nat.le_of_eq g2.symm)⟩
  | partialCommit l =>
    simp only [OCfg.exec1]
    cases stk with
    | nil => trivial
    | cons e r =>
      simp only []
      cases hk : e.kind with
      | btrack ip' off =>
        obtain ⟨h1, h2, h3⟩ := hz.top (by rw [hk]; exact fun _ _ h => by cases h)
        rw [hk] at h2
        refine ⟨?_, ?_, m, ?_, ?_⟩
        · simp only [OVM.addCapt_src]; exact hi
        · simp only [OVM.addCapt_tbl]; exact ho
        · simp only [OVM.addCapt_tbl]; exact ⟨.nil, .inl ⟨⟨h2.1, hp.le⟩, ZStk.addCapt h3 h1⟩⟩
        · simp only [OVM.addCapt_src]; exact hgo hok (Nat.le_refl _)
      | _ => trivial
  | span cs =>
    obtain ⟨g1, g2⟩ := span_ge chk cs (src.r.length + 1) hi
    exact ⟨g1, ho, m, hz, hgo hok g2⟩
  | backCommit l =>
    simp only [OCfg.exec1]
    cases stk with
    | nil => trivial
    | cons e r =>
      simp only []
      cases hk : e.kind with
      | btrack ip' off =>
        obtain ⟨h1, h2, h3⟩ := hz.top (by rw [hk]; exact fun _ _ h => by cases h)
        rw [hk] at h2
        obtain ⟨g1, g2, -⟩ := Input.seekTo_spec hi off
        refine ⟨g1, ?_, m, ?_, ?_⟩
        · simp only [OVM.addCapt_tbl]; exact ho
        · simp only [OVM.addCapt_tbl]; exact ZStk.addCapt h3 h1
        · show Here C m l (src.seekTo off).2.pos
          rw [g2]
          exact (hbk hok).mono h2.2
      | _ => trivial
  | failTwice =>
    simp only [OCfg.exec1]
    cases stk with
    | nil => exact hfail hi
    | cons e r =>
      obtain ⟨m', h1, -, -⟩ := hz.pop
      exact zDoFail r hT hi ho h1
  | emptyOp op =>
    obtain ⟨g1, g2⟩ := peek_none (x := src.peek.1) (i' := src.peek.2) hi rfl
    by_cases hc : emptyOpContext src.peekBefore src.peek.1 &&& op ≠ 0
    · show ZRes C (ite (emptyOpContext src.peekBefore src.peek.1 &&& op ≠ 0) _ _)
      rw [if_pos hc]
      exact ⟨g1, ho, m, hz, hgo hok (Nat.le_of_eq g2.symm)⟩
    · show ZRes C (ite (emptyOpContext src.peekBefore src.peek.1 &&& op ≠ 0) _ _)
      rw [if_neg hc]
      exact hfail g1
  | testChar x l =>
    simp only [Cert.okI, Bool.and_eq_true] at hok
    simp only [OCfg.exec1, chunkedOps]
    rcases hpk : src.peek with ⟨_ | y, i'⟩
    · obtain ⟨g1, g2⟩ := peek_none hi hpk
      exact ⟨g1, ho, m, hz, hbk' hok.2 (Nat.le_of_eq g2.symm)⟩
    · obtain ⟨g1, g2⟩ := peek_none hi hpk
      simp only []
      split
      · obtain ⟨g3, g4⟩ := peek_some hi hpk
        refine ⟨g3, ho, m, ?_, hgo hok.1 (Nat.le_of_eq g4.symm)⟩
        simp only [OVM.push, g2]
        exact hbt hok.2
      · exact ⟨g1, ho, m, hz, hbk' hok.2 (Nat.le_of_eq g2.symm)⟩
  | testCharNC x l =>
    simp only [Cert.okI, Bool.and_eq_true] at hok
    simp only [OCfg.exec1, chunkedOps]
    rcases hpk : src.peek with ⟨_ | y, i'⟩
    · obtain ⟨g1, g2⟩ := peek_none hi hpk
      exact ⟨g1, ho, m, hz, hbk' hok.2 (Nat.le_of_eq g2.symm)⟩
    · obtain ⟨g1, g2⟩ := peek_none hi hpk
      simp only []
      split
      · obtain ⟨g3, g4⟩ := peek_some hi hpk
        exact ⟨g3, ho, m, hz, hgo hok.1 (Nat.le_of_eq g4.symm)⟩
      · exact ⟨g1, ho, m, hz, hbk' hok.2 (Nat.le_of_eq g2.symm)⟩
  | testSet cs l =>
    simp only [Cert.okI, Bool.and_eq_true] at hok
    simp only [OCfg.exec1, chunkedOps]
    rcases hpk : src.peek with ⟨_ | y, i'⟩
    · obtain ⟨g1, g2⟩ := peek_none hi hpk
      exact ⟨g1, ho, m, hz, hbk' hok.2 (Nat.le_of_eq g2.symm)⟩
    · obtain ⟨g1, g2⟩ := peek_none hi hpk
      simp only []
      split
      · obtain ⟨g3, g4⟩ := peek_some hi hpk
        refine ⟨g3, ho, m, ?_, hgo hok.1 (Nat.le_of_eq g4.symm)⟩
        simp only [OVM.push, g2]
        exact hbt hok.2
      · exact ⟨g1, ho, m, hz, hbk' hok.2 (Nat.le_of_eq g2.symm)⟩
  | testSetNC cs l =>
    simp only [Cert.okI, Bool.and_eq_true] at hok
    simp only [OCfg.exec1, chunkedOps]
    rcases hpk : src.peek with ⟨_ | y, i'⟩
    · obtain ⟨g1, g2⟩ := peek_none hi hpk
      exact ⟨g1, ho, m, hz, hbk' hok.2 (Nat.le_of_eq g2.symm)⟩
    · obtain ⟨g1, g2⟩ := peek_none hi hpk
      simp only []
      split
      · obtain ⟨g3, g4⟩ := peek_some hi hpk
        exact ⟨g3, ho, m, hz, hgo hok.1 (Nat.le_of_eq g4.symm)⟩
      · exact ⟨g1, ho, m, hz, hbk' hok.2 (Nat.le_of_eq g2.symm)⟩
  | testAny n l =>
    simp only [Cert.okI, Bool.and_eq_true] at hok
    simp only [OCfg.exec1, chunkedOps]
    rcases hpk : src.advance n.toNat with ⟨_ | _, i'⟩
    · have : i' = (src.advance n.toNat).2 := by rw [hpk]
      subst this
      exact ⟨(Input.advance_spec hi _).1, ho, m, hz, hbk' hok.2 (advance_ge hi _)⟩
    · obtain ⟨g1, g2⟩ := advance_ok hi hpk
      exact ⟨g1, ho, m, hbt hok.2, hgo hok.1 (Nat.le_of_eq g2.symm)⟩
  | captureBegin id' => exact ⟨hi, ho, m, ⟨.nil, .inl ⟨hp.le, hz⟩⟩, hgo hok (Nat.le_refl _)⟩
  | captureLate n id' =>
    simp only [Cert.okI, Bool.and_eq_true] at hok
    refine ⟨hi, ho, m, ⟨.nil, .inl ⟨?_, hz⟩⟩, hgo hok.1 (Nat.le_refl _)⟩
    show m.getD 0 ≤ src.pos - n.toNat
    cases m with
    | none => exact Nat.zero_le _
    | some pos =>
      obtain ⟨d, rfl, h1⟩ := hp pos rfl
      have := of_decide_eq_true hok.2
      simp only [Option.getD_some]
      omega
  | captureFull n id' =>
    simp only [Cert.okI, Bool.and_eq_true] at hok
    show ZRes C (.next { OVM.addNew ⟨ip, stk, capt, src, tbl, errs, cst, ⟨min rng.low (src.pos - n.toNat), max rng.high src.pos⟩⟩
      (tbl.newNode id' (src.pos - n.toNat) n.toNat []) with ip := nxt })
    have hfr : Fr (tbl.newNode id' (src.pos - n.toNat) n.toNat []).1 m [(tbl.newNode id' (src.pos - n.toNat) n.toNat []).2] := by
      rintro pos rfl
      obtain ⟨d, rfl, h1⟩ := hp pos rfl
      have := of_decide_eq_true hok.2
      refine AllBelow.new (x := ⟨id', false, _, n.toNat, none, []⟩) .nil ⟨rfl, ?_⟩
      simp only []
      omega
    refine ⟨?_, ?_, m, ?_, ?_⟩
    · simp only [OVM.addNew, OVM.addCapt_src]; exact hi
    · simp only [OVM.addNew, OVM.addCapt_tbl]; exact ho.alloc _
    · simp only [OVM.addNew, OVM.addCapt_tbl]
      exact ZStk.addCapt (ZStk.caps (fun _ _ h => h.alloc _) hz) hfr
    · simp only [OVM.addNew, OVM.addCapt_src]; exact hgo hok.1 (Nat.le_refl _)
  | captureEnd =>
    cases stk with
    | nil => trivial
    | cons e r =>
      obtain ⟨ek, ec⟩ := e
      cases ek with
      | capt id' pos' =>
        obtain ⟨h1, h2, h3⟩ := hz.top (fun _ _ h => by cases h)
        show ZRes C (.next { OVM.addNew ⟨ip, r, capt, src, tbl, errs, cst, ⟨min rng.low pos', max rng.high src.pos⟩⟩
          (tbl.newNode id' pos' (src.pos - pos') ec) with ip := nxt })
        have hfr : Fr (tbl.newNode id' pos' (src.pos - pos') ec).1 m [(tbl.newNode id' pos' (src.pos - pos') ec).2] := by
          rintro pos rfl
          have : pos ≤ pos' := h2
          refine AllBelow.new (x := ⟨id', false, _, src.pos - pos', none, ec⟩) (h1 pos rfl) ⟨rfl, ?_⟩
          simp only []
          omega
        refine ⟨?_, ?_, m, ?_, ?_⟩
        · simp only [OVM.addNew, OVM.addCapt_src]; exact hi
        · simp only [OVM.addNew, OVM.addCapt_tbl]; exact ho.alloc _
        · simp only [OVM.addNew, OVM.addCapt_tbl]
          exact ZStk.addCapt (ZStk.caps (fun _ _ h => h.alloc _) h3) hfr
        · simp only [OVM.addNew, OVM.addCapt_src]; exact hgo hok (Nat.le_refl _)
      | _ => trivial
  | endI fl => exact ho.alloc _
  | memoOpen l id' =>
    simp only [Cert.okI, Bool.and_eq_true] at hok
    obtain ⟨⟨h1, h2⟩, h3⟩ := hok
    obtain rfl : m = none := by
      cases m with
      | none => rfl
      | some pos =>
        obtain ⟨d, rfl, -⟩ := hp pos rfl
        cases h1
    obtain ⟨φ, T', hT⟩ := hT
    have ho' := ho.get hT.tinv id' src.pos
    have hT' := (hT.get id' src.pos).1
    simp only [OCfg.exec1, chunkedOps]
    rcases hg : tbl.get id' src.pos with ⟨_ | x, t⟩
    · rw [hg] at ho'
      refine ⟨hi, ho', some src.pos, ⟨.nil, .inr ⟨id', src.pos, rfl, rfl, hz.outside⟩⟩, ?_⟩
      obtain ⟨d', h4, h5⟩ := Cert.atMost_iff.1 h2
      exact ⟨d', h5, by show src.pos + d' ≤ src.pos; omega⟩
    · rw [hg] at ho' hT'
      simp only []
      split
      · exact zDoFail stk ⟨φ, _, hT'⟩ hi ho' hz.outside
      · refine ⟨(Input.advance_spec hi _).1, ?_, none, ?_, h3⟩
        · simp only [OVM.addCapt_tbl]; exact ho'
        · simp only [OVM.addCapt_tbl]; exact ZStk.addCapt hz.outside .outside
  | memoClose =>
    simp only [OCfg.exec1, chunkedOps]
    cases stk with
    | nil => trivial
    | cons e r =>
      simp only []
      cases hk : e.kind with
      | memo id' pos =>
        obtain ⟨φ, T', hT⟩ := hT
        rcases hz with ⟨h1, ⟨h2, -⟩ | ⟨_, _, rfl, h3, h4⟩⟩
        · rw [hk] at h2; exact h2.elim
        · rw [hk] at h3
          cases h3
          refine ⟨?_, ?_, none, ?_, hok⟩
          · simp only [OCfg.memoize, OVM.addCapt_src]; exact hi
          · simp only [OCfg.memoize, OVM.addCapt_tbl]
            exact ho.put hT id' pos _ _ _ (h1 pos rfl)
          · simp only [OCfg.memoize]
            exact ZStk.outside (ZStk.addCapt (T := tbl) h4 .outside)
      | _ => trivial
  | checkBegin id' flag => exact ⟨hi, ho, m, ⟨.nil, .inl ⟨trivial, hz⟩⟩, hgo hok (Nat.le_refl _)⟩
  | checkEnd k =>
    simp only [OCfg.exec1, chunkedOps]
    cases stk with
    | nil => trivial
    | cons e r =>
      simp only []
      cases hk : e.kind with
      | check id' pos flag =>
        obtain ⟨h1, h2, h3⟩ := hz.top (by rw [hk]; exact fun _ _ h => by cases h)
        have hz' := ZStk.addCapt (s := (⟨ip, r, capt, src, tbl, errs, cst, rng⟩ : OVM Input σ)) h3 h1
        simp only []
        split
        · refine zDoFail (b := b) _ ?_ ?_ ?_ ?_ (m := m)
          · simp only [OVM.addCapt_tbl]; exact hT
          · simp only [OVM.addCapt_src]; exact hi
          · simp only [OVM.addCapt_tbl]; exact ho
          · simp only [OVM.addCapt_tbl]; exact hz'
        · rename_i n cst' _
          refine ⟨?_, ?_, m, ?_, ?_⟩
          · simp only [OVM.addCapt_src]; exact (Input.advance_spec hi _).1
          · simp only [OVM.addCapt_tbl]; exact ho
          · simp only [OVM.addCapt_tbl]; exact hz'
          · simp only [OVM.addCapt_src]; exact hgo hok (advance_ge hi _)
      | _ => trivial
  | error msg => exact ⟨hi, ho, m, hz, hgo hok (Nat.le_refl _)⟩
  | openCall _ => trivial
  | memoTreeOpen _ _ => cases hok
  | memoTreeInsert => cases hok
  | memoTree => cases hok
  | memoTreeClose _ => cases hok

/-! ## Runs -/

theorem zStep {C : Cert} {code : Code} (hC : C.ok code = true) {b : Bool} {chk : CheckFn σ} {s : OVM Input σ} (hT : ∃ φ T', TSim b φ s.tbl T')
    (h : ZInv C s) : ZRes C (ostepB ⟨chunkedOps, chk, none⟩ code s) := by
  obtain ⟨m, hz, hp⟩ := h.place
  have hv : ∃ v, (s.ip, v) ∈ C ∧ Place m v s.src.pos := by
    cases m with
    | none =>
      obtain ⟨v, hv⟩ := Cert.has_iff.1 hp
      exact ⟨v, hv, fun _ h => by cases h⟩
    | some pos =>
      obtain ⟨d, h1, h2⟩ := hp
      exact ⟨some d, h1, fun _ h => by cases h; exact ⟨d, rfl, h2⟩⟩
  obtain ⟨v, hv, hp⟩ := hv
  simp only [Cert.ok, Bool.and_eq_true] at hC
  have hok := List.all_eq_true.1 hC.2 _ hv
  unfold ostepB
  simp only [] at hok
  split
  · trivial
  · rename_i insn sz hd
    rw [hd] at hok
    exact zExec1 insn hT h.src h.own hz hp hok

theorem zRun {C : Cert} {code : Code} (hC : C.ok code = true) {b : Bool} {chk : CheckFn σ} : ∀ (k : Nat) {s : OVM Input σ} {t : VM Input TreeTable σ}
    {o : OOut Input σ}, Rel b s t → ZInv C s → orunOut (ostepB ⟨chunkedOps, chk, none⟩ code) k s = some o → ZRes C o
  | 0, _, _, _, _, _, h => by cases h
  | k + 1, s, t, o, hr, hz, h => by
    obtain ⟨φ, hT⟩ := hr.tab
    have hs := stepB_rel (c := ⟨chunkedOps, chk, none⟩) code hr
    have hz' := zStep hC (chk := chk) ⟨φ, _, hT⟩ hz
    unfold orunOut at h
    generalize ostepB ⟨chunkedOps, chk, none⟩ code s = o1 at *
    generalize stepB _ code t = o1' at *
    cases hs with
    | next hn => exact zRun hC k hn hz' h
    | panic => cases h; trivial
    | halt _ _ => cases h; exact hz'

/-! ## Finding a certificate -/

namespace Cert

/-- The places the machine can be at after an instruction, or later go back to. -/
def sucs (v : Option Nat) (nxt : Nat) (i : Insn) : Cert :=
  let add := fun k a => (a, v.map fun d => d + k)
  let back := fun a => (a, v.map fun _ => 0)
  match i with
  | .char _ | .set _ => [add 1 nxt]
  | .any n => [add n.toNat nxt]
  | .jump l | .commit l | .partialCommit l => [add 0 l]
  | .backCommit l => [back l]
  | .choice l => [add 0 nxt, back l]
  | .call l => [add 0 l, back nxt]
  | .testChar _ l | .testCharNC _ l | .testSet _ l | .testSetNC _ l => [add 1 nxt, back l]
  | .testAny n l => [add n.toNat nxt, back l]
  | .memoOpen l _ => [(nxt, some 0), (l, none)]
  | .memoClose => [(nxt, none)]
  | .ret | .fail | .failTwice | .endI _ | .openCall _ => []
  | _ => [add 0 nxt]

/-- Search from the places in a list. -/
def search (code : Code) : Nat → Cert → Cert → Cert
  | 0, _, C => C
  | _, [], C => C
  | n + 1, (a, v) :: w, C =>
    let seen := match v with
      | none => C.has a
      | some d => C.atMost a d
    if seen then search code n w C
    else
      let w' := match decode code a with
        | none => w
        | some (i, sz) => sucs v (a + sz) i ++ w
      search code n w' ((a, v) :: C)

/-- Certificate for bytecode, if there is one. -/
def make (code : Code) : Cert := search code 10000 [(0, none)] []

end Cert

end Gpeg.Obj
