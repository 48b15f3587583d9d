import Verif.ObjCert
import Verif.ObjNest
/-!
# Bytecode whose first parse makes nested entries

A certificate for bytecode: the addresses the machine can be at, and how many bytes it has read at least since the start of
the innermost memoized part and the last place it can go back to. If there is no `BackCommit` (positive lookahead), an entry made
in a parse that started with an empty table contains the entries its captures belong to, however memoized parts are nested.
-/
namespace Gpeg.Obj
variable {σ : Type}

/-- Addresses with a number. -/
abbrev NCert := List (Nat × Nat)

namespace NCert

/-- `a` is in the certificate with at most `d`. -/
def atMost (C : NCert) (a d : Nat) : Bool := C.any fun x => x.1 == a && decide (x.2 ≤ d)

/-- The certificate agrees with an instruction. -/
def okI (C : NCert) (d nxt : Nat) : Insn → Bool
  | .label _ | .nop | .emptyOp _ | .span _ | .captureBegin _ | .captureEnd | .checkBegin _ _ | .checkEnd _ | .error _ | .memoClose
  | .memoTreeInsert | .memoTree | .memoTreeClose _ => C.atMost nxt d
  | .char _ | .set _ => C.atMost nxt (d + 1)
  | .any n => C.atMost nxt (d + n.toNat)
  | .jump l | .commit l | .partialCommit l => C.atMost l d
  | .backCommit _ => false
  | .choice l => C.atMost nxt d && C.atMost l 0
  | .call l => C.atMost l d && C.atMost nxt 0
  | .testChar _ l | .testCharNC _ l | .testSet _ l | .testSetNC _ l => C.atMost nxt (d + 1) && C.atMost l 0
  | .testAny n l => C.atMost nxt (d + n.toNat) && C.atMost l 0
  | .captureLate n _ | .captureFull n _ => C.atMost nxt d && decide (n.toNat ≤ d)
  | .ret | .fail | .failTwice | .endI _ | .openCall _ => true
  | .memoOpen l _ => C.atMost nxt 0 && C.atMost l d
  | .memoTreeOpen l _ => C.atMost nxt 0 && C.atMost l 0

/-- The certificate is right for the code. -/
def ok (C : NCert) (code : Code) : Bool :=
  C.atMost 0 0 && C.all fun x => match decode code x.1 with
    | none => true
    | some (i, sz) => C.okI x.2 (x.1 + sz) i

theorem atMost_iff {C : NCert} {a d : Nat} : C.atMost a d = true ↔ ∃ d' ≤ d, (a, d') ∈ C := by
  unfold atMost
  rw [List.any_eq_true]
  constructor
  · rintro ⟨⟨a', d'⟩, hm, h⟩
    simp only [Bool.and_eq_true, beq_iff_eq, decide_eq_true_eq] at h
    obtain ⟨rfl, h⟩ := h
    exact ⟨d', h, hm⟩
  · rintro ⟨d', hd, hm⟩
    exact ⟨_, hm, by simp [hd]⟩

end NCert

/-- The machine can be at `ip` with the input at `p`, in a memoized part that began at `fl`. -/
def NHere (C : NCert) (fl ip p : Nat) : Prop := ∃ d, (ip, d) ∈ C ∧ fl + d ≤ p

theorem NHere.mono {C : NCert} {fl fl' ip p p' : Nat} (h : NHere C fl ip p) (hf : fl' ≤ fl) (hp : p ≤ p') : NHere C fl' ip p' := by
  obtain ⟨d, h1, h2⟩ := h
  exact ⟨d, h1, by omega⟩

theorem NHere.of {C : NCert} {fl ip d p : Nat} (h : C.atMost ip d = true) (hp : fl + d ≤ p) : NHere C fl ip p := by
  obtain ⟨d', h1, h2⟩ := NCert.atMost_iff.1 h
  exact ⟨d', h2, by omega⟩

/-! ## The stack -/

/-- Where the innermost memoized part began. -/
def floor : List OEntry → Nat
  | [] => 0
  | e :: r => match e.kind with
    | .memo _ p | .memoTree _ p _ => p
    | _ => floor r

/-- What a stack entry may be: the memoized part below it began at `fl`, the input is at `q`, the text has length `L`. -/
def KN (C : NCert) (L q fl : Nat) : EKind → Prop
  | .ret ip => NHere C fl ip fl
  | .btrack ip off => NHere C fl ip fl ∧ fl ≤ off ∧ off ≤ q ∧ (q ≤ off ∨ off < L)
  | .capt _ p => fl ≤ p
  | .check _ _ _ => True
  | .memo _ p | .memoTree _ p _ => fl ≤ p ∧ p ≤ q ∧ (q ≤ p ∨ p < L)

/-- Where the input is when the entry has been popped by a failure. -/
def backTo (q : Nat) : EKind → Nat
  | .btrack _ off => off
  | _ => q

/-- The stack: the captures of an entry are within what has been looked at since the memoized part began, and those that belong
to no table entry are newer than all such captures below. -/
def NS (C : NCert) (T : OTab) (F L : Nat) : Nat → Nat → List OEntry → Prop
  | _, _, [] => True
  | q, u, e :: r => ∃ w, w ≤ u ∧ Within T (floor (e :: r)) (max F q + 1 : Nat) w u e.capt ∧ KN C L q (floor r) e.kind ∧
    NS C T F L (backTo q e.kind) w r

theorem KN.adv {C : NCert} {L q q' fl : Nat} {k : EKind} (h : KN C L q fl k) (h1 : q ≤ q') (h2 : q' ≤ q ∨ q < L) : KN C L q' fl k := by
  cases k with
  | ret _ => exact h
  | btrack ip off =>
    obtain ⟨a1, a2, a3, a4⟩ := h
    exact ⟨a1, a2, by omega, by omega⟩
  | memo id p =>
    obtain ⟨a1, a2, a3⟩ := h
    exact ⟨a1, by omega, by omega⟩
  | memoTree id p n =>
    obtain ⟨a1, a2, a3⟩ := h
    exact ⟨a1, by omega, by omega⟩
  | capt _ _ => exact h
  | check _ _ _ => exact h

section
variable {C : NCert} {T : OTab} {F L : Nat}

theorem NS.floor_le : ∀ {l : List OEntry} {q u : Nat}, NS C T F L q u l → floor l ≤ q
  | [], q, _, _ => Nat.zero_le q
  | ⟨k, cs⟩ :: r, q, u, h => by
    obtain ⟨w, h1, h2, h3, h4⟩ := h
    have ih := NS.floor_le h4
    cases k with
    | ret _ => exact ih
    | btrack ip off =>
      obtain ⟨-, -, a3, -⟩ := h3
      exact Nat.le_trans ih a3
    | memo id p => exact h3.2.1
    | memoTree id p n => exact h3.2.1
    | capt _ _ => exact ih
    | check _ _ _ => exact ih

theorem NS.adv : ∀ {l : List OEntry} {F' q q' u u' : Nat}, NS C T F L q u l → F ≤ F' → q ≤ q' → (q' ≤ q ∨ q < L) → u ≤ u' → NS C T F' L q' u' l
  | [], _, _, _, _, _, _, _, _, _, _ => trivial
  | ⟨k, cs⟩ :: r, F', q, q', u, u', h, hF, hq, hL, hu => by
    obtain ⟨w, h1, h2, h3, h4⟩ := h
    refine ⟨w, by omega, h2.mono (Int.le_refl _) (by omega) (Nat.le_refl _) hu, h3.adv hq hL, ?_⟩
    cases k with
    | btrack ip off => exact NS.adv h4 hF (Nat.le_refl _) (.inl (Nat.le_refl _)) (Nat.le_refl _)
    | _ => exact NS.adv h4 hF hq hL (Nat.le_refl _)

theorem NS.table {T' : OTab} {U : Nat} (hT : ∀ lo hi w u rs, u ≤ U → Within T lo hi w u rs → Within T' lo hi w u rs) :
    ∀ {l : List OEntry} {q u : Nat}, u ≤ U → NS C T F L q u l → NS C T' F L q u l
  | [], _, _, _, _ => trivial
  | _ :: _, _, _, hu, h => by
    obtain ⟨w, h1, h2, h3, h4⟩ := h
    exact ⟨w, h1, hT _ _ _ _ _ hu h2, h3, NS.table hT (by omega) h4⟩

theorem floor_cons {L q : Nat} {e : OEntry} {r : List OEntry} (h : KN C L q (floor r) e.kind) : floor r ≤ floor (e :: r) := by
  obtain ⟨k, cs⟩ := e
  cases k with
  | memo _ _ => exact h.1
  | memoTree _ _ _ => exact h.1
  | _ => exact Nat.le_refl _

theorem NS.pop {e : OEntry} {r : List OEntry} {q u : Nat} (h : NS C T F L q u (e :: r)) :
    ∃ w, w ≤ u ∧ Within T (floor (e :: r)) (max F q + 1 : Nat) w u e.capt ∧ NS C T F L q w r ∧ floor r ≤ floor (e :: r) := by
  obtain ⟨w, h1, h2, h3, h4⟩ := h
  have hf := floor_cons h3
  obtain ⟨k, cs⟩ := e
  refine ⟨w, h1, h2, ?_, hf⟩
  cases k with
  | btrack ip off =>
    obtain ⟨-, -, a3, a4⟩ := h3
    exact h4.adv (Nat.le_refl _) a3 a4 (Nat.le_refl _)
  | _ => exact h4

theorem NS.push {l : List OEntry} {q u : Nat} (h : NS C T F L q u l) {k : EKind} (hk : KN C L q (floor l) k) (hb : backTo q k = q) :
    NS C T F L q u (⟨k, []⟩ :: l) :=
  ⟨u, Nat.le_refl _, .nil, hk, by rw [hb]; exact h⟩

theorem floor_addCapt {ι : Type} (s : OVM ι σ) (rs : List Ref) : floor (s.addCapt rs).stk = floor s.stk := by
  unfold OVM.addCapt
  split
  · rename_i h; simp only []
  · rename_i h; rw [h]; rfl

theorem NS.addCapt {ι : Type} {s : OVM ι σ} {q w u : Nat} {rs : List Ref} (h : NS C T F L q w s.stk) (hw : w ≤ u)
    (hr : Within T (floor s.stk) (max F q + 1 : Nat) w u rs) : NS C T F L q u (s.addCapt rs).stk := by
  unfold OVM.addCapt
  cases hs : s.stk with
  | nil => trivial
  | cons e r =>
    rw [hs] at h hr
    obtain ⟨w', h1, h2, h3, h4⟩ := h
    exact ⟨w', by omega, (h2.mono (Int.le_refl _) (Int.le_refl _) (Nat.le_refl _) hw).append
      (hr.mono (Int.le_refl _) (Int.le_refl _) h1 (Nat.le_refl _)), h3, h4⟩

end

/-! ## The table -/

/-- Entries end where the input was, or where it had been. -/
def Ends (F L : Nat) (T : OTab) : Prop :=
  ∀ f ∈ T.flat, ∀ i ∈ f.ins, ∀ x, T.ents[i.val]? = some x → ∀ n, x.length = some n →
    i.high ≤ max (F : Int) (i.low + n) + 1 ∧ (n = 0 ∨ i.low < L)

/-- What holds of the table during the parse. -/
structure NTab (b : Bool) (F L : Nat) (T : OTab) : Prop where
  twf : TWf b T
  nest : Nest T
  ends : Ends F L T

section
variable {b : Bool} {F L : Nat} {T : OTab}

theorem NTab.mono {F' : Nat} (h : NTab b F L T) (hF : F ≤ F') : NTab b F' L T :=
  ⟨h.twf, h.nest, fun f hf i hi x hx n hn => by have := h.ends f hf i hi x hx n hn; omega⟩

theorem NTab.get (h : NTab b F L T) (id : Int) (pos : Nat) : NTab b F L (T.get id pos).2 :=
  ⟨h.twf.get id pos, h.nest.get h.twf.tinv id pos, fun f hf => h.ends f (by rw [get_flat h.twf.tinv] at hf; exact hf)⟩

theorem NTab.alloc (h : NTab b F L T) {x : CObj} (hm : x.ment = none) (hc : ∀ k ∈ x.children, k < T.caps.length) : NTab b F L (T.alloc x).1 :=
  ⟨h.twf.alloc hm hc, h.nest.alloc x, h.ends⟩

/-- What a hit gives. -/
theorem NTab.hit (h : NTab b F L T) {id : Int} {pos : Nat} {x : EObj} {t : OTab} (hg : T.get id pos = (some x, t)) {n : Nat} (hn : x.length = some n)
    (w u : Nat) : Within T pos (max F (if pos < L then pos + n else pos) + 1 : Nat) w u x.captures := by
  simp only [OTab.get, Prod.mk.injEq] at hg
  obtain ⟨hg, -⟩ := hg
  cases hk : (T.map.findLargest id pos).2 with
  | none => rw [hk] at hg; cases hg
  | some k =>
    rw [hk] at hg
    obtain ⟨f, hf, i, hi, rfl, hlow⟩ := get_mem h.twf.tinv hk
    obtain ⟨y, hy, -⟩ := h.nest.len f hf i hi
    simp only [Option.map_some, hy, Option.getD_some, Option.some.injEq] at hg
    subst hg
    obtain ⟨e1, e2⟩ := h.ends f hf i hi y hy n hn
    refine (Within.of_owned ((h.nest.own f hf i hi).2 y hy)).mono (by omega) ?_ (Nat.le_refl w) (Nat.le_refl u)
    split <;> omega

theorem NTab.put (h : NTab b F L T) (id : Int) (start : Nat) (length : Option Nat) (examined count : Nat) {captures : List Ref} {v u' : Nat}
    (hc : Within T start (start + max examined (length.getD 0) : Nat) v u' captures)
    (hE : ∀ n, length = some n → start + max examined n ≤ max F (start + n) + 1 ∧ (n = 0 ∨ start < L)) :
    NTab b F L (T.put id start length examined count captures) ∧ (T.put id start length examined count captures).caps.length = T.caps.length ∧
      ∀ lo hi w u rs, Within T lo hi w u rs → (u ≤ v ∨ (lo ≤ start ∧ (start + max examined (length.getD 0) : Nat) ≤ hi)) →
        Within (T.put id start length examined count captures) lo hi w u rs := by
  by_cases hth : (examined : Int) < T.threshold ∨ length = some 0
  · rw [OTab.put, if_pos hth]
    exact ⟨h, rfl, fun _ _ _ _ _ h _ => h⟩
  · obtain ⟨hs, y, hy, hyl⟩ := put_spec h.twf id start length examined count hc.lt hth
    refine ⟨⟨hs.twf, h.nest.put hs hc, ?_⟩, hs.upd.1, fun _ _ _ _ _ h h' => Within.put hs hc h h'⟩
    intro f hf i hi x hx n hn
    rcases hs.flat f hf i hi with rfl | ⟨g, hg, hig⟩
    · rw [hy] at hx
      simp only [List.getElem?_append_right (Nat.le_refl _), Nat.sub_self, List.getElem?_cons_zero, Option.some.injEq] at hx
      subst hx
      rw [hyl] at hn
      obtain ⟨e1, e2⟩ := hE n hn
      rw [hn, Option.getD_some]
      simp only []
      omega
    · obtain ⟨y', hy', -⟩ := h.nest.len g hg i hig
      rw [hy, List.getElem?_append_left (List.getElem?_eq_some_iff.1 hy').1] at hx
      exact h.ends g hg i hig x hx n hn

/-- An entry for what has been parsed since `start`. -/
theorem NTab.memo (h : NTab b F L T) (id : Int) {start p : Nat} (hle : start ≤ p) (hL : p ≤ start ∨ start < L) (count : Nat) {captures : List Ref} {v u' : Nat}
    (hc : Within T start (max F p + 1 : Nat) v u' captures) :
    NTab b F L (T.put id start (some (p - start)) (max F p + 1 - start) count captures) ∧
      (T.put id start (some (p - start)) (max F p + 1 - start) count captures).caps.length = T.caps.length ∧
      ∀ lo hi w u rs, Within T lo hi w u rs → (u ≤ v ∨ (lo ≤ start ∧ (max F p + 1 : Nat) ≤ hi)) →
        Within (T.put id start (some (p - start)) (max F p + 1 - start) count captures) lo hi w u rs := by
  have he : start + max (max F p + 1 - start) ((some (p - start)).getD 0) = max F p + 1 := by rw [Option.getD_some]; omega
  obtain ⟨h1, h2, h3⟩ := h.put id start (some (p - start)) (max F p + 1 - start) count (captures := captures) (v := v) (u' := u')
    (by rw [he]; exact hc) (by intro n hn; cases hn; omega)
  rw [he] at h3
  exact ⟨h1, h2, h3⟩

end

/-! ## The input -/

/-- The input has moved on. -/
structure Adv (i i' : Input) : Prop where
  inv : i'.Inv
  data : i'.r = i.r
  far : i.furthest ≤ i'.furthest
  le : i.pos ≤ i'.pos
  stop : i'.pos ≤ i.pos ∨ i.pos < i.r.length

theorem Adv.trans {i j k : Input} (h : Adv i j) (h' : Adv j k) : Adv i k := by
  obtain ⟨a1, a2, a3, a4, a5⟩ := h
  obtain ⟨b1, b2, b3, b4, b5⟩ := h'
  rw [a2] at b5
  exact ⟨b1, b2.trans a2, by omega, by omega, by omega⟩

theorem Adv.refl {i : Input} (h : i.Inv) : Adv i i := ⟨h, rfl, Nat.le_refl _, Nat.le_refl _, .inl (Nat.le_refl _)⟩

theorem adv_peek {i i' : Input} {x : Option UInt8} (h : i.Inv) (hp : i.peek = (x, i')) : Adv i i' := by
  obtain ⟨g1, g2⟩ := peek_none h hp
  have h2 : i' = i.peek.2 := by rw [hp]
  rw [Input.peek_snd] at h2
  refine ⟨g1, by rw [h2], by rw [h2]; exact Nat.le_max_left _ _, by omega, .inl (by omega)⟩

theorem adv_advance {i : Input} (h : i.Inv) (n : Nat) : Adv i (i.advance n).2 := by
  obtain ⟨g1, g2, g3, g4⟩ := Input.advance_spec h n
  refine ⟨g1, g3, by omega, ?_, ?_⟩ <;> rw [g2] <;> split <;> omega

theorem adv_span (chk : CheckFn σ) (cs : CSet) : ∀ (k : Nat) {i : Input}, i.Inv → Adv i ((⟨chunkedOps, chk, none⟩ : OCfg Input σ).spanLoop cs k i)
  | 0, _, h => .refl h
  | k + 1, i, h => by
    unfold OCfg.spanLoop
    rcases hp : i.peek with ⟨_ | x, i'⟩
    · have hp' : chunkedOps.peek i = (none, i') := hp
      simp only [hp']
      exact adv_peek h hp
    · have hp' : chunkedOps.peek i = (some x, i') := hp
      simp only [hp']
      have h1 := adv_peek h hp
      split
      · have h2 := h1.trans (adv_advance h1.inv 1)
        exact h2.trans (adv_span chk cs k h2.inv)
      · exact h1

/-! ## Steps -/

/-- What holds of a state. -/
structure NInv (C : NCert) (b : Bool) (s : OVM Input σ) : Prop where
  src : s.src.Inv
  tab : NTab b s.src.furthest s.src.r.length s.tbl
  stk : NS C s.tbl s.src.furthest s.src.r.length s.src.pos s.tbl.caps.length s.stk
  here : NHere C (floor s.stk) s.ip s.src.pos

/-- What holds of the outcome of a step. -/
def NRes (C : NCert) (b : Bool) : OOut Input σ → Prop
  | .next s => NInv C b s
  | .halt _ _ s => Nest s.tbl
  | .panic => True

theorem nDoFail {C : NCert} {b : Bool} {chk : CheckFn σ} : ∀ (l : List OEntry) {s : OVM Input σ}, s.src.Inv →
    NTab b s.src.furthest s.src.r.length s.tbl → NS C s.tbl s.src.furthest s.src.r.length s.src.pos s.tbl.caps.length l →
    NHere C (floor l) s.ip s.src.pos → NRes C b ((⟨chunkedOps, chk, none⟩ : OCfg Input σ).doFail s l)
  | [], _, _, ht, _, _ => ht.nest
  | ⟨k, cs⟩ :: r, s, hi, ht, hz, hh => by
    obtain ⟨w', p1, p2, p3, p4⟩ := hz.pop
    obtain ⟨w, h1, h2, h3, h4⟩ := hz
    have hn : NS C s.tbl s.src.furthest s.src.r.length s.src.pos s.tbl.caps.length r :=
      p3.adv (Nat.le_refl _) (Nat.le_refl _) (.inl (Nat.le_refl _)) p1
    have hh' : NHere C (floor r) s.ip s.src.pos := hh.mono p4 (Nat.le_refl _)
    unfold OCfg.doFail
    cases k with
    | btrack ip off =>
      obtain ⟨g1, g2, g3, g4, -⟩ := Input.seekTo_spec hi off
      refine ⟨g1, ?_, ?_, ?_⟩
      · show NTab b (s.src.seekTo off).2.furthest (s.src.seekTo off).2.r.length s.tbl
        rw [g3, g4]; exact ht
      · show NS C s.tbl (s.src.seekTo off).2.furthest (s.src.seekTo off).2.r.length (s.src.seekTo off).2.pos s.tbl.caps.length r
        rw [g2, g3, g4]
        exact h4.adv (Nat.le_refl _) (Nat.le_refl _) (.inl (Nat.le_refl _)) h1
      · show NHere C (floor r) ip (s.src.seekTo off).2.pos
        rw [g2]
        exact h3.1.mono (Nat.le_refl _) h3.2.1
    | memo id pos =>
      obtain ⟨q1, q2, q3⟩ := ht.put id pos none (max s.src.furthest s.src.pos + 1 - pos) 0 (captures := []) (v := s.tbl.caps.length)
        (u' := s.tbl.caps.length) .nil (fun _ h => by cases h)
      refine nDoFail r (s := OCfg.memoize _ s id pos none 0 []) hi q1 ?_ hh'
      show NS C (s.tbl.put id pos none (max s.src.furthest s.src.pos + 1 - pos) 0 []) _ _ _
        (s.tbl.put id pos none (max s.src.furthest s.src.pos + 1 - pos) 0 []).caps.length r
      rw [q2]
      exact NS.table (fun lo hi w u rs hu hw => q3 lo hi w u rs hw (.inl hu)) (Nat.le_refl _) hn
    | ret _ => exact nDoFail r hi ht hn hh'
    | capt _ _ => exact nDoFail r hi ht hn hh'
    | check _ _ _ => exact nDoFail r hi ht hn hh'
    | memoTree _ _ _ => exact ⟨hi, ht, hn, hh'⟩

/-! ### `MemoTree` -/

/-- A `memoTree` entry. -/
def IsTree (e : OEntry) : Prop := ∃ id p n, e.kind = .memoTree id p n

/-- The captures of several `memoTree` entries together. -/
theorem NS.collect {C : NCert} {T : OTab} {F L q : Nat} {top : OEntry} (ht : IsTree top) {rest : List OEntry} : ∀ {passed : List OEntry} {u : Nat},
    (∀ e ∈ passed, IsTree e) → NS C T F L q u (passed ++ top :: rest) →
    ∃ w, w ≤ u ∧ Within T (floor (top :: rest)) (max F q + 1 : Nat) w u (top.capt ++ (passed.reverse.map OEntry.capt).flatten) ∧
      KN C L q (floor rest) top.kind ∧ NS C T F L q w rest ∧ floor (top :: rest) ≤ floor (passed ++ top :: rest)
  | [], u, _, h => by
    obtain ⟨w, h1, h2, h3, h4⟩ := h
    obtain ⟨id, p, n, hk⟩ := ht
    refine ⟨w, h1, by simpa using h2, h3, ?_, Nat.le_refl _⟩
    rw [hk] at h4
    exact h4
  | e :: passed, u, hp, h => by
    obtain ⟨w1, p1, p2, p3, p4⟩ := NS.pop (e := e) (r := passed ++ top :: rest) h
    obtain ⟨w, h1, h2, h3, h4, h5⟩ := NS.collect ht (fun e' he' => hp e' (List.mem_cons_of_mem _ he')) p3
    have h6 := Nat.le_trans h5 p4
    refine ⟨w, by omega, ?_, h3, h4, h6⟩
    have : (top.capt ++ ((e :: passed).reverse.map OEntry.capt).flatten) = (top.capt ++ (passed.reverse.map OEntry.capt).flatten) ++ e.capt := by
      simp
    rw [this]
    refine (h2.mono (Int.le_refl _) (Int.le_refl _) (Nat.le_refl _) p1).append (p2.mono ?_ (Int.le_refl _) h1 (Nat.le_refl _))
    have : floor (e :: passed ++ top :: rest) = floor (e :: (passed ++ top :: rest)) := rfl
    omega

theorem nTreeLoop {C : NCert} {b : Bool} {chk : CheckFn σ} : ∀ (l : List OEntry) (s : OVM Input σ) (passed : List OEntry) (accum : Nat) (top : OEntry),
    (∀ e ∈ passed, IsTree e) → NTab b s.src.furthest s.src.r.length s.tbl →
    NS C s.tbl s.src.furthest s.src.r.length s.src.pos s.tbl.caps.length (passed ++ top :: l) →
    ∃ s', (⟨chunkedOps, chk, none⟩ : OCfg Input σ).treeLoop s passed accum top l = s' ∧ s'.src = s.src ∧ s'.ip = s.ip ∧
      NTab b s.src.furthest s.src.r.length s'.tbl ∧ NS C s'.tbl s.src.furthest s.src.r.length s.src.pos s'.tbl.caps.length s'.stk ∧
      floor s'.stk ≤ floor (passed ++ top :: l)
  | [], s, passed, accum, top, _, ht, hz => ⟨_, rfl, rfl, rfl, ht, hz, Nat.le_refl _⟩
  | ⟨nk, nc⟩ :: rest, s, passed, accum, ⟨tk, tc⟩, hp, ht, hz => by
    unfold OCfg.treeLoop
    split
    · rename_i tid tpos tcount nid npos ncount e1 e2
      simp only at e1 e2
      subst e1
      subst e2
      have htop : IsTree ⟨.memoTree tid tpos tcount, tc⟩ := ⟨_, _, _, rfl⟩
      simp only []
      split
      · obtain ⟨s', a1, a2, a3, a4, a5, a6⟩ := nTreeLoop (chk := chk) rest s (passed ++ [⟨.memoTree tid tpos tcount, tc⟩]) (accum + tcount)
          ⟨.memoTree nid npos ncount, nc⟩ (by
            intro e he
            rcases List.mem_append.1 he with he | he
            · exact hp e he
            · rw [List.mem_singleton.1 he]; exact htop) ht (by simpa using hz)
        exact ⟨s', a1, a2, a3, a4, a5, by simpa using a6⟩
      · obtain ⟨w, h1, h2, h3, h4, h5⟩ := NS.collect htop hp hz
        obtain ⟨w2, k1, k2, k3, k4⟩ := h4
        have hfl : floor ((⟨.memoTree tid tpos tcount, tc⟩ : OEntry) :: ⟨.memoTree nid npos ncount, nc⟩ :: rest) = tpos := rfl
        have hfn : floor ((⟨.memoTree nid npos ncount, nc⟩ : OEntry) :: rest) = npos := rfl
        have k4 : NS C s.tbl s.src.furthest s.src.r.length s.src.pos w2 rest := k4
        rw [hfl] at h2
        rw [hfn] at h3 k2
        obtain ⟨h3a, h3b, h3c⟩ := h3
        obtain ⟨k3a, k3b, k3c⟩ := k3
        generalize hec : tc ++ (passed.reverse.map OEntry.capt).flatten = ecapt at h2
        -- the table and the captures of the next entry
        have key : ∃ (T' : OTab) (cs : List Ref) (U : Nat), (if ecapt.length > 0 then
              (if (none : Option Interval).isNone then
                ((s.tbl.newDummy tpos (s.src.pos - tpos) ecapt).1, nc ++ [(s.tbl.newDummy tpos (s.src.pos - tpos) ecapt).2])
              else (s.tbl, nc ++ ecapt))
            else (s.tbl, nc)) = (T', cs) ∧ NTab b s.src.furthest s.src.r.length T' ∧ T'.caps.length = U ∧
            NS C T' s.src.furthest s.src.r.length s.src.pos w2 rest ∧ w2 ≤ U ∧
            Within T' npos (max s.src.furthest s.src.pos + 1 : Nat) w2 U cs := by
          by_cases hpos : ecapt.length > 0
          · rw [if_pos hpos]
            refine ⟨_, _, _, rfl, ht.alloc rfl h2.lt, rfl, ?_, ?_, ?_⟩
            · exact NS.table (U := w2) (fun lo hi w u rs _ hw => hw.alloc _) (Nat.le_refl _) k4
            · show w2 ≤ (s.tbl.caps ++ [_]).length
              simp only [List.length_append, List.length_singleton]
              omega
            · have hl : (s.tbl.newDummy tpos (s.src.pos - tpos) ecapt).1.caps.length = s.tbl.caps.length + 1 := by
                simp [OTab.newDummy, OTab.alloc]
              rw [hl]
              refine ((k2.alloc _).mono (Int.le_refl _) (Int.le_refl _) (Nat.le_refl _) (by omega)).append ?_
              refine Within.new (x := ⟨0, true, tpos, s.src.pos - tpos, none, ecapt⟩) ?_ rfl ?_ ?_ (Nat.lt_succ_self _)
              · exact h2.mono (by omega) (Int.le_refl _) k1 (by omega)
              · simp only []; omega
              · omega
          · rw [if_neg hpos]
            exact ⟨_, _, _, rfl, ht, rfl, k4, by omega, k2.mono (Int.le_refl _) (Int.le_refl _) (Nat.le_refl _) h1⟩
        obtain ⟨T', cs, U, hif, t1, t2, t3, t4, t5⟩ := key
        obtain ⟨q1, q2, q3⟩ := t1.memo nid k3b k3c (accum + tcount + ncount) t5
        have hloop := nTreeLoop (chk := chk) rest (OCfg.memoize ⟨chunkedOps, chk, none⟩ { s with tbl := T' } nid npos (some (s.src.pos - npos))
          (accum + tcount + ncount) cs) [] 0 ⟨.memoTree nid npos (accum + tcount + ncount), cs⟩ (fun _ h => by cases h) q1
          (by
            show NS C (T'.put nid npos (some (s.src.pos - npos)) (max s.src.furthest s.src.pos + 1 - npos) (accum + tcount + ncount) cs) _ _ _
              (T'.put nid npos (some (s.src.pos - npos)) (max s.src.furthest s.src.pos + 1 - npos) (accum + tcount + ncount) cs).caps.length _
            rw [q2, t2]
            exact ⟨w2, t4, q3 _ _ _ _ _ t5 (.inr ⟨Int.le_refl _, Int.le_refl _⟩), ⟨k3a, k3b, k3c⟩,
              NS.table (fun lo hi w u rs hu hw => q3 lo hi w u rs hw (.inl hu)) (Nat.le_refl _) t3⟩)
        obtain ⟨s', a1, a2, a3, a4, a5, a6⟩ := hloop
        refine ⟨s', ?_, a2, a3, a4, a5, ?_⟩
        · have hif' : (if ecapt.length > 0 then
              (if (none : Option Interval).isNone then
                (let q := s.tbl.newDummy tpos (s.src.pos - tpos) ecapt; (q.1, nc ++ [q.2]))
              else (s.tbl, nc ++ ecapt))
            else (s.tbl, nc)) = (T', cs) := hif
          rw [← a1]
          show OCfg.treeLoop _ _ _ _ _ _ = _
          have hsp : chunkedOps.pos s.src = s.src.pos := rfl
          simp only [hsp, hif']
        · have : floor ([] ++ (⟨.memoTree nid npos (accum + tcount + ncount), cs⟩ : OEntry) :: rest) = npos := rfl
          rw [hfl] at h5
          omega
    · exact ⟨_, rfl, rfl, rfl, ht, hz, Nat.le_refl _⟩

theorem nTreeClose {C : NCert} (id : Int) : ∀ (l : List OEntry) (s : OVM Input σ) {T : OTab} {F L q u : Nat}, s.stk = l → NS C T F L q u l →
    ∃ s', OCfg.treeClose id s l = s' ∧ s'.src = s.src ∧ s'.ip = s.ip ∧ s'.tbl = s.tbl ∧ NS C T F L q u s'.stk ∧ floor s'.stk ≤ floor l := by
  intro l
  induction hn : l.length using Nat.strongRecOn generalizing l with
  | ind n ih =>
    intro s T F L q u hs hz
    unfold OCfg.treeClose
    split
    · exact ⟨_, rfl, rfl, rfl, rfl, by rw [hs]; exact hz, by rw [hs]; exact Nat.le_refl _⟩
    · rename_i e rest
      split
      · split
        · obtain ⟨w, p1, p2, p3, p4⟩ := hz.pop
          split
          · exact ⟨_, rfl, rfl, rfl, rfl, trivial, Nat.zero_le _⟩
          · rename_i e' rest'
            have hz' : NS C T F L q u ({ e' with capt := e'.capt ++ e.capt } :: rest') :=
              NS.addCapt (s := { s with stk := e' :: rest' }) p3 p1 (p2.mono (Int.ofNat_le.2 p4) (Int.le_refl _) (Nat.le_refl _) (Nat.le_refl _))
            obtain ⟨s', a1, a2, a3, a4, a5, a6⟩ := ih _ (by rw [← hn]; simp) ({ e' with capt := e'.capt ++ e.capt } :: rest') rfl
              { s with stk := { e' with capt := e'.capt ++ e.capt } :: rest' } rfl hz'
            exact ⟨s', a1, a2, a3, a4, a5, Nat.le_trans a6 p4⟩
        · exact ⟨_, rfl, rfl, rfl, rfl, by rw [hs]; exact hz, by rw [hs]; exact Nat.le_refl _⟩
      · exact ⟨_, rfl, rfl, rfl, rfl, by rw [hs]; exact hz, by rw [hs]; exact Nat.le_refl _⟩

/-! ### All instructions -/

theorem Adv.tab {b : Bool} {i i' : Input} {T : OTab} (ha : Adv i i') (h : NTab b i.furthest i.r.length T) : NTab b i'.furthest i'.r.length T := by
  rw [ha.data]
  exact h.mono ha.far

theorem Adv.stk {C : NCert} {i i' : Input} {T : OTab} {l : List OEntry} {u u' : Nat} (ha : Adv i i') (hu : u ≤ u')
    (h : NS C T i.furthest i.r.length i.pos u l) : NS C T i'.furthest i'.r.length i'.pos u' l := by
  rw [ha.data]
  exact h.adv ha.far ha.le ha.stop hu

/-- The top entry is popped and its captures go to the one below. -/
theorem NS.merge {C : NCert} {T : OTab} {F L q u : Nat} {e : OEntry} {r : List OEntry} (h : NS C T F L q u (e :: r)) {ι : Type} (s : OVM ι σ)
    (hs : s.stk = r) : NS C T F L q u (s.addCapt e.capt).stk ∧ floor (s.addCapt e.capt).stk ≤ floor (e :: r) := by
  obtain ⟨w, p1, p2, p3, p4⟩ := h.pop
  rw [floor_addCapt, hs]
  refine ⟨NS.addCapt (by rw [hs]; exact p3) p1 ?_, p4⟩
  rw [hs]
  exact p2.mono (Int.ofNat_le.2 p4) (Int.le_refl _) (Nat.le_refl _) (Nat.le_refl _)

theorem nExec1 {C : NCert} {b : Bool} {chk : CheckFn σ} {s : OVM Input σ} {d nxt : Nat} (insn : Insn) (hI : NInv C b s) (hd : (s.ip, d) ∈ C)
    (hp : floor s.stk + d ≤ s.src.pos) (hok : C.okI d nxt insn = true) : NRes C b ((⟨chunkedOps, chk, none⟩ : OCfg Input σ).exec1 id insn nxt s) := by
  obtain ⟨hi, ht, hz, -⟩ := hI
  obtain ⟨ip, stk, capt, src, tbl, errs, cst, rng⟩ := s
  simp only at hi ht hz hd hp
  have hr0 := Adv.refl hi
  have hgo : ∀ {k a p'}, C.atMost a (d + k) = true → src.pos + k ≤ p' → NHere C (floor stk) a p' := fun h h' => .of h (by omega)
  have hgo0 : ∀ {a p'}, C.atMost a d = true → src.pos ≤ p' → NHere C (floor stk) a p' := fun h h' => .of h (by omega)
  have hbk : ∀ {a}, C.atMost a 0 = true → NHere C (floor stk) a (floor stk) := fun h => .of h (by omega)
  have hbk' : ∀ {a p'}, C.atMost a 0 = true → src.pos ≤ p' → NHere C (floor stk) a p' := fun h h' => .of h (by omega)
  have hbt : ∀ {a}, C.atMost a 0 = true → NS C tbl src.furthest src.r.length src.pos tbl.caps.length (⟨.btrack a src.pos, []⟩ :: stk) :=
    fun h => hz.push ⟨hbk h, by omega, Nat.le_refl _, .inl (Nat.le_refl _)⟩ rfl
  have hmv : ∀ {ip' capt' src' errs' cst' rng'}, Adv src src' → NHere C (floor stk) ip' src'.pos →
      NRes C b (.next (⟨ip', stk, capt', src', tbl, errs', cst', rng'⟩ : OVM Input σ)) :=
    fun ha h => ⟨ha.inv, ha.tab ht, ha.stk (Nat.le_refl _) hz, h⟩
  have hfail : ∀ {src' : Input} {cst' : σ} {capt'}, Adv src src' → NRes C b ((⟨chunkedOps, chk, none⟩ : OCfg Input σ).fail
      ⟨ip, stk, capt', src', tbl, errs, cst', rng⟩) :=
    fun ha => nDoFail stk ha.inv (ha.tab ht) (ha.stk (Nat.le_refl _) hz) ⟨d, hd, Nat.le_trans hp ha.le⟩
  cases insn with
  | label _ => exact hmv hr0 (hgo0 hok (Nat.le_refl _))
  | nop => exact hmv hr0 (hgo0 hok (Nat.le_refl _))
  | char x =>
    simp only [OCfg.exec1, chunkedOps]
    rcases hpk : src.peek with ⟨_ | y, i'⟩
    · exact hfail (adv_peek hi hpk)
    · simp only []
      have ha := adv_peek hi hpk
      split
      · exact hmv (ha.trans (adv_advance ha.inv 1)) (hgo hok (Nat.le_of_eq (peek_some hi hpk).2.symm))
      · exact hfail ha
  | jump l => exact hmv hr0 (hgo0 hok (Nat.le_refl _))
  | choice l =>
    simp only [NCert.okI, Bool.and_eq_true] at hok
    exact ⟨hi, ht, hbt hok.2, hgo0 hok.1 (Nat.le_refl _)⟩
  | call l =>
    simp only [NCert.okI, Bool.and_eq_true] at hok
    exact ⟨hi, ht, hz.push (hbk hok.2) rfl, hgo0 hok.1 (Nat.le_refl _)⟩
  | commit l =>
    simp only [OCfg.exec1]
    cases stk with
    | nil => exact hmv hr0 (hgo0 hok (Nat.le_refl _))
    | cons e r =>
      obtain ⟨h1, h2⟩ := hz.merge (⟨ip, r, capt, src, tbl, errs, cst, rng⟩ : OVM Input σ) rfl
      refine ⟨?_, ?_, ?_, ?_⟩
      · simp only [OVM.addCapt_src]; exact hi
      · simp only [OVM.addCapt_src, OVM.addCapt_tbl]; exact ht
      · simp only [OVM.addCapt_src, OVM.addCapt_tbl]; exact h1
      · simp only [OVM.addCapt_src]; exact (hgo0 hok (Nat.le_refl _)).mono h2 (Nat.le_refl _)
  | ret =>
    cases stk with
    | nil => trivial
    | cons e r =>
      obtain ⟨ek, ec⟩ := e
      cases ek with
      | ret ip' =>
        obtain ⟨h1, h2⟩ := hz.merge (⟨ip, r, capt, src, tbl, errs, cst, rng⟩ : OVM Input σ) rfl
        obtain ⟨w, -, -, h3, -⟩ := hz
        show NRes C b (.next { (OVM.addCapt (⟨ip, r, capt, src, tbl, errs, cst, rng⟩ : OVM Input σ) ec) with ip := ip' })
        refine ⟨?_, ?_, ?_, ?_⟩
        · simp only [OVM.addCapt_src]; exact hi
        · simp only [OVM.addCapt_src, OVM.addCapt_tbl]; exact ht
        · simp only [OVM.addCapt_src, OVM.addCapt_tbl]; exact h1
        · simp only [OVM.addCapt_src, floor_addCapt]
          have hp : floor r + d ≤ src.pos := hp
          exact NHere.mono h3 (Nat.le_refl _) (by omega)
      | _ => trivial
  | fail => exact hfail hr0
  | set cs =>
    simp only [OCfg.exec1, chunkedOps]
    rcases hpk : src.peek with ⟨_ | y, i'⟩
    · exact hfail (adv_peek hi hpk)
    · simp only []
      have ha := adv_peek hi hpk
      split
      · exact hmv (ha.trans (adv_advance ha.inv 1)) (hgo hok (Nat.le_of_eq (peek_some hi hpk).2.symm))
      · exact hfail ha
  | any n =>
    have ha := adv_advance hi n.toNat
    simp only [OCfg.exec1, chunkedOps]
    rcases hpk : src.advance n.toNat with ⟨_ | _, i'⟩
    · rw [hpk] at ha
      exact hfail ha
    · obtain ⟨g1, g2⟩ := advance_ok hi hpk
      rw [hpk] at ha
      exact hmv ha (hgo hok (Nat.le_of_eq g2.symm))
  | partialCommit l =>
    cases stk with
    | nil => trivial
    | cons e r =>
      obtain ⟨ek, ec⟩ := e
      cases ek with
      | btrack ip' off =>
        obtain ⟨h1, h2⟩ := hz.merge (⟨ip, r, capt, src, tbl, errs, cst, rng⟩ : OVM Input σ) rfl
        obtain ⟨w, -, -, h3, -⟩ := hz
        show NRes C b (.next { (OVM.addCapt (⟨ip, r, capt, src, tbl, errs, cst, rng⟩ : OVM Input σ) ec) with
          stk := ⟨.btrack ip' src.pos, []⟩ :: (OVM.addCapt (⟨ip, r, capt, src, tbl, errs, cst, rng⟩ : OVM Input σ) ec).stk, ip := l })
        have hp : floor r + d ≤ src.pos := hp
        refine ⟨?_, ?_, ?_, ?_⟩
        · simp only [OVM.addCapt_src]; exact hi
        · simp only [OVM.addCapt_src, OVM.addCapt_tbl]; exact ht
        · simp only [OVM.addCapt_src, OVM.addCapt_tbl]
          refine NS.push h1 ?_ rfl
          rw [floor_addCapt]
          exact ⟨h3.1, by simp only []; omega, Nat.le_refl _, .inl (Nat.le_refl _)⟩
        · simp only [OVM.addCapt_src]
          show NHere C (floor (OVM.addCapt (⟨ip, r, capt, src, tbl, errs, cst, rng⟩ : OVM Input σ) ec).stk) l src.pos
          rw [floor_addCapt]
          exact hgo0 hok (Nat.le_refl _)
      | _ => trivial
  | span cs =>
    have ha := adv_span chk cs (src.r.length + 1) hi
    exact hmv ha (hgo0 hok ha.le)
  | backCommit l => cases hok
  | failTwice =>
    simp only [OCfg.exec1]
    cases stk with
    | nil => exact hfail hr0
    | cons e r =>
      obtain ⟨w, p1, p2, p3, p4⟩ := hz.pop
      exact nDoFail r hi ht (p3.adv (Nat.le_refl _) (Nat.le_refl _) (.inl (Nat.le_refl _)) p1) ⟨d, hd, by show floor r + d ≤ src.pos; omega⟩
  | emptyOp op =>
    have ha := adv_peek (x := src.peek.1) (i' := src.peek.2) hi rfl
    by_cases hc : emptyOpContext src.peekBefore src.peek.1 &&& op ≠ 0
    · show NRes C b (ite (emptyOpContext src.peekBefore src.peek.1 &&& op ≠ 0) _ _)
      rw [if_pos hc]
      exact hmv ha (hgo0 hok ha.le)
    · show NRes C b (ite (emptyOpContext src.peekBefore src.peek.1 &&& op ≠ 0) _ _)
      rw [if_neg hc]
      exact hfail ha
  | testChar x l =>
    simp only [NCert.okI, Bool.and_eq_true] at hok
    simp only [OCfg.exec1, chunkedOps]
    rcases hpk : src.peek with ⟨_ | y, i'⟩
    · have ha := adv_peek hi hpk
      exact hmv ha (hbk' hok.2 ha.le)
    · have ha := adv_peek hi hpk
      simp only []
      split
      · have ha' := ha.trans (adv_advance ha.inv 1)
        refine ⟨ha'.inv, ha'.tab ht, ?_, hgo hok.1 (Nat.le_of_eq (peek_some hi hpk).2.symm)⟩
        simp only [OVM.push, (peek_none hi hpk).2]
        exact ha'.stk (Nat.le_refl _) (hbt hok.2)
      · exact hmv ha (hbk' hok.2 ha.le)
  | testCharNC x l =>
    simp only [NCert.okI, Bool.and_eq_true] at hok
    simp only [OCfg.exec1, chunkedOps]
    rcases hpk : src.peek with ⟨_ | y, i'⟩
    · have ha := adv_peek hi hpk
      exact hmv ha (hbk' hok.2 ha.le)
    · have ha := adv_peek hi hpk
      simp only []
      split
      · exact hmv (ha.trans (adv_advance ha.inv 1)) (hgo hok.1 (Nat.le_of_eq (peek_some hi hpk).2.symm))
      · exact hmv ha (hbk' hok.2 ha.le)
  | testSet cs l =>
    simp only [NCert.okI, Bool.and_eq_true] at hok
    simp only [OCfg.exec1, chunkedOps]
    rcases hpk : src.peek with ⟨_ | y, i'⟩
    · have ha := adv_peek hi hpk
      exact hmv ha (hbk' hok.2 ha.le)
    · have ha := adv_peek hi hpk
      simp only []
      split
      · have ha' := ha.trans (adv_advance ha.inv 1)
        refine ⟨ha'.inv, ha'.tab ht, ?_, hgo hok.1 (Nat.le_of_eq (peek_some hi hpk).2.symm)⟩
        simp only [OVM.push, (peek_none hi hpk).2]
        exact ha'.stk (Nat.le_refl _) (hbt hok.2)
      · exact hmv ha (hbk' hok.2 ha.le)
  | testSetNC cs l =>
    simp only [NCert.okI, Bool.and_eq_true] at hok
    simp only [OCfg.exec1, chunkedOps]
    rcases hpk : src.peek with ⟨_ | y, i'⟩
    · have ha := adv_peek hi hpk
      exact hmv ha (hbk' hok.2 ha.le)
    · have ha := adv_peek hi hpk
      simp only []
      split
      · exact hmv (ha.trans (adv_advance ha.inv 1)) (hgo hok.1 (Nat.le_of_eq (peek_some hi hpk).2.symm))
      · exact hmv ha (hbk' hok.2 ha.le)
  | testAny n l =>
    simp only [NCert.okI, Bool.and_eq_true] at hok
    have ha := adv_advance hi n.toNat
    simp only [OCfg.exec1, chunkedOps]
    rcases hpk : src.advance n.toNat with ⟨_ | _, i'⟩
    · rw [hpk] at ha
      exact hmv ha (hbk' hok.2 ha.le)
    · obtain ⟨g1, g2⟩ := advance_ok hi hpk
      rw [hpk] at ha
      exact ⟨ha.inv, ha.tab ht, ha.stk (Nat.le_refl _) (hbt hok.2), hgo hok.1 (Nat.le_of_eq g2.symm)⟩
  | captureBegin id' => exact ⟨hi, ht, hz.push (show floor stk ≤ src.pos by omega) rfl, hgo0 hok (Nat.le_refl _)⟩
  | captureLate n id' =>
    simp only [NCert.okI, Bool.and_eq_true, decide_eq_true_eq] at hok
    exact ⟨hi, ht, hz.push (show floor stk ≤ src.pos - n.toNat by omega) rfl, hgo0 hok.1 (Nat.le_refl _)⟩
  | captureFull n id' =>
    simp only [NCert.okI, Bool.and_eq_true, decide_eq_true_eq] at hok
    show NRes C b (.next { OVM.addNew ⟨ip, stk, capt, src, tbl, errs, cst, ⟨min rng.low (src.pos - n.toNat), max rng.high src.pos⟩⟩
      (tbl.newNode id' (src.pos - n.toNat) n.toNat []) with ip := nxt })
    have hl : (tbl.newNode id' (src.pos - n.toNat) n.toNat []).1.caps.length = tbl.caps.length + 1 := by simp [OTab.newNode, OTab.alloc]
    refine ⟨?_, ?_, ?_, ?_⟩
    · simp only [OVM.addNew, OVM.addCapt_src]; exact hi
    · simp only [OVM.addNew, OVM.addCapt_tbl, OVM.addCapt_src]; exact ht.alloc rfl (fun _ h => by cases h)
    · simp only [OVM.addNew, OVM.addCapt_tbl, OVM.addCapt_src]
      rw [hl]
      refine NS.addCapt (w := tbl.caps.length) (NS.table (U := tbl.caps.length) (fun lo hi w u rs _ hw => hw.alloc _) (Nat.le_refl _) hz) (Nat.le_succ _) ?_
      refine Within.new (x := ⟨id', false, _, n.toNat, none, []⟩) .nil rfl ?_ (Nat.le_refl _) (Nat.lt_succ_self _)
      simp only []
      omega
    · simp only [OVM.addNew, OVM.addCapt_src]
      show NHere C (floor (OVM.addCapt _ _).stk) nxt src.pos
      rw [floor_addCapt]
      exact hgo0 hok.1 (Nat.le_refl _)
  | captureEnd =>
    cases stk with
    | nil => trivial
    | cons e r =>
      obtain ⟨ek, ec⟩ := e
      cases ek with
      | capt id' pos' =>
        obtain ⟨w, h1, h2, h3, h4⟩ := hz
        have h2 : Within tbl (floor r) (max src.furthest src.pos + 1 : Nat) w tbl.caps.length ec := h2
        have h3 : floor r ≤ pos' := h3
        show NRes C b (.next { OVM.addNew ⟨ip, r, capt, src, tbl, errs, cst, ⟨min rng.low pos', max rng.high src.pos⟩⟩
          (tbl.newNode id' pos' (src.pos - pos') ec) with ip := nxt })
        have hl : (tbl.newNode id' pos' (src.pos - pos') ec).1.caps.length = tbl.caps.length + 1 := by simp [OTab.newNode, OTab.alloc]
        refine ⟨?_, ?_, ?_, ?_⟩
        · simp only [OVM.addNew, OVM.addCapt_src]; exact hi
        · simp only [OVM.addNew, OVM.addCapt_tbl, OVM.addCapt_src]; exact ht.alloc rfl h2.lt
        · simp only [OVM.addNew, OVM.addCapt_tbl, OVM.addCapt_src]
          rw [hl]
          refine NS.addCapt (w := w) (NS.table (U := w) (fun lo hi w u rs _ hw => hw.alloc _) (Nat.le_refl _) h4) (by omega) ?_
          refine Within.new (x := ⟨id', false, _, src.pos - pos', none, ec⟩) ?_ rfl ?_ h1 (Nat.lt_succ_self _)
          · exact h2.mono (Int.le_refl _) (Int.le_refl _) (Nat.le_refl _) (Nat.le_succ _)
          · simp only []; omega
        · simp only [OVM.addNew, OVM.addCapt_src]
          show NHere C (floor (OVM.addCapt _ _).stk) nxt src.pos
          rw [floor_addCapt]
          exact hgo0 hok (Nat.le_refl _)
      | _ => trivial
  | endI fl => exact ht.nest.alloc _
  | memoOpen l id' =>
    simp only [NCert.okI, Bool.and_eq_true] at hok
    have ht' := ht.get id' src.pos
    have hz' : NS C (tbl.get id' src.pos).2 src.furthest src.r.length src.pos tbl.caps.length stk :=
      NS.table (U := tbl.caps.length) (fun lo hi w u rs _ hw => hw.get ht.twf.tinv _ _) (Nat.le_refl _) hz
    simp only [OCfg.exec1, chunkedOps]
    rcases hg : tbl.get id' src.pos with ⟨_ | x, t⟩
    · have hcl : t.caps.length = tbl.caps.length := by
        have : t = (tbl.get id' src.pos).2 := by rw [hg]
        rw [this]; rfl
      rw [hg] at ht' hz'
      refine ⟨hi, ht', ?_, NHere.of hok.1 (Nat.le_refl _)⟩
      show NS C t src.furthest src.r.length src.pos t.caps.length (⟨.memo id' src.pos, []⟩ :: stk)
      rw [hcl]
      exact hz'.push ⟨by omega, Nat.le_refl _, .inl (Nat.le_refl _)⟩ rfl
    · have hcl : t.caps.length = tbl.caps.length := by
        have : t = (tbl.get id' src.pos).2 := by rw [hg]
        rw [this]; rfl
      simp only []
      cases hn : x.length with
      | none =>
        rw [hg] at ht' hz'
        exact nDoFail stk hi ht' (by show NS C t _ _ _ t.caps.length stk; rw [hcl]; exact hz') ⟨d, hd, hp⟩
      | some n =>
        have hh := (ht.hit hg hn tbl.caps.length tbl.caps.length).get ht.twf.tinv id' src.pos
        have ha := adv_advance hi n
        rw [hg] at ht' hz' hh
        refine ⟨ha.inv, ?_, ?_, ?_⟩
        · simp only [OVM.addCapt_tbl]; exact ha.tab ht'
        · simp only [OVM.addCapt_tbl]
          rw [hcl]
          refine NS.addCapt (w := tbl.caps.length) (ha.stk (Nat.le_refl _) hz') (Nat.le_refl _) ?_
          refine hh.mono ?_ ?_ (Nat.le_refl _) (Nat.le_refl _)
          · simp only []; omega
          · obtain ⟨g1, g2, g3, g4⟩ := Input.advance_spec hi n
            rw [g2, g4]
            exact Int.le_refl _
        · simp only []
          rw [floor_addCapt]
          exact hgo0 hok.2 ha.le
  | memoClose =>
    cases stk with
    | nil => trivial
    | cons e r =>
      obtain ⟨ek, ec⟩ := e
      cases ek with
      | memo id' pos =>
        obtain ⟨w, h1, h2, h3, h4⟩ := hz
        obtain ⟨h3a, h3b, h3c⟩ := h3
        have h2 : Within tbl pos (max src.furthest src.pos + 1 : Nat) w tbl.caps.length ec := h2
        have h4 : NS C tbl src.furthest src.r.length src.pos w r := h4
        have hp : pos + d ≤ src.pos := hp
        obtain ⟨q1, q2, q3⟩ := ht.memo id' h3b h3c 1 h2
        show NRes C b (.next { (OCfg.memoize ⟨chunkedOps, chk, none⟩ (OVM.addCapt (⟨ip, r, capt, src, tbl, errs, cst, rng⟩ : OVM Input σ) ec) id' pos
          (some (chunkedOps.pos (OVM.addCapt (⟨ip, r, capt, src, tbl, errs, cst, rng⟩ : OVM Input σ) ec).src - pos)) 1 ec) with ip := nxt })
        refine ⟨?_, ?_, ?_, ?_⟩
        · simp only [OCfg.memoize, OVM.addCapt_src]; exact hi
        · simp only [OCfg.memoize, OVM.addCapt_src, OVM.addCapt_tbl]; exact q1
        · simp only [OCfg.memoize, OVM.addCapt_src, OVM.addCapt_tbl]
          show NS C (tbl.put id' pos (some (src.pos - pos)) (max src.furthest src.pos + 1 - pos) 1 ec) _ _ _
            (tbl.put id' pos (some (src.pos - pos)) (max src.furthest src.pos + 1 - pos) 1 ec).caps.length _
          rw [q2]
          unfold OVM.addCapt
          cases r with
          | nil => trivial
          | cons e2 r2 =>
            obtain ⟨w2, k1, k2, k3, k4⟩ := h4
            refine ⟨w2, by omega, ?_, k3, NS.table (U := w2) (fun lo hi w u rs hu hw => q3 lo hi w u rs hw (.inl (by omega))) (Nat.le_refl _) k4⟩
            refine q3 _ _ _ _ _ ?_ (.inr ⟨Int.ofNat_le.2 h3a, Int.le_refl _⟩)
            exact (k2.mono (Int.le_refl _) (Int.le_refl _) (Nat.le_refl _) h1).append
              (h2.mono (Int.ofNat_le.2 h3a) (Int.le_refl _) k1 (Nat.le_refl _))
        · simp only [OCfg.memoize, OVM.addCapt_src, floor_addCapt]
          exact NHere.of (d := d) hok (by show floor r + d ≤ src.pos; omega)
      | _ => trivial
  | checkBegin id' flag => exact ⟨hi, ht, hz.push trivial rfl, hgo0 hok (Nat.le_refl _)⟩
  | checkEnd k =>
    cases stk with
    | nil => trivial
    | cons e r =>
      obtain ⟨ek, ec⟩ := e
      cases ek with
      | check id' pos flag =>
        obtain ⟨h1, h2⟩ := hz.merge (⟨ip, r, capt, src, tbl, errs, cst, rng⟩ : OVM Input σ) rfl
        simp only [OCfg.exec1, chunkedOps]
        split
        · refine nDoFail _ ?_ ?_ ?_ ?_
          · simp only [OVM.addCapt_src]; exact hi
          · simp only [OVM.addCapt_src, OVM.addCapt_tbl]; exact ht
          · simp only [OVM.addCapt_src, OVM.addCapt_tbl]; exact h1
          · simp only [OVM.addCapt_src]
            refine ⟨d, ?_, Nat.le_trans (Nat.add_le_add_right h2 d) hp⟩
            have : (OVM.addCapt (⟨ip, r, capt, src, tbl, errs, cst, rng⟩ : OVM Input σ) ec).ip = ip := by
              unfold OVM.addCapt; split <;> rfl
            rw [this]
            exact hd
        · rename_i n cst' _
          have ha := adv_advance hi n
          refine ⟨?_, ?_, ?_, ?_⟩
          · simp only [OVM.addCapt_src]; exact ha.inv
          · simp only [OVM.addCapt_src, OVM.addCapt_tbl]; exact ha.tab ht
          · simp only [OVM.addCapt_src, OVM.addCapt_tbl]; exact ha.stk (Nat.le_refl _) h1
          · simp only [OVM.addCapt_src]
            exact (hgo0 hok ha.le).mono h2 (Nat.le_refl _)
      | _ => trivial
  | error msg => exact hmv hr0 (hgo0 hok (Nat.le_refl _))
  | openCall _ => trivial
  | memoTreeOpen l id' =>
    simp only [NCert.okI, Bool.and_eq_true] at hok
    have ht' := ht.get id' src.pos
    have hz' : NS C (tbl.get id' src.pos).2 src.furthest src.r.length src.pos tbl.caps.length stk :=
      NS.table (U := tbl.caps.length) (fun lo hi w u rs _ hw => hw.get ht.twf.tinv _ _) (Nat.le_refl _) hz
    have hps : ∀ {t : OTab} (n : Nat), NS C t src.furthest src.r.length src.pos tbl.caps.length stk →
        NS C t src.furthest src.r.length src.pos tbl.caps.length (⟨.memoTree id' src.pos n, []⟩ :: stk) :=
      fun n h => h.push ⟨by omega, Nat.le_refl _, .inl (Nat.le_refl _)⟩ rfl
    simp only [OCfg.exec1, chunkedOps]
    rcases hg : tbl.get id' src.pos with ⟨_ | x, t⟩
    · have hcl : t.caps.length = tbl.caps.length := by
        have : t = (tbl.get id' src.pos).2 := by rw [hg]
        rw [this]; rfl
      rw [hg] at ht' hz'
      refine ⟨hi, ht', ?_, NHere.of hok.1 (Nat.le_refl _)⟩
      show NS C t src.furthest src.r.length src.pos t.caps.length (⟨.memoTree id' src.pos 0, []⟩ :: stk)
      rw [hcl]
      exact hps 0 hz'
    · have hcl : t.caps.length = tbl.caps.length := by
        have : t = (tbl.get id' src.pos).2 := by rw [hg]
        rw [this]; rfl
      simp only []
      cases hn : x.length with
      | none =>
        rw [hg] at ht' hz'
        exact nDoFail stk hi ht' (by show NS C t _ _ _ t.caps.length stk; rw [hcl]; exact hz') ⟨d, hd, hp⟩
      | some n =>
        have hh := (ht.hit hg hn tbl.caps.length tbl.caps.length).get ht.twf.tinv id' src.pos
        have ha1 := adv_advance hi n
        have ha2 := adv_peek (x := (src.advance n).2.peek.1) (i' := (src.advance n).2.peek.2) ha1.inv rfl
        have hpk := (peek_none (x := (src.advance n).2.peek.1) (i' := (src.advance n).2.peek.2) ha1.inv rfl).2
        have ha := ha1.trans ha2
        rw [hg] at ht' hz' hh
        show NRes C b (.next (⟨l, ⟨.memoTree id' src.pos x.count, [] ++ x.captures⟩ :: stk, capt, (src.advance n).2.peek.2, t, errs, cst, rng⟩ : OVM Input σ))
        refine ⟨ha.inv, ha.tab ht', ?_, ?_⟩
        · show NS C t _ _ _ t.caps.length (⟨.memoTree id' src.pos x.count, [] ++ x.captures⟩ :: stk)
          rw [hcl]
          refine NS.addCapt (s := (⟨l, ⟨.memoTree id' src.pos x.count, []⟩ :: stk, capt, (src.advance n).2.peek.2, t, errs, cst, rng⟩ : OVM Input σ))
            (w := tbl.caps.length) (ha.stk (Nat.le_refl _) (hps _ hz')) (Nat.le_refl _) ?_
          refine hh.mono (Int.le_refl _) ?_ (Nat.le_refl _) (Nat.le_refl _)
          obtain ⟨g1, g2, g3, g4⟩ := Input.advance_spec hi n
          have hf : src.furthest ≤ (src.advance n).2.peek.2.furthest := ha.far
          rw [hpk, g2]
          generalize (if src.pos < src.r.length then src.pos + n else src.pos) = z
          have hm : max src.furthest z ≤ max (src.advance n).2.peek.2.furthest z := by omega
          exact Int.ofNat_le.2 (Nat.succ_le_succ hm)
        · exact NHere.of (d := 0) hok.2 ha.le
  | memoTreeInsert =>
    cases stk with
    | nil => trivial
    | cons e r =>
      obtain ⟨ek, ec⟩ := e
      cases ek with
      | memoTree id' pos count =>
        obtain ⟨w, h1, h2, h3, h4⟩ := hz
        have h2 : Within tbl pos (max src.furthest src.pos + 1 : Nat) w tbl.caps.length ec := h2
        have h4 : NS C tbl src.furthest src.r.length src.pos w r := h4
        obtain ⟨q1, q2, q3⟩ := ht.memo id' h3.2.1 h3.2.2 (count + 1) h2
        refine ⟨hi, q1, ?_, hgo0 hok (Nat.le_refl _)⟩
        show NS C (tbl.put id' pos (some (src.pos - pos)) (max src.furthest src.pos + 1 - pos) (count + 1) ec) _ _ _
          (tbl.put id' pos (some (src.pos - pos)) (max src.furthest src.pos + 1 - pos) (count + 1) ec).caps.length
            (⟨.memoTree id' pos (count + 1), ec⟩ :: r)
        rw [q2]
        exact ⟨w, h1, q3 _ _ _ _ _ h2 (.inr ⟨Int.le_refl _, Int.le_refl _⟩), h3,
          NS.table (U := w) (fun lo hi w u rs hu hw => q3 lo hi w u rs hw (.inl hu)) (Nat.le_refl _) h4⟩
      | _ => trivial
  | memoTree =>
    simp only [OCfg.exec1]
    cases stk with
    | nil => exact hmv hr0 (hgo0 hok (Nat.le_refl _))
    | cons top rest =>
      obtain ⟨s', a1, a2, a3, a4, a5, a6⟩ := nTreeLoop (chk := chk) rest (⟨ip, top :: rest, capt, src, tbl, errs, cst, rng⟩ : OVM Input σ) [] 0 top
        (fun _ h => by cases h) ht hz
      simp only []
      rw [a1]
      refine ⟨?_, ?_, ?_, ?_⟩
      · simp only [a2]; exact hi
      · simp only [a2]; exact a4
      · simp only [a2]; exact a5
      · simp only [a2]; exact (hgo0 hok (Nat.le_refl _)).mono a6 (Nat.le_refl _)
  | memoTreeClose id' =>
    simp only [OCfg.exec1]
    obtain ⟨s', a1, a2, a3, a4, a5, a6⟩ := nTreeClose id' stk (⟨ip, stk, capt, src, tbl, errs, cst, rng⟩ : OVM Input σ) rfl hz
    rw [a1]
    refine ⟨?_, ?_, ?_, ?_⟩
    · simp only [a2]; exact hi
    · simp only [a2, a4]; exact ht
    · simp only [a2, a4]; exact a5
    · simp only [a2]; exact (hgo0 hok (Nat.le_refl _)).mono a6 (Nat.le_refl _)

/-! ## Runs -/

theorem nStep {C : NCert} {code : Code} (hC : C.ok code = true) {b : Bool} {chk : CheckFn σ} {s : OVM Input σ} (h : NInv C b s) :
    NRes C b (ostepB ⟨chunkedOps, chk, none⟩ code s) := by
  obtain ⟨d, h1, h2⟩ := h.here
  simp only [NCert.ok, Bool.and_eq_true] at hC
  have hok := List.all_eq_true.1 hC.2 _ h1
  unfold ostepB
  simp only [] at hok
  split
  · trivial
  · rename_i insn sz hd
    rw [hd] at hok
    exact nExec1 insn h h1 h2 hok

theorem nRun {C : NCert} {code : Code} (hC : C.ok code = true) {b : Bool} {chk : CheckFn σ} : ∀ (k : Nat) {s : OVM Input σ} {o : OOut Input σ},
    NInv C b s → orunOut (ostepB ⟨chunkedOps, chk, none⟩ code) k s = some o → NRes C b o
  | 0, _, _, _, h => by cases h
  | k + 1, s, o, hz, h => by
    have hz' := nStep hC (chk := chk) hz
    unfold orunOut at h
    generalize ostepB ⟨chunkedOps, chk, none⟩ code s = o1 at *
    cases o1 with
    | next s' => exact nRun hC k hz' h
    | halt _ _ _ => cases h; exact hz'
    | panic => cases h; trivial

/-! ## Finding a certificate -/

namespace NCert

/-- The places the machine can be at after an instruction, or later go back to. -/
def sucs (d nxt : Nat) : Insn → NCert
  | .char _ | .set _ => [(nxt, d + 1)]
  | .any n => [(nxt, d + n.toNat)]
  | .jump l | .commit l | .partialCommit l => [(l, d)]
  | .choice l => [(nxt, d), (l, 0)]
  | .call l => [(l, d), (nxt, 0)]
  | .testChar _ l | .testCharNC _ l | .testSet _ l | .testSetNC _ l => [(nxt, d + 1), (l, 0)]
  | .testAny n l => [(nxt, d + n.toNat), (l, 0)]
  | .memoOpen l _ => [(nxt, 0), (l, d)]
  | .memoTreeOpen l _ => [(nxt, 0), (l, 0)]
  | .ret | .fail | .failTwice | .endI _ | .openCall _ | .backCommit _ => []
  | _ => [(nxt, d)]

/-- Search from the places in a list. -/
def search (code : Code) : Nat → NCert → NCert → NCert
  | 0, _, C => C
  | _, [], C => C
  | n + 1, (a, d) :: w, C =>
    if C.atMost a d then search code n w C
    else
      let w' := match decode code a with
        | none => w
        | some (i, sz) => sucs d (a + sz) i ++ w
      search code n w' ((a, d) :: C)

/-- Certificate for bytecode, if there is one. -/
def make (code : Code) : NCert := search code 10000 [(0, 0)] []

end NCert

end Gpeg.Obj
