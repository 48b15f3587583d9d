import Verif.Run
/-!
# Relating two machines

`exec1_rel`: executing the same instruction on two states that agree up to the representation of
code addresses and of the input source gives such states again. `Bisim` is the stuttering
bisimulation used to compare whole runs.
-/
namespace Gpeg
variable {ι ι' τ σ : Type}

/-- Payloads that agree up to code addresses. -/
inductive KindRel (RA : Nat → Nat → Prop) : EKind → EKind → Prop
  | ret {a b} : RA a b → KindRel RA (.ret a) (.ret b)
  | btrack {a b} (off) : RA a b → KindRel RA (.btrack a off) (.btrack b off)
  | memo (id pos) : KindRel RA (.memo id pos) (.memo id pos)
  | memoTree (id pos count) : KindRel RA (.memoTree id pos count) (.memoTree id pos count)
  | capt (id pos) : KindRel RA (.capt id pos) (.capt id pos)
  | check (id pos flag) : KindRel RA (.check id pos flag) (.check id pos flag)

/-- Stack entries that agree up to code addresses. -/
structure EntRel (RA : Nat → Nat → Prop) (e e' : Entry) : Prop where
  kind : KindRel RA e.kind e'.kind
  capt : e.capt = e'.capt

/-- Stacks that agree up to code addresses. -/
inductive StkRel (RA : Nat → Nat → Prop) : List Entry → List Entry → Prop
  | nil : StkRel RA [] []
  | cons {e e' r r'} : EntRel RA e e' → StkRel RA r r' → StkRel RA (e :: r) (e' :: r')

/-- States that agree up to code addresses and the input source. -/
structure VRel (RA : Nat → Nat → Prop) (RI : ι → ι' → Prop) (s : VM ι τ σ) (t : VM ι' τ σ) : Prop where
  ip : RA s.ip t.ip
  stk : StkRel RA s.stk t.stk
  capt : s.capt = t.capt
  src : RI s.src t.src
  tbl : s.tbl = t.tbl
  errs : s.errs = t.errs
  cst : s.cst = t.cst
  rng : s.rng = t.rng

/-- Results of a step, given a relation of states. -/
inductive OutRel (R : VM ι τ σ → VM ι' τ σ → Prop) : Out ι τ σ → Out ι' τ σ → Prop
  | next {s t} : R s t → OutRel R (.next s) (.next t)
  | halt {s t} (b c) : R s t → OutRel R (.halt b c s) (.halt b c t)
  | panic : OutRel R .panic .panic

/-- The input operations respect `RI`. -/
structure InpRel (RI : ι → ι' → Prop) (o : InputOps ι) (o' : InputOps ι') : Prop where
  pos : ∀ {i j}, RI i j → o.pos i = o'.pos j
  furthest : ∀ {i j}, RI i j → o.furthest i = o'.furthest j
  peek1 : ∀ {i j}, RI i j → (o.peek i).1 = (o'.peek j).1
  peek2 : ∀ {i j}, RI i j → RI (o.peek i).2 (o'.peek j).2
  before : ∀ {i j}, RI i j → o.peekBefore i = o'.peekBefore j
  seek : ∀ {i j} p, RI i j → RI (o.seekTo i p) (o'.seekTo j p)
  adv2 : ∀ {i j} n, RI i j → RI (o.advance i n).2 (o'.advance j n).2
  slice : ∀ {i j} a b, RI i j → o.slice i a b = o'.slice j a b
  data : ∀ {i j}, RI i j → o.data i = o'.data j

section
variable {RA : Nat → Nat → Prop} {RI : ι → ι' → Prop} {o : InputOps ι} {o' : InputOps ι'}
  {tab : TableOps τ} {chk : CheckFn σ} {iv : Option Interval}

theorem VRel.addCapt {s : VM ι τ σ} {t : VM ι' τ σ} (h : VRel RA RI s t) (cs : List Capture) :
    VRel RA RI (s.addCapt cs) (t.addCapt cs) := by
  obtain ⟨ip, stk, capt, src, tbl, errs, cst, rng⟩ := s
  obtain ⟨ip', stk', capt', src', tbl', errs', cst', rng'⟩ := t
  obtain ⟨h1, h2, rfl, h4, h5, h6, h7, h8⟩ := h
  have h2' : StkRel RA stk stk' := h2
  cases h2' with
  | nil => exact ⟨h1, .nil, rfl, h4, h5, h6, h7, h8⟩
  | cons he hr => exact ⟨h1, .cons ⟨he.kind, by simp only [he.capt]⟩ hr, rfl, h4, h5, h6, h7, h8⟩

theorem VRel.push {s : VM ι τ σ} {t : VM ι' τ σ} (h : VRel RA RI s t) {k k' : EKind} (hk : KindRel RA k k') :
    VRel RA RI (s.push k) (t.push k') :=
  ⟨h.ip, .cons ⟨hk, rfl⟩ h.stk, h.capt, h.src, h.tbl, h.errs, h.cst, h.rng⟩

theorem VRel.setIp {s : VM ι τ σ} {t : VM ι' τ σ} (h : VRel RA RI s t) {a b : Nat} (hab : RA a b) :
    VRel RA RI { s with ip := a } { t with ip := b } :=
  ⟨hab, h.stk, h.capt, h.src, h.tbl, h.errs, h.cst, h.rng⟩

theorem VRel.setSrc {s : VM ι τ σ} {t : VM ι' τ σ} (h : VRel RA RI s t) {a : ι} {b : ι'} (hab : RI a b) :
    VRel RA RI { s with src := a } { t with src := b } :=
  ⟨h.ip, h.stk, h.capt, hab, h.tbl, h.errs, h.cst, h.rng⟩

theorem VRel.setStk {s : VM ι τ σ} {t : VM ι' τ σ} (h : VRel RA RI s t) {a b : List Entry} (hab : StkRel RA a b) :
    VRel RA RI { s with stk := a } { t with stk := b } :=
  ⟨h.ip, hab, h.capt, h.src, h.tbl, h.errs, h.cst, h.rng⟩

theorem VRel.setTbl {s : VM ι τ σ} {t : VM ι' τ σ} (h : VRel RA RI s t) (a : τ) :
    VRel RA RI { s with tbl := a } { t with tbl := a } :=
  ⟨h.ip, h.stk, h.capt, h.src, rfl, h.errs, h.cst, h.rng⟩

theorem VRel.setCst {s : VM ι τ σ} {t : VM ι' τ σ} (h : VRel RA RI s t) (a : σ) :
    VRel RA RI { s with cst := a } { t with cst := a } :=
  ⟨h.ip, h.stk, h.capt, h.src, h.tbl, h.errs, rfl, h.rng⟩

theorem VRel.setRng {s : VM ι τ σ} {t : VM ι' τ σ} (h : VRel RA RI s t) (a : Interval) :
    VRel RA RI { s with rng := a } { t with rng := a } :=
  ⟨h.ip, h.stk, h.capt, h.src, h.tbl, h.errs, h.cst, rfl⟩

theorem VRel.memoize (ho : InpRel RI o o') {s : VM ι τ σ} {t : VM ι' τ σ} (h : VRel RA RI s t)
    (id : Int) (pos : Nat) (mlen : Option Nat) (count : Nat) (capt : List Capture) :
    VRel RA RI ((⟨o, tab, chk, iv⟩ : Cfg ι τ σ).memoize s id pos mlen count capt)
      ((⟨o', tab, chk, iv⟩ : Cfg ι' τ σ).memoize t id pos mlen count capt) := by
  unfold Cfg.memoize
  simp only [ho.furthest h.src, ho.pos h.src, h.tbl]
  exact h.setTbl _

theorem doFail_rel (ho : InpRel RI o o') {S S' : List Entry} (hS : StkRel RA S S') :
    ∀ {s : VM ι τ σ} {t : VM ι' τ σ}, VRel RA RI s t →
    OutRel (VRel RA RI) ((⟨o, tab, chk, iv⟩ : Cfg ι τ σ).doFail s S)
      ((⟨o', tab, chk, iv⟩ : Cfg ι' τ σ).doFail t S') := by
  induction hS with
  | nil => intro s t h; exact .halt _ _ (h.setStk .nil)
  | @cons e e' r r' he hr ih =>
    intro s t h
    unfold Cfg.doFail
    obtain ⟨k, c⟩ := e
    obtain ⟨k', c'⟩ := e'
    have hk : KindRel RA k k' := he.kind
    cases hk with
    | ret => exact ih h
    | btrack off hab => exact .next ⟨hab, hr, h.capt, ho.seek off h.src, h.tbl, h.errs, h.cst, h.rng⟩
    | memo id pos => exact ih (h.memoize ho id pos none 0 [])
    | memoTree id pos count => exact .next (h.setStk hr)
    | capt id pos => exact ih h
    | check id pos flag => exact ih h

theorem fail_rel (ho : InpRel RI o o') {s : VM ι τ σ} {t : VM ι' τ σ} (h : VRel RA RI s t) :
    OutRel (VRel RA RI) ((⟨o, tab, chk, iv⟩ : Cfg ι τ σ).fail s) ((⟨o', tab, chk, iv⟩ : Cfg ι' τ σ).fail t) :=
  doFail_rel ho h.stk h

theorem spanLoop_rel (ho : InpRel RI o o') (cs : CSet) (n : Nat) : ∀ {i : ι} {j : ι'}, RI i j →
    RI ((⟨o, tab, chk, iv⟩ : Cfg ι τ σ).spanLoop cs n i) ((⟨o', tab, chk, iv⟩ : Cfg ι' τ σ).spanLoop cs n j) := by
  induction n with
  | zero => intro i j h; exact h
  | succ n ih =>
    intro i j h
    unfold Cfg.spanLoop
    have h1 := ho.peek1 h
    have h2 := ho.peek2 h
    revert h1 h2
    show (o.peek i).1 = (o'.peek j).1 → RI (o.peek i).2 (o'.peek j).2 → RI (match o.peek i with
      | (some b, src) => _ | (none, src) => src) (match o'.peek j with
      | (some b, src) => _ | (none, src) => src)
    generalize o.peek i = x
    generalize o'.peek j = y
    obtain ⟨x1, x2⟩ := x
    obtain ⟨y1, y2⟩ := y
    intro h1 h2
    cases h1
    cases x1 with
    | none => exact h2
    | some b =>
      show RI (if cs.has b then _ else x2) (if cs.has b then _ else y2)
      split
      · exact ih (ho.adv2 1 h2)
      · exact h2

theorem treeClose_rel (id : Int) {S S' : List Entry} (hS : StkRel RA S S') :
    ∀ {s : VM ι τ σ} {t : VM ι' τ σ}, VRel RA RI s t →
    VRel RA RI (Cfg.treeClose id s S) (Cfg.treeClose id t S') := by
  generalize hn : S.length = n
  induction n generalizing S S' with
  | zero =>
    intro s t h
    cases hS with
    | nil => unfold Cfg.treeClose; exact h
    | cons => simp at hn
  | succ n ih =>
    intro s t h
    cases hS with
    | nil => simp at hn
    | @cons e e' r r' he hr =>
      unfold Cfg.treeClose
      obtain ⟨k, c⟩ := e
      obtain ⟨k', c'⟩ := e'
      have hk : KindRel RA k k' := he.kind
      have hc : c = c' := he.capt
      subst hc
      cases hk with
      | memoTree id' pos count =>
        simp only
        split
        · cases hr with
          | nil =>
            exact ⟨h.ip, .nil, by rw [h.capt], h.src, h.tbl, h.errs, h.cst, h.rng⟩
          | @cons e1 e1' r1 r1' he1 hr1 =>
            have hs : StkRel RA (⟨e1.kind, e1.capt ++ c⟩ :: r1) (⟨e1'.kind, e1'.capt ++ c⟩ :: r1') :=
              .cons ⟨he1.kind, by rw [he1.capt]⟩ hr1
            exact ih hs (by simpa using hn) (h.setStk hs)
        · exact h
      | _ => exact h

theorem stkRel_append {a a' b b' : List Entry} (h : StkRel RA a a') (h' : StkRel RA b b') :
    StkRel RA (a ++ b) (a' ++ b') := by
  induction h with
  | nil => exact h'
  | cons he _ ih => exact .cons he ih

theorem stkRel_capts {a a' : List Entry} (h : StkRel RA a a') :
    a.map Entry.capt = a'.map Entry.capt := by
  induction h with
  | nil => rfl
  | cons he _ ih => simp [he.capt, ih]

theorem treeLoop_rel (ho : InpRel RI o o') {S S' : List Entry} (hS : StkRel RA S S') :
    ∀ {s : VM ι τ σ} {t : VM ι' τ σ} {P P' : List Entry} {top top' : Entry} (acc : Nat),
    StkRel RA P P' → EntRel RA top top' → VRel RA RI s t →
    VRel RA RI ((⟨o, tab, chk, iv⟩ : Cfg ι τ σ).treeLoop s P acc top S)
      ((⟨o', tab, chk, iv⟩ : Cfg ι' τ σ).treeLoop t P' acc top' S') := by
  induction hS with
  | nil =>
    intro s t P P' top top' acc hP htop h
    exact h.setStk (stkRel_append hP (.cons htop .nil))
  | @cons e e' r r' he hr ih =>
    intro s t P P' top top' acc hP htop h
    unfold Cfg.treeLoop
    obtain ⟨k, c⟩ := e
    obtain ⟨k', c'⟩ := e'
    obtain ⟨k1, c1⟩ := top
    obtain ⟨k1', c1'⟩ := top'
    have hc : c = c' := he.capt
    have hc1 : c1 = c1' := htop.capt
    have hk : KindRel RA k k' := he.kind
    have hk1 : KindRel RA k1 k1' := htop.kind
    subst hc hc1
    have hbrk := h.setStk (stkRel_append hP (.cons htop (.cons he hr)))
    cases hk1 with
    | memoTree id1 pos1 count1 =>
      cases hk with
      | memoTree id2 pos2 count2 =>
        simp only
        split
        · exact ih _ (stkRel_append hP (.cons htop .nil)) he h
        · have hcap : (P.reverse.map Entry.capt) = (P'.reverse.map Entry.capt) := by
            rw [List.map_reverse, List.map_reverse, stkRel_capts hP]
          rw [hcap, ho.pos h.src]
          refine ih _ .nil ⟨.memoTree _ _ _, rfl⟩ (h.memoize ho _ _ _ _ _)
      | _ => exact hbrk
    | _ => exact hbrk

theorem checkEnd_rel (ho : InpRel RI o o') {k pos : Nat} {id flag : Int} {nxt nxt' : Nat} (hnxt : RA nxt nxt')
    {s : VM ι τ σ} {t : VM ι' τ σ} (h : VRel RA RI s t) :
    OutRel (VRel RA RI)
      (match chk k s.cst (o.slice s.src pos (o.pos s.src)) (o.data s.src) (o.pos s.src) id flag with
        | (none, cst) => (⟨o, tab, chk, iv⟩ : Cfg ι τ σ).fail { s with cst := cst }
        | (some n, cst) => .next { s with cst := cst, src := (o.advance s.src n).2, ip := nxt })
      (match chk k t.cst (o'.slice t.src pos (o'.pos t.src)) (o'.data t.src) (o'.pos t.src) id flag with
        | (none, cst) => (⟨o', tab, chk, iv⟩ : Cfg ι' τ σ).fail { t with cst := cst }
        | (some n, cst) => .next { t with cst := cst, src := (o'.advance t.src n).2, ip := nxt' }) := by
  rw [ho.pos h.src, ho.slice _ _ h.src, ho.data h.src, h.cst]
  split
  · exact fail_rel ho (h.setCst _)
  · exact .next (((h.setCst _).setSrc (ho.adv2 _ h.src)).setIp hnxt)

/-- One step of both machines. -/
theorem exec1_rel (ho : InpRel RI o o') {insn : Insn} {tgt tgt' : Nat → Nat} {nxt nxt' : Nat}
    (htgt : ∀ l, insn.target? = some l → RA (tgt l) (tgt' l)) (hnxt : RA nxt nxt')
    (hany : ∀ n, (insn = .any n ∨ ∃ l, insn = .testAny n l) → ∀ {i j}, RI i j →
      (o.advance i n.toNat).1 = (o'.advance j n.toNat).1)
    {s : VM ι τ σ} {t : VM ι' τ σ} (h : VRel RA RI s t) :
    OutRel (VRel RA RI) ((⟨o, tab, chk, iv⟩ : Cfg ι τ σ).exec1 tgt insn nxt s)
      ((⟨o', tab, chk, iv⟩ : Cfg ι' τ σ).exec1 tgt' insn nxt' t) := by
  obtain ⟨ip, stk, capt, src, tbl, errs, cst, rng⟩ := s
  obtain ⟨ip', stk', capt', src', tbl', errs', cst', rng'⟩ := t
  obtain ⟨-, -, hcapt, -, htbl, herrs, hcst, hrng⟩ := id h
  dsimp only at hcapt htbl herrs hcst hrng
  subst hcapt htbl herrs hcst hrng
  have hsrc : RI src src' := h.src
  have hp1 := ho.peek1 hsrc
  have hp2 := ho.peek2 hsrc
  have hpos := ho.pos hsrc
  have hstk : StkRel RA stk stk' := h.stk
  cases insn with
  | label l => exact .next (h.setIp hnxt)
  | nop => exact .next (h.setIp hnxt)
  | char b =>
    unfold Cfg.exec1
    simp only
    revert hp1 hp2
    generalize o.peek src = x
    generalize o'.peek src' = y
    obtain ⟨x1, x2⟩ := x
    obtain ⟨y1, y2⟩ := y
    intro h1 h2
    cases h1
    cases x1 with
    | none => exact fail_rel ho (h.setSrc h2)
    | some b' =>
      simp only
      split
      · exact .next ((h.setSrc (ho.adv2 1 h2)).setIp hnxt)
      · exact fail_rel ho (h.setSrc h2)
  | jump l => exact .next (h.setIp (htgt l rfl))
  | choice l =>
    unfold Cfg.exec1
    simp only [hpos]
    exact .next ((h.push (.btrack _ (htgt l rfl))).setIp hnxt)
  | call l => exact .next ((h.push (.ret hnxt)).setIp (htgt l rfl))
  | commit l =>
    unfold Cfg.exec1
    cases hstk
    · exact .next (h.setIp (htgt l rfl))
    · rename_i he hr
      simp only [he.capt]
      exact .next (((h.setStk hr).addCapt _).setIp (htgt l rfl))
  | ret =>
    unfold Cfg.exec1
    cases hstk
    · exact .panic
    · rename_i e e' r r' he hr
      obtain ⟨k, c⟩ := e
      obtain ⟨k', c'⟩ := e'
      have hc : c = c' := he.capt
      have hk : KindRel RA k k' := he.kind
      subst hc
      cases hk with
      | ret hab => exact .next (((h.setStk hr).addCapt _).setIp hab)
      | _ => exact .panic
  | fail => exact fail_rel ho h
  | set cs =>
    unfold Cfg.exec1
    simp only
    revert hp1 hp2
    generalize o.peek src = x
    generalize o'.peek src' = y
    obtain ⟨x1, x2⟩ := x
    obtain ⟨y1, y2⟩ := y
    intro h1 h2
    cases h1
    cases x1 with
    | none => exact fail_rel ho (h.setSrc h2)
    | some b' =>
      simp only
      split
      · exact .next ((h.setSrc (ho.adv2 1 h2)).setIp hnxt)
      · exact fail_rel ho (h.setSrc h2)
  | any n =>
    have ha := hany n (Or.inl rfl) h.src
    have ha2 := ho.adv2 n.toNat h.src
    unfold Cfg.exec1
    simp only
    revert ha ha2
    generalize o.advance src n.toNat = x
    generalize o'.advance src' n.toNat = y
    obtain ⟨x1, x2⟩ := x
    obtain ⟨y1, y2⟩ := y
    intro h1 h2
    cases h1
    cases x1 with
    | true => exact .next ((h.setSrc h2).setIp hnxt)
    | false => exact fail_rel ho (h.setSrc h2)
  | partialCommit l =>
    unfold Cfg.exec1
    cases hstk
    · exact .panic
    · rename_i e e' r r' he hr
      obtain ⟨k, c⟩ := e
      obtain ⟨k', c'⟩ := e'
      have hc : c = c' := he.capt
      have hk : KindRel RA k k' := he.kind
      subst hc
      cases hk with
      | btrack off hab =>
        simp only [hpos]
        have h' := (h.setStk hr).addCapt c
        exact .next ⟨htgt l rfl, .cons ⟨.btrack _ hab, rfl⟩ h'.stk, h'.capt, h'.src, h'.tbl, h'.errs, h'.cst, h'.rng⟩
      | _ => exact .panic
  | span cs =>
    unfold Cfg.exec1
    have hr := spanLoop_rel (tab := tab) (chk := chk) (iv := iv) ho cs ((o.data src).length + 1) hsrc
    have hd : (o.data src).length + 1 = (o'.data src').length + 1 := by rw [ho.data hsrc]
    refine .next ⟨hnxt, h.stk, rfl, ?_, rfl, rfl, rfl, rfl⟩
    simp only
    rw [← hd]
    exact hr
  | backCommit l =>
    unfold Cfg.exec1
    cases hstk
    · exact .panic
    · rename_i e e' r r' he hr
      obtain ⟨k, c⟩ := e
      obtain ⟨k', c'⟩ := e'
      have hc : c = c' := he.capt
      have hk : KindRel RA k k' := he.kind
      subst hc
      cases hk with
      | btrack off hab =>
        have h' := (h.setStk hr).addCapt c
        exact .next ((h'.setSrc (ho.seek off h.src)).setIp (htgt l rfl))
      | _ => exact .panic
  | failTwice =>
    unfold Cfg.exec1
    cases hstk
    · exact fail_rel ho h
    · rename_i e e' r r' he hr
      exact fail_rel ho (h.setStk hr)
  | emptyOp op =>
    unfold Cfg.exec1
    have hb := ho.before hsrc
    show OutRel _ (if emptyOpContext (o.peekBefore src) (o.peek src).1 &&& op ≠ 0 then _ else _)
      (if emptyOpContext (o'.peekBefore src') (o'.peek src').1 &&& op ≠ 0 then _ else _)
    rw [hb, hp1]
    split
    · exact .next ((h.setSrc hp2).setIp hnxt)
    · exact fail_rel ho (h.setSrc hp2)
  | testChar b l =>
    unfold Cfg.exec1
    simp only
    revert hp1 hp2
    generalize o.peek src = x
    generalize o'.peek src' = y
    obtain ⟨x1, x2⟩ := x
    obtain ⟨y1, y2⟩ := y
    intro h1 h2
    cases h1
    cases x1 with
    | none => exact .next ((h.setSrc h2).setIp (htgt l rfl))
    | some b' =>
      simp only [ho.pos h2]
      split
      · exact .next ((((h.setSrc h2).push (.btrack _ (htgt l rfl))).setSrc (ho.adv2 1 h2)).setIp hnxt)
      · exact .next ((h.setSrc h2).setIp (htgt l rfl))
  | testCharNC b l =>
    unfold Cfg.exec1
    simp only
    revert hp1 hp2
    generalize o.peek src = x
    generalize o'.peek src' = y
    obtain ⟨x1, x2⟩ := x
    obtain ⟨y1, y2⟩ := y
    intro h1 h2
    cases h1
    cases x1 with
    | none => exact .next ((h.setSrc h2).setIp (htgt l rfl))
    | some b' =>
      simp only
      split
      · exact .next ((h.setSrc (ho.adv2 1 h2)).setIp hnxt)
      · exact .next ((h.setSrc h2).setIp (htgt l rfl))
  | testSet cs l =>
    unfold Cfg.exec1
    simp only
    revert hp1 hp2
    generalize o.peek src = x
    generalize o'.peek src' = y
    obtain ⟨x1, x2⟩ := x
    obtain ⟨y1, y2⟩ := y
    intro h1 h2
    cases h1
    cases x1 with
    | none => exact .next ((h.setSrc h2).setIp (htgt l rfl))
    | some b' =>
      simp only [ho.pos h2]
      split
      · exact .next ((((h.setSrc h2).push (.btrack _ (htgt l rfl))).setSrc (ho.adv2 1 h2)).setIp hnxt)
      · exact .next ((h.setSrc h2).setIp (htgt l rfl))
  | testSetNC cs l =>
    unfold Cfg.exec1
    simp only
    revert hp1 hp2
    generalize o.peek src = x
    generalize o'.peek src' = y
    obtain ⟨x1, x2⟩ := x
    obtain ⟨y1, y2⟩ := y
    intro h1 h2
    cases h1
    cases x1 with
    | none => exact .next ((h.setSrc h2).setIp (htgt l rfl))
    | some b' =>
      simp only
      split
      · exact .next ((h.setSrc (ho.adv2 1 h2)).setIp hnxt)
      · exact .next ((h.setSrc h2).setIp (htgt l rfl))
  | testAny n l =>
    have ha := hany n (Or.inr ⟨l, rfl⟩) h.src
    have ha2 := ho.adv2 n.toNat h.src
    unfold Cfg.exec1
    simp only [hpos]
    revert ha ha2
    generalize o.advance src n.toNat = x
    generalize o'.advance src' n.toNat = y
    obtain ⟨x1, x2⟩ := x
    obtain ⟨y1, y2⟩ := y
    intro h1 h2
    cases h1
    cases x1 with
    | true => exact .next (((h.push (.btrack _ (htgt l rfl))).setSrc h2).setIp hnxt)
    | false => exact .next ((h.setSrc h2).setIp (htgt l rfl))
  | endI fl =>
    unfold Cfg.exec1
    simp only [hpos]
    exact .halt _ _ h
  | memoOpen l id =>
    unfold Cfg.exec1
    simp only [hpos]
    generalize tab.get tbl id (o'.pos src') = x
    obtain ⟨m, t'⟩ := x
    cases m with
    | none => exact .next (((h.setTbl t').push (.memo _ _)).setIp hnxt)
    | some m =>
      simp only
      cases m.length with
      | none => exact fail_rel ho (h.setTbl t')
      | some n =>
        exact .next ((((h.setTbl t').addCapt _).setSrc (ho.adv2 n h.src)).setIp (htgt l rfl))
  | memoClose =>
    unfold Cfg.exec1
    cases hstk
    · exact .panic
    · rename_i e e' r r' he hr
      obtain ⟨k, c⟩ := e
      obtain ⟨k', c'⟩ := e'
      have hc : c = c' := he.capt
      have hk : KindRel RA k k' := he.kind
      subst hc
      cases hk with
      | memo id pos =>
        have h' := (h.setStk hr).addCapt c
        have hp : o.pos ((⟨ip, r, capt, src, tbl, errs, cst, rng⟩ : VM ι τ σ).addCapt c).src =
          o'.pos ((⟨ip', r', capt, src', tbl, errs, cst, rng⟩ : VM ι' τ σ).addCapt c).src := ho.pos h'.src
        simp only [hp]
        exact .next ((h'.memoize ho _ _ _ _ _).setIp hnxt)
      | _ => exact .panic
  | memoTreeOpen l id =>
    unfold Cfg.exec1
    simp only [hpos]
    generalize tab.get tbl id (o'.pos src') = x
    obtain ⟨m, t'⟩ := x
    cases m with
    | none => exact .next (((h.setTbl t').push (.memoTree _ _ _)).setIp hnxt)
    | some m =>
      simp only
      cases m.length with
      | none => exact fail_rel ho (h.setTbl t')
      | some n =>
        have h1 : VRel RA RI ((⟨ip, stk, capt, src, t', errs, cst, rng⟩ : VM ι τ σ).push (.memoTree id (o'.pos src') m.count))
          ((⟨ip', stk', capt, src', t', errs, cst, rng⟩ : VM ι' τ σ).push (.memoTree id (o'.pos src') m.count)) :=
          (h.setTbl t').push (.memoTree _ _ _)
        have h2 := h1.addCapt m.captures
        exact .next ((h2.setSrc (ho.peek2 (ho.adv2 n h2.src))).setIp (htgt l rfl))
  | memoTreeClose id => exact .next ((treeClose_rel id h.stk h).setIp hnxt)
  | memoTreeInsert =>
    unfold Cfg.exec1
    cases hstk
    · exact .panic
    · rename_i e e' r r' he hr
      obtain ⟨k, c⟩ := e
      obtain ⟨k', c'⟩ := e'
      have hc : c = c' := he.capt
      have hk : KindRel RA k k' := he.kind
      subst hc
      cases hk with
      | memoTree id pos count =>
        simp only [hpos]
        exact .next (((h.setStk (.cons ⟨.memoTree _ _ _, rfl⟩ hr)).memoize ho _ _ _ _ _).setIp hnxt)
      | _ => exact .panic
  | memoTree =>
    unfold Cfg.exec1
    cases hstk
    · exact .next (h.setIp hnxt)
    · rename_i e e' r r' he hr
      exact .next ((treeLoop_rel ho hr 0 .nil he h).setIp hnxt)
  | captureBegin id =>
    unfold Cfg.exec1
    simp only [hpos]
    exact .next ((h.push (.capt _ _)).setIp hnxt)
  | captureLate back id =>
    unfold Cfg.exec1
    simp only [hpos]
    exact .next ((h.push (.capt _ _)).setIp hnxt)
  | captureFull back id =>
    unfold Cfg.exec1
    simp only [hpos]
    split
    · exact .next (((h.setRng _).addCapt _).setIp hnxt)
    · exact .next (h.setIp hnxt)
  | captureEnd =>
    unfold Cfg.exec1
    cases hstk
    · exact .panic
    · rename_i e e' r r' he hr
      obtain ⟨k, c⟩ := e
      obtain ⟨k', c'⟩ := e'
      have hc : c = c' := he.capt
      have hk : KindRel RA k k' := he.kind
      subst hc
      cases hk with
      | capt id pos =>
        simp only [hpos]
        split
        · exact .next ((((h.setStk hr).setRng _).addCapt _).setIp hnxt)
        · exact .next ((h.setStk hr).setIp hnxt)
      | _ => exact .panic
  | checkBegin id flag =>
    unfold Cfg.exec1
    simp only [hpos]
    exact .next ((h.push (.check _ _ _)).setIp hnxt)
  | checkEnd k =>
    unfold Cfg.exec1
    cases hstk
    · exact .panic
    · rename_i e e' r r' he hr
      obtain ⟨k, c⟩ := e
      obtain ⟨k', c'⟩ := e'
      have hc : c = c' := he.capt
      have hk : KindRel RA k k' := he.kind
      subst hc
      cases hk with
      | check id pos flag =>
        have h' := (h.setStk hr).addCapt c
        exact checkEnd_rel ho hnxt h'
      | _ => exact .panic
  | error msg =>
    unfold Cfg.exec1
    simp only [hpos]
    exact .next ⟨hnxt, h.stk, h.capt, h.src, h.tbl, rfl, h.cst, h.rng⟩
  | openCall n => exact .panic

end

/-! ## Bisimulation -/

/-- From related states, both machines reach related outcomes, each making at least one step. -/
def Bisim (A : VM ι τ σ → Out ι τ σ) (B : VM ι' τ σ → Out ι' τ σ) (R : VM ι τ σ → VM ι' τ σ → Prop) : Prop :=
  ∀ s t, R s t → ∃ m n, OutRel R (oiter A (m + 1) (.next s)) (oiter B (n + 1) (.next t))

theorem Bisim.symm {A : VM ι τ σ → Out ι τ σ} {B : VM ι' τ σ → Out ι' τ σ}
    {R : VM ι τ σ → VM ι' τ σ → Prop} (h : Bisim A B R) : Bisim B A (fun t s => R s t) := by
  intro t s hr
  obtain ⟨m, n, ho⟩ := h s t hr
  refine ⟨n, m, ?_⟩
  revert ho
  generalize oiter A (m + 1) (.next s) = x
  generalize oiter B (n + 1) (.next t) = y
  intro ho
  cases ho with
  | next h => exact .next h
  | halt b c h => exact .halt b c h
  | panic => exact .panic

theorem Bisim.run {A : VM ι τ σ → Out ι τ σ} {B : VM ι' τ σ → Out ι' τ σ}
    {R : VM ι τ σ → VM ι' τ σ → Prop} (h : Bisim A B R) {s : VM ι τ σ} {t : VM ι' τ σ} (hr : R s t)
    {x : Out ι τ σ} (hx : Reach A (.next s) x) (hf : x.isNext = false) :
    ∃ y, Reach B (.next t) y ∧ OutRel R x y := by
  obtain ⟨k, hk⟩ := hx
  induction k using Nat.strongRecOn generalizing s t with
  | ind k ih =>
    obtain ⟨m, n, ho⟩ := h s t hr
    by_cases hkm : m + 1 ≤ k
    · obtain ⟨d, rfl⟩ := Nat.exists_eq_add_of_le hkm
      rw [oiter_add] at hk
      generalize hx' : oiter A (m + 1) (.next s) = x' at hk ho
      generalize hy' : oiter B (n + 1) (.next t) = y' at ho
      cases ho with
      | @next s' t' hr' =>
        obtain ⟨y, hy, hxy⟩ := ih d (by omega) hr' hk
        exact ⟨y, Reach.trans ⟨n + 1, hy'⟩ hy, hxy⟩
      | halt b c hr' =>
        rw [oiter_final _ rfl] at hk
        subst hk
        exact ⟨_, ⟨n + 1, hy'⟩, .halt b c hr'⟩
      | panic =>
        rw [oiter_final _ rfl] at hk
        subst hk
        exact ⟨_, ⟨n + 1, hy'⟩, .panic⟩
    · obtain ⟨d, hd⟩ := Nat.exists_eq_add_of_le (show k ≤ m + 1 by omega)
      rw [hd, oiter_add, hk, oiter_final d hf] at ho
      exact ⟨_, ⟨n + 1, rfl⟩, ho⟩

theorem OutRel.final {R : VM ι τ σ → VM ι' τ σ → Prop} {x : Out ι τ σ} {y : Out ι' τ σ} (h : OutRel R x y)
    (hf : x.isNext = false) : y.isNext = false := by
  cases h with
  | next => cases hf
  | halt => rfl
  | panic => rfl

theorem OutRel.mono {R R' : VM ι τ σ → VM ι' τ σ → Prop} {x : Out ι τ σ} {y : Out ι' τ σ} (h : OutRel R x y)
    (hR : ∀ s t, R s t → R' s t) : OutRel R' x y := by
  cases h with
  | next h => exact .next (hR _ _ h)
  | halt b c h => exact .halt b c (hR _ _ h)
  | panic => exact .panic

/-! ## Equivalent runs -/

/-- Final states that agree on everything observable; `RI` relates the inputs. -/
structure ObsRel (RI : ι → ι' → Prop) (s : VM ι τ σ) (t : VM ι' τ σ) : Prop where
  src : RI s.src t.src
  tbl : s.tbl = t.tbl
  errs : s.errs = t.errs
  cst : s.cst = t.cst

theorem VRel.obs {RA : Nat → Nat → Prop} {RI : ι → ι' → Prop} {s : VM ι τ σ} {t : VM ι' τ σ}
    (h : VRel RA RI s t) : ObsRel RI s t := ⟨h.src, h.tbl, h.errs, h.cst⟩

/-- Two runs stop with the same observations, or neither stops. -/
structure RunEq (A : VM ι τ σ → Out ι τ σ) (s : VM ι τ σ) (B : VM ι' τ σ → Out ι' τ σ) (t : VM ι' τ σ)
    (RI : ι → ι' → Prop) : Prop where
  fwd : ∀ x, Reach A (.next s) x → x.isNext = false → ∃ y, Reach B (.next t) y ∧ OutRel (ObsRel RI) x y
  bwd : ∀ y, Reach B (.next t) y → y.isNext = false → ∃ x, Reach A (.next s) x ∧ OutRel (ObsRel RI) x y

theorem Bisim.runEq {A : VM ι τ σ → Out ι τ σ} {B : VM ι' τ σ → Out ι' τ σ}
    {R : VM ι τ σ → VM ι' τ σ → Prop} {RI : ι → ι' → Prop} (h : Bisim A B R)
    (hR : ∀ s t, R s t → ObsRel RI s t) {s : VM ι τ σ} {t : VM ι' τ σ} (hr : R s t) : RunEq A s B t RI := by
  refine ⟨fun x hx hf => ?_, fun y hy hf => ?_⟩
  · obtain ⟨y, hy, hxy⟩ := h.run hr hx hf
    exact ⟨y, hy, hxy.mono hR⟩
  · obtain ⟨x, hx, hxy⟩ := h.symm.run (R := fun t s => R s t) hr hy hf
    refine ⟨x, hx, ?_⟩
    cases hxy with
    | next h => exact .next (hR _ _ h)
    | halt b c h => exact .halt b c (hR _ _ h)
    | panic => exact .panic

theorem RunEq.refl (A : VM ι τ σ → Out ι τ σ) (s : VM ι τ σ) : RunEq A s A s Eq := by
  have : ∀ x : Out ι τ σ, OutRel (ObsRel Eq) x x := by
    intro x
    cases x with
    | next s => exact .next ⟨rfl, rfl, rfl, rfl⟩
    | halt b c s => exact .halt b c ⟨rfl, rfl, rfl, rfl⟩
    | panic => exact .panic
  exact ⟨fun x hx _ => ⟨x, hx, this x⟩, fun x hx _ => ⟨x, hx, this x⟩⟩

theorem RunEq.trans {ι'' : Type} {A : VM ι τ σ → Out ι τ σ} {B : VM ι' τ σ → Out ι' τ σ}
    {C : VM ι'' τ σ → Out ι'' τ σ} {s : VM ι τ σ} {t : VM ι' τ σ} {u : VM ι'' τ σ} {RI : ι → ι' → Prop}
    {RJ : ι' → ι'' → Prop} {RK : ι → ι'' → Prop} (h : RunEq A s B t RI) (h' : RunEq B t C u RJ)
    (hK : ∀ i j k, RI i j → RJ j k → RK i k) : RunEq A s C u RK := by
  have comp : ∀ {x : Out ι τ σ} {y : Out ι' τ σ} {z : Out ι'' τ σ}, OutRel (ObsRel RI) x y →
      OutRel (ObsRel RJ) y z → OutRel (ObsRel RK) x z := by
    intro x y z h1 h2
    have hobs : ∀ {a b c}, ObsRel RI a b → ObsRel RJ b c → ObsRel (τ := τ) (σ := σ) RK a c :=
      fun h1 h2 => ⟨hK _ _ _ h1.src h2.src, h1.tbl.trans h2.tbl, h1.errs.trans h2.errs, h1.cst.trans h2.cst⟩
    cases h1 with
    | next h1 => cases h2 with | next h2 => exact .next (hobs h1 h2)
    | halt b c h1 => cases h2 with | halt _ _ h2 => exact .halt b c (hobs h1 h2)
    | panic => cases h2; exact .panic
  refine ⟨fun x hx hf => ?_, fun z hz hf => ?_⟩
  · obtain ⟨y, hy, h1⟩ := h.fwd x hx hf
    obtain ⟨z, hz, h2⟩ := h'.fwd y hy (h1.final hf)
    exact ⟨z, hz, comp h1 h2⟩
  · obtain ⟨y, hy, h1⟩ := h'.bwd z hz hf
    have hyf : y.isNext = false := by
      cases h1 with
      | next => cases hf
      | halt => rfl
      | panic => rfl
    obtain ⟨x, hx, h2⟩ := h.bwd y hy hyf
    exact ⟨x, hx, comp h2 h1⟩

end Gpeg
