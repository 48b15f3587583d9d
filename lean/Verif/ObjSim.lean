import Verif.ObjRel
/-!
# Runs of the machine with capture objects follow runs of the machine with captures as values
-/
namespace Gpeg.Obj
variable {ι σ : Type}

/-- The machine with values that corresponds to `c`. -/
def OCfg.toCfg (c : OCfg ι σ) : Cfg ι TreeTable σ := ⟨c.inp, treeTable, c.chk, c.intrvl⟩

/-- Corresponding stacks. -/
def StkR (T : OTab) : List OEntry → List Entry → Prop
  | [], [] => True
  | e :: r, e' :: r' => e.kind = e'.kind ∧ ReadsL T e.capt e'.capt ∧ StkR T r r'
  | _, _ => False

theorem StkR.ext {T T2 : OTab} (h : Ext T T2) : ∀ {r : List OEntry} {r' : List Entry}, StkR T r r' → StkR T2 r r'
  | [], [], _ => trivial
  | _ :: _, _ :: _, hs => ⟨hs.1, h.readsL hs.2.1, StkR.ext h hs.2.2⟩
  | [], _ :: _, hs | _ :: _, [], hs => hs.elim

theorem StkR.append {T : OTab} {q : List OEntry} {q' : List Entry} (hq : StkR T q q') :
    ∀ {r : List OEntry} {r' : List Entry}, StkR T r r' → StkR T (r ++ q) (r' ++ q')
  | [], [], _ => hq
  | _ :: _, _ :: _, hs => ⟨hs.1, hs.2.1, StkR.append hq hs.2.2⟩
  | [], _ :: _, hs | _ :: _, [], hs => hs.elim

theorem StkR.capts {T : OTab} : ∀ {r : List OEntry} {r' : List Entry}, StkR T r r' →
    ReadsL T (r.reverse.map OEntry.capt).flatten (r'.reverse.map Entry.capt).flatten
  | [], [], _ => .nil
  | _ :: _, _ :: _, hs => by
    have := StkR.capts hs.2.2
    simp only [List.reverse_cons, List.map_append, List.map_cons, List.map_nil, List.flatten_append, List.flatten_cons,
      List.flatten_nil, List.append_nil]
    exact .append hs.2.1 this
  | [], _ :: _, hs | _ :: _, [], hs => hs.elim

/-- Corresponding states. -/
structure Rel (b : Bool) (s : OVM ι σ) (t : VM ι TreeTable σ) : Prop where
  ip : s.ip = t.ip
  src : s.src = t.src
  errs : s.errs = t.errs
  cst : s.cst = t.cst
  rng : s.rng = t.rng
  stk : StkR s.tbl s.stk t.stk
  capt : ReadsL s.tbl s.capt t.capt
  tab : ∃ φ, TSim b φ s.tbl t.tbl

/-- Corresponding captures of a stopped machine. -/
def CapRel (T : OTab) : Option Ref → Option Capture → Prop
  | none, none => True
  | some r, some v => Reads T r v
  | _, _ => False

/-- Corresponding outcomes. -/
inductive ORel (b : Bool) : OOut ι σ → Out ι TreeTable σ → Prop
  | next {s t} : Rel b s t → ORel b (.next s) (.next t)
  | halt {f x v s t} : CapRel s.tbl x v → Rel b s t → ORel b (.halt f x s) (.halt f v t)
  | panic : ORel b .panic .panic

section
variable {b : Bool} {c : OCfg ι σ} {s : OVM ι σ} {t : VM ι TreeTable σ} {tgt : Nat → Nat} {nxt : Nat}

theorem Rel.push (h : Rel b s t) (k : EKind) : Rel b (s.push k) (t.push k) :=
  { h with stk := ⟨rfl, .nil, h.stk⟩ }

/-- The stacks of corresponding states. -/
theorem Rel.cases (h : Rel b s t) : (s.stk = [] ∧ t.stk = []) ∨ ∃ e r e' r', s.stk = e :: r ∧ t.stk = e' :: r' ∧
    e.kind = e'.kind ∧ ReadsL s.tbl e.capt e'.capt ∧ StkR s.tbl r r' := by
  have hk := h.stk
  cases hs : s.stk with
  | nil =>
    cases ht : t.stk with
    | nil => exact .inl ⟨rfl, rfl⟩
    | cons e' r' => rw [hs, ht] at hk; exact hk.elim
  | cons e r =>
    cases ht : t.stk with
    | nil => rw [hs, ht] at hk; exact hk.elim
    | cons e' r' =>
      rw [hs, ht] at hk
      exact .inr ⟨e, r, e', r', rfl, rfl, hk⟩

theorem Rel.addCapt (h : Rel b s t) {rs : List Ref} {vs : List Capture} (hd : ReadsL s.tbl rs vs) :
    Rel b (s.addCapt rs) (t.addCapt vs) := by
  rcases h.cases with ⟨h1, h2⟩ | ⟨e, r, e', r', h1, h2, hk, hc, hr⟩
  · simp only [OVM.addCapt, VM.addCapt, h1, h2]
    exact { h with stk := by simp only [h1, h2]; trivial, capt := .append hd h.capt }
  · simp only [OVM.addCapt, VM.addCapt, h1, h2]
    exact { h with stk := ⟨hk, .append hd hc, hr⟩ }

/-- Another table, in which all objects read as before. -/
theorem Rel.table (h : Rel b s t) {T : OTab} {T' : TreeTable} (he : Ext s.tbl T) (hT : ∃ φ, TSim b φ T T') :
    Rel b { s with tbl := T } { t with tbl := T' } :=
  { h with stk := h.stk.ext he, capt := he.readsL h.capt, tab := hT }

/-- States that differ from corresponding ones only in fields that are equal on both sides. -/
theorem Rel.upd (h : Rel b s t) {s' : OVM ι σ} {t' : VM ι TreeTable σ}
    (e1 : s'.stk = s.stk := by first | rfl | assumption | (symm; assumption))
    (e2 : t'.stk = t.stk := by first | rfl | assumption | (symm; assumption))
    (e3 : s'.capt = s.capt := by rfl) (e4 : t'.capt = t.capt := by rfl)
    (e6 : s'.tbl = s.tbl := by rfl) (e7 : t'.tbl = t.tbl := by rfl)
    (e8 : s'.ip = t'.ip := by first | rfl | assumption) (e9 : s'.src = t'.src := by first | rfl | assumption)
    (e10 : s'.errs = t'.errs := by first | rfl | assumption)
    (e11 : s'.cst = t'.cst := by first | rfl | assumption)
    (e12 : s'.rng = t'.rng := by first | rfl | assumption) : Rel b s' t' where
  ip := e8
  src := e9
  errs := e10
  cst := e11
  rng := e12
  stk := by rw [e1, e2, e6]; exact h.stk
  capt := by rw [e3, e4, e6]; exact h.capt
  tab := by rw [e6, e7]; exact h.tab

theorem Rel.eqs (h : Rel b s t) : s.ip = t.ip ∧ s.src = t.src ∧ s.errs = t.errs ∧ s.cst = t.cst ∧ s.rng = t.rng :=
  ⟨h.ip, h.src, h.errs, h.cst, h.rng⟩

theorem Rel.setStk (h : Rel b s t) {r : List OEntry} {r' : List Entry} (hr : StkR s.tbl r r') :
    Rel b { s with stk := r } { t with stk := r' } := { h with stk := hr }

theorem Rel.setRng (h : Rel b s t) (x : Interval) : Rel b { s with rng := x } { t with rng := x } :=
  { h with rng := rfl }

theorem addCapt_tbl (s : OVM ι σ) (x : List Ref) : (s.addCapt x).tbl = s.tbl := by
  unfold OVM.addCapt; split <;> rfl
theorem addCapt_src (s : OVM ι σ) (x : List Ref) : (s.addCapt x).src = s.src := by
  unfold OVM.addCapt; split <;> rfl
theorem addCapt_cst (s : OVM ι σ) (x : List Ref) : (s.addCapt x).cst = s.cst := by
  unfold OVM.addCapt; split <;> rfl
theorem VM.addCapt_src (s : VM ι TreeTable σ) (x : List Capture) : (s.addCapt x).src = s.src := by
  unfold VM.addCapt; split <;> rfl
theorem VM.addCapt_cst (s : VM ι TreeTable σ) (x : List Capture) : (s.addCapt x).cst = s.cst := by
  unfold VM.addCapt; split <;> rfl

/-- A new object. -/
theorem Rel.addNode (h : Rel b s t) (id : Int) (p n : Nat) {rs : List Ref} {vs : List Capture} (hd : ReadsL s.tbl rs vs) :
    Rel b (s.addNew (s.tbl.newNode id p n rs)) (t.addCapt [.node id p n vs]) := by
  obtain ⟨φ, hT⟩ := h.tab
  have he : Ext s.tbl (s.tbl.newNode id p n rs).1 := ext_alloc _ _
  have := h.table he ⟨φ, hT.alloc (c := ⟨id, false, p, n, none, rs⟩) rfl hd.lt⟩
  exact this.addCapt (.single (reads_newNode hd))

theorem Rel.memoize (h : Rel b s t) (id : Int) (pos : Nat) (mlen : Option Nat) (count : Nat) {rs : List Ref}
    {vs : List Capture} (hd : ReadsL s.tbl rs vs) :
    Rel b (c.memoize s id pos mlen count rs) (c.toCfg.memoize t id pos mlen count vs) ∧
      Ext s.tbl (c.memoize s id pos mlen count rs).tbl := by
  obtain ⟨φ, hT⟩ := h.tab
  have hd' : ReadsL s.tbl (if c.intrvl.isSome then [] else rs) (if c.intrvl.isSome then [] else vs) := by
    split
    · exact .nil
    · exact hd
  obtain ⟨ψ, h1, h2⟩ := hT.put id pos mlen (max (c.inp.furthest s.src) (c.inp.pos s.src) + 1 - pos) count hd'
  refine ⟨?_, h2⟩
  have hv : c.toCfg.memoize t id pos mlen count vs = 
      { t with tbl := (t.tbl.put id pos mlen (max (c.inp.furthest s.src) (c.inp.pos s.src) + 1 - pos) count
          (if c.intrvl.isSome then [] else vs)) } := by
    rw [h.src]; rfl
  rw [hv]
  exact h.table h2 ⟨ψ, h1⟩

theorem doFail_rel : ∀ (l : List OEntry) (l' : List Entry) {s : OVM ι σ} {t : VM ι TreeTable σ}, Rel b s t → StkR s.tbl l l' →
    ORel b (c.doFail s l) (c.toCfg.doFail t l')
  | [], [], s, t, h, _ => .halt (x := none) (v := none) trivial { h with stk := trivial }
  | [], _ :: _, _, _, _, hl | _ :: _, [], _, _, _, hl => hl.elim
  | e :: r, e' :: r', s, t, h, hl => by
    obtain ⟨hk, _, hr⟩ := hl
    unfold OCfg.doFail Cfg.doFail
    rw [hk]
    cases e'.kind with
    | btrack ip off =>
      refine .next { h with ip := rfl, src := ?_, stk := hr }
      show c.inp.seekTo s.src off = c.inp.seekTo t.src off
      rw [h.src]
    | memo id pos =>
      obtain ⟨h1, h2⟩ := h.memoize (c := c) id pos none 0 .nil
      exact doFail_rel r r' h1 (hr.ext h2)
    | ret _ => exact doFail_rel r r' h hr
    | capt _ _ => exact doFail_rel r r' h hr
    | check _ _ _ => exact doFail_rel r r' h hr
    | memoTree _ _ _ => exact .next { h with stk := hr }

theorem fail_rel (h : Rel b s t) : ORel b (c.fail s) (c.toCfg.fail t) := doFail_rel _ _ h h.stk

theorem spanLoop_eq (cs : CSet) : ∀ (k : Nat) (src : ι), c.spanLoop cs k src = c.toCfg.spanLoop cs k src
  | 0, _ => rfl
  | k + 1, src => by
    unfold OCfg.spanLoop Cfg.spanLoop
    simp only [OCfg.toCfg]
    rcases c.inp.peek src with ⟨_ | _, src'⟩
    · rfl
    · simp only
      rw [spanLoop_eq cs k]
      rfl

theorem treeClose_rel (id : Int) : ∀ (n : Nat) (l : List OEntry) (l' : List Entry) {s : OVM ι σ} {t : VM ι TreeTable σ},
    l.length ≤ n → Rel b s t → StkR s.tbl l l' → Rel b (OCfg.treeClose id s l) (Cfg.treeClose id t l')
  | _, [], [], s, t, _, h, _ => by unfold OCfg.treeClose Cfg.treeClose; exact h
  | _, [], _ :: _, _, _, _, _, hl | _, _ :: _, [], _, _, _, _, hl => hl.elim
  | 0, _ :: _, _, _, _, hn, _, _ => by cases hn
  | n + 1, e :: r, e' :: r', s, t, hn, h, hl => by
    obtain ⟨hk, hc, hr⟩ := hl
    unfold OCfg.treeClose Cfg.treeClose
    rw [hk]
    cases e'.kind with
    | memoTree id' pos count =>
      simp only
      split
      · match r, r', hr, hn with
        | [], [], _, _ => exact { h with stk := trivial, capt := .append hc h.capt }
        | [], _ :: _, hr, _ | _ :: _, [], hr, _ => exact hr.elim
        | f :: r, f' :: r', hr, hn =>
          have hs : StkR s.tbl ({ f with capt := f.capt ++ e.capt } :: r) ({ f' with capt := f'.capt ++ e'.capt } :: r') :=
            ⟨hr.1, .append hc hr.2.1, hr.2.2⟩
          exact treeClose_rel id n ({ f with capt := f.capt ++ e.capt } :: r) ({ f' with capt := f'.capt ++ e'.capt } :: r')
            (s := { s with stk := { f with capt := f.capt ++ e.capt } :: r })
            (t := { t with stk := { f' with capt := f'.capt ++ e'.capt } :: r' }) (by simp only [List.length_cons] at hn ⊢; omega)
            (h.setStk hs) hs
      · exact h
    | _ => exact h

theorem treeLoop_rel : ∀ (l : List OEntry) (l' : List Entry) {s : OVM ι σ} {t : VM ι TreeTable σ} (q : List OEntry)
    (q' : List Entry) (accum : Nat) (top : OEntry) (top' : Entry), Rel b s t → StkR s.tbl l l' → StkR s.tbl q q' →
    top.kind = top'.kind → ReadsL s.tbl top.capt top'.capt →
    Rel b (c.treeLoop s q accum top l) (c.toCfg.treeLoop t q' accum top' l')
  | [], [], s, t, q, q', accum, top, top', h, _, hq, hk, hc => by
    unfold OCfg.treeLoop Cfg.treeLoop
    exact h.setStk (StkR.append (q := [top]) (q' := [top']) ⟨hk, hc, trivial⟩ hq)
  | [], _ :: _, _, _, _, _, _, _, _, _, hl, _, _, _ | _ :: _, [], _, _, _, _, _, _, _, _, hl, _, _, _ => hl.elim
  | x :: r, x' :: r', s, t, q, q', accum, top, top', h, hl, hq, hk, hc => by
    have hstop : Rel b { s with stk := q ++ top :: x :: r } { t with stk := q' ++ top' :: x' :: r' } :=
      h.setStk (StkR.append (q := top :: x :: r) (q' := top' :: x' :: r') ⟨hk, hc, hl⟩ hq)
    obtain ⟨hxk, hxc, hr⟩ := hl
    unfold OCfg.treeLoop Cfg.treeLoop
    rw [hk, hxk]
    cases ht : top'.kind with
    | memoTree tid tpos tcount =>
      cases hx : x'.kind with
      | memoTree nid npos ncount =>
        simp only
        split
        · exact treeLoop_rel r r' (q ++ [top]) (q' ++ [top']) _ x x' h hr
            (StkR.append (q := [top]) (q' := [top']) ⟨hk, hc, trivial⟩ hq) hxk hxc
        · have hec : ReadsL s.tbl (top.capt ++ (q.reverse.map OEntry.capt).flatten)
              (top'.capt ++ (q'.reverse.map Entry.capt).flatten) := .append hq.capts hc
          have hlen := hec.length
          generalize hE : top.capt ++ (q.reverse.map OEntry.capt).flatten = ec at hec hlen
          generalize hE' : top'.capt ++ (q'.reverse.map Entry.capt).flatten = ec' at hec hlen
          have hsrc := h.src
          have key : ∃ T rs vs, Ext s.tbl T ∧ (∃ φ, TSim b φ T t.tbl) ∧ ReadsL T rs vs ∧
              (if ec.length > 0 then
                if c.intrvl.isNone then
                  ((s.tbl.newDummy tpos (c.inp.pos s.src - tpos) ec).1, x.capt ++ [(s.tbl.newDummy tpos (c.inp.pos s.src - tpos) ec).2])
                else (s.tbl, x.capt ++ ec)
              else (s.tbl, x.capt)) = (T, rs) ∧
              (if ec'.length > 0 then
                if c.toCfg.intrvl.isNone then x'.capt ++ [Capture.dummy tpos (c.toCfg.inp.pos t.src - tpos) ec']
                else x'.capt ++ ec'
              else x'.capt) = vs := by
            rw [hlen]
            have hp : c.toCfg.inp.pos t.src = c.inp.pos s.src := by rw [← hsrc]; rfl
            rw [hp]
            by_cases h1 : ec'.length > 0
            · by_cases h2 : c.intrvl.isNone = true
              · rw [if_pos h1, if_pos h1, if_pos h2, if_pos (c := c.toCfg.intrvl.isNone = true) h2]
                obtain ⟨φ, hT⟩ := h.tab
                have he : Ext s.tbl (s.tbl.newDummy tpos (c.inp.pos s.src - tpos) ec).1 := ext_alloc _ _
                exact ⟨_, _, _, he, ⟨φ, hT.alloc (c := ⟨0, true, tpos, c.inp.pos s.src - tpos, none, ec⟩) rfl hec.lt⟩,
                  .append (.single (reads_newDummy hec)) (he.readsL hxc), rfl, rfl⟩
              · rw [if_pos h1, if_pos h1, if_neg h2, if_neg (c := c.toCfg.intrvl.isNone = true) h2]
                exact ⟨_, _, _, .refl _, h.tab, .append hec hxc, rfl, rfl⟩
            · rw [if_neg h1, if_neg h1]
              exact ⟨_, _, _, .refl _, h.tab, hxc, rfl, rfl⟩
          obtain ⟨T, rs, vs, k1, k2, k3, k4, k5⟩ := key
          rw [k4, k5]
          simp only
          obtain ⟨m1, m2⟩ := (h.table k1 k2).memoize (c := c) nid npos (some (c.inp.pos s.src - npos)) (accum + tcount + ncount) k3
          have hp : c.toCfg.inp.pos t.src = c.inp.pos s.src := by rw [← hsrc]; rfl
          rw [hp]
          exact treeLoop_rel r r' [] [] 0 ⟨.memoTree nid npos (accum + tcount + ncount), rs⟩
            ⟨.memoTree nid npos (accum + tcount + ncount), vs⟩ m1 (hr.ext (k1.trans m2)) trivial rfl (m2.readsL k3)
      | _ => exact hstop
    | _ => exact hstop

/-- Instructions that test the next byte. -/
theorem peek_rel (h : Rel b s t) (p : UInt8 → Bool) :
    ORel b (match c.inp.peek s.src with
        | (some b, src) => if p b then .next { s with src := (c.inp.advance src 1).2, ip := nxt }
          else c.fail { s with src := src }
        | (none, src) => c.fail { s with src := src })
      (match c.inp.peek t.src with
        | (some b, src) => if p b then .next { t with src := (c.inp.advance src 1).2, ip := nxt }
          else c.toCfg.fail { t with src := src }
        | (none, src) => c.toCfg.fail { t with src := src }) := by
  obtain ⟨hip, hsrc, herrs, hcst, hrng⟩ := h.eqs
  rw [hsrc]
  rcases c.inp.peek t.src with ⟨_ | b, src⟩
  · exact fail_rel h.upd
  · simp only
    split
    · exact .next h.upd
    · exact fail_rel h.upd

theorem test_rel (h : Rel b s t) (p : UInt8 → Bool) (l : Nat) :
    ORel b (match c.inp.peek s.src with
        | (some b, src) => if p b then
            .next { ({ s with src := src }.push (.btrack l (c.inp.pos src))) with
              src := (c.inp.advance src 1).2, ip := nxt }
          else .next { s with src := src, ip := l }
        | (none, src) => .next { s with src := src, ip := l })
      (match c.inp.peek t.src with
        | (some b, src) => if p b then
            .next { ({ t with src := src }.push (.btrack l (c.inp.pos src))) with
              src := (c.inp.advance src 1).2, ip := nxt }
          else .next { t with src := src, ip := l }
        | (none, src) => .next { t with src := src, ip := l }) := by
  obtain ⟨hip, hsrc, herrs, hcst, hrng⟩ := h.eqs
  rw [hsrc]
  rcases c.inp.peek t.src with ⟨_ | b, src⟩
  · exact .next h.upd
  · simp only
    split
    · exact .next (h.push _).upd
    · exact .next h.upd

theorem testNC_rel (h : Rel b s t) (p : UInt8 → Bool) (l : Nat) :
    ORel b (match c.inp.peek s.src with
        | (some b, src) => if p b then .next { s with src := (c.inp.advance src 1).2, ip := nxt }
          else .next { s with src := src, ip := l }
        | (none, src) => .next { s with src := src, ip := l })
      (match c.inp.peek t.src with
        | (some b, src) => if p b then .next { t with src := (c.inp.advance src 1).2, ip := nxt }
          else .next { t with src := src, ip := l }
        | (none, src) => .next { t with src := src, ip := l }) := by
  obtain ⟨hip, hsrc, herrs, hcst, hrng⟩ := h.eqs
  rw [hsrc]
  rcases c.inp.peek t.src with ⟨_ | b, src⟩
  · exact .next h.upd
  · simp only
    split
    · exact .next h.upd
    · exact .next h.upd

theorem Rel.pop (h : Rel b s t) {e : OEntry} {r : List OEntry} {e' : Entry} {r' : List Entry} (hc : ReadsL s.tbl e.capt e'.capt)
    (hr : StkR s.tbl r r') : Rel b ({ s with stk := r }.addCapt e.capt) ({ t with stk := r' }.addCapt e'.capt) :=
  (h.setStk hr).addCapt hc

theorem exec1_rel (insn : Insn) (h : Rel b s t) :
    ORel b (c.exec1 tgt insn nxt s) (c.toCfg.exec1 tgt insn nxt t) := by
  obtain ⟨ip, stk, capt, src, tbl, errs, cst, rng⟩ := s
  obtain ⟨ip', stk', capt', src', tbl', errs', cst', rng'⟩ := t
  obtain ⟨hip, hsrc, herrs, hcst, hrng⟩ := h.eqs
  simp only at hip hsrc herrs hcst hrng
  subst hip hsrc herrs hcst hrng
  cases insn with
  | label _ => exact .next h.upd
  | nop => exact .next h.upd
  | char b =>
    have := peek_rel (c := c) (nxt := nxt) h fun b' => decide (b = b')
    simp only [decide_eq_true_eq] at this
    exact this
  | jump l => exact .next h.upd
  | choice l => exact .next (h.push _).upd
  | call l => exact .next (h.push _).upd
  | commit l =>
    simp only [OCfg.exec1, Cfg.exec1]
    rcases h.cases with ⟨h1, h2⟩ | ⟨e, r, e', r', h1, h2, hk, hc, hr⟩
    · simp only at h1 h2; subst h1 h2
      exact .next h.upd
    · simp only at h1 h2; subst h1 h2
      have hr := h.pop hc hr
      exact .next (hr.upd (e8 := rfl) (e9 := hr.src) (e10 := hr.errs) (e11 := hr.cst) (e12 := hr.rng))
  | ret =>
    simp only [OCfg.exec1, Cfg.exec1]
    rcases h.cases with ⟨h1, h2⟩ | ⟨e, r, e', r', h1, h2, hk, hc, hr⟩
    · simp only at h1 h2; subst h1 h2; exact .panic
    · simp only at h1 h2; subst h1 h2; simp only [hk]
      cases e'.kind with
      | ret ip =>
        have hr := h.pop hc hr
        exact .next (hr.upd (e8 := rfl) (e9 := hr.src) (e10 := hr.errs) (e11 := hr.cst) (e12 := hr.rng))
      | _ => exact .panic
  | fail => exact fail_rel h
  | set cs => exact peek_rel (nxt := nxt) h fun b => cs.has b
  | any n =>
    simp only [OCfg.exec1, Cfg.exec1]
    show ORel b (match c.inp.advance src n.toNat with | (true, src) => _ | (false, src) => _)
      (match c.inp.advance src n.toNat with | (true, src) => _ | (false, src) => _)
    rcases c.inp.advance src n.toNat with ⟨_ | _, src⟩
    · exact fail_rel h.upd
    · exact .next h.upd
  | partialCommit l =>
    simp only [OCfg.exec1, Cfg.exec1]
    rcases h.cases with ⟨h1, h2⟩ | ⟨e, r, e', r', h1, h2, hk, hc, hr⟩
    · simp only at h1 h2; subst h1 h2; exact .panic
    · simp only at h1 h2; subst h1 h2; simp only [hk]
      cases e'.kind with
      | btrack ip off =>
        have hr := h.pop hc hr
        exact .next ((hr.push _).upd (e9 := hr.src) (e10 := hr.errs) (e11 := hr.cst) (e12 := hr.rng))
      | _ => exact .panic
  | span cs =>
    simp only [OCfg.exec1, Cfg.exec1, spanLoop_eq]
    exact .next h.upd
  | backCommit l =>
    simp only [OCfg.exec1, Cfg.exec1]
    rcases h.cases with ⟨h1, h2⟩ | ⟨e, r, e', r', h1, h2, hk, hc, hr⟩
    · simp only at h1 h2; subst h1 h2; exact .panic
    · simp only at h1 h2; subst h1 h2; simp only [hk]
      cases e'.kind with
      | btrack ip off =>
        have hr := h.pop hc hr
        exact .next (hr.upd (e8 := rfl) (e9 := rfl) (e10 := hr.errs) (e11 := hr.cst) (e12 := hr.rng))
      | _ => exact .panic
  | failTwice =>
    simp only [OCfg.exec1, Cfg.exec1]
    rcases h.cases with ⟨h1, h2⟩ | ⟨e, r, e', r', h1, h2, hk, hc, hr⟩
    · simp only at h1 h2; subst h1 h2; exact fail_rel h
    · simp only at h1 h2; subst h1 h2
      exact fail_rel (h.setStk hr)
  | emptyOp op =>
    simp only [OCfg.exec1, Cfg.exec1]
    show ORel b (if emptyOpContext _ (c.inp.peek src).1 &&& op ≠ 0 then _ else _)
      (if emptyOpContext (c.inp.peekBefore src) (c.inp.peek src).1 &&& op ≠ 0 then _ else _)
    split
    · exact .next h.upd
    · exact fail_rel h.upd
  | testChar b l =>
    have := test_rel (c := c) (nxt := nxt) h (fun b' => decide (b' = b)) (tgt l)
    simp only [decide_eq_true_eq] at this
    exact this
  | testCharNC b l =>
    have := testNC_rel (c := c) (nxt := nxt) h (fun b' => decide (b' = b)) (tgt l)
    simp only [decide_eq_true_eq] at this
    exact this
  | testSet cs l => exact test_rel (c := c) (nxt := nxt) h (fun b => cs.has b) (tgt l)
  | testSetNC cs l => exact testNC_rel (c := c) (nxt := nxt) h (fun b => cs.has b) (tgt l)
  | testAny n l =>
    simp only [OCfg.exec1, Cfg.exec1]
    show ORel b (match c.inp.advance src n.toNat with | (true, src) => _ | (false, src) => _)
      (match c.inp.advance src n.toNat with | (true, src) => _ | (false, src) => _)
    rcases c.inp.advance src n.toNat with ⟨_ | _, src⟩
    · exact .next h.upd
    · exact .next (h.push _).upd
  | captureBegin id => exact .next (h.push _).upd
  | captureLate back id => exact .next (h.push _).upd
  | captureFull back id =>
    simp only [OCfg.exec1, Cfg.exec1]
    show ORel b (if overlapsIv c.intrvl _ _ = true then _ else _)
      (if overlapsIv c.intrvl (c.inp.pos src - back.toNat) (c.inp.pos src) = true then _ else _)
    split
    · have hr := (h.setRng ⟨min rng.low (c.inp.pos src - back.toNat),
        max rng.high (c.inp.pos src)⟩).addNode id (c.inp.pos src - back.toNat) back.toNat .nil
      exact .next (hr.upd (e8 := rfl) (e9 := hr.src) (e10 := hr.errs) (e11 := hr.cst) (e12 := hr.rng))
    · exact .next h.upd
  | captureEnd =>
    simp only [OCfg.exec1, Cfg.exec1]
    rcases h.cases with ⟨h1, h2⟩ | ⟨e, r, e', r', h1, h2, hk, hc, hr⟩
    · simp only at h1 h2; subst h1 h2; exact .panic
    · simp only at h1 h2; subst h1 h2; simp only [hk]
      cases e'.kind with
      | capt id pos =>
        show ORel b (if overlapsIv c.intrvl _ _ = true then _ else _)
          (if overlapsIv c.intrvl pos (c.inp.pos src) = true then _ else _)
        split
        · have hr := ((h.setStk hr).setRng ⟨min rng.low pos, max rng.high (c.inp.pos src)⟩).addNode id pos
            (c.inp.pos src - pos) hc
          exact .next (hr.upd (e8 := rfl) (e9 := hr.src) (e10 := hr.errs) (e11 := hr.cst) (e12 := hr.rng))
        · exact .next (h.setStk hr).upd
      | _ => exact .panic
  | endI fl =>
    have hdum : ∀ p n, ORel b
        (.halt (!fl) (some (tbl.newDummy p n capt).2) (⟨ip, stk, capt, src, (tbl.newDummy p n capt).1, errs, cst, rng⟩ : OVM ι σ))
        (.halt (!fl) (some (Capture.dummy p n capt')) (⟨ip, stk', capt', src, tbl', errs, cst, rng⟩ : VM ι TreeTable σ)) := by
      intro p n
      obtain ⟨φ, hT⟩ := h.tab
      have hc : ReadsL tbl capt capt' := h.capt
      have he : Ext tbl (tbl.newDummy p n capt).1 := ext_alloc _ _
      have hT' : ∃ φ, TSim b φ (tbl.newDummy p n capt).1 tbl' := ⟨φ, hT.alloc (c := ⟨0, true, p, n, none, capt⟩) rfl hc.lt⟩
      exact .halt (x := some _) (v := some _) (reads_newDummy hc) (h.table he hT')
    simp only [OCfg.exec1, Cfg.exec1, OCfg.toCfg]
    cases c.intrvl with
    | none => exact hdum _ _
    | some i => exact hdum _ _
  | memoOpen l id =>
    simp only [OCfg.exec1, Cfg.exec1]
    obtain ⟨φ, hT⟩ := h.tab
    simp only at hT
    have he := ext_get hT.tinv id (c.inp.pos src)
    have hg := hT.get id (c.inp.pos src)
    have e1 : c.toCfg.tab.get tbl' id (c.toCfg.inp.pos src) = tbl'.get id (c.inp.pos src) := rfl
    rw [e1]
    revert hg he
    rcases tbl.get id (c.inp.pos src) with ⟨o, a⟩
    rcases tbl'.get id (c.inp.pos src) with ⟨o', a'⟩
    rintro he ⟨h1, ⟨h2, h3⟩ | ⟨x, m, h2, h3, h4, h5, h6⟩⟩
    · simp only at h2 h3; subst h2 h3
      exact .next ((h.table he ⟨φ, h1⟩).push _).upd
    · simp only at h2 h3; subst h2 h3
      have h' := h.table he ⟨φ, h1⟩
      simp only [h4]
      cases x.length with
      | none => exact fail_rel h'
      | some n =>
        have := h'.addCapt h6
        exact .next (this.upd (e8 := rfl) (e9 := rfl) (e10 := this.errs) (e11 := this.cst) (e12 := this.rng))
  | memoClose =>
    simp only [OCfg.exec1, Cfg.exec1]
    rcases h.cases with ⟨h1, h2⟩ | ⟨e, r, e', r', h1, h2, hk, hc, hr⟩
    · simp only at h1 h2; subst h1 h2; exact .panic
    · simp only at h1 h2; subst h1 h2; simp only [hk]
      cases e'.kind with
      | memo id pos =>
        have hr := h.pop hc hr
        have := (hr.memoize (c := c) id pos (some (c.inp.pos src - pos)) 1 (rs := e.capt) (vs := e'.capt)
          (by rw [addCapt_tbl]; exact hc)).1
        simp only [addCapt_src, VM.addCapt_src]
        exact .next (this.upd (e8 := rfl) (e9 := this.src) (e10 := this.errs) (e11 := this.cst) (e12 := this.rng))
      | _ => exact .panic
  | memoTreeOpen l id =>
    simp only [OCfg.exec1, Cfg.exec1]
    obtain ⟨φ, hT⟩ := h.tab
    simp only at hT
    have he := ext_get hT.tinv id (c.inp.pos src)
    have hg := hT.get id (c.inp.pos src)
    have e1 : c.toCfg.tab.get tbl' id (c.toCfg.inp.pos src) = tbl'.get id (c.inp.pos src) := rfl
    rw [e1]
    revert hg he
    rcases tbl.get id (c.inp.pos src) with ⟨o, a⟩
    rcases tbl'.get id (c.inp.pos src) with ⟨o', a'⟩
    rintro he ⟨h1, ⟨h2, h3⟩ | ⟨x, m, h2, h3, h4, h5, h6⟩⟩
    · simp only at h2 h3; subst h2 h3
      exact .next ((h.table he ⟨φ, h1⟩).push _).upd
    · simp only at h2 h3; subst h2 h3
      have h' := h.table he ⟨φ, h1⟩
      simp only [h4, h5]
      cases x.length with
      | none => exact fail_rel h'
      | some n =>
        have := (h'.push (.memoTree id (c.inp.pos src) x.count)).addCapt h6
        simp only [addCapt_src, VM.addCapt_src, OVM.push, VM.push]
        exact .next (this.upd (e8 := rfl) (e9 := rfl) (e10 := this.errs) (e11 := this.cst) (e12 := this.rng))
  | memoTreeClose id =>
    have hr := treeClose_rel id _ _ _ (Nat.le_refl _) h h.stk
    exact .next (hr.upd (e8 := rfl) (e9 := hr.src) (e10 := hr.errs) (e11 := hr.cst) (e12 := hr.rng))
  | memoTreeInsert =>
    simp only [OCfg.exec1, Cfg.exec1]
    rcases h.cases with ⟨h1, h2⟩ | ⟨e, r, e', r', h1, h2, hk, hc, hr⟩
    · simp only at h1 h2; subst h1 h2; exact .panic
    · simp only at h1 h2; subst h1 h2; simp only [hk]
      cases e'.kind with
      | memoTree id pos count =>
        have h'' := h.setStk (r := ⟨.memoTree id pos (count + 1), e.capt⟩ :: r) (r' := ⟨.memoTree id pos (count + 1), e'.capt⟩ :: r')
          ⟨rfl, hc, hr⟩
        exact .next (h''.memoize (c := c) id pos (some (c.inp.pos src - pos)) (count + 1) hc).1.upd
      | _ => exact .panic
  | memoTree =>
    simp only [OCfg.exec1, Cfg.exec1]
    rcases h.cases with ⟨h1, h2⟩ | ⟨e, r, e', r', h1, h2, hk, hc, hr⟩
    · simp only at h1 h2; subst h1 h2
      exact .next h.upd
    · simp only at h1 h2; subst h1 h2
      have hr := treeLoop_rel (c := c) r r' [] [] 0 e e' h hr trivial hk hc
      exact .next (hr.upd (e8 := rfl) (e9 := hr.src) (e10 := hr.errs) (e11 := hr.cst) (e12 := hr.rng))
  | checkBegin id flag => exact .next (h.push _).upd
  | checkEnd k =>
    simp only [OCfg.exec1, Cfg.exec1]
    rcases h.cases with ⟨h1, h2⟩ | ⟨e, r, e', r', h1, h2, hk, hc, hr⟩
    · simp only at h1 h2; subst h1 h2; exact .panic
    · simp only at h1 h2; subst h1 h2; simp only [hk]
      cases e'.kind with
      | check id pos flag =>
        have hr := h.pop hc hr
        simp only [addCapt_src, VM.addCapt_src, addCapt_cst, VM.addCapt_cst]
        show ORel b (match c.chk k cst (c.inp.slice src pos (c.inp.pos src)) (c.inp.data src) (c.inp.pos src) id flag with
            | (none, cst) => _ | (some n, cst) => _)
          (match c.chk k cst (c.inp.slice src pos (c.inp.pos src)) (c.inp.data src) (c.inp.pos src) id flag with
            | (none, cst) => _ | (some n, cst) => _)
        rcases c.chk k cst (c.inp.slice src pos (c.inp.pos src)) (c.inp.data src) (c.inp.pos src) id flag with
          ⟨_ | n, cst'⟩
        · exact fail_rel (hr.upd (e8 := hr.ip) (e9 := rfl) (e10 := hr.errs) (e11 := rfl) (e12 := hr.rng) (s' := { OVM.addCapt ⟨ip, r, capt, src, tbl, errs, cst, rng⟩ e.capt with src := src, cst := cst' })
          (t' := { VM.addCapt ⟨ip, r', capt', src, tbl', errs, cst, rng⟩ e'.capt with src := src, cst := cst' }))
        · exact .next (hr.upd (e8 := rfl) (e9 := rfl) (e10 := hr.errs) (e11 := rfl) (e12 := hr.rng))
      | _ => exact .panic
  | error msg => exact .next { h with ip := rfl, errs := rfl }
  | openCall _ => exact .panic

theorem stepB_rel (code : Code) (h : Rel b s t) : ORel b (ostepB c code s) (stepB c.toCfg code t) := by
  unfold ostepB stepB
  rw [h.ip]
  rcases decode code t.ip with _ | ⟨insn, sz⟩
  · exact .panic
  · exact exec1_rel insn h

/-- The machine with objects takes as many steps as the machine with values and stops with a corresponding outcome. -/
theorem run_rel (code : Code) : ∀ (k : Nat) {s : OVM ι σ} {t : VM ι TreeTable σ}, Rel b s t →
    (orunOut (ostepB c code) k s = none ∧ runOut (stepB c.toCfg code) k t = none) ∨
    ∃ o o', orunOut (ostepB c code) k s = some o ∧ runOut (stepB c.toCfg code) k t = some o' ∧ ORel b o o'
  | 0, _, _, _ => .inl ⟨rfl, rfl⟩
  | k + 1, s, t, h => by
    have hs := stepB_rel (c := c) code h
    unfold orunOut runOut
    generalize ostepB c code s = o at hs
    generalize stepB c.toCfg code t = o' at hs
    cases hs with
    | next h' => exact run_rel code k h'
    | halt h1 h2 => exact .inr ⟨_, _, rfl, rfl, .halt h1 h2⟩
    | panic => exact .inr ⟨_, _, rfl, rfl, .panic⟩

end
end Gpeg.Obj
