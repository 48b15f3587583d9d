import Verif.Sim
import Verif.Occ
import Verif.Inline
import Verif.GetLemmas
/-!
# When does a code segment implement a pattern?

The statement `SimPat` of compiler correctness for one code segment, parametric in the memo table
invariant, the relation between machine captures and specification captures, and whether the
furthest-read position is tracked.
-/
namespace Gpeg
variable {τ σ : Type}

/-! ## Parameters -/

/-- A run is parametrised by the input data, the memo table, the checkers, the capture interval
and the program. The other fields are parameters of the proof: `trk` (track the furthest position),
`cr` (relation of captures), `TInv` (invariant of the table, given the furthest position), `Mget`
and `Mput` (what is known about entries found, and required of entries stored), `Ask` (the ids for
which looking something up is known to keep the invariant) and `Kn` (what is known of the memoized patterns). -/
structure Par (τ σ : Type) where
  data : List UInt8
  tab : TableOps τ
  chk : CheckFn σ
  iv : Option Interval
  prog : Program
  trk : Prop
  lo : Bool
  cr : List Capture → List CTree → Prop
  TInv : τ → Nat → Prop
  Mget : Int → Nat → MEntry → Nat → Prop
  Mput : Int → Nat → MEntry → Nat → Prop
  Ask : Int → Prop := fun _ => True
  Kn : Occ → Prop := fun _ => True

namespace Par
variable (P : Par τ σ)

/-- Machine configuration (flat input). -/
def cfg : Cfg Flat τ σ := ⟨flatOps, P.tab, P.chk, P.iv⟩
/-- Machine step. -/
def step : VM Flat τ σ → Out Flat τ σ := stepL P.cfg P.prog
/-- Evaluation context. -/
def ctx : Ctx σ := ⟨P.data, P.chk, P.lo⟩

/-- What is assumed of the parameters. -/
structure Ok : Prop where
  lab : ∀ (i l : Nat), P.prog[i]? = some (.label l) → labelIdx P.prog l = i
  any1 : ∀ (i : Nat) n, P.prog[i]? = some (Insn.any n) → n = 1
  chk : ∀ k st m d pos id flag n st', pos ≤ d.length →
    P.chk k st m d pos id flag = (some n, st') → pos + n ≤ d.length
  cr_nil : P.cr [] []
  cr_app : ∀ {a b a' b'}, P.cr a b → P.cr a' b' → P.cr (a ++ a') (b ++ b')
  cr_node : ∀ {s e ch ch'} (id : Int), overlapsIv P.iv s e = true → s ≤ e → P.cr ch ch' →
    P.cr [.node id s (e - s) ch] [.node id s (e - s) ch']
  cr_skip : ∀ {s e ch ch'} (id : Int), overlapsIv P.iv s e = false → s ≤ e → P.cr ch ch' →
    P.cr [] [.node id s (e - s) ch']
  cr_dummy : ∀ {ch ch'} (s l : Nat), P.iv = none → P.cr ch ch' → P.cr [.dummy s l ch] ch'
  tmono : ∀ {t f f'}, P.TInv t f → f ≤ f' → P.TInv t f'
  get : ∀ {t f id pos r t'}, P.TInv t f → P.tab.get t id pos = (r, t') → P.Ask id →
    P.TInv t' f ∧ ∀ m, r = some m → P.Mget id pos m f
  put : ∀ {t f id pos len exam count capt}, P.TInv t f → P.Mput id pos ⟨len, exam, count, capt⟩ f →
    P.TInv (P.tab.put t id pos len exam count capt) f

end Par

/-! ## Iterations of a pattern -/

/-- One or more successful matches of `q` in a row, from `pos` to `pos'`. -/
inductive Iter (c : Ctx σ) (env : Env) (q : Pat) :
    Nat → World σ → Nat → List CTree → Nat → World σ → Prop
  | one {pos w pos' cs far w'} : Evals c env q pos w (.ok pos' cs, far, w') →
      Iter c env q pos w pos' cs far w'
  | trans {pos w pos' cs far w' pos'' cs' far' w''} : Iter c env q pos w pos' cs far w' →
      Iter c env q pos' w' pos'' cs' far' w'' →
      Iter c env q pos w pos'' (cs ++ cs') (max far far') w''

/-! ## Memo entries -/

/-- What the memo invariant must provide for a plain memoized pattern. -/
structure MemoOK (P : Par τ σ) (id : Int) (q : Pat) (env : Env) : Prop where
  put : ∀ {pos w res far w' len exam capt f} (count : Nat),
    Evals P.ctx env q pos w (res, far, w') → pos ≤ P.data.length →
    (match res with
      | .ok pos' cs => len = some (pos' - pos) ∧ P.cr capt cs
      | .fail => len = none ∧ capt = []
      | .abort _ => False) →
    (P.trk → far ≤ pos + exam ∧ far ≤ f + 1) → (∀ n, len = some n → n < exam) →
    P.Mput id pos ⟨len, exam, count, if P.iv.isSome then [] else capt⟩ f
  get : ∀ {pos e f} (w : World σ), pos ≤ P.data.length → P.Mget id pos e f →
    ∃ res far, Evals P.ctx env q pos w (res, far, w) ∧
      (match e.length with
        | none => res = .fail
        | some n => ∃ cs, res = .ok (pos + n) cs ∧ P.cr e.captures cs) ∧
      (P.trk ∧ P.lo = false → far ≤ f + 1)
  kn : P.Kn ⟨id, false, q, env⟩

/-- What the memo invariant must provide for a memoized repetition. -/
structure StarOK (P : Par τ σ) (id : Int) (q : Pat) (env : Env) : Prop where
  put : ∀ {pos w pos' cs far w' exam capt f} (count : Nat),
    Iter P.ctx env q pos w pos' cs far w' → pos ≤ P.data.length → P.cr capt cs →
    (P.trk ∧ P.lo = false → far ≤ pos + exam ∧ far ≤ f + 1) → pos' - pos < exam →
    P.Mput id pos ⟨some (pos' - pos), exam, count, if P.iv.isSome then [] else capt⟩ f
  get : ∀ {pos e f} (w : World σ), pos ≤ P.data.length → P.Mget id pos e f →
    ∃ n cs far, e.length = some n ∧ Iter P.ctx env q pos w (pos + n) cs far w ∧
      P.cr e.captures cs ∧ (P.trk ∧ P.lo = false → far ≤ f + 1)
  ask : P.Ask id

/-- The memo invariant fits an occurrence. -/
def OccOK (P : Par τ σ) (o : Occ) : Prop :=
  if o.star then StarOK P o.id o.q o.env else MemoOK P o.id o.q o.env

/-! ## Code placement -/

/-- `insn` stands at `idx`; a call placeholder has been resolved, to a jump if in tail position. -/
def Placed (prog : Program) (lbls : String → Option Nat) (tail : Bool) (idx : Nat) : Insn → Prop
  | .openCall n => ∃ L, lbls n = some L ∧ prog[idx]? = some (if tail then .jump L else .call L)
  | insn => prog[idx]? = some insn

/-- `raw` stands at `a` in `prog`, from its `j`-th instruction on. -/
def Seg (prog : Program) (lbls : String → Option Nat) (tl : Bool) (j a : Nat) (raw : Program) :
    Prop :=
  ∀ i insn, j ≤ i → raw[i]? = some insn →
    Placed prog lbls (tl && (nextInsn (raw.drop (i + 1))).isNone) (a + i) insn

/-- `raw` ends with a call placeholder (up to `nop`s). -/
def EndsOpen (raw : Program) : Prop :=
  ∃ x n z, raw = x ++ .openCall n :: z ∧ ∀ i ∈ z, i = Insn.nop

/-- Is the byte at `pos` accepted by a simple instruction (consuming one byte)? -/
def simpleAt (data : List UInt8) (pos : Nat) : Insn → Option Bool
  | .char b => some (decide (data[pos]? = some b))
  | .set cs => some (inSet data pos cs)
  | .any n => if n = 1 then some (decide (pos < data.length)) else none
  | _ => none

/-- The first `j` instructions are simple and accept the bytes from `pos` on. -/
def Matched (data : List UInt8) (j : Nat) (raw : Program) (pos : Nat) : Prop :=
  j ≤ raw.length ∧ ∀ i < j, ∃ insn, raw[i]? = some insn ∧ simpleAt data (pos + i) insn = some true

/-- Every definition reachable through `lbls` is compiled at its label. -/
def GOK (P : Par τ σ) (env : Env) (lbls : String → Option Nat) : Prop :=
  ∀ n L, lbls n = some L → ∃ d env0 body k cst raw cst' tl, env = d :: env0 ∧ d.find n = some body ∧
    P.prog[labelIdx P.prog L]? = some (.label L) ∧ CM.Ok (compileF k body) cst raw cst' ∧
    (∀ o ∈ memoOcc k env body cst, OccOK P o) ∧ body.Scoped ∧
    Seg P.prog lbls tl 0 (labelIdx P.prog L + 1) raw ∧
    (P.prog[labelIdx P.prog L + 1 + raw.length]? = some .ret ∨ (tl = true ∧ EndsOpen raw))

/-! ## Machine states -/

/-- Captures added to the topmost entry. -/
def stkAdd (S : List Entry) (cs : List Capture) : List Entry :=
  match S with
  | [] => []
  | e :: r => ⟨e.kind, e.capt ++ cs⟩ :: r

/-- Captures added to the base if there is no entry. -/
def baseAdd (S : List Entry) (cp cs : List Capture) : List Capture :=
  match S with
  | [] => cp ++ cs
  | _ :: _ => cp

/-- The topmost entry is not a memo tree entry. -/
def TopOK (S : List Entry) : Prop :=
  ∀ e r, S = e :: r → ∀ id pos count, e.kind ≠ .memoTree id pos count

/-- State at the start of a segment. -/
structure Pre (P : Par τ σ) (s : VM Flat τ σ) (ip0 pos0 : Nat) (w : World σ) : Prop where
  ip : s.ip = ip0
  data : s.src.data = P.data
  pos : s.src.pos = pos0
  le : pos0 ≤ P.data.length
  tinv : P.TInv s.tbl s.src.furthest
  errs : s.errs = w.errs
  cst : s.cst = w.cst
  top : TopOK s.stk

/-- What holds of the state after a segment, started with furthest position `f0`. -/
structure Post (P : Par τ σ) (f0 : Nat) (t : VM Flat τ σ) (far : Nat) (w : World σ) : Prop where
  data : t.src.data = P.data
  fle : f0 ≤ t.src.furthest
  far : P.trk → far ≤ t.src.furthest + 1
  tinv : P.TInv t.tbl t.src.furthest
  errs : t.errs = w.errs
  cst : t.cst = w.cst

/-- How a segment is left on success: normally, at its end, or by returning from the
surrounding definition. -/
def Exit (tl : Bool) (b : Nat) (S : List Entry) (cp : List Capture) (t : VM Flat τ σ)
    (caps : List Capture) : Prop :=
  if tl then ∃ r c0 S', S = ⟨.ret r, c0⟩ :: S' ∧ t.ip = r ∧ t.stk = stkAdd S' (c0 ++ caps) ∧
    t.capt = baseAdd S' cp (c0 ++ caps)
  else t.ip = b ∧ t.stk = stkAdd S caps ∧ t.capt = baseAdd S cp caps

/-- Outcome `o` corresponds to the result `e` of evaluating the pattern from a state with stack
`S`, base captures `cp` and furthest position `f0`. -/
def Good (P : Par τ σ) (X : VM Flat τ σ → List Capture → Prop) (S : List Entry)
    (cp : List Capture) (f0 : Nat) (e : Ev σ) (o : Out Flat τ σ) : Prop :=
  match e with
  | (.ok pos cs, far, w) => ∃ t caps, o = .next t ∧ X t caps ∧ t.src.pos = pos ∧ P.cr caps cs ∧
      Post P f0 t far w
  | (.fail, far, w) => ∃ t, o = P.cfg.doFail t S ∧ (S ≠ [] → t.capt = cp) ∧ Post P f0 t far w
  | (.abort pos, far, w) => ∃ t cap, o = .halt false cap t ∧ t.src.pos = pos ∧ Post P f0 t far w

/-- `P`, when what memoized patterns look at is not counted. -/
def Par.loose (P : Par τ σ) : Par τ σ := { P with trk := P.trk ∧ P.lo = false }

theorem Good.veil {P : Par τ σ} {X : VM Flat τ σ → List Capture → Prop} {S : List Entry}
    {cp : List Capture} {f0 : Nat} {e : Ev σ} {o : Out Flat τ σ} (h : Good P.loose X S cp f0 e o) :
    Good P X S cp f0 (e.veil P.lo) o := by
  obtain ⟨res, far, w⟩ := e
  have hp : ∀ t, Post P.loose f0 t far w → Post P f0 t (if P.lo then 0 else far) w := fun t h =>
    ⟨h.data, h.fle, fun ht => by
      cases hl : P.lo with
      | false => exact h.far ⟨ht, hl⟩
      | true => exact Nat.zero_le _, h.tinv, h.errs, h.cst⟩
  rw [Ev.veil_mk]
  cases res with
  | ok pos cs =>
    obtain ⟨t, caps, h1, h2, h3, h4, h5⟩ := h
    exact ⟨t, caps, h1, h2, h3, h4, hp t h5⟩
  | fail =>
    obtain ⟨t, h1, h2, h3⟩ := h
    exact ⟨t, h1, h2, hp t h3⟩
  | abort pos =>
    obtain ⟨t, cap, h1, h2, h3⟩ := h
    exact ⟨t, cap, h1, h2, hp t h3⟩

/-- Tail mode: the topmost entry is a return address, and the segment is followed by a `ret`
(up to labels and `nop`s) or ends with a tail call. -/
def TailOK (prog : Program) (b : Nat) (raw : Program) (S : List Entry) : Prop :=
  (∃ r c0 S', S = ⟨.ret r, c0⟩ :: S') ∧ (nextInsn (prog.drop b) = some .ret ∨ EndsOpen raw)

/-- One past the furthest byte that the first `j` instructions of simple code at `pos` note as looked at. -/
def noted : Program → Nat → Nat → Nat
  | [], _, _ => 0
  | _ :: _, _, 0 => 0
  | .any _ :: r, pos, j + 1 => noted r (pos + 1) j
  | _ :: r, pos, j + 1 => max (pos + 1) (noted r (pos + 1) j)

/-- The same for one instruction. -/
def Insn.note (pos : Nat) : Insn → Nat
  | .any _ => 0
  | _ => pos + 1

theorem noted_cons (x : Insn) (r : Program) (pos j : Nat) :
    noted (x :: r) pos (j + 1) = max (x.note pos) (noted r (pos + 1) j) := by
  cases x <;> simp [noted, Insn.note]

theorem noted_zero (raw : Program) (pos : Nat) : noted raw pos 0 = 0 := by
  cases raw <;> simp [noted]

theorem noted_start (raw : Program) (pos f : Nat) : noted raw pos 0 ≤ f := by
  rw [noted_zero]; exact Nat.zero_le _

theorem noted_le_app (x y : Program) : ∀ (pos j : Nat), j ≤ x.length → noted (x ++ y) pos j = noted x pos j := by
  induction x with
  | nil => intro pos j h; simp only [List.length_nil, Nat.le_zero] at h; subst h; rw [noted_zero, noted_zero]
  | cons i x ih =>
    intro pos j h
    cases j with
    | zero => rw [noted_zero, noted_zero]
    | succ j =>
      rw [List.cons_append, noted_cons, noted_cons, ih _ _ (by simp only [List.length_cons] at h; omega)]

theorem noted_app (x y : Program) : ∀ (pos j : Nat), x.length ≤ j →
    noted (x ++ y) pos j = max (noted x pos x.length) (noted y (pos + x.length) (j - x.length)) := by
  induction x with
  | nil => intro pos j h; simp [noted]
  | cons i x ih =>
    intro pos j h
    cases j with
    | zero => simp at h
    | succ j =>
      simp only [List.length_cons] at h ⊢
      rw [List.cons_append, noted_cons, noted_cons, ih _ _ (by omega), Nat.max_assoc, Nat.add_right_comm pos 1,
        Nat.add_assoc pos, Nat.succ_sub_succ]

theorem noted_succ (raw : Program) {insn : Insn} : ∀ {pos j : Nat}, raw[j]? = some insn →
    noted raw pos (j + 1) = max (noted raw pos j) (insn.note (pos + j)) := by
  induction raw with
  | nil => intro pos j h; simp at h
  | cons i x ih =>
    intro pos j h
    cases j with
    | zero => cases h; rw [noted_cons, noted_zero, noted_zero]; simp
    | succ j =>
      rw [noted_cons, noted_cons, ih (by simpa using h), Nat.max_assoc, show pos + 1 + j = pos + (j + 1) by omega]

theorem noted_take (raw : Program) (i pos j : Nat) (h : j ≤ i) (hi : i ≤ raw.length) : noted (raw.take i) pos j = noted raw pos j := by
  have := noted_le_app (raw.take i) (raw.drop i) pos j (by simp; omega)
  rw [List.take_append_drop] at this
  exact this.symm

theorem noted_mono (raw : Program) {pos j j' : Nat} (h : j ≤ j') : noted raw pos j ≤ noted raw pos j' := by
  induction raw generalizing pos j j' with
  | nil => simp [noted]
  | cons i x ih =>
    cases j with
    | zero => rw [noted_zero]; exact Nat.zero_le _
    | succ j =>
      cases j' with
      | zero => omega
      | succ j' =>
        rw [noted_cons, noted_cons]
        have := ih (pos := pos + 1) (j := j) (j' := j') (by omega)
        omega

theorem noted_le (raw : Program) : ∀ (pos j : Nat), noted raw pos j ≤ pos + j := by
  induction raw with
  | nil => intro pos j; simp [noted]
  | cons i x ih =>
    intro pos j
    cases j with
    | zero => rw [noted_zero]; exact Nat.zero_le _
    | succ j =>
      rw [noted_cons]
      have := ih (pos + 1) j
      have : i.note pos ≤ pos + 1 := by cases i <;> simp [Insn.note]
      omega

/-- The correctness statement for one tail flag. -/
def SimPatT (P : Par τ σ) (m : Mode) (tl : Bool) (k : Nat) (p : Pat) : Prop :=
  ∀ (env : Env) (lbls : String → Option Nat) (cst cst' : CState) (raw : Program) (a j pos : Nat)
    (w : World σ) (s : VM Flat τ σ),
    CM.Ok (compileF k p) cst raw cst' → GOK P env lbls → (∀ o ∈ memoOcc k env p cst, OccOK P o) →
    p.Scoped → Seg P.prog lbls tl j a raw → Matched P.data j raw pos →
    Pre P s (a + j) (pos + j) w → (P.trk → noted raw pos j ≤ s.src.furthest + 1) →
    (tl = true → TailOK P.prog (a + raw.length) raw s.stk) →
    Sim P.step m (.next s) (fun n => eval n P.ctx env p pos w)
      (Good P (Exit tl (a + raw.length) s.stk s.capt) s.stk s.capt s.src.furthest)

/-- The strict variant, for use after a step of the machine. -/
def SimPatS (P : Par τ σ) (m : Mode) (k : Nat) (p : Pat) : Prop :=
  ∀ (tl : Bool) (env : Env) (lbls : String → Option Nat) (cst cst' : CState) (raw : Program)
    (a j pos : Nat) (w : World σ) (s : VM Flat τ σ),
    CM.Ok (compileF k p) cst raw cst' → GOK P env lbls → (∀ o ∈ memoOcc k env p cst, OccOK P o) →
    p.Scoped → Seg P.prog lbls tl j a raw → Matched P.data j raw pos →
    Pre P s (a + j) (pos + j) w → (P.trk → noted raw pos j ≤ s.src.furthest + 1) →
    (tl = true → TailOK P.prog (a + raw.length) raw s.stk) →
    SimS P.step m (.next s) (fun n => eval n P.ctx env p pos w)
      (Good P (Exit tl (a + raw.length) s.stk s.capt) s.stk s.capt s.src.furthest)

/-- The correctness statement for patterns compiled with fuel `k`. -/
def SimPat (P : Par τ σ) (m : Mode) (k : Nat) (p : Pat) : Prop := ∀ tl, SimPatT P m tl k p

/-! ## Lemmas about captures on the stack -/

@[simp] theorem stkAdd_nil (S : List Entry) : stkAdd S [] = S := by
  cases S with
  | nil => rfl
  | cons e r => simp [stkAdd]

@[simp] theorem baseAdd_nil (S : List Entry) (cp : List Capture) : baseAdd S cp [] = cp := by
  cases S <;> simp [baseAdd]

theorem stkAdd_app (S : List Entry) (a b : List Capture) :
    stkAdd (stkAdd S a) b = stkAdd S (a ++ b) := by
  cases S <;> simp [stkAdd, List.append_assoc]

theorem baseAdd_app (S : List Entry) (cp a b : List Capture) :
    baseAdd (stkAdd S a) (baseAdd S cp a) b = baseAdd S cp (a ++ b) := by
  cases S <;> simp [stkAdd, baseAdd, List.append_assoc]

theorem addCapt_eq {ι : Type} (s : VM ι τ σ) (cs : List Capture) :
    s.addCapt cs = { s with stk := stkAdd s.stk cs, capt := baseAdd s.stk s.capt cs } := by
  obtain ⟨ip, stk, capt, src, tbl, errs, cst, rng⟩ := s
  cases stk <;> rfl

theorem TopOK.add {S : List Entry} (h : TopOK S) (cs : List Capture) : TopOK (stkAdd S cs) := by
  cases S with
  | nil => exact h
  | cons e r =>
    intro e' r' he id pos count
    cases he
    exact h e r rfl id pos count

theorem doFail_add {ι : Type} (c : Cfg ι τ σ) (t : VM ι τ σ) (S : List Entry) (cs : List Capture) :
    c.doFail t (stkAdd S cs) = c.doFail t S := by
  cases S with
  | nil => rfl
  | cons e r => rfl

/-- `doFail` ignores the stack stored in the state. -/
theorem doFail_stk {ι : Type} (c : Cfg ι τ σ) (S : List Entry) : ∀ (t : VM ι τ σ) (S' : List Entry),
    c.doFail { t with stk := S' } S = c.doFail t S := by
  induction S with
  | nil => intro t S'; rfl
  | cons e r ih =>
    intro t S'
    obtain ⟨kind, capt⟩ := e
    cases kind with
    | btrack ip off => rfl
    | memo id pos => exact ih (c.memoize t id pos none 0 []) S'
    | ret _ => exact ih t S'
    | capt _ _ => exact ih t S'
    | check _ _ _ => exact ih t S'
    | memoTree _ _ _ => rfl

/-! ## Lemmas about outcomes -/

variable {P : Par τ σ}

theorem Post.mono {f0 f1 : Nat} {t : VM Flat τ σ} {far : Nat} {w : World σ}
    (h : Post P f1 t far w) (hf : f0 ≤ f1) : Post P f0 t far w :=
  ⟨h.data, Nat.le_trans hf h.fle, h.far, h.tinv, h.errs, h.cst⟩

theorem Post.max {f0 : Nat} {t : VM Flat τ σ} {far far' : Nat} {w : World σ}
    (h : Post P f0 t far w) (h' : P.trk → far' ≤ t.src.furthest + 1) :
    Post P f0 t (max far' far) w :=
  ⟨h.data, h.fle, fun ht => by have := h.far ht; have := h' ht; omega, h.tinv, h.errs, h.cst⟩

theorem Good.mono {X : VM Flat τ σ → List Capture → Prop} {S : List Entry} {cp : List Capture}
    {f0 f1 : Nat} {e : Ev σ} {o : Out Flat τ σ} (h : Good P X S cp f1 e o) (hf : f0 ≤ f1) :
    Good P X S cp f0 e o := by
  obtain ⟨res, far, w⟩ := e
  cases res with
  | ok pos cs =>
    obtain ⟨t, caps, h1, h2, h3, h4, h5⟩ := h
    exact ⟨t, caps, h1, h2, h3, h4, h5.mono hf⟩
  | fail =>
    obtain ⟨t, h1, h2, h3⟩ := h
    exact ⟨t, h1, h2, h3.mono hf⟩
  | abort q =>
    obtain ⟨t, cap, h1, h2, h3⟩ := h
    exact ⟨t, cap, h1, h2, h3.mono hf⟩

/-- Raise the `far` component: everything looked at so far was recorded. -/
theorem Good.far {X : VM Flat τ σ → List Capture → Prop} {S : List Entry} {cp : List Capture}
    {f0 f1 far' : Nat} {e : Ev σ} {o : Out Flat τ σ} (h : Good P X S cp f1 e o) (hf : f0 ≤ f1)
    (hfar : P.trk → far' ≤ f1 + 1) : Good P X S cp f0 (e.1, max far' e.2.1, e.2.2) o := by
  obtain ⟨res, far, w⟩ := e
  have key : ∀ t : VM Flat τ σ, Post P f1 t far w → Post P f0 t (max far' far) w := by
    intro t ht
    exact (ht.max fun h => Nat.le_trans (hfar h) (Nat.succ_le_succ ht.fle)).mono hf
  cases res with
  | ok pos cs =>
    obtain ⟨t, caps, h1, h2, h3, h4, h5⟩ := h
    exact ⟨t, caps, h1, h2, h3, h4, key t h5⟩
  | fail =>
    obtain ⟨t, h1, h2, h3⟩ := h
    exact ⟨t, h1, h2, key t h3⟩
  | abort q =>
    obtain ⟨t, cap, h1, h2, h3⟩ := h
    exact ⟨t, cap, h1, h2, key t h3⟩

theorem Exit.prepend {tl : Bool} {b : Nat} {S : List Entry} {cp c1 c2 : List Capture}
    {t : VM Flat τ σ} (h : Exit tl b (stkAdd S c1) (baseAdd S cp c1) t c2) :
    Exit tl b S cp t (c1 ++ c2) := by
  unfold Exit at *
  split
  · rename_i htl
    rw [if_pos htl] at h
    obtain ⟨r, c0, S', h1, h2, h3, h4⟩ := h
    cases S with
    | nil => cases h1
    | cons e rest =>
      obtain ⟨kind, capt⟩ := e
      cases h1
      refine ⟨r, capt, S', rfl, h2, ?_, ?_⟩
      · rw [h3, List.append_assoc]
      · rw [h4, List.append_assoc]; rfl
  · rename_i htl
    rw [if_neg htl] at h
    exact ⟨h.1, by rw [h.2.1, stkAdd_app], by rw [h.2.2, baseAdd_app]⟩

/-- The second part of a sequence, seen from the start of the first. -/
theorem Good.prepend (hP : P.Ok) {tl : Bool} {b : Nat} {S : List Entry} {cp c1 : List Capture}
    {cs1 : List CTree} {f0 f1 far1 : Nat} {e : Ev σ} {o : Out Flat τ σ}
    (h : Good P (Exit tl b (stkAdd S c1) (baseAdd S cp c1)) (stkAdd S c1) (baseAdd S cp c1) f1 e o)
    (hc : P.cr c1 cs1) (hf : f0 ≤ f1) (hfar : P.trk → far1 ≤ f1 + 1) :
    Good P (Exit tl b S cp) S cp f0 (e.1.prepend cs1, max far1 e.2.1, e.2.2) o := by
  have h := h.far (far' := far1) hf hfar
  obtain ⟨res, far, w⟩ := e
  cases res with
  | ok pos cs =>
    obtain ⟨t, caps, h1, h2, h3, h4, h5⟩ := h
    exact ⟨t, c1 ++ caps, h1, h2.prepend, h3, hP.cr_app hc h4, h5⟩
  | fail =>
    obtain ⟨t, h1, h2, h3⟩ := h
    refine ⟨t, by rw [h1, doFail_add], fun hS => ?_, h3⟩
    cases S with
    | nil => exact absurd rfl hS
    | cons e r => exact h2 (by simp [stkAdd])
  | abort q => exact h

/-! ## Lemmas about segments -/

theorem nextInsn_app (x y : Program) : nextInsn (x ++ y) = (nextInsn x).or (nextInsn y) := by
  induction x with
  | nil => rfl
  | cons i p ih =>
    simp only [List.cons_append, nextInsn]
    split
    · exact ih
    · rfl

theorem Seg.left {prog : Program} {lbls : String → Option Nat} {tl : Bool} {j a : Nat}
    {x y : Program} (h : Seg prog lbls tl j a (x ++ y)) (hy : nextInsn y ≠ none ∨ tl = false) :
    Seg prog lbls false j a x := by
  intro i insn hi hx
  have hlt : i < x.length := by
    rcases Nat.lt_or_ge i x.length with hlt | hge
    · exact hlt
    · rw [List.getElem?_eq_none hge] at hx; cases hx
  have := h i insn hi (by rw [List.getElem?_append_left hlt]; exact hx)
  rcases hy with hy | hy
  · rw [List.drop_append_of_le_length (by omega), nextInsn_app] at this
    have he : ((nextInsn (x.drop (i + 1))).or (nextInsn y)).isNone = false := by
      cases hn : nextInsn y with
      | none => exact absurd hn hy
      | some z => cases nextInsn (x.drop (i + 1)) <;> rfl
    rw [he, Bool.and_false] at this
    rw [Bool.false_and]; exact this
  · rw [hy, Bool.false_and] at this
    rw [Bool.false_and]; exact this

theorem Seg.leftTail {prog : Program} {lbls : String → Option Nat} {tl : Bool} {j a : Nat}
    {x y : Program} (h : Seg prog lbls tl j a (x ++ y)) (hy : nextInsn y = none) :
    Seg prog lbls tl j a x := by
  intro i insn hi hx
  have hlt : i < x.length := by
    rcases Nat.lt_or_ge i x.length with hlt | hge
    · exact hlt
    · rw [List.getElem?_eq_none hge] at hx; cases hx
  have := h i insn hi (by rw [List.getElem?_append_left hlt]; exact hx)
  rw [List.drop_append_of_le_length (by omega), nextInsn_app, hy, Option.or_none] at this
  exact this

theorem Seg.right {prog : Program} {lbls : String → Option Nat} {tl : Bool} {j a : Nat}
    {x y : Program} (h : Seg prog lbls tl j a (x ++ y)) :
    Seg prog lbls tl (j - x.length) (a + x.length) y := by
  intro i insn hi hy
  have := h (x.length + i) insn (by omega)
    (by rw [List.getElem?_append_right (by omega), Nat.add_sub_cancel_left]; exact hy)
  rw [List.drop_append, List.drop_eq_nil_of_le (by omega), List.nil_append,
    show x.length + i + 1 - x.length = i + 1 by omega] at this
  rw [Nat.add_assoc]; exact this

theorem Seg.at {prog : Program} {lbls : String → Option Nat} {tl : Bool} {j a : Nat} {x z : Program}
    {insn : Insn} (h : Seg prog lbls tl j a (x ++ insn :: z)) (hj : j ≤ x.length)
    (ho : ∀ n, insn ≠ .openCall n) : prog[a + x.length]? = some insn := by
  have := h x.length insn hj (by simp)
  cases insn <;> first | exact this | exact absurd rfl (ho _)

theorem Seg.skip {prog : Program} {lbls : String → Option Nat} {tl : Bool} {j j' a : Nat}
    {raw : Program} (h : Seg prog lbls tl j a raw) (hj : j ≤ j') : Seg prog lbls tl j' a raw :=
  fun i insn hi => h i insn (Nat.le_trans hj hi)

/-- No call placeholder is in tail position. -/
def NoTailOpen (raw : Program) : Prop :=
  ∀ x n z, raw = x ++ .openCall n :: z → nextInsn z ≠ none

theorem NoTailOpen.seg {prog : Program} {lbls : String → Option Nat} {tl : Bool} {j a : Nat}
    {raw : Program} (hn : NoTailOpen raw) (h : Seg prog lbls tl j a raw) :
    Seg prog lbls false j a raw := by
  intro i insn hi hr
  have := h i insn hi hr
  cases insn with
  | openCall n =>
    have hlt : i < raw.length := by
      rcases Nat.lt_or_ge i raw.length with hlt | hge
      · exact hlt
      · rw [List.getElem?_eq_none hge] at hr; cases hr
    have he : raw = raw.take i ++ .openCall n :: raw.drop (i + 1) := by
      rw [List.getElem?_eq_getElem hlt] at hr
      rw [← Option.some.inj hr, List.getElem_cons_drop, List.take_append_drop]
    have hne := hn _ _ _ he
    have : (nextInsn (raw.drop (i + 1))).isNone = false := by
      cases hh : nextInsn (raw.drop (i + 1)) with
      | none => exact absurd hh hne
      | some z => rfl
    rename_i h1
    rw [this, Bool.and_false] at h1
    rw [Bool.false_and]; exact h1
  | _ => exact this

theorem nextInsn_nops {z : Program} (h : ∀ i ∈ z, i = Insn.nop) : nextInsn z = none := by
  induction z with
  | nil => rfl
  | cons i z ih =>
    rw [h i List.mem_cons_self]
    exact ih fun i hi => h i (List.mem_cons_of_mem _ hi)

theorem NoTailOpen.endsOpen {raw : Program} (hn : NoTailOpen raw) : ¬ EndsOpen raw := by
  rintro ⟨x, n, z, h, hz⟩
  exact hn x n z h (nextInsn_nops hz)

/-- A proper instruction behind all placeholders. -/
theorem noTailOpen_app {x z : Program} {insn : Insn} (ho : ∀ n, insn ≠ .openCall n)
    (hs : insn.isSkip = false) (hz : ∀ n, Insn.openCall n ∉ z) :
    NoTailOpen (x ++ insn :: z) := by
  intro x' n z' h
  rcases List.append_eq_append_iff.1 h with ⟨a, h1, h2⟩ | ⟨a, h1, h2⟩
  · cases a with
    | nil => simp only [List.nil_append, List.cons.injEq] at h2; exact absurd h2.1 (ho n)
    | cons y a =>
      simp only [List.cons_append, List.cons.injEq] at h2
      refine absurd ?_ (hz n)
      rw [h2.2]; simp
  · cases a with
    | nil => simp only [List.nil_append, List.cons.injEq] at h2; exact absurd h2.1.symm (ho n)
    | cons y a =>
      simp only [List.cons_append, List.cons.injEq] at h2
      rw [h2.2, nextInsn_app]
      simp only [nextInsn, hs, Bool.false_eq_true, if_false]
      cases nextInsn a <;> simp

/-! ## Stepping -/

theorem step_at {s : VM Flat τ σ} {ip : Nat} {insn : Insn} (hip : s.ip = ip)
    (h : P.prog[ip]? = some insn) :
    P.step s = P.cfg.exec1 (labelIdx P.prog) insn (ip + 1) s := by
  unfold Par.step stepL
  rw [hip, h]

theorem reach_at {s : VM Flat τ σ} {ip : Nat} {insn : Insn} {o : Out Flat τ σ} (hip : s.ip = ip)
    (h : P.prog[ip]? = some insn) (he : P.cfg.exec1 (labelIdx P.prog) insn (ip + 1) s = o) :
    Reach P.step (.next s) o :=
  ⟨1, by show P.step s = o; rw [step_at hip h, he]⟩

theorem reach_label {s : VM Flat τ σ} {ip l : Nat} (hip : s.ip = ip)
    (h : P.prog[ip]? = some (.label l)) :
    Reach P.step (.next s) (.next { s with ip := ip + 1 }) := reach_at hip h rfl

/-- Jumping to a label and stepping over it. -/
theorem reach_to_label (hP : P.Ok) {s : VM Flat τ σ} {i l : Nat} (hip : s.ip = labelIdx P.prog l)
    (h : P.prog[i]? = some (.label l)) :
    Reach P.step (.next s) (.next { s with ip := i + 1 }) :=
  reach_label (hip.trans (hP.lab i l h)) h

/-! ## Normal mode suffices when nothing is in tail position -/

/-- Stepping over labels and `nop`s. -/
theorem reach_next {insn : Insn} (d : Nat) : ∀ {s : VM Flat τ σ} {b : Nat}, P.prog.length - b = d →
    s.ip = b → nextInsn (P.prog.drop b) = some insn →
    ∃ b', Reach P.step (.next s) (.next { s with ip := b' }) ∧ P.prog[b']? = some insn := by
  induction d with
  | zero =>
    intro s b hb _ h
    rw [List.drop_eq_nil_of_le (by omega)] at h
    cases h
  | succ d ih =>
    intro s b hb hip h
    have hlt : b < P.prog.length := by omega
    rw [List.drop_eq_getElem_cons hlt] at h
    cases hsk : P.prog[b].isSkip with
    | false =>
      simp only [nextInsn, hsk, Bool.false_eq_true, if_false] at h
      refine ⟨b, ?_, by rw [List.getElem?_eq_getElem hlt]; exact h⟩
      subst hip
      exact Reach.refl _
    | true =>
      simp only [nextInsn, hsk, if_true] at h
      obtain ⟨b', h1, h2⟩ := ih (s := { s with ip := b + 1 }) (b := b + 1) (by omega) rfl h
      refine ⟨b', Reach.trans ?_ h1, h2⟩
      have hget : P.prog[b]? = some P.prog[b] := List.getElem?_eq_getElem hlt
      refine reach_at hip hget ?_
      cases hi : P.prog[b] <;> rw [hi] at hsk <;> first | rfl | cases hsk

theorem Good.tailRet {b : Nat} {S : List Entry} {cp : List Capture} {f0 : Nat} {e : Ev σ}
    {o : Out Flat τ σ} (hret : nextInsn (P.prog.drop b) = some .ret) (hS : ∃ r c0 S', S = ⟨.ret r, c0⟩ :: S')
    (h : Good P (Exit false b S cp) S cp f0 e o) :
    ∃ o', Reach P.step o o' ∧ Good P (Exit true b S cp) S cp f0 e o' := by
  obtain ⟨res, far, w⟩ := e
  cases res with
  | ok pos cs =>
    obtain ⟨t, caps, h1, h2, h3, h4, h5⟩ := h
    obtain ⟨r, c0, S', rfl⟩ := hS
    obtain ⟨hip, hstk, hcapt⟩ := h2
    refine ⟨.next { t with
      ip := r, stk := stkAdd S' (c0 ++ caps), capt := baseAdd S' cp (c0 ++ caps) }, ?_, ?_⟩
    · rw [h1]
      obtain ⟨b', hr1, hret⟩ := reach_next _ rfl hip hret
      refine hr1.trans (reach_at rfl hret ?_)
      simp only [Cfg.exec1, hstk, stkAdd, addCapt_eq]
      rw [hcapt]; rfl
    · exact ⟨_, caps, rfl, ⟨r, c0, S', rfl, rfl, rfl, rfl⟩, h3, h4,
        ⟨h5.data, h5.fle, h5.far, h5.tinv, h5.errs, h5.cst⟩⟩
  | fail => exact ⟨o, Reach.refl o, h⟩
  | abort q => exact ⟨o, Reach.refl o, h⟩

theorem simPat_of_normal {m : Mode} {k : Nat} {p : Pat}
    (hn : ∀ cst raw cst', CM.Ok (compileF k p) cst raw cst' → NoTailOpen raw)
    (h : SimPatT P m false k p) : SimPat P m k p := by
  intro tl
  cases tl with
  | false => exact h
  | true =>
    intro env lbls cst cst' raw a j pos w s hcomp hg hocc hsc hseg hmat hpre htrk htail
    have hno := hn _ _ _ hcomp
    have := h env lbls cst cst' raw a j pos w s hcomp hg hocc hsc (hno.seg hseg) hmat hpre htrk
      (fun h => by cases h)
    obtain ⟨hS, hret⟩ := htail rfl
    have hret : nextInsn (P.prog.drop (a + raw.length)) = some .ret := by
      rcases hret with h | h
      · exact h
      · exact absurd h hno.endsOpen
    exact this.weaken fun e o' _ hg => Good.tailRet hret hS hg

end Gpeg
