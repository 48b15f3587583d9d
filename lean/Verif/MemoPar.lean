import Verif.TreeTable
import Verif.Correct
import Verif.Quiet
/-!
# Compiler correctness with a `TreeTable`

What the entries of the table must satisfy for a run to be unaffected by them (`EntOK`), and that runs
preserve it.
-/
namespace Gpeg
variable {σ : Type}

/-- With these checkers, a memoized pattern neither reports errors nor depends on or changes the state of checkers. -/
def Occ.Quiet (chk : CheckFn σ) (o : Occ) : Prop :=
  ∀ (n : Nat) (c : Ctx σ) (pos : Nat) (w : World σ) (e : Ev σ), c.chk = chk → eval n c o.env o.q pos w = some e →
    ∀ w2, eval n c o.env o.q pos w2 = some (e.setW w2)

/-- It is enough that it does not use errors and checkers. -/
theorem Occ.quiet_of_pure {chk : CheckFn σ} {o : Occ} (hq : o.q.Pure) (he : Env.Pure o.env) : o.Quiet chk :=
  fun n c pos w e _ h w2 => eval_world c n o.env o.q pos w e hq he h w2

theorem Occ.Quiet.evals {o : Occ} {c : Ctx σ} (hq : o.Quiet c.chk) {pos : Nat} {w : World σ} {e : Ev σ}
    (h : Evals c o.env o.q pos w e) (w2 : World σ) : Evals c o.env o.q pos w2 (e.setW w2) := by
  obtain ⟨n, h⟩ := h
  exact ⟨n, hq n c pos w e rfl h w2⟩

theorem Occ.Quiet.iter {o : Occ} {c : Ctx σ} (hq : o.Quiet c.chk) {pos pos' far : Nat}
    {w w' : World σ} {cs : List CTree} (h : Iter c o.env o.q pos w pos' cs far w') (w2 : World σ) :
    Iter c o.env o.q pos w2 pos' cs far w2 := by
  induction h with
  | one hev => exact .one (hq.evals hev w2)
  | trans _ _ ih1 ih2 => exact .trans ih1 ih2

/-- Two occurrences of memoization have the same meaning. -/
def Occ.Same (σ : Type) (o o' : Occ) : Prop :=
  o.star = o'.star ∧ ∀ (n : Nat) (c : Ctx σ) (pos : Nat) (w : World σ),
    eval n c o.env o.q pos w = eval n c o'.env o'.q pos w

theorem Occ.Same.evals {o o' : Occ} (h : o.Same σ o') {c : Ctx σ} {pos : Nat} {w : World σ} {e : Ev σ}
    (he : Evals c o.env o.q pos w e) : Evals c o'.env o'.q pos w e := by
  obtain ⟨n, he⟩ := he
  exact ⟨n, by rw [← h.2]; exact he⟩

theorem Occ.Same.iter {o o' : Occ} (h : o.Same σ o') {c : Ctx σ} {pos pos' far : Nat} {w w' : World σ}
    {cs : List CTree} (hi : Iter c o.env o.q pos w pos' cs far w') : Iter c o'.env o'.q pos w pos' cs far w' := by
  induction hi with
  | one hev => exact .one (h.evals hev)
  | trans _ _ ih1 ih2 => exact .trans ih1 ih2

/-- Patterns under memoization neither report errors nor depend on or change the state of checkers, and occurrences with the
same id have the same meaning. -/
structure OccsOK (chk : CheckFn σ) (occs : List Occ) : Prop where
  quiet : ∀ o ∈ occs, o.Quiet chk
  inj : ∀ o ∈ occs, ∀ o' ∈ occs, o.id = o'.id → o.Same σ o'

/-- The entry `e` found at `pos` for the occurrence `o` tells the truth about `c.data`; if `trk`, the entry
also tells how much was looked at, none of it beyond what the input has recorded as furthest position `f`. -/
def EntOK (c : Ctx σ) (trk : Prop) (o : Occ) (pos : Nat) (e : MEntry) (f : Nat) : Prop :=
  ∃ far, (trk → far ≤ pos + e.examined ∧ far ≤ f + 1) ∧
    if o.star then ∃ n, e.length = some n ∧
      ∀ w, Iter c o.env o.q pos w (pos + n) (Capture.treesL e.captures) far w
    else ∀ w, Evals c o.env o.q pos w (match e.length with
      | none => .fail
      | some n => .ok (pos + n) (Capture.treesL e.captures), far, w)

/-- The same for the intervals in the table; if `trk`, they have not been moved since they were stored. -/
def SlotOK (c : Ctx σ) (trk : Prop) (occs : List Occ) (f : Nat) (s : Slot TEnt) : Prop :=
  ∃ pos : Nat, s.low = pos ∧ s.high - s.low = s.val.ent.examined ∧ (trk → s.val.start = pos) ∧
    (∀ o ∈ occs, o.id = s.id → EntOK c trk o pos (s.val.at pos) f)

/-- A run with a tree table. -/
def memoPar (data : List UInt8) (chk : CheckFn σ) (prog : Program) (trk : Prop) (occs : List Occ) (b : Bool) :
    Par TreeTable σ where
  data := data
  tab := treeTable
  chk := chk
  iv := none
  prog := prog
  trk := trk
  lo := false
  cr caps cs := Capture.treesL caps = CTree.pruneL none cs
  TInv T f := TabInv b T (SlotOK ⟨data, chk, false⟩ trk occs f)
  Mget id pos e f := ∀ o ∈ occs, o.id = id → EntOK ⟨data, chk, false⟩ trk o pos e f
  Mput id pos e f := ∀ o ∈ occs, o.id = id → EntOK ⟨data, chk, false⟩ trk o pos e f

section
variable {data : List UInt8} {chk : CheckFn σ} {prog : Program} {trk : Prop} {occs : List Occ} {b : Bool}

theorem EntOK.mono {c : Ctx σ} {o : Occ} {pos f f' x : Nat} {e : MEntry} (h : EntOK c trk o pos e f)
    (hf : f ≤ f') (hx : e.examined ≤ x) : EntOK c trk o pos { e with examined := x } f' := by
  obtain ⟨far, h1, h2⟩ := h
  exact ⟨far, fun ht => by have := h1 ht; simp only []; omega, h2⟩

/-- The side conditions on the program. -/
structure ProgOK (prog : Program) : Prop where
  lab : ∀ (i l : Nat), prog[i]? = some (.label l) → labelIdx prog l = i
  any1 : ∀ (i : Nat) n, prog[i]? = some (Insn.any n) → n = 1

theorem memoPar_ok (hchk : CheckOK chk) (hp : ProgOK prog) : (memoPar data chk prog trk occs b).Ok where
  lab := hp.lab
  any1 := hp.any1
  chk := hchk
  cr_nil := by simp [memoPar, Capture.treesL, CTree.pruneL]
  cr_app := (cr_ok none).1
  cr_node id h1 h2 h3 := (cr_ok none).2.1 id h1 h2 h3
  cr_skip id h1 h2 _ := (cr_ok none).2.2.1 id h1 h2
  cr_dummy s l _ h := (cr_ok none).2.2.2 s l h
  tmono {t f f'} h hf := by
    refine TabInv.weaken h fun s hs => ?_
    obtain ⟨pos, h1, h2, h4, h3⟩ := hs
    exact ⟨pos, h1, h2, h4, fun o ho hid => (h3 o ho hid).mono hf (Nat.le_refl _)⟩
  get {t f id pos r t'} h hg _ := by
    obtain ⟨h1, h2⟩ := TabInv.get h hg
    refine ⟨h1, fun m hm o ho hid => ?_⟩
    obtain ⟨s, ⟨pos', hp, _, _, hs⟩, hs1, hs2, rfl⟩ := h2 m hm
    have : pos' = pos := by omega
    subst this
    exact hs o ho (by rw [hs1]; exact hid)
  put {t f id pos len exam count capt} h hm := by
    refine TabInv.put h fun x hx => ⟨pos, rfl, by simp only []; omega, fun _ => rfl, fun o ho hid => ?_⟩
    simp only [TEnt.at, Capture.shiftL_self]
    exact (hm o ho hid).mono (Nat.le_refl _) hx

theorem memoPar_occ (hchk : CheckOK chk) (ho : OccsOK chk occs) (o : Occ) (hm : o ∈ occs) :
    OccOK (memoPar data chk prog trk occs b) o := by
  have hq := ho.quiet o hm
  have hk : ChkOK (⟨data, chk, false⟩ : Ctx σ) := fun k st m pos id flag n st' hle h => hchk k st m data pos id flag n st' hle h
  unfold OccOK
  split
  · rename_i hs
    refine ⟨?_, ?_, trivial⟩
    · intro pos w pos' cs far w' exam capt f count hit hle hcr hfar _
      intro o' ho' hid
      have hsame := ho.inj o hm o' ho' hid.symm
      have hcr' : Capture.treesL capt = cs := by
        have : Capture.treesL capt = CTree.pruneL none cs := hcr
        rw [pruneL_none] at this; exact this
      have hbd := hit.bounds hk hle
      refine ⟨far, fun ht => ?_, ?_⟩
      · exact hfar ⟨ht, rfl⟩
      · rw [if_pos (by rw [← hsame.1]; exact hs)]
        refine ⟨_, rfl, fun w2 => hsame.iter ?_⟩
        simp only [memoPar, Option.isSome_none, Bool.false_eq_true, if_false]
        rw [hcr', Nat.add_sub_cancel' hbd.1]
        exact hq.iter hit w2
    · intro pos e f w hle hget
      obtain ⟨far, h1, h2⟩ := hget o hm rfl
      rw [if_pos hs] at h2
      obtain ⟨n, h3, h4⟩ := h2
      refine ⟨n, _, far, h3, h4 w, ?_, fun ht => (h1 ht.1).2⟩
      show _ = CTree.pruneL none _
      rw [pruneL_none]
  · rename_i hs
    refine ⟨?_, ?_, trivial⟩
    · intro pos w res far w' len exam capt f count hev hle hres hfar _
      intro o' ho' hid
      have hsame := ho.inj o hm o' ho' hid.symm
      refine ⟨far, fun ht => hfar ht, ?_⟩
      rw [if_neg (by rw [← hsame.1]; exact hs)]
      intro w2
      refine hsame.evals ?_
      have hev2 := hq.evals hev w2
      simp only [memoPar, Option.isSome_none, Bool.false_eq_true, if_false]
      cases res with
      | ok pos' cs =>
        obtain ⟨rfl, hcr⟩ := hres
        have hcr' : Capture.treesL capt = cs := by
          have : Capture.treesL capt = CTree.pruneL none cs := hcr
          rw [pruneL_none] at this; exact this
        have hbd := Evals.bounds hk hle hev
        simp only []
        rw [hcr', Nat.add_sub_cancel' hbd.1]
        exact hev2
      | fail =>
        obtain ⟨rfl, rfl⟩ := hres
        exact hev2
      | abort p => exact hres.elim
    · intro pos e f w hle hget
      obtain ⟨far, h1, h2⟩ := hget o hm rfl
      rw [if_neg hs] at h2
      refine ⟨_, far, h2 w, ?_, fun ht => (h1 ht.1).2⟩
      cases e.length with
      | none => rfl
      | some n => exact ⟨_, rfl, by show _ = CTree.pruneL none _; rw [pruneL_none]⟩

/-- The invariant of the table after a run. -/
def TabAfter (P : Par TreeTable σ) : XRes Input TreeTable σ → Prop
  | .done _ _ src _ tbl _ => P.TInv tbl src.flat.furthest
  | .panic => False

theorem tabAfter_of {P : Par TreeTable σ} {e : Ev σ} {r : XRes Input TreeTable σ}
    (h : TopRes P e (r.map Input.flat)) : TabAfter P r := by
  obtain ⟨res, far, w⟩ := e
  cases r with
  | panic =>
    cases res with
    | ok pos cs => obtain ⟨a, b, ch, src, tbl, h, _⟩ := h; cases h
    | fail => obtain ⟨src, tbl, h, _⟩ := h; cases h
    | abort pos => obtain ⟨cap, src, tbl, h, _⟩ := h; cases h
  | done ok cap src errs tbl cst =>
    cases res with
    | ok pos cs =>
      obtain ⟨a, b, ch, src', tbl', h, h1, h2, h3, h4, h5, h6⟩ := h
      cases h
      exact h5
    | fail => obtain ⟨src', tbl', h, h1, h2, _⟩ := h; cases h; exact h2
    | abort pos => obtain ⟨cap', src', tbl', h, h1, h2, h3, _⟩ := h; cases h; exact h3

/-- Compiler correctness with a tree table all of whose entries are right. -/
theorem exec_tree {k : Nat} {p : Pat} {cst cst' : CState} {raw : Program} {code : Code} {bufsz : Nat}
    (hchk : CheckOK chk) (hd : p.Dots1) (hs : p.Scoped) (hc : CM.Ok (compileF k p) cst raw cst')
    (he : encode (optimize raw) = some code) (hb : 0 < bufsz) (hp : ProgOK (withEnd raw))
    (hocc : OccsOK chk (memoOcc k [] p cst)) (T : TreeTable)
    (hT : TabInv b T (SlotOK ⟨data, chk, false⟩ trk (memoOcc k [] p cst) 0)) (st : σ) :
    (∀ e, Evals ⟨data, chk, false⟩ [] p 0 ⟨[], st⟩ e →
      ∃ r, Execs ⟨chunkedOps, treeTable, chk, none⟩ code (Input.new bufsz data) T st r ∧ ExecRes none e r ∧
        TabAfter (memoPar data chk (withEnd raw) trk (memoOcc k [] p cst) b) r) ∧
    (∀ r, Execs ⟨chunkedOps, treeTable, chk, none⟩ code (Input.new bufsz data) T st r →
      ∃ e, Evals ⟨data, chk, false⟩ [] p 0 ⟨[], st⟩ e ∧ ExecRes none e r ∧
        TabAfter (memoPar data chk (withEnd raw) trk (memoOcc k [] p cst) b) r) := by
  have hP := memoPar_ok (trk := trk) (data := data) (occs := memoOcc k [] p cst) (b := b) hchk hp
  have hno : ∀ n, .openCall n ∉ raw := fun n hn => encode_openCall he n (optimize_openCall hn)
  have hch := chain treeTable chk none (dots1_raw hd hc) he (i := Input.new bufsz data) (f := ⟨data, 0, 0⟩)
    ⟨Input.new_inv hb data, rfl, rfl, rfl⟩ T st
  have ho := fun o (hm : o ∈ memoOcc k [] p cst) =>
    memoPar_occ (data := data) (prog := withEnd raw) (trk := trk) (b := b) hchk hocc o hm
  refine ⟨fun e hev => ?_, fun r hr => ?_⟩
  · obtain ⟨x, hx, hres⟩ := (top_sim hP rfl hc ho hs hno T st hT).1 e hev
    obtain ⟨r, hr, rfl⟩ := (hch x).2 hx
    exact ⟨r, hr, execRes_of rfl hres, tabAfter_of hres⟩
  · have hx := (hch (r.map Input.flat)).1 ⟨r, hr, rfl⟩
    obtain ⟨e, hev, hres⟩ := top_sim' hP rfl hc ho hs hno T st hT hx
    exact ⟨e, hev, execRes_of rfl hres, tabAfter_of hres⟩

end
end Gpeg
