import Verif.Props.Session
import Verif.Props.LazyLogLazy
/-!
# Property C86: reparsing after edits of any length, with a repaired table
-/
namespace Gpeg
variable {σ : Type}

/-- What the proof of C28 needs of a table: `Inv T Q` says that all entries in `T` satisfy `Q`; it is kept by `Get` and `Put`, and
`Get` finds an entry of the table at its place. -/
structure Lawful (tab : TableOps TreeTable) (Inv : TreeTable → (Slot TEnt → Prop) → Prop) : Prop where
  get : ∀ {T T' : TreeTable} {Q : Slot TEnt → Prop} {id : Int} {pos : Nat} {r : Option MEntry}, Inv T Q → tab.get T id pos = (r, T') →
    Inv T' Q ∧ ∀ e, r = some e → ∃ s, Q s ∧ s.id = id ∧ s.low = pos ∧ e = s.val.at pos
  put : ∀ {T : TreeTable} {Q : Slot TEnt → Prop} {id : Int} {start : Nat} {length : Option Nat} {examined count : Nat}
    {captures : List Capture}, Inv T Q →
    (∀ x, examined ≤ x → Q ⟨id, start, start + (x : Nat), ⟨start, ⟨length, x, count, captures⟩⟩⟩) →
    Inv (tab.put T id start length examined count captures) Q

/-- A run with the table of a session. -/
def anyPar (data : List UInt8) (chk : CheckFn σ) (prog : Program) (occs : List Occ) (tab : TableOps TreeTable)
    (Inv : TreeTable → (Slot TEnt → Prop) → Prop) : Par TreeTable σ where
  data := data
  tab := tab
  chk := chk
  iv := none
  prog := prog
  trk := True
  lo := true
  cr caps cs := Capture.treesL caps = CTree.pruneL none cs
  TInv T _ := Inv T (SlotNow chk occs data)
  Mget id pos e _ := ∀ o ∈ occs, o.id = id → EntOK ⟨data, chk, false⟩ False o pos e 0
  Mput id pos e _ := ∀ o ∈ occs, o.id = id → Stored ⟨data, chk, false⟩ o pos e

section
variable {data : List UInt8} {chk : CheckFn σ} {prog : Program} {occs : List Occ} {tab : TableOps TreeTable}
  {Inv : TreeTable → (Slot TEnt → Prop) → Prop}

theorem anyPar_ok (hL : Lawful tab Inv) (hchk : CheckOK chk) (hp : ProgOK prog) (hq : ∀ o ∈ occs, o.Quiet chk) (hl : ∀ o ∈ occs, o.Local chk) :
    (anyPar data chk prog occs tab Inv).Ok where
  lab := hp.lab
  any1 := hp.any1
  chk := hchk
  cr_nil := by simp [anyPar, Capture.treesL, CTree.pruneL]
  cr_app := (cr_ok none).1
  cr_node id h1 h2 h3 := (cr_ok none).2.1 id h1 h2 h3
  cr_skip id h1 h2 _ := (cr_ok none).2.2.1 id h1 h2
  cr_dummy s l _ h := (cr_ok none).2.2.2 s l h
  tmono h _ := h
  get {t f id pos r t'} h hg _ := by
    obtain ⟨h1, h2⟩ := hL.get h hg
    refine ⟨h1, fun m hm o ho hid => ?_⟩
    obtain ⟨s, ⟨d₀, pos', hp, _, hag, hs⟩, hs1, hs2, rfl⟩ := h2 m hm
    have : pos' = pos := by omega
    subst this
    obtain ⟨f, hs⟩ := hs o ho (by rw [hs1]; exact hid)
    obtain ⟨far, _, h⟩ := EntOK.move (ent := { s.val.ent with examined := s.val.ent.examined + 1 }) (hl o ho) (hq o ho) hag hs
    exact ⟨far, False.elim, h⟩
  put {t f id pos len exam count capt} h hm := by
    refine hL.put h fun x hx => ⟨data, pos, rfl, by simp only []; omega, Agree.refl _ _ _, fun o ho hid => ?_⟩
    obtain ⟨f, h⟩ := hm o ho hid
    exact ⟨f, h.mono (Nat.le_refl _) (by simp only []; omega)⟩

theorem anyPar_occ (hchk : CheckOK chk) (ho : OccsOK chk occs) (hs : ∀ o ∈ occs, o.Short σ) (o : Occ) (hm : o ∈ occs) :
    OccOK (anyPar data chk prog occs tab Inv) o := by
  have hq := ho.quiet o hm
  have hsh := hs o hm
  have hk : ∀ lo, ChkOK (⟨data, chk, lo⟩ : Ctx σ) := fun lo k st m pos id flag n st' hle h => hchk k st m data pos id flag n st' hle h
  unfold OccOK
  split
  · rename_i hs
    refine ⟨?_, ?_, trivial⟩
    · intro pos w pos' cs far w' exam capt f count hit hle hcr _ hlt o' ho' hid
      have hsame := ho.inj o hm o' ho' hid.symm
      have hcr' : Capture.treesL capt = cs := by
        have : Capture.treesL capt = CTree.pruneL none cs := hcr
        rw [pruneL_none] at this; exact this
      have hbd := hit.bounds (hk true) hle
      obtain ⟨far', hit'⟩ := Iter.lo (b := true) false hit
      have hfar := hsh.iter (hk false) hit' hle
      refine ⟨far', far', fun _ => ⟨by simp only []; omega, Nat.le_succ _⟩, ?_⟩
      rw [if_pos (by rw [← hsame.1]; exact hs)]
      refine ⟨_, rfl, fun w2 => hsame.iter ?_⟩
      simp only [anyPar, Option.isSome_none, Bool.false_eq_true, if_false]
      rw [hcr', Nat.add_sub_cancel' hbd.1]
      exact hq.iter hit' w2
    · intro pos e f w hle hget
      obtain ⟨far, h1, h2⟩ := hget o hm rfl
      rw [if_pos hs] at h2
      obtain ⟨n, h3, h4⟩ := h2
      obtain ⟨far', h5⟩ := Iter.lo true (h4 w)
      refine ⟨n, _, far', h3, h5, ?_, fun ht => by cases ht.2⟩
      show _ = CTree.pruneL none _
      rw [pruneL_none]
  · rename_i hs
    refine ⟨?_, ?_, trivial⟩
    · intro pos w res far w' len exam capt f count hev hle hres hfar hlt o' ho' hid
      have hsame := ho.inj o hm o' ho' hid.symm
      obtain ⟨n, hev⟩ := hev
      obtain ⟨⟨r2, far', w2'⟩, hev', e1, e2⟩ := eval_sameOut true false n _ _ _ _ _ hev
      simp only at e1 e2
      subst e1 e2
      have hf := (hfar trivial).1
      have hfar' : far' ≤ pos + (exam + 1) := by
        cases res with
        | ok pos' cs =>
          have h1 := hsh.ok hev'
          have hbd := Evals.bounds (hk true) hle ⟨n, hev⟩
          have h2 := hlt _ hres.1
          omega
        | fail =>
          have h1 := hsh.fail hev' hev
          omega
        | abort p => exact hres.elim
      refine ⟨far', far', fun _ => ⟨hfar', Nat.le_succ _⟩, ?_⟩
      rw [if_neg (by rw [← hsame.1]; exact hs)]
      intro w2
      refine hsame.evals ?_
      have hev2 := hq.evals ⟨n, hev'⟩ w2
      simp only [anyPar, Option.isSome_none, Bool.false_eq_true, if_false]
      cases res with
      | ok pos' cs =>
        obtain ⟨rfl, hcr⟩ := hres
        have hcr' : Capture.treesL capt = cs := by
          have : Capture.treesL capt = CTree.pruneL none cs := hcr
          rw [pruneL_none] at this; exact this
        have hbd := Evals.bounds (hk true) hle ⟨n, hev⟩
        simp only []
        rw [hcr', Nat.add_sub_cancel' hbd.1]
        exact hev2
      | fail =>
        obtain ⟨rfl, rfl⟩ := hres
        exact hev2
      | abort p => exact hres.elim
    · intro pos e f w hle hget
      obtain ⟨far, h1, h2⟩ := hget o hm rfl
      rw [if_neg hs] at h2
      obtain ⟨far', h3⟩ := (h2 w).lo true
      refine ⟨_, far', h3, ?_, fun ht => by cases ht.2⟩
      cases e.length with
      | none => rfl
      | some n => exact ⟨_, rfl, by show _ = CTree.pruneL none _; rw [pruneL_none]⟩

/-- Compiler correctness with the table of a session. -/
theorem exec_any (hL : Lawful tab Inv) {k : Nat} {p : Pat} {cst cst' : CState} {raw : Program} {code : Code} {bufsz : Nat}
    (hchk : CheckOK chk) (hd : p.Dots1) (hs : p.Scoped) (hc : CM.Ok (compileF k p) cst raw cst')
    (he : encode (optimize raw) = some code) (hb : 0 < bufsz) (hp : ProgOK (withEnd raw))
    (hocc : OccsOK chk (memoOcc k [] p cst)) (hl : ∀ o ∈ memoOcc k [] p cst, o.Local chk)
    (hsh : ∀ o ∈ memoOcc k [] p cst, o.Short σ) (T : TreeTable)
    (hT : Inv T (SlotNow chk (memoOcc k [] p cst) data)) (st : σ) :
    (∀ e, Evals ⟨data, chk, false⟩ [] p 0 ⟨[], st⟩ e →
      ∃ r, Execs ⟨chunkedOps, tab, chk, none⟩ code (Input.new bufsz data) T st r ∧ ExecRes none e r) ∧
    (∀ r, Execs ⟨chunkedOps, tab, chk, none⟩ code (Input.new bufsz data) T st r →
      ∃ e, Evals ⟨data, chk, false⟩ [] p 0 ⟨[], st⟩ e ∧ ExecRes none e r ∧
        TabAfter (anyPar data chk (withEnd raw) (memoOcc k [] p cst) tab Inv) r) := by
  have hP := anyPar_ok (data := data) (occs := memoOcc k [] p cst) (tab := tab) (Inv := Inv) hL hchk hp hocc.quiet hl
  have hno : ∀ n, .openCall n ∉ raw := fun n hn => encode_openCall he n (optimize_openCall hn)
  have hch := chain tab chk none (dots1_raw hd hc) he (i := Input.new bufsz data) (f := ⟨data, 0, 0⟩)
    ⟨Input.new_inv hb data, rfl, rfl, rfl⟩ T st
  have ho := fun o (hm : o ∈ memoOcc k [] p cst) =>
    anyPar_occ (data := data) (prog := withEnd raw) (tab := tab) (Inv := Inv) hchk hocc hsh o hm
  refine ⟨fun e hev => ?_, fun r hr => ?_⟩
  · obtain ⟨f, hev'⟩ := hev.lo true
    obtain ⟨x, hx, hres⟩ := (top_sim hP rfl hc ho hs hno T st hT).1 _ hev'
    obtain ⟨r, hr, rfl⟩ := (hch x).2 hx
    exact ⟨r, hr, (execRes_of rfl hres).refar e.2.1⟩
  · have hx := (hch (r.map Input.flat)).1 ⟨r, hr, rfl⟩
    obtain ⟨e, hev, hres⟩ := top_sim' hP rfl hc ho hs hno T st hT hx
    obtain ⟨f, hev'⟩ := hev.lo false
    exact ⟨_, hev', (execRes_of rfl hres).refar f, tabAfter_of hres⟩

end


/-- `Pos` of the location `a` of an entry (`memo/entry.go:27-30`, `memo/capture.go:95-100`), which `Start` and `End` of a memoized capture
call. -/
def TreeTable.pos (T : TreeTable) (a : Nat) : TreeTable := { T with map := (T.map.posOf a).1 }

/-- `Session` for any table, with edits for which `E` holds; if `asks` holds, positions of memoized captures are asked for at any time. -/
inductive SessionT (tab : TableOps TreeTable) (E : TreeTable → TextEdit → Prop) (asks : Prop) (chk : CheckFn σ) (code : Code) :
    TreeTable → List UInt8 → Prop
  | new (th : Int) (d : List UInt8) : SessionT tab E asks chk code (TreeTable.new th) d
  | parse {T T' : TreeTable} {d : List UInt8} {bufsz : Nat} {st st' : σ} {ok : Bool} {cap : Option Capture} {src : Input}
      {errs : List PErr} : SessionT tab E asks chk code T d → 0 < bufsz →
      Execs ⟨chunkedOps, tab, chk, none⟩ code (Input.new bufsz d) T st (.done ok cap src errs T' st') → SessionT tab E asks chk code T' d
  | edit {T : TreeTable} {d : List UInt8} (e : TextEdit) : SessionT tab E asks chk code T d → e.start ≤ e.stop → e.stop ≤ d.length →
      E T e → SessionT tab E asks chk code (tab.applyEdit T e.edit) (e.text d)
  | pos {T : TreeTable} {d : List UInt8} (a : Nat) : SessionT tab E asks chk code T d → asks → SessionT tab E asks chk code (T.pos a) d

/-- What is needed of edits. -/
def LawfulEdit (tab : TableOps TreeTable) (Inv : TreeTable → (Slot TEnt → Prop) → Prop) (E : TreeTable → TextEdit → Prop) : Prop :=
  ∀ {T : TreeTable} {Q R : Slot TEnt → Prop} (e : TextEdit), Inv T Q → e.start ≤ e.stop → E T e →
    (∀ s s', Q s → LazyLog.follow e.edit.start e.edit.high (e.edit.len - ((e.edit.stop : Int) - e.edit.start)) s = some s' → R s') →
    Inv (tab.applyEdit T e.edit) R

theorem session_any {tab : TableOps TreeTable} {Inv : TreeTable → (Slot TEnt → Prop) → Prop} {E : TreeTable → TextEdit → Prop}
    {asks : Prop} (hL : Lawful tab Inv) (hN : ∀ th Q, Inv (TreeTable.new th) Q) (hE : LawfulEdit tab Inv E)
    (hA : asks → ∀ {T Q} (a : Nat), Inv T Q → Inv (T.pos a) Q)
    {p : Pat} {code : Code} {chk : CheckFn σ} {d : List UInt8} {bufsz : Nat} {st : σ} {top : Int}
    (hc : CompiledAt top p code) (hd : p.Dots1) (hs : p.Scoped) (hchk : CheckOK chk) (hm : p.MemosOK chk top)
    (hl : ∀ o ∈ p.memos [], Covered chk o.env o.q) (hsh : ∀ o ∈ p.memos [], o.Short σ) (hb : 0 < bufsz) {T : TreeTable}
    (h : SessionT tab E asks chk code T d) :
    (∀ r, Execs ⟨chunkedOps, tab, chk, none⟩ code (Input.new bufsz d) T st r →
      ∃ r', RunsTo chk none code bufsz d st r' ∧ r.view = r'.view) ∧
    (∀ r', RunsTo chk none code bufsz d st r' →
      ∃ r, Execs ⟨chunkedOps, tab, chk, none⟩ code (Input.new bufsz d) T st r ∧ r.view = r'.view) := by
  obtain ⟨k, cst, raw, cst', rfl, hc, he⟩ := hc.raw
  have hocc := occsOK_of (chk := chk) hc hs hm
  have hloc := memoOcc_local (chk := chk) hc hs hl
  have hshort := memoOcc_short (σ := σ) hc hs hsh
  have hT : Inv T (SlotNow chk (memoOcc k [] p cst) d) := by
    induction h with
    | new th d => exact hN th _
    | parse _ hb hr ih =>
      obtain ⟨_, _, _, h⟩ := (exec_any hL hchk hd hs hc he hb (progOK_raw hd hc) hocc hloc hshort _ ih _).2 _ hr
      exact h
    | edit e _ h1 h2 h3 ih => exact hE e ih h1 h3 fun s s' hs hfol => hs.edit h1 h2 hfol
    | pos a _ ha ih => exact hA ha a ih
  have h1 := exec_any hL hchk hd hs hc he hb (progOK_raw hd hc) hocc hloc hshort T hT st
  have h2 := exec_none (data := d) (iv := none) hchk hd hs hc he hb st
  refine ⟨fun r hr => ?_, fun r' hr => ?_⟩
  · obtain ⟨e, hev, hx, _⟩ := h1.2 r hr
    obtain ⟨r', hr', hx'⟩ := h2.1 e hev
    exact ⟨r', hr', hx.view_eq hx'⟩
  · obtain ⟨e, hev, hx'⟩ := h2.2 r' hr
    obtain ⟨r, hr, hx⟩ := h1.1 e hev
    exact ⟨r, hr, hx.view_eq hx'⟩

/-! ## The tables -/

open LazyLog

/-- `memo/tree.go:51-61` `ApplyEdit` with `ShiftThreshold` the number `k` and a function in the place of `removeOverlaps`. -/
def TreeTable.applyEditK (k : Int) (ro : List Shift → Int → Int → Nat → Tr TEnt → Tr TEnt) (T : TreeTable) (e : Edit) : TreeTable :=
  let low : Int := e.start
  let high : Int := if e.start = e.stop then e.start + 1 else e.stop
  let amt : Int := e.len - ((e.stop : Int) - e.start)
  { T with map := T.map.removeAndShiftK k ro low high amt }

/-- `TreeTable` with these. -/
def tableK (k : Int) (ro : List Shift → Int → Int → Nat → Tr TEnt → Tr TEnt) : TableOps TreeTable where
  get := TreeTable.get
  put := TreeTable.put
  applyEdit := TreeTable.applyEditK k ro

theorem tableK_code : tableK (-1) removeOverlaps = treeTable := by
  have h : ∀ (T : LazyLog.Tree TEnt) (low high amt : Int), T.removeAndShiftK (-1) removeOverlaps low high amt = T.removeAndShift low high amt := by
    intro T low high amt
    simpa [St.stepK, St.step] using congrArg St.tree (stepK_code ⟨T, []⟩ (.edit low high amt))
  have e : TreeTable.applyEditK (-1) removeOverlaps = TreeTable.applyEdit := by
    funext T e
    simp only [TreeTable.applyEditK, TreeTable.applyEdit, h]
  rw [tableK, e, treeTable]

/-- A property of histories that the operations keep gives a lawful table. -/
def InvOf (P : St TEnt → Prop) (T : TreeTable) (Q : Slot TEnt → Prop) : Prop := ∃ live, P ⟨T.map, live⟩ ∧ ∀ s ∈ live, Q s.1

theorem lawful_of {P : St TEnt → Prop} (k : Int) (ro : List Shift → Int → Int → Nat → Tr TEnt → Tr TEnt)
    (ha : ∀ {st : St TEnt}, P st → Answers st)
    (hf : ∀ {st : St TEnt}, P st → ∀ id pos, P (st.step (.find id pos)))
    (hadd : ∀ {st : St TEnt}, P st → ∀ {id low high : Int} {v : TEnt}, 0 ≤ low → low ≤ high → P (st.step (.add id low high v))) :
    Lawful (tableK k ro) (InvOf P) where
  get {T T' Q id pos r} h hg := by
    obtain ⟨live, h1, h2⟩ := h
    simp only [tableK, TreeTable.get, Prod.mk.injEq] at hg
    obtain ⟨hr, rfl⟩ := hg
    refine ⟨⟨live, hf h1 id pos, h2⟩, fun e he => ?_⟩
    rw [he, Option.map_eq_some_iff] at hr
    obtain ⟨v, hv, rfl⟩ := hr
    obtain ⟨s, hs, a, b, c⟩ := (ha h1).stale _ _ _ hv
    exact ⟨s.1, h2 s hs, a, b, by rw [c]⟩
  put {T Q id start length examined count captures} h hq := by
    show InvOf P (T.put id start length examined count captures) Q
    unfold TreeTable.put
    split
    · exact h
    · obtain ⟨live, h1, h2⟩ := h
      refine ⟨_, hadd h1 (id := id) (low := start) (high := start + (max examined (length.getD 0) : Nat))
        (v := ⟨start, ⟨length, max examined (length.getD 0), count, captures⟩⟩) (by omega) (by omega), ?_⟩
      intro s hs
      rcases List.mem_append.1 hs with hs | hs
      · exact h2 s hs
      · rw [List.mem_singleton] at hs
        subst hs
        exact hq _ (Nat.le_max_left ..)

theorem lawfulEdit_of {P : St TEnt → Prop} (k : Int) (ro : List Shift → Int → Int → Nat → Tr TEnt → Tr TEnt) {E : TreeTable → TextEdit → Prop}
    (hed : ∀ {T : TreeTable} {live} (e : TextEdit), P ⟨T.map, live⟩ → E T e → ∀ {amt : Int}, (e.edit.start : Int) ≤ e.edit.high → (e.edit.start : Int) - e.edit.high ≤ amt →
      P (St.stepK k ro ⟨T.map, live⟩ (.edit e.edit.start e.edit.high amt))) :
    LawfulEdit (tableK k ro) (InvOf P) E := by
  intro T Q R e h he hE hR
  obtain ⟨live, h1, h2⟩ := h
  have hh : (if e.edit.start = e.edit.stop then (e.edit.start : Int) + 1 else e.edit.stop) = e.edit.high := by
    unfold Edit.high; split <;> simp
  have he' : e.edit.start ≤ e.edit.stop := he
  have h3 : (e.edit.start : Int) ≤ e.edit.high ∧ (e.edit.start : Int) - e.edit.high ≤ e.edit.len - ((e.edit.stop : Int) - e.edit.start) := by
    unfold Edit.high; split <;> omega
  show InvOf P (T.applyEditK k ro e.edit) R
  unfold TreeTable.applyEditK
  simp only []
  rw [hh]
  refine ⟨_, hed e h1 hE h3.1 h3.2, ?_⟩
  intro s hs
  simp only [List.mem_filterMap, Option.map_eq_some_iff] at hs
  obtain ⟨s0, hs0, s1, hf, rfl⟩ := hs
  exact hR _ _ (h2 s0 hs0) hf

/-! ## The theorems -/

/-- Any edit. -/
abbrev anyEdit : TreeTable → TextEdit → Prop := fun _ _ => True

/-- **C86, applying shifts at once.** With `remove` repaired as in C82 and `ShiftThreshold = 1`, the result of each parse in a session is
what a parse without a table gives, for edits of any kind, also if many of them shorten the text, and whenever positions are asked for. What C28 asks of memoized parts is
asked here too. -/
theorem C86_eager_partial {p : Pat} {code : Code} {chk : CheckFn σ} {d : List UInt8} {bufsz : Nat} {st : σ} {top : Int}
    (hc : CompiledAt top p code) (hd : p.Dots1) (hs : p.Scoped) (hchk : CheckOK chk) (hm : p.MemosOK chk top)
    (hl : ∀ o ∈ p.memos [], Covered chk o.env o.q) (hsh : ∀ o ∈ p.memos [], o.Short σ) (hb : 0 < bufsz) {T : TreeTable}
    (h : SessionT (tableK 1 removeOverlapsR) anyEdit True chk code T d) :
    (∀ r, Execs ⟨chunkedOps, tableK 1 removeOverlapsR, chk, none⟩ code (Input.new bufsz d) T st r →
      ∃ r', RunsTo chk none code bufsz d st r' ∧ r.view = r'.view) ∧
    (∀ r', RunsTo chk none code bufsz d st r' →
      ∃ r, Execs ⟨chunkedOps, tableK 1 removeOverlapsR, chk, none⟩ code (Input.new bufsz d) T st r ∧ r.view = r'.view) :=
  session_any (lawful_of 1 removeOverlapsR (fun h => h.right.toAnswers) (fun h => eager_find h) (fun h => eager_add h))
    (fun _ _ => ⟨[], eager_init, fun _ h => by cases h⟩) (lawfulEdit_of 1 removeOverlapsR fun {_ _} _ h _ {_} h1 h2 => eager_edit h h1 h2)
    (fun _ {_ _} a h => let ⟨live, h1, h2⟩ := h; ⟨live, eager_pos h1 a, h2⟩)
    hc hd hs hchk hm hl hsh hb h

/-- **C86, applying shifts lazily.** The same with the value of `ShiftThreshold` in the code, if no position of a memoized capture is
asked for (`C86_pos_false`). -/
theorem C86_lazy_partial {p : Pat} {code : Code} {chk : CheckFn σ} {d : List UInt8} {bufsz : Nat} {st : σ} {top : Int}
    (hc : CompiledAt top p code) (hd : p.Dots1) (hs : p.Scoped) (hchk : CheckOK chk) (hm : p.MemosOK chk top)
    (hl : ∀ o ∈ p.memos [], Covered chk o.env o.q) (hsh : ∀ o ∈ p.memos [], o.Short σ) (hb : 0 < bufsz) {T : TreeTable}
    (h : SessionT (tableK (-1) removeOverlapsR) anyEdit False chk code T d) :
    (∀ r, Execs ⟨chunkedOps, tableK (-1) removeOverlapsR, chk, none⟩ code (Input.new bufsz d) T st r →
      ∃ r', RunsTo chk none code bufsz d st r' ∧ r.view = r'.view) ∧
    (∀ r', RunsTo chk none code bufsz d st r' →
      ∃ r, Execs ⟨chunkedOps, tableK (-1) removeOverlapsR, chk, none⟩ code (Input.new bufsz d) T st r ∧ r.view = r'.view) :=
  session_any (lawful_of (-1) removeOverlapsR (fun h => h.right.toAnswers) (fun h => lazy_find h) (fun h => lazy_add h))
    (fun _ _ => ⟨[], lazy_init, fun _ h => by cases h⟩) (lawfulEdit_of (-1) removeOverlapsR fun {_ _} _ h _ {_} h1 h2 => lazy_edit h h1 h2)
    (fun h => h.elim)
    hc hd hs hchk hm hl hsh hb h

/-- The edit meets no entry of the table. -/
def Misses (T : TreeTable) (e : TextEdit) : Prop :=
  ∀ f ∈ T.map.root.flat T.map.shifts, ∀ i ∈ f.ins, Ival.overlaps e.edit.start e.edit.high i = false

/-- **C86, the code.** Without a repair, the same for sessions whose edits, also those that shorten the text, meet no entry of the table
at the time; positions may be asked for. -/
theorem C86_misses_partial {p : Pat} {code : Code} {chk : CheckFn σ} {d : List UInt8} {bufsz : Nat} {st : σ} {top : Int}
    (hc : CompiledAt top p code) (hd : p.Dots1) (hs : p.Scoped) (hchk : CheckOK chk) (hm : p.MemosOK chk top)
    (hl : ∀ o ∈ p.memos [], Covered chk o.env o.q) (hsh : ∀ o ∈ p.memos [], o.Short σ) (hb : 0 < bufsz) {T : TreeTable}
    (h : SessionT treeTable Misses True chk code T d) :
    (∀ r, RunsTree chk code bufsz d T st r → ∃ r', RunsTo chk none code bufsz d st r' ∧ r.view = r'.view) ∧
    (∀ r', RunsTo chk none code bufsz d st r' → ∃ r, RunsTree chk code bufsz d T st r ∧ r.view = r'.view) := by
  rw [← tableK_code] at h
  unfold RunsTree
  rw [← tableK_code]
  refine session_any (lawful_of (-1) removeOverlaps (fun h => h.answers) (fun h => whole_find h) (fun h => whole_add h))
    (fun _ _ => ⟨[], lazy_init.whole, fun _ h => by cases h⟩) (lawfulEdit_of (-1) removeOverlaps fun {T live} e h hE {_} h1 h2 => ?_)
    (fun _ {_ _} a h => let ⟨live, h1, h2⟩ := h; ⟨live, whole_pos h1 a, h2⟩)
    hc hd hs hchk hm hl hsh hb h
  rw [stepK_code]
  refine whole_edit h h1 h2 ?_
  intro s hs ho
  obtain ⟨f, hf, hi⟩ := List.mem_flatMap.1 (h.perm.mem_iff.2 hs)
  obtain ⟨i, hi', rfl⟩ := List.mem_map.1 hi
  have := hE f hf i hi'
  simp only [Ival.overlaps, Bool.and_eq_false_iff, decide_eq_false_iff_not] at this ho
  omega

/-! ## Examples -/

/-- Run the machine for at most `n` steps with a table. -/
def runU (tab : TableOps TreeTable) (code : Code) (n : Nat) (d : List UInt8) (T : TreeTable) : Option TreeTable :=
  let c : Cfg Input TreeTable Unit := ⟨chunkedOps, tab, noChk, none⟩
  match runOut (stepB c code) n (initVM c (Input.new 4096 d) T ()) with
  | some (.halt _ _ s) => some s.tbl
  | _ => none

theorem runU_sound {tab : TableOps TreeTable} {code : Code} {n : Nat} {d : List UInt8} {T T' : TreeTable} (h : runU tab code n d T = some T') :
    ∃ ok cap src errs, Execs ⟨chunkedOps, tab, noChk, none⟩ code (Input.new 4096 d) T () (.done ok cap src errs T' ()) := by
  unfold runU at h
  simp only [] at h
  split at h
  · rename_i ok cap s hr
    cases h
    exact ⟨ok, cap, s.src, s.errs, n, _, hr, rfl⟩
  · cases h

/-- `S <- Memo(< T > ' '?) 'b'*`, `T <- (![ ] .)+` -/
def blankTail : Pat := .grammar "S" (.cons "S" (.seq (.memo (.seq (.cap (.nonterm "T") 1) (.opt (.lit [32]))) 0) (.star (.lit [98])))
  (.cons "T" (.plus (.seq (.not (.cls (CSet.new [32]))) (.dot 1))) .nil))

/-- Parse, remove a byte, parse, remove a byte. -/
def shrinks (tab : TableOps TreeTable) (code : Code) (d : List UInt8) (i : Nat) : Option (TreeTable × TreeTable) := do
  let T ← runU tab code 200 d (TreeTable.new 0)
  let T' ← runU tab code 200 ((⟨i, i + 1, []⟩ : TextEdit).text d) (tab.applyEdit T ⟨i, i + 1, 0⟩)
  pure (T, T')

/-- The edit meets no entry, as a test. -/
def missesB (T : TreeTable) (e : TextEdit) : Bool :=
  (T.map.root.flat T.map.shifts).all fun f => f.ins.all fun i => !Ival.overlaps e.edit.start e.edit.high i

theorem missesB_iff {T : TreeTable} {e : TextEdit} (h : missesB T e = true) : Misses T e := by
  simpa [missesB, Misses] using h

theorem blankTail_run : (match compileF 20 blankTail ⟨0, 0, true⟩ with
    | .ok (raw, _) => (encode (optimize raw)).any fun code =>
      (shrinks (tableK 1 removeOverlapsR) code [97, 97, 32, 98, 98, 98, 98] 1).isSome &&
      (shrinks (tableK (-1) removeOverlapsR) code [97, 97, 32, 98, 98, 98, 98] 1).isSome &&
      (shrinks treeTable code [97, 97, 32, 98, 98, 98, 98] 5).any fun x =>
        missesB x.1 ⟨5, 6, []⟩ && missesB x.2 ⟨5, 6, []⟩ && decide (x.1.map.root.size = 1)
    | _ => false) = true := by
  decide +kernel

theorem shrinks_session {tab : TableOps TreeTable} {E : TreeTable → TextEdit → Prop} {code : Code} {d : List UInt8} {i : Nat} {T T' : TreeTable} {asks : Prop}
    (h : shrinks tab code d i = some (T, T')) (hd : i + 2 ≤ d.length) (h1 : E T ⟨i, i + 1, []⟩) (h2 : E T' ⟨i, i + 1, []⟩) :
    ∃ T'', SessionT tab E asks noChk code T'' ((⟨i, i + 1, []⟩ : TextEdit).text ((⟨i, i + 1, []⟩ : TextEdit).text d)) := by
  simp only [shrinks, Option.bind_eq_bind, Option.bind_eq_some_iff, Option.pure_def, Option.some.injEq, Prod.mk.injEq] at h
  obtain ⟨T1, r1, T2, r2, rfl, rfl⟩ := h
  obtain ⟨_, _, _, _, r1⟩ := runU_sound r1
  obtain ⟨_, _, _, _, r2⟩ := runU_sound r2
  refine ⟨_, .edit ⟨i, i + 1, []⟩ (.parse (.edit ⟨i, i + 1, []⟩ (.parse (.new 0 d) (by decide) r1) (Nat.le_succ i) ?_ h1) (by decide) r2)
    (Nat.le_succ i) ?_ h2⟩
  · show i + 1 ≤ d.length; omega
  · simp [TextEdit.text]; omega

/-- The hypotheses can be met with edits that shorten the text: `aa bbbb` loses an `a` twice, or a `b` twice. -/
example : let p := blankTail
    (∃ code, CompiledAt 0 p code ∧
      (∃ T, SessionT (tableK 1 removeOverlapsR) anyEdit True noChk code T [97, 98, 98, 98, 98]) ∧
      (∃ T, SessionT (tableK (-1) removeOverlapsR) anyEdit False noChk code T [97, 98, 98, 98, 98]) ∧
      ∃ T, SessionT treeTable Misses True noChk code T [97, 97, 32, 98, 98]) ∧ p.Dots1 ∧ p.Scoped ∧
      p.MemosOK noChk 0 ∧ (∀ o ∈ p.memos [], Covered noChk o.env o.q) ∧ ∀ o ∈ p.memos [], o.Short Unit := by
  intro p
  refine ⟨?_, ?_, ?_, Pat.memosOK_of_pure ?_ ?_ ?_, memos_covered_of_test (S := (· == "T")) (by decide) (by decide),
    memos_short_of_test (S := (· == "T")) (L := fun n => if n = "T" then ⟨some 1, some 1, none⟩ else Look.none) (by decide) (by decide) (by decide)⟩
  · have h := blankTail_run
    split at h
    · rename_i raw cst' hr
      cases he : encode (optimize raw) with
      | none => rw [he] at h; cases h
      | some code =>
        rw [he] at h
        simp only [Option.any_some, Bool.and_eq_true] at h
        obtain ⟨⟨h1, h2⟩, h3⟩ := h
        obtain ⟨⟨T1, T1'⟩, h1⟩ := Option.isSome_iff_exists.1 h1
        obtain ⟨⟨T2, T2'⟩, h2⟩ := Option.isSome_iff_exists.1 h2
        obtain ⟨⟨T3, T3'⟩, h3, h4⟩ := (Option.any_eq_true _ _).1 h3
        simp only [Bool.and_eq_true] at h4
        exact ⟨code, ⟨20, ⟨0, 0, true⟩, _, cst', rfl, cm_bind.2 ⟨raw, cst', hr, rfl⟩, he⟩, shrinks_session h1 (by decide) trivial trivial,
          shrinks_session h2 (by decide) trivial trivial, shrinks_session h3 (by decide) (missesB_iff h4.1.1) (missesB_iff h4.1.2)⟩
    · cases h
  · simp [p, blankTail, Pat.leaves, Defs.leaves, Pat.Dots1]
  · simp [p, blankTail, Pat.Scoped, Defs.Scoped, Defs.noCap, Pat.noCap]
  · simp [p, blankTail, Pat.Pure, Pat.leaves, Defs.leaves]
  · simp [p, blankTail, Pat.memos, Defs.memos]
  · simp [p, blankTail, Pat.memos, Defs.memos]

/-! ## Asking for a position -/

/-- `S <- 'c'* (Memo(< T > ' '?) !'c')* 'b'* !.`, `T <- 'a'+` -/
def wordsTail : Pat := .grammar "S" (.cons "S" (.seq (.star (.lit [99]))
  (.seq (.star (.seq (.memo (.seq (.cap (.nonterm "T") 1) (.opt (.lit [32]))) 0) (.not (.lit [99]))))
  (.seq (.star (.lit [98])) (.not (.dot 1))))) (.cons "T" (.plus (.cls (CSet.new [97]))) .nil))

/-- `cccaa aa aa aa aa aa aabbbbbbbbbbbbbb`. -/
def asked₀ : List UInt8 := [99, 99, 99, 97, 97, 32, 97, 97, 32, 97, 97, 32, 97, 97, 32, 97, 97, 32, 97, 97, 32, 97, 97] ++ List.replicate 14 98

/-- Four `b` become `a`. -/
def asked₁ : TextEdit := ⟨23, 27, [97, 97, 97, 97]⟩

/-- A `c` is added in front, eight more, and seven `b` are removed. -/
def asked₂ : List TextEdit := [⟨0, 0, [99]⟩, ⟨0, 0, List.replicate 8 99⟩, ⟨38, 45, []⟩]

/-- A `b` becomes an `a`. -/
def asked₃ : TextEdit := ⟨36, 37, [97]⟩

/-- The text at the end. -/
def askedText : List UInt8 := asked₃.text (asked₂.foldl (fun d e => e.text d) (asked₁.text asked₀))

/-- The table after edits. -/
def TreeTable.edits (T : TreeTable) (es : List TextEdit) : TreeTable := es.foldl (fun T e => T.applyEdit e.edit) T

/-- The runs of the theorem. -/
def askedRun (code : Code) : Bool :=
  match runT code 2000 asked₀ (TreeTable.new 0) with
  | some (true, T₀) => match runT code 2000 (asked₁.text asked₀) (T₀.applyEdit asked₁.edit) with
    | some (true, T₁) => match runT code 2000 askedText (((T₁.edits asked₂).pos 4).applyEdit asked₃.edit) with
      | some (false, _) => decide (((T₁.edits asked₂).map.posOf 4).2 = some 24) &&
        (runT code 2000 askedText ((T₁.edits asked₂).applyEdit asked₃.edit)).any (·.1) &&
        (runT code 2000 askedText (TreeTable.new 0)).any (·.1)
      | _ => false
    | _ => false
  | _ => false

set_option maxRecDepth 100000 in
theorem askedRun_ok : (match compileF 30 wordsTail ⟨0, 1, true⟩ with
    | .ok (raw, _) => (encode (optimize raw)).any askedRun
    | _ => false) = true := by
  decide +kernel

theorem runT_any {code : Code} {n : Nat} {d : List UInt8} {T : TreeTable} (h : (runT code n d T).any (·.1) = true) :
    ∃ T', Leaves code d T true T' := by
  cases hx : runT code n d T with
  | none => rw [hx] at h; cases h
  | some x =>
    obtain ⟨ok, T'⟩ := x
    rw [hx] at h
    obtain rfl : ok = true := h
    exact ⟨T', runT_sound hx⟩

/-- **Asking for the position of a capture makes a reparse of the code wrong.** The grammar is as C28 and C86 ask. A text is parsed, edited,
and parsed again; three edits follow. Then the client asks where the fifth word is (at 24, which is right). After one more edit the text is
rejected. If the client had not asked, or with a new table, it is accepted. -/
theorem C86_pos_false : ∃ code T₀ T₁, CompiledAt 1 wordsTail code ∧ Leaves code asked₀ (TreeTable.new 0) true T₀ ∧
    Leaves code (asked₁.text asked₀) (T₀.applyEdit asked₁.edit) true T₁ ∧
    ((T₁.edits asked₂).map.posOf 4).2 = some 24 ∧
    (∃ T, Leaves code askedText (((T₁.edits asked₂).pos 4).applyEdit asked₃.edit) false T) ∧
    (∃ T, Leaves code askedText ((T₁.edits asked₂).applyEdit asked₃.edit) true T) ∧
    (∃ T, Leaves code askedText (TreeTable.new 0) true T) ∧
    wordsTail.Dots1 ∧ wordsTail.Scoped ∧ wordsTail.MemosOK noChk 1 ∧
    (∀ o ∈ wordsTail.memos [], Covered noChk o.env o.q) ∧ ∀ o ∈ wordsTail.memos [], o.Short Unit := by
  have key : ∃ code, CompiledAt 1 wordsTail code ∧ askedRun code = true := by
    have h := askedRun_ok
    split at h
    · rename_i raw cst' hr
      cases he : encode (optimize raw) with
      | none => rw [he] at h; cases h
      | some code =>
        rw [he] at h
        exact ⟨code, ⟨30, ⟨0, 1, true⟩, _, cst', rfl, cm_bind.2 ⟨raw, cst', hr, rfl⟩, he⟩, h⟩
    · cases h
  obtain ⟨code, hc, h⟩ := key
  unfold askedRun at h
  split at h
  · rename_i T₀ h0
    split at h
    · rename_i T₁ h1
      split at h
      · rename_i T h2
        simp only [Bool.and_eq_true, decide_eq_true_eq] at h
        refine ⟨code, T₀, T₁, hc, runT_sound h0, runT_sound h1, h.1.1, ⟨T, runT_sound h2⟩, runT_any h.1.2, runT_any h.2, ?_, ?_,
          Pat.memosOK_of_pure ?_ ?_ ?_, memos_covered_of_test (S := (· == "T")) (by decide) (by decide),
          memos_short_of_test (S := (· == "T")) (L := fun n => if n = "T" then ⟨some 1, some 1, none⟩ else Look.none) (by decide)
            (by decide) (by decide)⟩
        · simp [wordsTail, Pat.leaves, Defs.leaves, Pat.Dots1]
        · simp [wordsTail, Pat.Scoped, Defs.Scoped, Defs.noCap, Pat.noCap]
        · simp [wordsTail, Pat.Pure, Pat.leaves, Defs.leaves]
        · simp [wordsTail, Pat.memos, Defs.memos]
        · simp [wordsTail, Pat.memos, Defs.memos]
      · cases h
    · cases h
  · cases h

end Gpeg
