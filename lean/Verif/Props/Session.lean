import Verif.Look
import Verif.Props.Incremental
/-!
# Property C28: any number of reparses
-/
namespace Gpeg
variable {σ : Type}

/-- What a memoized pattern looks at, so that its entries can be trusted when they were made with the help of other
entries: a success has looked at no more than two bytes beyond its end; a failure has looked at no more than one byte
beyond what was looked at outside of memoized patterns within it. -/
structure Occ.Short (σ : Type) (o : Occ) : Prop where
  ok : ∀ {d : List UInt8} {chk : CheckFn σ} {n pos : Nat} {w w' : World σ} {pos' f : Nat} {cs : List CTree},
    eval n ⟨d, chk, false⟩ o.env o.q pos w = some (.ok pos' cs, f, w') → f ≤ pos' + 2
  fail : ∀ {d : List UInt8} {chk : CheckFn σ} {n pos : Nat} {w w' w'' : World σ} {f f' : Nat},
    eval n ⟨d, chk, false⟩ o.env o.q pos w = some (.fail, f, w') →
    eval n ⟨d, chk, true⟩ o.env o.q pos w = some (.fail, f', w'') → f ≤ f' + 1

theorem Occ.Short.iter {o : Occ} (h : o.Short σ) {d : List UInt8} {chk : CheckFn σ} (hk : ChkOK (⟨d, chk, false⟩ : Ctx σ))
    {pos pos' far : Nat} {w w' : World σ} {cs : List CTree} (hi : Iter ⟨d, chk, false⟩ o.env o.q pos w pos' cs far w') :
    pos ≤ d.length → far ≤ pos' + 2 := by
  induction hi with
  | one hev => intro _; obtain ⟨n, hev⟩ := hev; exact h.ok hev
  | trans h1 h2 ih1 ih2 =>
    intro hle
    have b1 := h1.bounds hk hle
    have b2 := h2.bounds hk b1.2
    have := ih1 hle
    have := ih2 b1.2
    omega

/-- The entry, found right for the text `c.data`, looked at no more than one byte beyond what it says. -/
def Stored (c : Ctx σ) (o : Occ) (pos : Nat) (e : MEntry) : Prop :=
  ∃ f, EntOK c True o pos { e with examined := e.examined + 1 } f

/-- An entry stored for a text that agrees with `d` on what the entry depends on. -/
def SlotNow (chk : CheckFn σ) (occs : List Occ) (d : List UInt8) (s : Slot TEnt) : Prop :=
  ∃ (d₀ : List UInt8) (pos : Nat), s.low = pos ∧ s.high - s.low = s.val.ent.examined ∧
    Agree d₀ d s.val.start pos (s.val.ent.examined + 1) ∧
    ∀ o ∈ occs, o.id = s.id → Stored ⟨d₀, chk, false⟩ o s.val.start s.val.ent

/-- A run with the table of a session. -/
def sessPar (data : List UInt8) (chk : CheckFn σ) (prog : Program) (occs : List Occ) (b : Bool) : Par TreeTable σ where
  data := data
  tab := treeTable
  chk := chk
  iv := none
  prog := prog
  trk := True
  lo := true
  cr caps cs := Capture.treesL caps = CTree.pruneL none cs
  TInv T _ := TabInv b T (SlotNow chk occs data)
  Mget id pos e _ := ∀ o ∈ occs, o.id = id → EntOK ⟨data, chk, false⟩ False o pos e 0
  Mput id pos e _ := ∀ o ∈ occs, o.id = id → Stored ⟨data, chk, false⟩ o pos e

section
variable {data : List UInt8} {chk : CheckFn σ} {prog : Program} {occs : List Occ} {b : Bool}

theorem sessPar_ok (hchk : CheckOK chk) (hp : ProgOK prog) (hq : ∀ o ∈ occs, o.Quiet chk) (hl : ∀ o ∈ occs, o.Local chk) :
    (sessPar data chk prog occs b).Ok where
  lab := hp.lab
  any1 := hp.any1
  chk := hchk
  cr_nil := by simp [sessPar, Capture.treesL, CTree.pruneL]
  cr_app := (cr_ok none).1
  cr_node id h1 h2 h3 := (cr_ok none).2.1 id h1 h2 h3
  cr_skip id h1 h2 _ := (cr_ok none).2.2.1 id h1 h2
  cr_dummy s l _ h := (cr_ok none).2.2.2 s l h
  tmono h _ := h
  get {t f id pos r t'} h hg _ := by
    obtain ⟨h1, h2⟩ := TabInv.get h hg
    refine ⟨h1, fun m hm o ho hid => ?_⟩
    obtain ⟨s, ⟨d₀, pos', hp, _, hag, hs⟩, hs1, hs2, rfl⟩ := h2 m hm
    have : pos' = pos := by omega
    subst this
    obtain ⟨f, hs⟩ := hs o ho (by rw [hs1]; exact hid)
    obtain ⟨far, _, h⟩ := EntOK.move (ent := { s.val.ent with examined := s.val.ent.examined + 1 }) (hl o ho) (hq o ho) hag hs
    exact ⟨far, False.elim, h⟩
  put {t f id pos len exam count capt} h hm := by
    refine TabInv.put h fun x hx => ⟨data, pos, rfl, by simp only []; omega, Agree.refl _ _ _, fun o ho hid => ?_⟩
    obtain ⟨f, h⟩ := hm o ho hid
    exact ⟨f, h.mono (Nat.le_refl _) (by simp only []; omega)⟩

theorem sessPar_occ (hchk : CheckOK chk) (ho : OccsOK chk occs) (hs : ∀ o ∈ occs, o.Short σ) (o : Occ) (hm : o ∈ occs) :
    OccOK (sessPar data chk prog occs b) o := by
  have hq := ho.quiet o hm
  have hsh := hs o hm
  have hk : ∀ lo, ChkOK (⟨data, chk, lo⟩ : Ctx σ) := fun lo k st m pos id flag n st' hle h => hchk k st m data pos id flag n st' hle h
  unfold OccOK
  split
  · rename_i hs
    refine ⟨?_, ?_, trivial⟩
    · intro pos w pos' cs far w' exam capt f count hit hle hcr _ hlt
      intro o' ho' hid
      have hsame := ho.inj o hm o' ho' hid.symm
      have hcr' : Capture.treesL capt = cs := by
        have : Capture.treesL capt = CTree.pruneL none cs := hcr
        rw [pruneL_none] at this; exact this
      have hbd := hit.bounds (hk true) hle
      obtain ⟨far', hit'⟩ := Iter.lo (b := true) false hit
      have hfar := hsh.iter (hk false) hit' hle
      refine ⟨far', far', fun _ => ⟨by simp only []; omega, Nat.le_succ _⟩, ?_⟩
      rw [if_pos (by rw [← hsame.1]; exact hs)]
      refine ⟨_, rfl, fun w2 => hsame.iter ?_⟩
      simp only [sessPar, Option.isSome_none, Bool.false_eq_true, if_false]
      rw [hcr', Nat.add_sub_cancel' hbd.1]
      exact hq.iter hit' w2
    · intro pos e f w hle hget
      obtain ⟨far, h1, h2⟩ := hget o hm rfl
      rw [if_pos hs] at h2
      obtain ⟨n, h3, h4⟩ := h2
      obtain ⟨far', h5⟩ := Iter.lo true (h4 w)
      refine ⟨n, _, far', h3, h5, ?_, fun ht => by cases ht.2⟩
      show _ = CTree.pruneL none _
      rw [pruneL_none]
  · rename_i hs
    refine ⟨?_, ?_, trivial⟩
    · intro pos w res far w' len exam capt f count hev hle hres hfar hlt
      intro o' ho' hid
      have hsame := ho.inj o hm o' ho' hid.symm
      obtain ⟨n, hev⟩ := hev
      obtain ⟨⟨r2, far', w2'⟩, hev', e1, e2⟩ := eval_sameOut true false n _ _ _ _ _ hev
      simp only at e1 e2
      subst e1 e2
      have hf := (hfar trivial).1
      have hfar' : far' ≤ pos + (exam + 1) := by
        cases res with
        | ok pos' cs =>
          have h1 := hsh.ok hev'
          have hbd := Evals.bounds (hk true) hle ⟨n, hev⟩
          have h2 := hlt _ hres.1
          omega
        | fail =>
          have h1 := hsh.fail hev' hev
          omega
        | abort p => exact hres.elim
      refine ⟨far', far', fun _ => ⟨hfar', Nat.le_succ _⟩, ?_⟩
      rw [if_neg (by rw [← hsame.1]; exact hs)]
      intro w2
      refine hsame.evals ?_
      have hev2 := hq.evals ⟨n, hev'⟩ w2
      simp only [sessPar, Option.isSome_none, Bool.false_eq_true, if_false]
      cases res with
      | ok pos' cs =>
        obtain ⟨rfl, hcr⟩ := hres
        have hcr' : Capture.treesL capt = cs := by
          have : Capture.treesL capt = CTree.pruneL none cs := hcr
          rw [pruneL_none] at this; exact this
        have hbd := Evals.bounds (hk true) hle ⟨n, hev⟩
        simp only []
        rw [hcr', Nat.add_sub_cancel' hbd.1]
        exact hev2
      | fail =>
        obtain ⟨rfl, rfl⟩ := hres
        exact hev2
      | abort p => exact hres.elim
    · intro pos e f w hle hget
      obtain ⟨far, h1, h2⟩ := hget o hm rfl
      rw [if_neg hs] at h2
      obtain ⟨far', h3⟩ := (h2 w).lo true
      refine ⟨_, far', h3, ?_, fun ht => by cases ht.2⟩
      cases e.length with
      | none => rfl
      | some n => exact ⟨_, rfl, by show _ = CTree.pruneL none _; rw [pruneL_none]⟩

theorem ExecRes.refar {iv : Option Interval} {e : Ev σ} {r : XRes Input TreeTable σ} (f : Nat) (h : ExecRes iv e r) :
    ExecRes iv (e.1, f, e.2.2) r := by
  obtain ⟨res, far, w⟩ := e
  cases res <;> exact h

/-- Compiler correctness with the table of a session. -/
theorem exec_sess {k : Nat} {p : Pat} {cst cst' : CState} {raw : Program} {code : Code} {bufsz : Nat}
    (hchk : CheckOK chk) (hd : p.Dots1) (hs : p.Scoped) (hc : CM.Ok (compileF k p) cst raw cst')
    (he : encode (optimize raw) = some code) (hb : 0 < bufsz) (hp : ProgOK (withEnd raw))
    (hocc : OccsOK chk (memoOcc k [] p cst)) (hl : ∀ o ∈ memoOcc k [] p cst, o.Local chk)
    (hsh : ∀ o ∈ memoOcc k [] p cst, o.Short σ) (T : TreeTable)
    (hT : TabInv b T (SlotNow chk (memoOcc k [] p cst) data)) (st : σ) :
    (∀ e, Evals ⟨data, chk, false⟩ [] p 0 ⟨[], st⟩ e →
      ∃ r, Execs ⟨chunkedOps, treeTable, chk, none⟩ code (Input.new bufsz data) T st r ∧ ExecRes none e r) ∧
    (∀ r, Execs ⟨chunkedOps, treeTable, chk, none⟩ code (Input.new bufsz data) T st r →
      ∃ e, Evals ⟨data, chk, false⟩ [] p 0 ⟨[], st⟩ e ∧ ExecRes none e r ∧
        TabAfter (sessPar data chk (withEnd raw) (memoOcc k [] p cst) b) r) := by
  have hP := sessPar_ok (data := data) (occs := memoOcc k [] p cst) (b := b) hchk hp hocc.quiet hl
  have hno : ∀ n, .openCall n ∉ raw := fun n hn => encode_openCall he n (optimize_openCall hn)
  have hch := chain treeTable chk none (dots1_raw hd hc) he (i := Input.new bufsz data) (f := ⟨data, 0, 0⟩)
    ⟨Input.new_inv hb data, rfl, rfl, rfl⟩ T st
  have ho := fun o (hm : o ∈ memoOcc k [] p cst) =>
    sessPar_occ (data := data) (prog := withEnd raw) (b := b) hchk hocc hsh o hm
  refine ⟨fun e hev => ?_, fun r hr => ?_⟩
  · obtain ⟨f, hev'⟩ := hev.lo true
    obtain ⟨x, hx, hres⟩ := (top_sim hP rfl hc ho hs hno T st hT).1 _ hev'
    obtain ⟨r, hr, rfl⟩ := (hch x).2 hx
    exact ⟨r, hr, (execRes_of rfl hres).refar e.2.1⟩
  · have hx := (hch (r.map Input.flat)).1 ⟨r, hr, rfl⟩
    obtain ⟨e, hev, hres⟩ := top_sim' hP rfl hc ho hs hno T st hT hx
    obtain ⟨f, hev'⟩ := hev.lo false
    exact ⟨_, hev', (execRes_of rfl hres).refar f, tabAfter_of hres⟩

end

/-! ## Which patterns are short -/

theorem memoOcc_short {k : Nat} {p : Pat} {s s' : CState} {raw : Program} (hc : CM.Ok (compileF k p) s raw s')
    (hs : p.Scoped) (hl : ∀ o ∈ p.memos [], o.Short σ) : ∀ o ∈ memoOcc k [] p s, o.Short σ := by
  have hP : OccInv σ (fun o => o.Short σ) := by
    intro id q e q' e' heq h
    refine ⟨fun h1 => h.ok ((heq _ _ _ _).symm.trans h1), fun h1 h2 => h.fail ((heq _ _ _ _).symm.trans h1) ((heq _ _ _ _).symm.trans h2)⟩
  have h := memoOcc_of hP k (env := []) hc hs hl
  intro o ho
  cases hst : o.star with
  | false => exact h.plain o ho hst
  | true =>
    obtain ⟨⟨id, h1⟩, _⟩ := h.star o ho hst
    exact ⟨h1.ok, h1.fail⟩

/-- A test for `Occ.Short`: no memoized part within the pattern, and a match looks at most two bytes beyond its end. -/
theorem short_of_test {S : String → Bool} {L : String → Look} {o : Occ} (h1 : o.q.memoless S = true)
    (h2 : ∀ d ∈ o.env, d.memoless S = true) (h3 : ole (o.q.look L).over (some 2) = true) (h4 : ∀ d ∈ o.env, d.lookB L = true) :
    o.Short σ := by
  refine ⟨fun h => ?_, fun h h' => ?_⟩
  · obtain ⟨x, hx, hle⟩ := ole_some h3
    have := (look_sound _ _ _ _ _ _ h4 h).1 x hx
    omega
  · rw [eval_memoless false true _ _ _ _ _ h1 h2, h'] at h
    cases h
    exact Nat.le_succ _

theorem memos_short_of_test {S : String → Bool} {L : String → Look} {start : String} {ds : Defs}
    (h1 : ds.memosB (fun q => q.memoless S && ole (q.look L).over (some 2)) = true) (h2 : ds.memoless S = true)
    (h3 : ds.lookB L = true) : ∀ o ∈ (Pat.grammar start ds).memos [], o.Short σ := by
  intro o ho
  obtain ⟨he, hq⟩ := ds.memosB_sound (env := [ds]) h1 o ho
  simp only [Bool.and_eq_true] at hq
  refine short_of_test hq.1 ?_ hq.2 ?_ <;> rw [he] <;> intro d hd <;> rcases List.mem_singleton.1 hd with rfl <;> assumption

/-! ## The theorem -/

/-- What can happen to a table and a text, in any order and any number of times: the text is parsed with the table; the
text is edited, within its bounds, and `ApplyEdit` is called for the edit. `b` tells if there was an edit; all edits but the
first do not make the text shorter. -/
inductive Session (chk : CheckFn σ) (code : Code) : Bool → TreeTable → List UInt8 → Prop
  | new (th : Int) (d : List UInt8) : Session chk code false (TreeTable.new th) d
  | parse {b : Bool} {T T' : TreeTable} {d : List UInt8} {bufsz : Nat} {st st' : σ} {ok : Bool} {cap : Option Capture} {src : Input}
      {errs : List PErr} : Session chk code b T d → 0 < bufsz → RunsTree chk code bufsz d T st (.done ok cap src errs T' st') →
      Session chk code b T' d
  | edit {b : Bool} {T : TreeTable} {d : List UInt8} (e : TextEdit) : Session chk code b T d → e.start ≤ e.stop →
      e.stop ≤ d.length → (b = true → e.stop - e.start ≤ e.ins.length) →
      Session chk code true (T.applyEdit e.edit) (e.text d)

theorem TextEdit.agree_upto {e : TextEdit} {d : List UInt8} (h2 : e.start ≤ d.length) {a L : Nat}
    (h : a + L ≤ e.start) : Agree d (e.text d) a a L where
  at' i hi := (e.get_before h2 (by omega)).symm
  before := by
    rcases Nat.eq_zero_or_pos a with h0 | h0
    · exact Or.inl ⟨h0, h0⟩
    · exact Or.inr ⟨h0, h0, (e.get_before h2 (by omega)).symm⟩

theorem SlotNow.edit {chk : CheckFn σ} {occs : List Occ} {d : List UInt8} {e : TextEdit} (h1 : e.start ≤ e.stop) (h2 : e.stop ≤ d.length)
    {s s' : Slot TEnt} (h : SlotNow chk occs d s) 
    (hfol : LazyLog.follow e.edit.start e.edit.high (e.edit.len - ((e.edit.stop : Int) - e.edit.start)) s = some s') : SlotNow chk occs (e.text d) s' := by
  obtain ⟨d₀, pos, g1, g2, g3, g4⟩ := h
  have hhi : e.start ≤ e.edit.high ∧ e.stop ≤ e.edit.high := by
    unfold Edit.high TextEdit.edit
    simp only []
    split <;> omega
  unfold LazyLog.follow at hfol
  split at hfol
  · cases hfol
  · rename_i hno
    split at hfol
    · rename_i hlt
      cases hfol
      have hlt' : e.edit.high < pos := by rw [g1] at hlt; omega
      refine ⟨d₀, pos + e.ins.length - (e.stop - e.start), ?_, ?_, g3.trans (e.agree_after h1 h2 (by omega)), g4⟩
      · simp only [TextEdit.edit, g1]; omega
      · simp only []; omega
    · rename_i hlt
      have hfol : s = s' := Option.some.inj hfol
      subst hfol
      have hb : pos + (s.val.ent.examined + 1) ≤ e.start := by
        simp only [TextEdit.edit] at hno hlt hhi ⊢
        omega
      exact ⟨d₀, pos, g1, g2, g3.trans (e.agree_upto (by omega) hb), g4⟩

theorem Session.inv {p : Pat} {chk : CheckFn σ} {k : Nat} {cst cst' : CState} {raw : Program} {code : Code}
    (hchk : CheckOK chk) (hd : p.Dots1) (hs : p.Scoped) (hc : CM.Ok (compileF k p) cst raw cst')
    (he : encode (optimize raw) = some code) (hocc : OccsOK chk (memoOcc k [] p cst)) (hl : ∀ o ∈ memoOcc k [] p cst, o.Local chk)
    (hsh : ∀ o ∈ memoOcc k [] p cst, o.Short σ) {b : Bool} {T : TreeTable} {d : List UInt8} (h : Session chk code b T d) :
    TabInv b T (SlotNow chk (memoOcc k [] p cst) d) := by
  induction h with
  | new th d => exact tabInv_new th _
  | parse _ hb hr ih =>
    obtain ⟨_, _, _, h⟩ := (exec_sess hchk hd hs hc he hb (progOK_raw hd hc) hocc hl hsh _ ih _).2 _ hr
    exact h
  | edit e _ h1 h2 h3 ih =>
    refine (TabInv.edit ih e.edit h1 h3).weaken ?_
    rintro s' ⟨s, hs, hfol⟩
    exact hs.edit h1 h2 hfol

/-- **C28** for any number of parses and edits: whenever, in the course of a session, the text is parsed with the table, the
result is what a parse of the text without a table gives. In memoized parts a `.` must only stand behind a lookahead that has
looked at the byte, and there must be no `Search` (`Covered`); a memoized part must match without looking further than two
bytes beyond the end of the match, and fail without looking further than what it looks at outside of memoized parts within
(`Occ.Short`; see `C28_json_memo_false` for a grammar of the repository that does not keep to this). All edits but the first
do not make the text shorter (see `C29_false`). -/
theorem C28_session_partial {p : Pat} {code : Code} {chk : CheckFn σ} {d : List UInt8} {bufsz : Nat} {st : σ} {top : Int}
    (hc : CompiledAt top p code) (hd : p.Dots1) (hs : p.Scoped) (hchk : CheckOK chk) (hm : p.MemosOK chk top)
    (hl : ∀ o ∈ p.memos [], Covered chk o.env o.q) (hsh : ∀ o ∈ p.memos [], o.Short σ) (hb : 0 < bufsz) {edited : Bool} {T : TreeTable}
    (h : Session chk code edited T d) :
    (∀ r, RunsTree chk code bufsz d T st r → ∃ r', RunsTo chk none code bufsz d st r' ∧ r.view = r'.view) ∧
    (∀ r', RunsTo chk none code bufsz d st r' → ∃ r, RunsTree chk code bufsz d T st r ∧ r.view = r'.view) := by
  obtain ⟨k, cst, raw, cst', rfl, hc, he⟩ := hc.raw
  have hocc := occsOK_of (chk := chk) hc hs hm
  have hloc := memoOcc_local (chk := chk) hc hs hl
  have hshort := memoOcc_short (σ := σ) hc hs hsh
  have hT := h.inv hchk hd hs hc he hocc hloc hshort
  have h1 := exec_sess hchk hd hs hc he hb (progOK_raw hd hc) hocc hloc hshort T hT st
  have h2 := exec_none (data := d) (iv := none) hchk hd hs hc he hb st
  refine ⟨fun r hr => ?_, fun r' hr => ?_⟩
  · obtain ⟨e, hev, hx, _⟩ := h1.2 r hr
    obtain ⟨r', hr', hx'⟩ := h2.1 e hev
    exact ⟨r', hr', hx.view_eq hx'⟩
  · obtain ⟨e, hev, hx'⟩ := h2.2 r' hr
    obtain ⟨r, hr, hx⟩ := h1.1 e hev
    exact ⟨r, hr, hx.view_eq hx'⟩

/-- Run the machine for at most `n` steps with a table. -/
def runT (code : Code) (n : Nat) (d : List UInt8) (T : TreeTable) : Option (Bool × TreeTable) :=
  let c : Cfg Input TreeTable Unit := ⟨chunkedOps, treeTable, noChk, none⟩
  match runOut (stepB c code) n (initVM c (Input.new 4096 d) T ()) with
  | some (.halt ok _ s) => some (ok, s.tbl)
  | _ => none

/-- A run with this table stops with this flag and leaves this table. -/
def Leaves (code : Code) (d : List UInt8) (T : TreeTable) (ok : Bool) (T' : TreeTable) : Prop :=
  ∃ cap src errs, RunsTree noChk code 4096 d T () (.done ok cap src errs T' ())

theorem runT_sound {code : Code} {n : Nat} {d : List UInt8} {T T' : TreeTable} {ok : Bool}
    (h : runT code n d T = some (ok, T')) : Leaves code d T ok T' := by
  unfold runT at h
  simp only [] at h
  split at h
  · rename_i ok' cap s hr
    cases h
    exact ⟨cap, s.src, s.errs, n, _, hr, rfl⟩
  · cases h

/-- `S <- Memo(< T > ' '?)* !.`, `T <- (![ ] .)+` -/
def blankTokens : Pat := .grammar "S" (.cons "S" (.seq (.star (.memo (.seq (.cap (.nonterm "T") 1) (.opt (.lit [32]))) 0)) (.not (.dot 1)))
  (.cons "T" (.plus (.seq (.not (.cls (CSet.new [32]))) (.dot 1))) .nil))

theorem blankTokens_run : (match compileF 20 blankTokens ⟨0, 0, true⟩ with
    | .ok (raw, _) => (encode (optimize raw)).any fun code =>
      match runT code 100 [97, 98, 32, 97] (TreeTable.new 0) with
      | some (true, T) => (runT code 100 [97, 98, 32, 98, 98] (T.applyEdit ⟨3, 4, 2⟩)).isSome
      | _ => false
    | _ => false) = true := by
  decide +kernel

/-- Tokens that end at a blank meet the hypotheses; the text `ab a` is parsed,
made `ab bb`, parsed again, and made `ab bbc`. -/
example : let p := blankTokens
    (∃ code, CompiledAt 0 p code ∧ ∃ T, Session noChk code true T [97, 98, 32, 98, 98, 99]) ∧ p.Dots1 ∧ p.Scoped ∧
      p.MemosOK noChk 0 ∧ (∀ o ∈ p.memos [], Covered noChk o.env o.q) ∧ ∀ o ∈ p.memos [], o.Short Unit := by
  intro p
  have key : ∃ code T T' ok, CompiledAt 0 p code ∧ Leaves code [97, 98, 32, 97] (TreeTable.new 0) true T ∧
      Leaves code [97, 98, 32, 98, 98] (T.applyEdit ⟨3, 4, 2⟩) ok T' := by
    have h := blankTokens_run
    split at h
    · rename_i raw cst' hr
      cases he : encode (optimize raw) with
      | none => rw [he] at h; cases h
      | some code =>
        rw [he] at h
        simp only [Option.any_some] at h
        split at h
        · rename_i T h0
          obtain ⟨⟨ok, T'⟩, h1⟩ := Option.isSome_iff_exists.1 h
          exact ⟨code, T, T', ok, ⟨20, ⟨0, 0, true⟩, _, cst', rfl, cm_bind.2 ⟨raw, cst', hr, rfl⟩, he⟩, runT_sound h0, runT_sound h1⟩
        · cases h
    · cases h
  obtain ⟨code, T, T', ok, hc, ⟨_, _, _, h1⟩, ⟨_, _, _, h2⟩⟩ := key
  refine ⟨⟨code, hc, _, .edit ⟨5, 5, [99]⟩ (.parse (.edit ⟨3, 4, [98, 98]⟩ (.parse (.new 0 [97, 98, 32, 97]) (by decide) h1)
      (by decide) (by decide) (fun h => by cases h)) (by decide) h2) (by decide) (by decide) (fun _ => by decide)⟩, ?_, ?_, Pat.memosOK_of_pure ?_ ?_ ?_,
    memos_covered_of_test (S := (· == "T")) (by decide) (by decide),
    memos_short_of_test (S := (· == "T")) (L := fun n => if n = "T" then ⟨some 1, some 1, none⟩ else Look.none) (by decide) (by decide) (by decide)⟩
  · simp [p, blankTokens, Pat.leaves, Defs.leaves, Pat.Dots1]
  · simp [p, blankTokens, Pat.Scoped, Defs.Scoped, Defs.noCap, Pat.noCap]
  · simp [p, blankTokens, Pat.Pure, Pat.leaves, Defs.leaves]
  · simp [p, blankTokens, Pat.memos, Defs.memos]
  · simp [p, blankTokens, Pat.memos, Defs.memos]

end Gpeg
