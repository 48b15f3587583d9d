import Verif.MemoPar
/-!
# Compiler correctness with a `TreeTable` and a capture interval

Entries stored by `ExecInterval` have no captures (`vm/vm.go:75-81`). `R` relates the captures of a run to those of the evaluator,
`S` the captures of an entry to those of the evaluator.
-/
namespace Gpeg
variable {σ : Type}
open LazyLog

/-- What is needed of the two relations. -/
structure CapOK (c : Ctx σ) (iv : Option Interval) (occs : List Occ) (R S : List Capture → List CTree → Prop) : Prop where
  nil : R [] []
  app : ∀ {a b a' b'}, R a b → R a' b' → R (a ++ a') (b ++ b')
  node : ∀ {s e ch ch'} (id : Int), overlapsIv iv s e = true → s ≤ e → R ch ch' →
    R [.node id s (e - s) ch] [.node id s (e - s) ch']
  skip : ∀ {s e ch ch'} (id : Int), overlapsIv iv s e = false → s ≤ e → R ch ch' → R [] [.node id s (e - s) ch']
  dummy : ∀ {ch ch'} (s l : Nat), iv = none → R ch ch' → R [.dummy s l ch] ch'
  hit : ∀ {a b}, S a b → R a b
  put : ∀ o ∈ occs, ∀ {pos w pos' cs far w' capt}, Evals c o.env o.q pos w (.ok pos' cs, far, w') → R capt cs →
    S (if iv.isSome then [] else capt) cs
  puts : ∀ o ∈ occs, ∀ {pos w pos' cs far w' capt}, Iter c o.env o.q pos w pos' cs far w' → R capt cs →
    S (if iv.isSome then [] else capt) cs

/-- The entry `e` found at `pos` for the occurrence `o` tells the truth about `c.data`, but for its captures, which are
`S`-related to the true ones. -/
def IEntOK (c : Ctx σ) (S : List Capture → List CTree → Prop) (o : Occ) (pos : Nat) (e : MEntry) : Prop :=
  ∃ far, if o.star then ∃ n cs, e.length = some n ∧ S e.captures cs ∧ ∀ w, Iter c o.env o.q pos w (pos + n) cs far w
    else ∃ cs, (e.length.isSome → S e.captures cs) ∧ ∀ w, Evals c o.env o.q pos w (match e.length with
      | none => .fail
      | some n => .ok (pos + n) cs, far, w)

/-- The same for the intervals in the table, which have not been moved. -/
def ISlotOK (c : Ctx σ) (S : List Capture → List CTree → Prop) (occs : List Occ) (s : Slot TEnt) : Prop :=
  ∃ pos : Nat, s.low = pos ∧ s.val.start = pos ∧ s.high - s.low = s.val.ent.examined ∧ ∀ o ∈ occs, o.id = s.id → IEntOK c S o pos s.val.ent

/-- The invariant of the table. -/
def ITab (c : Ctx σ) (S : List Capture → List CTree → Prop) (occs : List Occ) (T : TreeTable) : Prop :=
  ∃ b, TabInv b T (ISlotOK c S occs)

/-- A run with a tree table and perhaps an interval. -/
def ivPar (data : List UInt8) (chk : CheckFn σ) (iv : Option Interval) (prog : Program) (occs : List Occ)
    (R S : List Capture → List CTree → Prop) : Par TreeTable σ where
  data := data
  tab := treeTable
  chk := chk
  iv := iv
  prog := prog
  trk := False
  lo := false
  cr := R
  TInv T _ := ITab ⟨data, chk, false⟩ S occs T
  Mget id pos e _ := ∀ o ∈ occs, o.id = id → IEntOK ⟨data, chk, false⟩ S o pos e
  Mput id pos e _ := ∀ o ∈ occs, o.id = id → IEntOK ⟨data, chk, false⟩ S o pos e

section
variable {data : List UInt8} {chk : CheckFn σ} {iv : Option Interval} {prog : Program} {occs : List Occ}
  {R S : List Capture → List CTree → Prop}

theorem ivPar_ok (hchk : CheckOK chk) (hp : ProgOK prog) (hR : CapOK ⟨data, chk, false⟩ iv occs R S) :
    (ivPar data chk iv prog occs R S).Ok where
  lab := hp.lab
  any1 := hp.any1
  chk := hchk
  cr_nil := hR.nil
  cr_app := hR.app
  cr_node := hR.node
  cr_skip := hR.skip
  cr_dummy := hR.dummy
  tmono h _ := h
  get {t f id pos r t'} h hg _ := by
    obtain ⟨b, h⟩ := h
    obtain ⟨h1, h2⟩ := TabInv.get h hg
    refine ⟨⟨b, h1⟩, fun m hm o ho hid => ?_⟩
    obtain ⟨s, ⟨pos', hp, hq, _, hs⟩, hs1, hs2, rfl⟩ := h2 m hm
    have : pos' = pos := by omega
    subst this
    have := hs o ho (by rw [hs1]; exact hid)
    simpa only [TEnt.at, hq, Capture.shiftL_self] using this
  put {t f id pos len exam count capt} h hm := by
    obtain ⟨b, h⟩ := h
    exact ⟨b, TabInv.put h fun x hx => ⟨pos, rfl, rfl, by simp only []; omega, fun o ho hid => hm o ho hid⟩⟩

theorem ivPar_occ (hchk : CheckOK chk) (ho : OccsOK chk occs) (hR : CapOK ⟨data, chk, false⟩ iv occs R S) (o : Occ) (hm : o ∈ occs) :
    OccOK (ivPar data chk iv prog occs R S) o := by
  have hq := ho.quiet o hm
  have hk : ChkOK (⟨data, chk, false⟩ : Ctx σ) := fun k st m pos id flag n st' hle h => hchk k st m data pos id flag n st' hle h
  unfold OccOK
  split
  · rename_i hs
    refine ⟨?_, ?_, trivial⟩
    · intro pos w pos' cs far w' exam capt f count hit hle hcr _ _ o' ho' hid
      have hsame := ho.inj o hm o' ho' hid.symm
      have hbd := hit.bounds hk hle
      refine ⟨far, ?_⟩
      rw [if_pos (by rw [← hsame.1]; exact hs)]
      refine ⟨_, cs, rfl, hR.puts o hm hit hcr, fun w2 => hsame.iter ?_⟩
      rw [Nat.add_sub_cancel' hbd.1]
      exact hq.iter hit w2
    · intro pos e f w hle hget
      obtain ⟨far, h2⟩ := hget o hm rfl
      rw [if_pos hs] at h2
      obtain ⟨n, cs, h3, h4, h5⟩ := h2
      exact ⟨n, cs, far, h3, h5 w, hR.hit h4, fun h => h.1.elim⟩
  · rename_i hs
    refine ⟨?_, ?_, trivial⟩
    · intro pos w res far w' len exam capt f count hev hle hres _ _ o' ho' hid
      have hsame := ho.inj o hm o' ho' hid.symm
      refine ⟨far, ?_⟩
      rw [if_neg (by rw [← hsame.1]; exact hs)]
      cases res with
      | ok pos' cs =>
        obtain ⟨rfl, hcr⟩ := hres
        refine ⟨cs, fun _ => hR.put o hm hev hcr, fun w2 => hsame.evals ?_⟩
        have hbd := Evals.bounds hk hle hev
        simp only []
        rw [Nat.add_sub_cancel' hbd.1]
        exact hq.evals hev w2
      | fail =>
        obtain ⟨rfl, rfl⟩ := hres
        exact ⟨[], (fun h => by cases h), fun w2 => hsame.evals (hq.evals hev w2)⟩
      | abort p => exact hres.elim
    · intro pos e f w hle hget
      obtain ⟨far, h2⟩ := hget o hm rfl
      rw [if_neg hs] at h2
      obtain ⟨cs, h3, h4⟩ := h2
      refine ⟨_, far, h4 w, ?_, fun h => h.1.elim⟩
      cases he : e.length with
      | none => rfl
      | some n => exact ⟨cs, rfl, hR.hit (h3 (by rw [he]; rfl))⟩

/-- The edit with which `ExecInterval` begins keeps the invariant. -/
theorem ITab.edit {c : Ctx σ} {T : TreeTable} (h : ITab c S occs T) {I : Interval} (hI : I.low ≤ I.high) :
    ITab c S occs (T.applyEdit ⟨I.low, I.high, I.high - I.low⟩) := by
  obtain ⟨b, h⟩ := h
  refine ⟨true, TabInv.weaken (TabInv.edit h ⟨I.low, I.high, I.high - I.low⟩ hI fun _ => Nat.le_refl _) ?_⟩
  rintro s' ⟨s, hs, hf⟩
  have : ((I.high - I.low : Nat) : Int) - ((I.high : Int) - I.low) = 0 := by omega
  simp only [this] at hf
  unfold follow at hf
  split at hf
  · cases hf
  · split at hf
    · cases hf
      obtain ⟨pos, h1, h2, h4, h3⟩ := hs
      exact ⟨pos, by simp only [h1]; omega, h2, by simp only []; omega, h3⟩
    · cases hf
      exact hs

/-- What is found after that edit does not meet the interval. -/
theorem ITab.cleared {c : Ctx σ} {T T' : TreeTable} (h : ITab c S occs T) {I : Interval} (hI : I.low ≤ I.high) {id : Int} {pos : Nat}
    {e : MEntry} (hg : (T.applyEdit ⟨I.low, I.high, I.high - I.low⟩).get id pos = (some e, T')) :
    pos + e.examined < I.low ∨ I.high < pos := by
  obtain ⟨b, h⟩ := h
  obtain ⟨_, h2⟩ := TabInv.get (TabInv.edit h ⟨I.low, I.high, I.high - I.low⟩ hI fun _ => Nat.le_refl _) hg
  obtain ⟨s', ⟨s, ⟨pos', h3, _, h4, _⟩, hf⟩, _, h6, rfl⟩ := h2 e rfl
  have h0 : ((I.high - I.low : Nat) : Int) - ((I.high : Int) - I.low) = 0 := by omega
  have hh : (I.high : Int) ≤ (Edit.high ⟨I.low, I.high, I.high - I.low⟩ : Nat) := by
    unfold Edit.high; simp only []; split <;> omega
  simp only [h0] at hf
  unfold follow at hf
  simp only [TEnt.at]
  split at hf
  · cases hf
  · rename_i hno
    split at hf
    · cases hf
      simp only [] at h6 ⊢
      omega
    · cases hf
      omega

/-- A run stopped as the evaluator says, with captures related by `R`. -/
def IvRes (R : List Capture → List CTree → Prop) (e : Ev σ) (r : XRes Input TreeTable σ) : Prop :=
  match e with
  | (.ok pos cs, _, w) => ∃ a b ch src tbl, r = .done true (some (.dummy a b ch)) src w.errs tbl w.cst ∧ src.pos = pos ∧ R ch cs
  | (.fail, _, w) => ∃ src tbl, r = .done false none src w.errs tbl w.cst
  | (.abort _, _, w) => ∃ cap src tbl, r = .done false cap src w.errs tbl w.cst

theorem ivRes_of {P : Par TreeTable σ} {e : Ev σ} {r : XRes Input TreeTable σ} (h : TopRes P e (r.map Input.flat)) :
    IvRes P.cr e r := by
  obtain ⟨res, far, w⟩ := e
  cases r with
  | panic =>
    cases res with
    | ok pos cs => obtain ⟨a, b, ch, src, tbl, h, _⟩ := h; cases h
    | fail => obtain ⟨src, tbl, h, _⟩ := h; cases h
    | abort pos => obtain ⟨cap, src, tbl, h, _⟩ := h; cases h
  | done ok cap src errs tbl cst =>
    cases res with
    | ok pos cs =>
      obtain ⟨a, b, ch, src', tbl', h, h1, h2, h3, h4, h5, h6⟩ := h
      cases h
      exact ⟨a, b, ch, src, tbl, rfl, h2, h3⟩
    | fail => obtain ⟨src', tbl', h, _⟩ := h; cases h; exact ⟨src, tbl, rfl⟩
    | abort pos => obtain ⟨cap', src', tbl', h, h1, h2, _⟩ := h; cases h; exact ⟨cap, src, tbl, rfl⟩

/-- Compiler correctness with a tree table and perhaps an interval. -/
theorem exec_iv {k : Nat} {p : Pat} {cst cst' : CState} {raw : Program} {code : Code} {bufsz : Nat}
    (hchk : CheckOK chk) (hd : p.Dots1) (hs : p.Scoped) (hc : CM.Ok (compileF k p) cst raw cst')
    (he : encode (optimize raw) = some code) (hb : 0 < bufsz) (hp : ProgOK (withEnd raw))
    (hocc : OccsOK chk (memoOcc k [] p cst)) (hR : CapOK ⟨data, chk, false⟩ iv (memoOcc k [] p cst) R S)
    (hI : ∀ I, iv = some I → I.low ≤ I.high) (T : TreeTable) (hT : ITab ⟨data, chk, false⟩ S (memoOcc k [] p cst) T) (st : σ) :
    (∀ e, Evals ⟨data, chk, false⟩ [] p 0 ⟨[], st⟩ e →
      ∃ r, Execs ⟨chunkedOps, treeTable, chk, iv⟩ code (Input.new bufsz data) T st r ∧ IvRes R e r ∧
        TabAfter (ivPar data chk iv (withEnd raw) (memoOcc k [] p cst) R S) r) ∧
    (∀ r, Execs ⟨chunkedOps, treeTable, chk, iv⟩ code (Input.new bufsz data) T st r →
      ∃ e, Evals ⟨data, chk, false⟩ [] p 0 ⟨[], st⟩ e ∧ IvRes R e r ∧
        TabAfter (ivPar data chk iv (withEnd raw) (memoOcc k [] p cst) R S) r) := by
  have hP := ivPar_ok hchk hp hR
  have hno : ∀ n, .openCall n ∉ raw := fun n hn => encode_openCall he n (optimize_openCall hn)
  have hch := chain treeTable chk iv (dots1_raw hd hc) he (i := Input.new bufsz data) (f := ⟨data, 0, 0⟩)
    ⟨Input.new_inv hb data, rfl, rfl, rfl⟩ T st
  have ho := fun o (hm : o ∈ memoOcc k [] p cst) => ivPar_occ (prog := withEnd raw) hchk hocc hR o hm
  have hT' : (ivPar data chk iv (withEnd raw) (memoOcc k [] p cst) R S).TInv
      ((ivPar data chk iv (withEnd raw) (memoOcc k [] p cst) R S).init T st).tbl 0 := by
    cases iv with
    | none => exact hT
    | some I => exact hT.edit (hI I rfl)
  refine ⟨fun e hev => ?_, fun r hr => ?_⟩
  · obtain ⟨x, hx, hres⟩ := (top_sim hP rfl hc ho hs hno T st hT').1 e hev
    obtain ⟨r, hr, rfl⟩ := (hch x).2 hx
    exact ⟨r, hr, ivRes_of hres, tabAfter_of hres⟩
  · have hx := (hch (r.map Input.flat)).1 ⟨r, hr, rfl⟩
    obtain ⟨e, hev, hres⟩ := top_sim' hP rfl hc ho hs hno T st hT' hx
    exact ⟨e, hev, ivRes_of hres, tabAfter_of hres⟩

end
end Gpeg
