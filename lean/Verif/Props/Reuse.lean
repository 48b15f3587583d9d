import Verif.Props.Once
import Verif.Props.Incremental
import Verif.LazyLogBefore
/-! # C75: what an edit does not meet is not parsed again -/
namespace Gpeg
variable {σ : Type}
open LazyLog

/-- A call of a method of the table. -/
inductive LEv
  | call (e : TEv)
  | edit (e : Edit)

/-- A tree table serves calls of `Get`, `Put` and `ApplyEdit` (`memo/tree.go:25-61`), which have the answers in the list. -/
inductive Logged (T : TreeTable) : List LEv → TreeTable → Prop
  | nil : Logged T [] T
  | get {L T1 T2 id pos a} : Logged T L T1 → T1.get id pos = (a, T2) → Logged T (L ++ [.call (.get id pos a)]) T2
  | put {L T1 id pos len exam count capt} : Logged T L T1 → Logged T (L ++ [.call (.put id pos len exam count capt)]) (T1.put id pos len exam count capt)
  | edit {L T1} (e : Edit) : Logged T L T1 → Logged T (L ++ [.edit e]) (T1.applyEdit e)

/-- Something the table has been told to keep: the id, the place, and the end of what was examined. -/
structure Ent where
  id : Int
  low : Int
  high : Int
deriving DecidableEq

/-- The edit touches what was examined. (For an insertion `Edit.high` is the position after it.) -/
def Ent.Meets (x : Ent) (e : Edit) : Prop := x.low ≤ e.high ∧ (e.start : Int) ≤ x.high

instance (x : Ent) (e : Edit) : Decidable (x.Meets e) := inferInstanceAs (Decidable (_ ∧ _))

/-- Where it is after the edit. -/
def Ent.after (e : Edit) (x : Ent) : Option Ent :=
  if x.Meets e then none
  else if (e.high : Int) < x.low then some ⟨x.id, x.low + (e.len - ((e.stop : Int) - e.start)), x.high + (e.len - ((e.stop : Int) - e.start))⟩
  else some x

/-- What should be kept after a call. -/
def entsStep (th : Int) (es : List Ent) : LEv → List Ent
  | .call (.get ..) => es
  | .call (.put id pos len exam _ _) => if (exam : Int) < th ∨ len = some 0 then es else es ++ [⟨id, pos, (pos : Int) + (max exam (len.getD 0) : Nat)⟩]
  | .edit e => es.filterMap (Ent.after e)

/-- What should be kept after the calls, by a table with the threshold `th`. -/
def ents (th : Int) (L : List LEv) : List Ent := L.foldl (entsStep th) []

/-- Edits do not end before they start, and all but the first do not make the text shorter. -/
def EditsOK (L : List LEv) : Prop :=
  ∀ L1 e L2, L = L1 ++ .edit e :: L2 → e.start ≤ e.stop ∧ ((∃ e', LEv.edit e' ∈ L1) → e.stop - e.start ≤ e.len)

/-- The first place where something kept starts that the edit touches. -/
def firstMet (e : Edit) : List Ent → Option Int
  | [] => none
  | x :: es => if x.Meets e then some (((firstMet e es).map (min x.low)).getD x.low) else firstMet e es

/-- The smaller of two bounds. -/
def minBound : Option Int → Option Int → Option Int
  | none, b => b
  | a, none => a
  | some a, some b => some (min a b)

/-- The part of the text in front of everything kept that was ever touched by an edit, at its present place. -/
def frontStep (th : Int) (s : List Ent × Option Int) (v : LEv) : List Ent × Option Int :=
  (entsStep th s.1 v, match v with
    | .call _ => s.2
    | .edit e => (minBound s.2 (firstMet e s.1)).map fun f => if (e.high : Int) < f then f + (e.len - ((e.stop : Int) - e.start)) else min f e.start)

/-- The end of that part after the calls; `none` if no edit has touched anything kept. -/
def front (th : Int) (L : List LEv) : Option Int := (L.foldl (frontStep th) ([], none)).2

theorem front_ents (th : Int) (L : List LEv) (es : List Ent) (F : Option Int) : (L.foldl (frontStep th) (es, F)).1 = L.foldl (entsStep th) es := by
  induction L generalizing es F with
  | nil => rfl
  | cons v L ih => exact ih _ _

theorem front_snoc (th : Int) (L : List LEv) (v : LEv) : front th (L ++ [v]) = match v with
    | .call _ => front th L
    | .edit e => (minBound (front th L) (firstMet e (ents th L))).map fun f => if (e.high : Int) < f then f + (e.len - ((e.stop : Int) - e.start)) else min f e.start := by
  have := front_ents th L [] none
  unfold front ents
  rw [List.foldl_append, ← this]
  cases v <;> rfl

theorem bef_min {q : Int} {A B : Option Int} : Bef q (minBound A B) ↔ Bef q A ∧ Bef q B := by
  cases A <;> cases B <;> simp [minBound, Bef]
  omega

theorem bef_firstMet {q : Int} {e : Edit} : ∀ {es : List Ent}, Bef q (firstMet e es) ↔ ∀ x ∈ es, x.Meets e → q < x.low
  | [] => by simp [firstMet, Bef]
  | x :: es => by
    have ih := bef_firstMet (q := q) (e := e) (es := es)
    rw [firstMet]
    by_cases hm : x.Meets e
    · rw [if_pos hm]
      have : Bef q (some (((firstMet e es).map (min x.low)).getD x.low)) ↔ q < x.low ∧ Bef q (firstMet e es) := by
        cases firstMet e es <;> simp [Bef]
        omega
      rw [this, ih]
      simp [hm]
    · rw [if_neg hm, ih]
      simp [hm]

theorem ents_snoc (th : Int) (L : List LEv) (v : LEv) : ents th (L ++ [v]) = entsStep th (ents th L) v := by
  simp [ents, List.foldl_append]

def slotEnt (s : Slot TEnt × Nat) : Ent := ⟨s.1.id, s.1.low, s.1.high⟩

theorem after_follow (e : Edit) : ∀ live : List (Slot TEnt × Nat),
    (live.filterMap fun s => (follow e.start e.high (e.len - ((e.stop : Int) - e.start)) s.1).map fun s' => (s', s.2)).map slotEnt =
      (live.map slotEnt).filterMap (Ent.after e)
  | [] => rfl
  | s :: live => by
    have ih := after_follow e live
    simp only [List.map_cons, List.filterMap_cons]
    by_cases h1 : s.1.low ≤ (e.high : Int) ∧ (e.start : Int) ≤ s.1.high
    · rw [show follow (e.start : Int) e.high (e.len - ((e.stop : Int) - e.start)) s.1 = none from if_pos h1,
        show Ent.after e (slotEnt s) = none from if_pos h1]
      exact ih
    · by_cases h2 : (e.high : Int) < s.1.low
      · rw [show follow (e.start : Int) e.high (e.len - ((e.stop : Int) - e.start)) s.1 = some _ from (if_neg h1).trans (if_pos h2),
          show Ent.after e (slotEnt s) = some _ from (if_neg h1).trans (if_pos h2)]
        simp only [Option.map_some, List.map_cons]
        rw [ih]
        rfl
      · rw [show follow (e.start : Int) e.high (e.len - ((e.stop : Int) - e.start)) s.1 = some _ from (if_neg h1).trans (if_neg h2),
          show Ent.after e (slotEnt s) = some _ from (if_neg h1).trans (if_neg h2)]
        simp only [Option.map_some, List.map_cons]
        rw [ih]

theorem ents_wf (th : Int) (L : List LEv) : ∀ x ∈ ents th L, x.low ≤ x.high := by
  have key : ∀ (L : List LEv) (es : List Ent), (∀ x ∈ es, x.low ≤ x.high) → ∀ x ∈ L.foldl (entsStep th) es, x.low ≤ x.high := by
    intro L
    induction L with
    | nil => exact fun _ h => h
    | cons v L ih =>
      intro es h
      refine ih _ ?_
      cases v with
      | call c =>
        cases c with
        | get => exact h
        | put id pos len exam count capt =>
          simp only [entsStep]
          split
          · exact h
          · intro x hx
            rcases List.mem_append.1 hx with hx | hx
            · exact h x hx
            · rw [List.mem_singleton.1 hx]
              simp only []
              omega
      | edit e =>
        intro y hy
        obtain ⟨x, hx, e⟩ := List.mem_filterMap.1 hy
        have := h x hx
        unfold Ent.after at e
        split at e
        · cases e
        · split at e
          · cases e
            simp only []
            omega
          · cases e
            exact this
  exact key L [] fun _ h => absurd h List.not_mem_nil

/-- The table keeps what it should, in front of everything touched. -/
def Keeps (th : Int) (L : List LEv) (T : TreeTable) : Prop :=
  T.threshold = th ∧ ∃ b live, Hist b ⟨T.map, live⟩ ∧ KeptB (front th L) ⟨T.map, live⟩ ∧ live.map slotEnt = ents th L ∧ (b = true → ∃ e, LEv.edit e ∈ L)

theorem Keeps.found {th : Int} {L : List LEv} {T : TreeTable} (h : Keeps th L T) {x : Ent} (hx : x ∈ ents th L) (hb : Bef x.low (front th L)) {pos : Nat}
    (hp : x.low = pos) : (T.get x.id pos).1 ≠ none := by
  obtain ⟨-, b, live, h1, h2, h3, -⟩ := h
  rw [← h3] at hx
  obtain ⟨s, hs, rfl⟩ := List.mem_map.1 hx
  obtain ⟨f, hf, e1, -, e3⟩ := h2.all s hs hb
  have hw := (h1.inv.wf_flat f hf _ e3).1
  obtain ⟨s', -, h4, -⟩ := find_ge h1 hf e3
  simp only [] at hw h4
  simp only [slotEnt] at hp ⊢
  simp only [TreeTable.get, ← hp]
  rw [← e1, hw, h4]
  simp

theorem Logged.keeps {th : Int} {L : List LEv} {T : TreeTable} (h : Logged (TreeTable.new th) L T) (he : EditsOK L) : Keeps th L T := by
  induction h with
  | nil =>
    exact ⟨rfl, false, [], hist_init, ⟨(fun _ h => absurd h List.not_mem_nil), (fun _ h => absurd h List.not_mem_nil),
      (fun _ h => absurd h List.not_mem_nil)⟩, rfl, fun h => by cases h⟩
  | @get L T1 T2 id pos a _ hg ih =>
    have hpre : ∀ {L1 e L2}, L = L1 ++ LEv.edit e :: L2 → L ++ [LEv.call (.get id pos a)] = L1 ++ .edit e :: (L2 ++ [.call (.get id pos a)]) :=
      fun h => by rw [h]; simp
    obtain ⟨h0, b, live, h1, h2, h3, h4⟩ := ih (fun L1 e L2 h => he L1 e _ (hpre h))
    have hT : T2 = (T1.get id pos).2 := by rw [hg]
    subst hT
    refine ⟨h0, b, live, hist_find h1 id pos, ?_, ?_, fun hb => ?_⟩
    · rw [front_snoc]
      exact keptB_flat h2 rfl (search_spec h1.good pos id _ h1.inv h1.ord).2.1
    · rw [ents_snoc]; exact h3
    · obtain ⟨e, h⟩ := h4 hb
      exact ⟨e, List.mem_append_left _ h⟩
  | @put L T1 id pos len exam count capt _ ih =>
    have hpre : ∀ {L1 e L2}, L = L1 ++ LEv.edit e :: L2 →
        L ++ [LEv.call (.put id pos len exam count capt)] = L1 ++ .edit e :: (L2 ++ [.call (.put id pos len exam count capt)]) :=
      fun h => by rw [h]; simp
    obtain ⟨h0, b, live, h1, h2, h3, h4⟩ := ih (fun L1 e L2 h => he L1 e _ (hpre h))
    refine ⟨(put_threshold ..).trans h0, ?_⟩
    rw [ents_snoc, front_snoc]
    unfold TreeTable.put
    simp only [entsStep, ← h0]
    split
    · refine ⟨b, live, h1, by rw [h0]; exact h2, by rw [h3, h0], fun hb => ?_⟩
      obtain ⟨e, h⟩ := h4 hb
      exact ⟨e, List.mem_append_left _ h⟩
    · have hw : (pos : Int) ≤ pos + (max exam (len.getD 0) : Nat) := by omega
      refine ⟨b, _, hist_add h1 (by omega) hw, by rw [h0]; exact keptB_add h1 h2 hw, ?_, fun hb => ?_⟩
      · rw [List.map_append, h3, h0]
        rfl
      · obtain ⟨e, h⟩ := h4 hb
        exact ⟨e, List.mem_append_left _ h⟩
  | @edit L T1 e _ ih =>
    have hpre : ∀ {L1 e' L2}, L = L1 ++ LEv.edit e' :: L2 → L ++ [LEv.edit e] = L1 ++ .edit e' :: (L2 ++ [.edit e]) := fun h => by rw [h]; simp
    obtain ⟨h0, b, live, h1, h2, h3, h4⟩ := ih (fun L1 e L2 h => he L1 e _ (hpre h))
    obtain ⟨he1, he2⟩ := he L e [] rfl
    have hh : ((e.high : Nat) : Int) = if e.start = e.stop then (e.start : Int) + 1 else e.stop := by
      unfold Edit.high; split <;> simp
    have hle : (e.start : Int) ≤ e.high := by rw [hh]; split <;> omega
    have ha : (e.start : Int) - e.high ≤ e.len - ((e.stop : Int) - e.start) := by rw [hh]; split <;> omega
    have hb' : b = true → 0 ≤ (e.len : Int) - ((e.stop : Int) - e.start) := fun hb => by
      have := he2 (h4 hb)
      omega
    have hmap : (T1.applyEdit e).map = T1.map.removeAndShift e.start e.high (e.len - ((e.stop : Int) - e.start)) := by
      rw [hh]; rfl
    have hap : ∀ s ∈ live, Bef s.1.low (minBound (front th L) (firstMet e (ents th L))) → ¬ (s.1.low ≤ (e.high : Int) ∧ (e.start : Int) ≤ s.1.high) :=
      fun s hs hq hm => by
        have := bef_firstMet.1 (bef_min.1 hq).2 (slotEnt s) (h3 ▸ List.mem_map_of_mem hs) hm
        exact absurd this (Int.lt_irrefl _)
    refine ⟨h0, true, live.filterMap fun s => (follow e.start e.high (e.len - ((e.stop : Int) - e.start)) s.1).map fun s' => (s', s.2), ?_, ?_, ?_,
      fun _ => ⟨e, List.mem_append_right _ List.mem_cons_self⟩⟩
    · rw [hmap]
      exact hist_edit h1 hle ha hb'
    · rw [hmap, front_snoc]
      exact keptB_edit h1 h2 hle ha hb' (fun q hq => (bef_min.1 hq).1) hap
    · rw [ents_snoc, after_follow, h3]
      rfl

/-- **C75**, for tables whose clients make any calls: a look-up in front of everything that was kept and then touched by an edit fails only where nothing is
kept. -/
theorem C75_found_partial {th : Int} {L : List LEv} {T : TreeTable} (h : Logged (TreeTable.new th) L T) (he : EditsOK L)
    {L1 L2 : List LEv} {id : Int} {pos : Nat} (hL : L = L1 ++ .call (.get id pos none) :: L2) :
    ∀ x ∈ ents th L1, Bef x.low (front th L1) → ¬ (x.id = id ∧ x.low = pos) := by
  rintro x hx hb ⟨rfl, hp⟩
  have key : ∀ (L2 L : List LEv) (T : TreeTable), Logged (TreeTable.new th) L T → L = L1 ++ .call (.get x.id pos none) :: L2 →
      ∃ T1 T2, Logged (TreeTable.new th) L1 T1 ∧ T1.get x.id pos = (none, T2) := by
    intro L2 L T h
    induction h generalizing L2 with
    | nil => intro h; cases L1 <;> cases h
    | @get L T1 T2 id' pos' a hl hg ih =>
      intro h
      rcases snoc_eq h with ⟨rfl, e, -⟩ | ⟨_, rfl, e⟩
      · cases e
        exact ⟨_, _, hl, hg⟩
      · exact ih _ e
    | put hl ih =>
      intro h
      rcases snoc_eq h with ⟨rfl, e, -⟩ | ⟨_, rfl, e⟩
      · cases e
      · exact ih _ e
    | edit e hl ih =>
      intro h
      rcases snoc_eq h with ⟨rfl, e, -⟩ | ⟨_, rfl, e⟩
      · cases e
      · exact ih _ e
  obtain ⟨T1, T2, hl, hg⟩ := key L2 L T h hL
  have hk := hl.keeps (fun M e N hM => he M e (N ++ .call (.get x.id pos none) :: L2) (by rw [hL, hM]; simp))
  exact hk.found hx hb hp (by rw [hg])

/-! ## Parses -/

/-- A parse of `data` by one thread makes the calls `E`; the table answers them and becomes `T'`. -/
def ParsesWith (chk : CheckFn σ) (code : Code) (bufsz : Nat) (data : List UInt8) (T : TreeTable) (st : σ) (E : List TEv) (T' : TreeTable) : Prop :=
  (∃ r, Thread.Finishes chk code data ⟨bufsz, st⟩ E r) ∧ Serves T (E.map fun e => (0, e)) T'

theorem parsesWith_of_runs {chk : CheckFn σ} {code : Code} {bufsz : Nat} {data : List UInt8} {T T' : TreeTable} {st st' : σ} {ok : Bool} {cap : Option Capture}
    {src : Input} {errs : List PErr} (hr : RunsTree chk code bufsz data T st (.done ok cap src errs T' st')) :
    ∃ E, ParsesWith chk code bufsz data T st E T' := by
  obtain ⟨h, H, hf⟩ := C71_alone hr
  refine ⟨callsOf 0 h, ⟨_, hf⟩, ?_⟩
  rw [callsOf_zero H.known]
  exact H.serves

theorem Serves.logged {T0 T T' : TreeTable} {L : List LEv} (hL : Logged T0 L T) {h : List (Nat × TEv)} (H : Serves T h T') :
    Logged T0 (L ++ h.map fun c => .call c.2) T' := by
  induction H with
  | nil => simpa using hL
  | get hs hg ih =>
    rw [List.map_append, ← List.append_assoc]
    exact .get ih hg
  | put hs ih =>
    rw [List.map_append, ← List.append_assoc]
    exact .put ih

/-- No call is an edit. -/
theorem no_edit {E : List TEv} {L1 L2 : List LEv} {e : Edit} : E.map LEv.call ≠ L1 ++ .edit e :: L2 := by
  intro h
  have : LEv.edit e ∈ E.map LEv.call := h ▸ List.mem_append_right _ List.mem_cons_self
  obtain ⟨x, -, hx⟩ := List.mem_map.1 this
  cases hx

theorem one_edit {E1 E2 : List TEv} {e : Edit} {L1 L2 : List LEv} {e' : Edit}
    (h : E1.map LEv.call ++ .edit e :: E2.map LEv.call = L1 ++ .edit e' :: L2) : L1 = E1.map LEv.call ∧ e' = e := by
  induction E1 generalizing L1 with
  | nil =>
    cases L1 with
    | nil =>
      injection h with h1 h2
      injection h1 with h1
      exact ⟨rfl, h1.symm⟩
    | cons x L1 =>
      injection h with h1 h2
      exact absurd h2 no_edit
  | cons x E1 ih =>
    cases L1 with
    | nil => injection h with h1 h2; cases h1
    | cons y L1 =>
      injection h with h1 h2
      obtain ⟨h3, h4⟩ := ih h2
      exact ⟨by rw [← h1, h3]; rfl, h4⟩

/-- **C75**, for a parse, an edit, and a parse of the new text, with any bytecode: what the first parse had kept, in front of everything kept that the edit
touches, is found by the second one, at its new place. -/
theorem C75_reparse_partial {chk : CheckFn σ} {code : Code} {bufsz bufsz' : Nat} {data : List UInt8} {th : Int} {T1 T2 : TreeTable} {st1 st2 : σ}
    {E1 E2 : List TEv} {e : TextEdit} (h1 : ParsesWith chk code bufsz data (TreeTable.new th) st1 E1 T1) (he : e.start ≤ e.stop)
    (h2 : ParsesWith chk code bufsz' (e.text data) (T1.applyEdit e.edit) st2 E2 T2) {x y : Ent}
    (hx : x ∈ ents th (E1.map .call)) (hu : ∀ z ∈ ents th (E1.map .call), z.Meets e.edit → x.low < z.low) (hy : x.after e.edit = some y) {pos : Nat} (hp : y.low = pos) : TEv.get y.id pos none ∉ E2 := by
  intro hm
  have hmap : ∀ E : List TEv, (E.map fun e => ((0 : Nat), e)).map (fun c => LEv.call c.2) = E.map LEv.call := fun E => by
    rw [List.map_map]; rfl
  have hl := h2.2.logged ((h1.2.logged .nil).edit e.edit)
  rw [hmap, hmap, List.nil_append, List.append_assoc] at hl
  obtain ⟨A, B, rfl⟩ := List.append_of_mem hm
  have hE : EditsOK (E1.map LEv.call ++ ([LEv.edit e.edit] ++ (A ++ TEv.get y.id pos none :: B).map LEv.call)) := by
    intro L1 e' L2 h
    obtain ⟨rfl, rfl⟩ := one_edit h
    refine ⟨he, ?_⟩
    rintro ⟨e', h⟩
    obtain ⟨z, -, hz⟩ := List.mem_map.1 h
    cases hz
  have hgrow : ∀ (A : List TEv) (es : List Ent), y ∈ es → y ∈ (A.map LEv.call).foldl (entsStep th) es := by
    intro A
    induction A with
    | nil => exact fun _ h => h
    | cons a A ih =>
      intro es h
      refine ih _ ?_
      cases a with
      | get => exact h
      | put =>
        simp only [entsStep]
        split
        · exact h
        · exact List.mem_append_left _ h
  have hfront : ∀ (A : List TEv) (s : List Ent × Option Int), ((A.map LEv.call).foldl (frontStep th) s).2 = s.2 := by
    intro A
    induction A with
    | nil => exact fun _ => rfl
    | cons a A ih => exact fun s => ih _
  refine C75_found_partial hl hE (L1 := E1.map LEv.call ++ ([LEv.edit e.edit] ++ A.map LEv.call)) (L2 := B.map LEv.call) (id := y.id) (pos := pos) (by simp) y
    ?_ ?_ ⟨rfl, hp⟩
  · rw [ents, List.foldl_append, List.foldl_append]
    exact hgrow A _ (List.mem_filterMap.2 ⟨x, hx, hy⟩)
  · rw [← List.append_assoc, front, List.foldl_append, hfront]
    show Bef y.low (front th (E1.map LEv.call ++ [LEv.edit e.edit]))
    rw [front_snoc, show front th (E1.map LEv.call) = none from hfront E1 ([], none)]
    intro f hf
    obtain ⟨f0, hf0, rfl⟩ := Option.map_eq_some_iff.1 hf
    have h0 : x.low < f0 := bef_firstMet.2 hu f0 hf0
    have hw : x.low ≤ x.high := ents_wf th _ x hx
    have hs1 : e.edit.start = e.start := rfl
    have hs2 : e.edit.stop = e.stop := rfl
    have hh : ((e.edit.high : Nat) : Int) = if e.start = e.stop then (e.start : Int) + 1 else e.stop := by
      unfold Edit.high; rw [hs1, hs2]; split <;> simp
    have hle : (e.start : Int) ≤ e.edit.high := by rw [hh]; split <;> omega
    have hle2 : (e.stop : Int) ≤ e.edit.high := by rw [hh]; split <;> omega
    unfold Ent.after at hy
    simp only [hs1, hs2] at hy ⊢
    split at hy
    · cases hy
    · rename_i hm
      simp only [Ent.Meets, hs1] at hm
      split at hy
      · cases hy
        simp only []
        split <;> omega
      · cases hy
        split <;> omega

/-! ## Without the condition on the edit it is false -/

/-- `{{'a'}} ".." {{'b'}} ".." {{'c'}}`. -/
def threeMemos : Pat := .seq (.memo (.lit [97]) 1) (.seq (.lit [46, 46]) (.seq (.memo (.lit [98]) 2) (.seq (.lit [46, 46]) (.memo (.lit [99]) 3))))

/-- `a..b..c` -/
def threeText : List UInt8 := [97, 46, 46, 98, 46, 46, 99]

def threeLog1 : List TEv := [.get 1 0 none, .put 1 0 (some 1) 2 1 [], .get 2 3 none, .put 2 3 (some 1) 2 1 [], .get 3 6 none, .put 3 6 (some 1) 2 1 []]

def threeLog2 : List TEv := [.get 1 0 (some ⟨some 1, 2, 1, []⟩), .get 2 3 none, .put 2 3 (some 1) 2 1 [], .get 3 6 none, .put 3 6 (some 1) 2 1 []]

/-- The answers are those of the table. -/
def answers (T : TreeTable) : List TEv → Prop
  | [] => True
  | .get id pos a :: E => (T.get id pos).1 = a ∧ answers (T.get id pos).2 E
  | .put id pos len exam count capt :: E => answers (T.put id pos len exam count capt) E

theorem serves_answers {T0 : TreeTable} : ∀ {E : List TEv} {h : List (Nat × TEv)} {T : TreeTable}, Serves T0 h T → answers T E →
    Serves T0 (h ++ E.map fun e => (0, e)) (E.foldl served T)
  | [], h, T, H, _ => by simpa using H
  | .get id pos a :: E, h, T, H, ha => by
    have := serves_answers (H.get (i := 0) (a := a) (id := id) (pos := pos) (T2 := (T.get id pos).2) (by rw [← ha.1])) ha.2
    rw [List.append_assoc] at this
    exact this
  | .put id pos len exam count capt :: E, h, T, H, ha => by
    have := serves_answers (H.put (i := 0) (id := id) (pos := pos) (len := len) (exam := exam) (count := count) (capt := capt)) ha
    rw [List.append_assoc] at this
    exact this

theorem serves_of (T : TreeTable) (E : List TEv) (h : answers T E) : Serves T (E.map fun e => (0, e)) (E.foldl served T) := serves_answers (h := []) .nil h

/-- A parse, an edit that replaces the fourth byte by itself, and a parse. -/
theorem three_run : ∃ code T1 T2, CompiledAt 3 threeMemos code ∧ ParsesWith noChk code 4096 threeText (TreeTable.new 0) () threeLog1 T1 ∧
    ParsesWith noChk code 4096 (TextEdit.text ⟨4, 5, [46]⟩ threeText) (T1.applyEdit (TextEdit.edit ⟨4, 5, [46]⟩)) () threeLog2 T2 :=
  ⟨_, threeLog1.foldl served (TreeTable.new 0), threeLog2.foldl served ((threeLog1.foldl served (TreeTable.new 0)).applyEdit (TextEdit.edit ⟨4, 5, [46]⟩)),
    ⟨20, ⟨0, 3, true⟩, _, _, rfl, rfl, rfl⟩, ⟨⟨_, fun _ _ _ => none, ⟨60, _, rfl, rfl⟩, _, _, _, _, _, rfl⟩, serves_of _ _ ⟨rfl, rfl, rfl, trivial⟩⟩,
    ⟨⟨_, fun _ id _ => if id = 1 then some ⟨some 1, 2, 1, []⟩ else none, ⟨60, _, rfl, rfl⟩, _, _, _, _, _, rfl⟩,
      serves_of _ _ ⟨rfl, rfl, rfl, trivial⟩⟩⟩

/-- `{{'a'}} '-'* {{'b'}}`. -/
def gapPat : Pat := .seq (.memo (.lit [97]) 1) (.seq (.star (.lit [45])) (.memo (.lit [98]) 2))

/-- `a-----b` -/
def gapText : List UInt8 := [97, 45, 45, 45, 45, 45, 98]

def gapLog1 : List TEv := [.get 1 0 none, .put 1 0 (some 1) 2 1 [], .get 2 6 none, .put 2 6 (some 1) 2 1 []]

def gapLog2 : List TEv := [.get 1 0 (some ⟨some 1, 2, 1, []⟩), .get 2 7 (some ⟨some 1, 2, 1, []⟩)]

/-- In `three_run` the first part meets the hypotheses of `C75_reparse_partial`, although the edit touches the second one. -/
example : (∃ z ∈ ents 0 (threeLog1.map .call), z.Meets (TextEdit.edit ⟨4, 5, [46]⟩)) ∧
    ∃ x ∈ ents 0 (threeLog1.map .call), (∀ z ∈ ents 0 (threeLog1.map .call), z.Meets (TextEdit.edit ⟨4, 5, [46]⟩) → x.low < z.low) ∧
      x.after (TextEdit.edit ⟨4, 5, [46]⟩) = some ⟨1, 0, 2⟩ :=
  ⟨⟨⟨2, 3, 5⟩, by decide, by decide⟩, ⟨1, 0, 2⟩, by decide, by decide, by decide⟩

/-- **C75** is false of the code when the edit touches something that is kept: in `three_run` the edit touches the second part only, but the third part is
parsed again, too (`memo/interval/lazylog/tree.go:205-217` copies nothing into an empty slice). -/
theorem C75_false : ¬ ∀ (p : Pat) (code : Code) (data : List UInt8) (e : TextEdit) (T1 T2 : TreeTable) (E1 E2 : List TEv), CompiledAt 3 p code →
    ParsesWith noChk code 4096 data (TreeTable.new 0) () E1 T1 → e.start ≤ e.stop → e.stop ≤ data.length →
    ParsesWith noChk code 4096 (e.text data) (T1.applyEdit e.edit) () E2 T2 →
    ∀ x ∈ ents 0 (E1.map .call), ∀ y, x.after e.edit = some y → ∀ pos : Nat, y.low = pos → TEv.get y.id pos none ∉ E2 := by
  intro h
  obtain ⟨code, T1, T2, h1, h2, h3⟩ := three_run
  refine h _ _ _ _ _ _ _ _ h1 h2 (by decide) (by decide) h3 ⟨3, 6, 8⟩ (by decide) ⟨3, 6, 8⟩ (by decide) 6 rfl ?_
  simp [threeLog2]

/-- The hypotheses of `C75_reparse_partial`: a `-` is inserted into `a-----b` and the second part moves. -/
example : ∃ code T1 T2 E1 E2, CompiledAt 2 gapPat code ∧ ParsesWith noChk code 4096 gapText (TreeTable.new 0) () E1 T1 ∧
    ParsesWith noChk code 4096 (TextEdit.text ⟨4, 4, [45]⟩ gapText) (T1.applyEdit (TextEdit.edit ⟨4, 4, [45]⟩)) () E2 T2 ∧
    (∀ x ∈ ents 0 (E1.map .call), ¬ x.Meets (TextEdit.edit ⟨4, 4, [45]⟩)) ∧
    ∃ x ∈ ents 0 (E1.map .call), x.after (TextEdit.edit ⟨4, 4, [45]⟩) = some ⟨2, 7, 9⟩ :=
  ⟨_, gapLog1.foldl served (TreeTable.new 0), gapLog2.foldl served ((gapLog1.foldl served (TreeTable.new 0)).applyEdit (TextEdit.edit ⟨4, 4, [45]⟩)),
    gapLog1, gapLog2,
    ⟨20, ⟨0, 2, true⟩, _, _, rfl, rfl, rfl⟩, ⟨⟨_, fun _ _ _ => none, ⟨60, _, rfl, rfl⟩, _, _, _, _, _, rfl⟩, serves_of _ _ ⟨rfl, rfl, trivial⟩⟩,
    ⟨⟨_, fun _ _ _ => some ⟨some 1, 2, 1, []⟩, ⟨60, _, rfl, rfl⟩, _, _, _, _, _, rfl⟩, serves_of _ _ ⟨rfl, rfl, trivial⟩⟩,
    by decide, ⟨2, 6, 8⟩, by decide, by decide⟩

end Gpeg
