import Verif.ObjOwn
/-!
# Tables whose entries lie around the entries their captures belong to

When the interval of every entry contains the intervals of the entries its captures belong to, all edits are tight.
-/
namespace Gpeg.Obj
open LazyLog

/-- What is always true of a table. -/
structure TWf (b : Bool) (T : OTab) : Prop where
  tinv : TInv b T
  older : Older T.caps
  closed : Closed (fun _ => False) T.caps

theorem TSim.twf {b : Bool} {φ : Nat → TEnt} {T : OTab} {T' : TreeTable} (h : TSim b φ T T') : TWf b T := ⟨h.tinv, h.older, h.closed⟩

theorem TWf.get {b : Bool} {T : OTab} (h : TWf b T) (id : Int) (pos : Nat) : TWf b (T.get id pos).2 :=
  ⟨h.tinv.get id pos, h.older, h.closed⟩

/-- The capture belongs to an entry whose interval is in `[lo, hi]`. -/
def Owned (T : OTab) (lo hi : Int) (c : CObj) : Prop :=
  ∃ A l h, c.ment = some A ∧ Holds T A l h ∧ l ≤ h ∧ lo ≤ l ∧ h ≤ hi ∧ 0 ≤ c.off

theorem Owned.mono {T : OTab} {lo hi lo' hi' : Int} {c : CObj} (h : Owned T lo hi c) (h1 : lo' ≤ lo) (h2 : hi ≤ hi') : Owned T lo' hi' c := by
  obtain ⟨A, l, k, a1, a2, a3, a4, a5, a6⟩ := h
  exact ⟨A, l, k, a1, a2, a3, by omega, by omega, a6⟩

theorem Owned.holds {T T' : OTab} {lo hi : Int} {c : CObj} (h : Owned T lo hi c) (hh : ∀ A l k, Holds T A l k → Holds T' A l k) :
    Owned T' lo hi c := by
  obtain ⟨A, l, k, a1, a2, a3⟩ := h
  exact ⟨A, l, k, a1, hh _ _ _ a2, a3⟩

/-- Every entry in the tree is at its node, and its interval contains those of the entries its captures belong to. -/
structure Nest (T : OTab) : Prop where
  own : ∀ f ∈ T.flat, ∀ i ∈ f.ins, Holds T i.val i.low i.high ∧ ∀ x, T.ents[i.val]? = some x →
    AllBelow (Owned T i.low i.high) T.caps x.captures
  len : LenOK T T.flat
  lenAway : LenOK T T.away

theorem Nest.unique {b : Bool} {T : OTab} (h : Nest T) (hT : TInv b T) {A : Nat} {l k l' k' : Int} (h1 : Holds T A l k) (h2 : Holds T A l' k') :
    l = l' ∧ k = k' := by
  have e1 := h1.pos hT
  have e2 := h2.pos hT
  have hx : ∀ {l k}, Holds T A l k → ∃ x, T.ents[A]? = some x ∧ k - l = x.examined := by
    rintro l k ⟨y, g, -, hg, -, hj⟩
    rcases hg with hg | hg
    · exact h.len g hg _ hj
    · exact h.lenAway g hg _ hj
  obtain ⟨x1, a1, a2⟩ := hx h1
  obtain ⟨x2, b1, b2⟩ := hx h2
  rw [a1] at b1
  cases b1
  omega

/-- What an edit that does not meet an interval does to intervals in it. -/
theorem toward_in {e : Edit} (he : e.start ≤ e.stop) {lo hi l k : Int} (hno : ¬ Meets e lo hi) (h1 : lo ≤ l) (h2 : l ≤ k) (h3 : k ≤ hi) :
    ¬ Meets e l k ∧ toward e l - l = toward e lo - lo := by
  have hh : (e.start : Int) ≤ e.high := by unfold Edit.high; split <;> omega
  unfold Meets at *
  refine ⟨by omega, ?_⟩
  unfold toward
  split <;> split <;> omega

theorem Nest.tight {b : Bool} {T : OTab} (h : Nest T) (hT : TInv b T) {e : Edit} (he : e.start ≤ e.stop) : Tight T e := by
  intro f hf i hi hno x hx r c hr hc
  obtain ⟨h1, h2⟩ := h.own f hf i hi
  obtain ⟨c', hc', A, l, k, hm, hA, hlk, hl, hk, ho⟩ := h2 x hx r hr
  rw [hc] at hc'
  cases hc'
  refine ⟨?_, ?_⟩
  · unfold OTab.start
    rw [hm]
    simp only [hA.pos hT]
    omega
  · intro A' hA' lo hi' hh
    rw [hm] at hA'
    cases hA'
    obtain ⟨rfl, rfl⟩ := h.unique hT hA hh
    exact toward_in he hno hl hlk hk

theorem nest_new (th : Int) : Nest { threshold := th } :=
  ⟨fun _ h => (by cases h), fun _ h => (by cases h), fun _ h => (by cases h)⟩

theorem Nest.get {b : Bool} {T : OTab} (h : Nest T) (hT : TInv b T) (id : Int) (pos : Nat) : Nest (T.get id pos).2 where
  own f hf i hi := by
    rw [get_flat hT] at hf
    obtain ⟨h1, h2⟩ := h.own f hf i hi
    refine ⟨h1.get hT id pos, fun x hx r hr => ?_⟩
    obtain ⟨c, hc, ho⟩ := h2 x hx r hr
    exact ⟨c, hc, ho.holds fun A l k hA => hA.get hT id pos⟩
  len f hf i hi := by
    rw [get_flat hT] at hf
    exact h.len f hf i hi
  lenAway := h.lenAway

theorem Nest.alloc {T : OTab} (h : Nest T) (c : CObj) : Nest (T.alloc c).1 where
  own f hf i hi := by
    obtain ⟨h1, h2⟩ := h.own f hf i hi
    exact ⟨h1, fun x hx => AllBelow.alloc (h2 x hx) c⟩
  len := h.len
  lenAway := h.lenAway

theorem TWf.alloc {b : Bool} {T : OTab} (h : TWf b T) {x : CObj} (hm : x.ment = none) (hc : ∀ k ∈ x.children, k < T.caps.length) :
    TWf b (T.alloc x).1 := by
  refine ⟨⟨h.tinv.hist, h.tinv.disj, h.tinv.nodup, h.tinv.fresh, h.tinv.gone⟩, ?_, ?_⟩
  · intro r c hr k hk
    have hr : (T.caps ++ [x])[r]? = some c := hr
    by_cases hlt : r < T.caps.length
    · rw [List.getElem?_append_left hlt] at hr
      exact h.older r c hr k hk
    · rw [List.getElem?_append_right (by omega)] at hr
      have : c = x := by
        have := List.mem_of_getElem? hr
        simpa using this
      subst this
      exact Nat.lt_of_lt_of_le (hc k hk) (Nat.not_lt.1 hlt)
  · intro r c hr hs
    have hr : (T.caps ++ [x])[r]? = some c := hr
    by_cases hlt : r < T.caps.length
    · rw [List.getElem?_append_left hlt] at hr
      rcases h.closed r c hr hs with h1 | h1
      · refine .inl fun k hk => ?_
        obtain ⟨c', a1, a2⟩ := h1 k hk
        refine ⟨c', ?_, a2⟩
        show (T.caps ++ [x])[k]? = some c'
        rw [List.getElem?_append_left (List.getElem?_eq_some_iff.1 a1).1]
        exact a1
      · exact h1.elim
    · rw [List.getElem?_append_right (by omega)] at hr
      have : c = x := by
        have := List.mem_of_getElem? hr
        simpa using this
      subst this
      rw [hm] at hs
      cases hs

theorem Nest.edit {b : Bool} {T : OTab} (h : Nest T) (hT : TInv b T) {e : Edit} (he : e.start ≤ e.stop) : Nest (T.applyEdit e) := by
  obtain ⟨live, hh⟩ := hT.hist
  obtain ⟨s, -, -, g1, g2, g3, g4, g5⟩ := edit_flat hT (e := e)
  have hmap : (T.applyEdit e).map = T.map.removeAndShift e.start e.high (e.len - ((e.stop : Int) - e.start)) := by rw [edit_eq]
  have hgone : (T.applyEdit e).gone = T.gone ++ (nodes T.map.root).filter fun d =>
      !(nodes (T.applyEdit e).map.root).any fun d' => d'.addr == d.addr := by rw [hmap, edit_eq]
  have hents : (T.applyEdit e).ents = T.ents := rfl
  have hcaps : (T.applyEdit e).caps = T.caps := rfl
  have hown := nodes_own hh.inv
  refine ⟨?_, ?_, ?_⟩
  · intro f hf i hi
    obtain ⟨g, hg, j, hj, hno, e1, e2, e3⟩ := edit_mem hT he hf hi
    obtain ⟨h1, h2⟩ := h.own g hg j hj
    rw [e1, e2, e3, hents, hcaps]
    refine ⟨h1.edit hT he hno, fun x hx r hr => ?_⟩
    obtain ⟨c, hc, A, l, k, a1, a2, a3, a4, a5, a6⟩ := h2 x hx r hr
    obtain ⟨b1, b2⟩ := toward_in he hno a4 a3 a5
    exact ⟨c, hc, A, _, _, a1, a2.edit hT he b1, by omega, by omega, by omega, a6⟩
  · intro f hf i hi
    obtain ⟨g, hg, j, hj, hno, e1, e2, e3⟩ := edit_mem hT he hf hi
    obtain ⟨x, hx, hl⟩ := h.len g hg j hj
    exact ⟨x, by rw [hents, e1]; exact hx, by omega⟩
  · intro f hf
    unfold OTab.away at hf
    obtain ⟨d, hd, rfl⟩ := List.mem_map.1 hf
    rw [hgone, List.mem_append, List.mem_filter] at hd
    rcases hd with hd | ⟨hd, -⟩
    · rw [g2 d (hT.gone d hd).2.2]
      exact lenOK_move hents (h.lenAway _ (List.mem_map_of_mem hd))
    · rw [g2 d (hown d hd).time]
      refine lenOK_move hents (h.len _ ?_)
      unfold OTab.flat
      rw [← nodes_flat]
      exact List.mem_map_of_mem hd

/-! ## Lists of captures during a parse -/

/-- All objects below these exist; those that belong to an entry belong to one in `[lo, hi]`, the others do not start before
`lo` and have numbers from `w` up to `u`. -/
def Within (T : OTab) (lo hi : Int) (w u : Nat) (rs : List Ref) : Prop :=
  ∀ r, Below T.caps rs r → ∃ c, T.caps[r]? = some c ∧ ((c.ment = none ∧ lo ≤ c.off ∧ w ≤ r ∧ r < u) ∨ Owned T lo hi c)

theorem Within.mono {T : OTab} {lo hi lo' hi' : Int} {w u w' u' : Nat} {rs : List Ref} (h : Within T lo hi w u rs) (h1 : lo' ≤ lo) (h2 : hi ≤ hi')
    (h3 : w' ≤ w) (h4 : u ≤ u') : Within T lo' hi' w' u' rs := by
  intro r hr
  obtain ⟨c, hc, ⟨a1, a2, a3, a4⟩ | ho⟩ := h r hr
  · exact ⟨c, hc, .inl ⟨a1, by omega, Nat.le_trans h3 a3, Nat.lt_of_lt_of_le a4 h4⟩⟩
  · exact ⟨c, hc, .inr (ho.mono h1 h2)⟩

theorem Within.nil {T : OTab} {lo hi : Int} {w u : Nat} : Within T lo hi w u [] := by
  intro r hr
  obtain ⟨c, hc, h⟩ := AllBelow.nil (P := fun _ => False) r hr
  exact h.elim

theorem Within.append {T : OTab} {lo hi : Int} {w u : Nat} {rs rs' : List Ref} (h : Within T lo hi w u rs) (h' : Within T lo hi w u rs') :
    Within T lo hi w u (rs ++ rs') := by
  intro r hr
  have : Below T.caps rs r ∨ Below T.caps rs' r := by
    induction hr with
    | here hr =>
      rcases List.mem_append.1 hr with hr | hr
      · exact .inl (.here hr)
      · exact .inr (.here hr)
    | child _ hc hk ih => exact ih.imp (.child · hc hk) (.child · hc hk)
  exact this.elim (h r) (h' r)

theorem Within.lt {T : OTab} {lo hi : Int} {w u : Nat} {rs : List Ref} (h : Within T lo hi w u rs) : ∀ r ∈ rs, r < T.caps.length := by
  intro r hr
  obtain ⟨c, hc, -⟩ := h r (.here hr)
  exact (List.getElem?_eq_some_iff.1 hc).1

theorem below_alloc {H : List CObj} {rs : List Ref} (h : ∀ r, Below H rs r → r < H.length) (x : CObj) {r : Ref} (hr : Below (H ++ [x]) rs r) :
    Below H rs r := by
  induction hr with
  | here hr => exact .here hr
  | child _ hc hk ih =>
    rw [List.getElem?_append_left (h _ ih)] at hc
    exact .child ih hc hk

theorem Within.alloc {T : OTab} {lo hi : Int} {w u : Nat} {rs : List Ref} (h : Within T lo hi w u rs) (x : CObj) :
    Within (T.alloc x).1 lo hi w u rs := by
  intro r hr
  have hlt : ∀ r, Below T.caps rs r → r < T.caps.length := by
    intro r hr
    obtain ⟨c, hc, -⟩ := h r hr
    exact (List.getElem?_eq_some_iff.1 hc).1
  have hb := below_alloc hlt x hr
  obtain ⟨c, hc, h1⟩ := h r hb
  refine ⟨c, ?_, h1⟩
  show (T.caps ++ [x])[r]? = some c
  rw [List.getElem?_append_left (hlt r hb)]
  exact hc

theorem Within.new {T : OTab} {lo hi : Int} {w u : Nat} {x : CObj} (h : Within T lo hi w u x.children) (hm : x.ment = none) (ho : lo ≤ x.off)
    (hw : w ≤ T.caps.length) (hu : T.caps.length < u) : Within (T.alloc x).1 lo hi w u [(T.alloc x).2] := by
  have h' := h.alloc x
  have : ∀ r, Below (T.caps ++ [x]) [T.caps.length] r → r = T.caps.length ∨ Below (T.caps ++ [x]) x.children r := by
    intro r hr
    induction hr with
    | here hr => exact .inl (List.mem_singleton.1 hr)
    | child _ hc hk ih =>
      rcases ih with rfl | ih
      · rw [List.getElem?_append_right (Nat.le_refl _)] at hc
        simp only [Nat.sub_self, List.getElem?_cons_zero, Option.some.injEq] at hc
        subst hc
        exact .inr (.here hk)
      · exact .inr (.child ih hc hk)
  intro r hr
  rcases this r hr with rfl | hr
  · refine ⟨x, ?_, .inl ⟨hm, ho, hw, hu⟩⟩
    show (T.caps ++ [x])[T.caps.length]? = some x
    simp
  · exact h' r hr

theorem Within.get {b : Bool} {T : OTab} {lo hi : Int} {w u : Nat} {rs : List Ref} (h : Within T lo hi w u rs) (hT : TInv b T) (id : Int) (pos : Nat) :
    Within (T.get id pos).2 lo hi w u rs := by
  intro r hr
  obtain ⟨c, hc, h1⟩ := h r hr
  exact ⟨c, hc, h1.imp_right fun ho => ho.holds fun A l k hA => hA.get hT id pos⟩

/-- The captures of an entry. -/
theorem Within.of_owned {T : OTab} {lo hi : Int} {w u : Nat} {rs : List Ref} (h : AllBelow (Owned T lo hi) T.caps rs) : Within T lo hi w u rs := by
  intro r hr
  obtain ⟨c, hc, h1⟩ := h r hr
  exact ⟨c, hc, .inr h1⟩

/-! ## What `setMEnt` changes -/

/-- Only objects in `S` change. -/
def Only (S : Ref → Prop) (H H' : List CObj) : Prop := ∀ r, ¬ S r → H'[r]? = H[r]?

/-- With an object, its children are in `S`. -/
def Down (S : Ref → Prop) (H : List CObj) : Prop := ∀ (r : Nat) (c : CObj), H[r]? = some c → S r → ∀ k ∈ c.children, S k

theorem Upd.down {e : Nat} {p : Int} {H H' : List CObj} {S : Ref → Prop} (h : Upd e p H H') (hS : Down S H) : Down S H' := by
  intro r c' hc hs k hk
  obtain ⟨c, h0, h1⟩ := h.back hc
  refine hS r c h0 hs k ?_
  rcases h1 with rfl | ⟨-, rfl⟩ <;> exact hk

theorem foldl_only {e : Nat} {p : Int} {g : List CObj → Ref → List CObj} (hg : ∀ H r, Upd e p H (g H r)) {S : Ref → Prop}
    (ho : ∀ H r, S r → Down S H → Only S H (g H r)) : ∀ (rs : List Ref) (H : List CObj), (∀ r ∈ rs, S r) → Down S H → Only S H (rs.foldl g H)
  | [], _, _, _ => fun _ _ => rfl
  | r :: rs, H, hrs, hS => by
    intro k hk
    rw [List.foldl_cons, foldl_only hg ho rs _ (fun r' hr' => hrs r' (List.mem_cons_of_mem _ hr')) ((hg H r).down hS) k hk]
    exact ho H r (hrs r List.mem_cons_self) hS k hk

theorem setMEnt_only (e : Nat) (p : Int) {S : Ref → Prop} : ∀ (f : Nat) (H : List CObj) (r : Ref), S r → Down S H →
    Only S H (OTab.setMEnt e p f H r)
  | 0, _, _, _, _ => fun _ _ => rfl
  | f + 1, H, r, hr, hS => by
    intro k hk
    rw [OTab.setMEnt]
    split
    · rfl
    · have hne : r ≠ k := fun h => hk (h ▸ hr)
      cases hc : H[r]? with
      | none =>
        have hl : H.length ≤ r := List.getElem?_eq_none_iff.1 hc
        rw [List.set_eq_of_length_le hl]
        rfl
      | some c =>
        simp only [Option.getD_some]
        have hS' : Down S (H.set r { c with ment := some e, off := c.off - p }) := by
          intro r' c' hc' hs' k' hk'
          by_cases hrr : r = r'
          · subst hrr
            rw [List.getElem?_set_self (List.getElem?_eq_some_iff.1 hc).1] at hc'
            cases hc'
            exact hS r c hc hr k' hk'
          · rw [List.getElem?_set_ne hrr] at hc'
            exact hS r' c' hc' hs' k' hk'
        rw [foldl_only (e := e) (p := p) (fun H r => setMEnt_upd _ _ _ H r) (fun H r h1 h2 => setMEnt_only e p f H r h1 h2) c.children _
          (hS r c hc hr) hS' k hk]
        exact List.getElem?_set_ne hne

/-! ## `Put` -/

/-- What `Put` does when it stores an entry. -/
structure PutSpec (b : Bool) (T T1 : OTab) (start : Int) (ex : Nat) (captures : List Ref) : Prop where
  twf : TWf b T1
  holds : ∀ A l k, Holds T A l k → Holds T1 A l k
  new : Holds T1 T.ents.length start (start + ex)
  upd : Upd T.ents.length start T.caps T1.caps
  only : Only (Below T.caps captures) T.caps T1.caps
  adopted : ∀ r, Below T1.caps captures r → Adopted T1.caps r
  flat : ∀ f ∈ T1.flat, ∀ i ∈ f.ins, i = ⟨start, start + ex, T.ents.length⟩ ∨ ∃ g ∈ T.flat, i ∈ g.ins
  away : T1.away = T.away
  ents : ∃ x, T1.ents = T.ents ++ [x] ∧ x.examined = ex ∧ x.captures = captures

theorem put_spec {b : Bool} {T : OTab} (h : TWf b T) (id : Int) (start : Nat) (length : Option Nat) (examined count : Nat) {captures : List Ref}
    (hlt : ∀ r ∈ captures, r < T.caps.length) (hth : ¬((examined : Int) < T.threshold ∨ length = some 0)) :
    PutSpec b T (T.put id start length examined count captures) start (max examined (length.getD 0)) captures ∧
      ∃ x, (T.put id start length examined count captures).ents = T.ents ++ [x] ∧ x.length = length := by
  rw [put_eq hth]
  simp only []
  generalize max examined (length.getD 0) = ex
  have h0 : (0 : Int) ≤ start := by omega
  have hlh : (start : Int) ≤ start + (ex : Nat) := by omega
  generalize hmk : (fun a => (⟨length, ex, count, captures, a⟩ : EObj)) = mk
  have hmkp : ∀ a, (mk a).pos = a := by intro a; rw [← hmk]
  have t1 := h.tinv.added h0 hlh (id := id) mk
  have hold : ∀ A lo hi, Holds T A lo hi → Holds (T.added id start (start + (ex : Nat)) mk) A lo hi :=
    fun A lo hi hA => hA.added h.tinv h0 hlh mk
  have hnew := holds_added h.tinv h0 hlh (id := id) mk hmkp
  have hflat : ∀ f ∈ (T.added id start (start + (ex : Nat)) mk).flat, ∀ i ∈ f.ins, _ := fun f hf i hi =>
    added_mem h.tinv h0 hlh (id := id) mk hf hi
  have haway : (T.added id start (start + (ex : Nat)) mk).away = T.away := rfl
  have hents : (T.added id start (start + (ex : Nat)) mk).ents =
      T.ents ++ [mk (T.map.add id start (start + (ex : Nat)) T.ents.length).2] := rfl
  have hpos : (T.added id start (start + (ex : Nat)) mk).posOf (T.map.add id start (start + (ex : Nat)) T.ents.length).2 = start := by
    have := hnew.pos t1
    unfold OTab.entPos at this
    rw [hents] at this
    simpa [hmkp] using this
  rw [hpos]
  have hcaps : (T.added id start (start + (ex : Nat)) mk).caps = T.caps := rfl
  generalize T.added id start (start + (ex : Nat)) mk = T1 at *
  have hu : Upd T.ents.length start T1.caps (captures.foldl (OTab.setMEnt T.ents.length start T1.caps.length) T1.caps) :=
    foldl_upd (fun H r => setMEnt_upd _ _ _ H r) _ _
  have hcl := foldl_closed (e := T.ents.length) (p := start) (g := OTab.setMEnt T.ents.length start T1.caps.length)
    (Q := fun k => k < T1.caps.length) (n := T1.caps.length) (fun H r => setMEnt_upd _ _ _ H r) (P := fun _ => False)
    (fun H' k hn hk ho' hc' => setMEnt_closed _ _ _ _ H' k hk (by rw [hn]; exact hk) ho' hc')
    captures T1.caps rfl (by rw [hcaps]; exact hlt) (by rw [hcaps]; exact h.older) (by rw [hcaps]; exact h.closed)
  have hon : Only (Below T.caps captures) T1.caps (captures.foldl (OTab.setMEnt T.ents.length start T1.caps.length) T1.caps) := by
    refine foldl_only (e := T.ents.length) (p := start) (fun H r => setMEnt_upd _ _ _ H r) (fun H r h1 h2 => setMEnt_only _ _ _ H r h1 h2)
      captures _ (fun r hr => .here hr) ?_
    rw [hcaps]
    exact fun r c hc hs k hk => .child hs hc hk
  generalize captures.foldl (OTab.setMEnt T.ents.length start T1.caps.length) T1.caps = H at *
  rw [hcaps] at hu hon
  refine ⟨⟨⟨⟨t1.hist, t1.disj, t1.nodup, t1.fresh, t1.gone⟩, hu.older h.older, hcl.1⟩, hold, hnew, hu, hon,
    fun r hr => hr.adopted hcl.1 hcl.2, hflat, haway, ⟨_, hents, ?_, ?_⟩⟩, _, hents, ?_⟩ <;> rw [← hmk]

/-- Lists after `Put` of captures with numbers from `v` up. -/
theorem Within.put {b : Bool} {T T1 : OTab} {start : Nat} {ex : Nat} {captures : List Ref} (hs : PutSpec b T T1 start ex captures) {hi' : Int} {v u' : Nat}
    (hc : Within T start hi' v u' captures) {lo hi : Int} {w u : Nat} {rs : List Ref} (h : Within T lo hi w u rs)
    (hor : u ≤ v ∨ (lo ≤ start ∧ (start + ex : Nat) ≤ hi)) : Within T1 lo hi w u rs := by
  intro r hr
  obtain ⟨c, hc0, h1⟩ := h r (below_upd hs.upd hr)
  obtain ⟨c', hc', h2⟩ := hs.upd.2 r c hc0
  refine ⟨c', hc', ?_⟩
  rcases h2 with rfl | ⟨hn, he⟩
  · exact h1.imp_right fun ho => ho.holds hs.holds
  · right
    have hne : c ≠ c' := by
      rintro rfl
      rw [he] at hn
      cases hn
    have hb : Below T.caps captures r := by
      by_cases hb : Below T.caps captures r
      · exact hb
      · rw [hs.only r hb, hc0] at hc'
        cases hc'
        exact absurd rfl hne
    obtain ⟨c2, hc2, h3⟩ := hc r hb
    rw [hc0] at hc2
    cases hc2
    rcases h1 with ⟨-, a1, a2, a3⟩ | ⟨A, _, _, hA, -⟩
    · rcases h3 with ⟨-, b1, b2, -⟩ | ⟨A, _, _, hA, -⟩
      · rcases hor with h | ⟨h, h'⟩
        · exact absurd (Nat.lt_of_lt_of_le a3 h) (Nat.not_lt.2 b2)
        · subst he
          exact ⟨_, _, _, rfl, hs.new, by omega, h, by omega, by simp only []; omega⟩
      · rw [hn] at hA; cases hA
    · rw [hn] at hA; cases hA

theorem Nest.put {b : Bool} {T T1 : OTab} {start : Nat} {ex : Nat} {captures : List Ref} (hn : Nest T) (hs : PutSpec b T T1 start ex captures) {v u' : Nat}
    (hc : Within T start (start + ex : Nat) v u' captures) : Nest T1 := by
  obtain ⟨x0, hents, hx1, hx2⟩ := hs.ents
  have hlen : LenOK T1 T.flat ∧ LenOK T1 T.away := by
    refine ⟨fun f hf i hi => ?_, fun f hf i hi => ?_⟩
    · obtain ⟨x, e1, e2⟩ := hn.len f hf i hi
      exact ⟨x, by rw [hents, List.getElem?_append_left (List.getElem?_eq_some_iff.1 e1).1]; exact e1, e2⟩
    · obtain ⟨x, e1, e2⟩ := hn.lenAway f hf i hi
      exact ⟨x, by rw [hents, List.getElem?_append_left (List.getElem?_eq_some_iff.1 e1).1]; exact e1, e2⟩
  have hnx : T1.ents[T.ents.length]? = some x0 := by rw [hents]; simp
  refine ⟨?_, ?_, ?_⟩
  · intro f hff i hi
    rcases hs.flat f hff i hi with rfl | ⟨g, hg, hig⟩
    · refine ⟨hs.new, fun x hx r hr => ?_⟩
      rw [hnx] at hx
      cases hx
      rw [hx2] at hr
      obtain ⟨c, hcc, h1⟩ := Within.put hs hc hc (.inr ⟨Int.le_refl _, Int.le_refl _⟩) r hr
      obtain ⟨c', hc', ha⟩ := hs.adopted r hr
      rw [hcc] at hc'
      cases hc'
      refine ⟨c, hcc, ?_⟩
      rcases h1 with ⟨h1, -⟩ | h1
      · rw [h1] at ha; cases ha
      · exact h1.mono (Int.le_refl _) (by simp only []; omega)
    · obtain ⟨h1, h2⟩ := hn.own g hg i hig
      refine ⟨hs.holds _ _ _ h1, fun x hx r hr => ?_⟩
      obtain ⟨y, hy, -⟩ := hn.len g hg i hig
      rw [hents, List.getElem?_append_left (List.getElem?_eq_some_iff.1 hy).1] at hx
      obtain ⟨c, hc0, ho⟩ := h2 x hx r (below_upd hs.upd hr)
      obtain ⟨c', hc', hcc⟩ := hs.upd.2 r c hc0
      refine ⟨c', hc', ?_⟩
      rcases hcc with rfl | ⟨hnone, -⟩
      · exact ho.holds hs.holds
      · obtain ⟨A, _, _, hA, -⟩ := ho
        rw [hA] at hnone; cases hnone
  · intro f hff i hi
    rcases hs.flat f hff i hi with rfl | ⟨g, hg, hig⟩
    · refine ⟨_, hnx, ?_⟩
      simp only []
      omega
    · exact hlen.1 g hg i hig
  · intro f hff i hi
    rw [hs.away] at hff
    exact hlen.2 f hff i hi

end Gpeg.Obj
